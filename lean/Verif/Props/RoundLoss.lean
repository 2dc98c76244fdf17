import Verif.Model.RoundLoss
import Verif.Props.RoundAvg
import Verif.Props.RoundHist
import Verif.Props.RoundTrip
import Verif.Props.FitLossValue

/-! C144: the loss of the fits of single galaxies in single precision. -/

namespace Diffstar.Spec

open Diffstar.Fit

/-- Loss data of a fit in single precision: default averaging time and floor, up to 120 single precision times between 0.01 and 100,
halo masses up to 1e20 that are computed with an error up to 1e-5 dex, a galaxy whose largest rate so far is at most 200 times the
mean rate so far, and targets that are not negative and whose specific rate is at most 2e-8 per year unless the snapshot has no
weight. -/
structure FloatLossData {M : Type} (logMah logMah' : M → ℝ → ℝ → ℝ) (p : DiffstarParams ℝ) (d : LossData M) : Prop where
  wf : WellFormed d
  tdelay : d.fstarTdelay = 1
  floor : d.ssfrhFloor = 1 / 10 ^ 12
  fb : 0 < d.fb
  times : ∀ t ∈ d.t, 0.01 ≤ t ∧ t ≤ 100
  count : d.t.length ≤ 120
  single : ∀ t ∈ d.t, float32.fl t = t
  gaps : ∀ k, k + 1 < d.t.length → 1 / 10 ^ 13 ≤ d.t.getD (k + 1) 0 - d.t.getD k 0
  mass : ∀ t ∈ d.t, 0 ≤ logMah d.mah t d.lgt0 ∧ logMah d.mah t d.lgt0 ≤ 20
  massErr : ∀ t ∈ d.t, |logMah' d.mah t d.lgt0 - logMah d.mah t d.lgt0| ≤ 1 / 10 ^ 5
  rates : ∀ i, i < d.t.length → ∀ k, k ≤ i → (calcSfhSinglegal logMah p d.mah d.t d.lgt0 d.fb).getD k 0 * d.t.getD i 0 ≤
    200 * ((calcSfhSinglegalSmh logMah p d.mah d.t d.lgt0 d.fb).smh.getD i 0 / 10 ^ 9)
  targets : ∀ i, i < d.t.length → 0 ≤ d.sfhTarget.getD i 0 ∧
    (10 ^ 8 * d.sfhTarget.getD i 0 ≤ 2 * d.mstarTarget.getD i 0 ∨ 10 ^ 9 ≤ d.weight.getD i 0)

end Diffstar.Spec

namespace Diffstar.Props

open Diffstar Diffstar.Spec Diffstar.Fit Finset

/-! ### Norms -/

/-- Triangle inequality of the Euclidean norm. -/
theorem norm_tri {ι : Type*} (s : Finset ι) (x y : ι → ℝ) :
    |√(∑ i ∈ s, y i ^ 2) - √(∑ i ∈ s, x i ^ 2)| ≤ √(∑ i ∈ s, (y i - x i) ^ 2) := by
  have half : ∀ a b : ι → ℝ, √(∑ i ∈ s, (a i + b i) ^ 2) ≤ √(∑ i ∈ s, a i ^ 2) + √(∑ i ∈ s, b i ^ 2) := by
    intro a b
    have hA : 0 ≤ ∑ i ∈ s, a i ^ 2 := sum_nonneg fun i _ => sq_nonneg _
    have hB : 0 ≤ ∑ i ∈ s, b i ^ 2 := sum_nonneg fun i _ => sq_nonneg _
    rw [Real.sqrt_le_left (by positivity), add_sq, Real.sq_sqrt hA, Real.sq_sqrt hB]
    have cs := sum_mul_sq_le_sq_mul_sq s a b
    have h1 : ∑ i ∈ s, a i * b i ≤ √(∑ i ∈ s, a i ^ 2) * √(∑ i ∈ s, b i ^ 2) := by
      rw [← Real.sqrt_mul hA]
      exact Real.le_sqrt_of_sq_le cs
    have h2 : ∑ i ∈ s, (a i + b i) ^ 2 = ∑ i ∈ s, a i ^ 2 + 2 * ∑ i ∈ s, a i * b i + ∑ i ∈ s, b i ^ 2 := by
      rw [mul_sum, ← sum_add_distrib, ← sum_add_distrib]
      exact sum_congr rfl fun i _ => by ring
    rw [h2]
    linarith
  have h1 := half x fun i => y i - x i
  have h2 := half y fun i => x i - y i
  simp only [add_sub_cancel] at h1 h2
  have h3 : ∑ i ∈ s, (x i - y i) ^ 2 = ∑ i ∈ s, (y i - x i) ^ 2 := sum_congr rfl fun i _ => by ring
  rw [h3] at h2
  rw [abs_le]
  constructor <;> linarith

/-- The same for a mean with a factor. -/
theorem mean_tri {n : ℕ} (hn : 0 < n) {c b : ℝ} (hc : 0 ≤ c) (hb : 0 ≤ b) (x y : ℕ → ℝ) (h : ∀ i < n, |y i - x i| ≤ b) :
    |√(c * ((∑ i ∈ range n, y i ^ 2) / n)) - √(c * ((∑ i ∈ range n, x i ^ 2) / n))| ≤ √c * b := by
  have hn' : (0 : ℝ) < n := by exact_mod_cast hn
  have e : ∀ z : ℕ → ℝ, c * ((∑ i ∈ range n, z i ^ 2) / n) = ∑ i ∈ range n, (√(c / n) * z i) ^ 2 := by
    intro z
    simp only [mul_pow, Real.sq_sqrt (show 0 ≤ c / n by positivity)]
    rw [← mul_sum]
    ring
  rw [e, e]
  refine (norm_tri _ _ _).trans ?_
  rw [Real.sqrt_le_left (by positivity), mul_pow, Real.sq_sqrt hc]
  have h1 : ∀ i ∈ range n, (√(c / n) * y i - √(c / n) * x i) ^ 2 ≤ c / n * b ^ 2 := by
    intro i hi
    rw [← mul_sub, mul_pow, Real.sq_sqrt (show 0 ≤ c / n by positivity)]
    have := abs_le.1 (h i (mem_range.1 hi))
    exact mul_le_mul_of_nonneg_left (sq_le_sq' (by linarith) this.2) (by positivity)
  refine (sum_le_sum h1).trans (le_of_eq ?_)
  rw [sum_const, card_range, nsmul_eq_mul]
  field_simp

/-- Five terms. -/
theorem five_tri {a b : Fin 5 → ℝ} {e : Fin 5 → ℝ} (ha : ∀ j, 0 ≤ a j) (hb : ∀ j, 0 ≤ b j)
    (h : ∀ j, |√(b j) - √(a j)| ≤ e j) :
    |√(b 0 + b 1 + b 2 + b 3 + b 4) - √(a 0 + a 1 + a 2 + a 3 + a 4)| ≤
      √(e 0 ^ 2 + e 1 ^ 2 + e 2 ^ 2 + e 3 ^ 2 + e 4 ^ 2) := by
  have h1 := norm_tri univ (fun j => √(a j)) (fun j => √(b j))
  simp only [Real.sq_sqrt (ha _), Real.sq_sqrt (hb _), Fin.sum_univ_five] at h1
  refine h1.trans (Real.sqrt_le_sqrt ?_)
  have h2 : ∀ j, (√(b j) - √(a j)) ^ 2 ≤ e j ^ 2 := fun j => sq_le_sq' (by linarith [(abs_le.1 (h j)).1]) (abs_le.1 (h j)).2
  linarith [h2 0, h2 1, h2 2, h2 3, h2 4]

theorem sqrt_sub_le {a b c : ℝ} (hc : 0 ≤ c) (hb : 0 ≤ b) (ha : 0 ≤ a) (h : |b - a| ≤ c ^ 2) : |√b - √a| ≤ c := by
  have h := abs_le.1 h
  have s1 := Real.sqrt_nonneg a
  have s2 := Real.sqrt_nonneg b
  rw [abs_le]
  constructor
  · have : √a ≤ √b + c := by
      rw [Real.sqrt_le_left (by positivity)]
      nlinarith [Real.sq_sqrt hb]
    linarith
  · have : √b ≤ √a + c := by
      rw [Real.sqrt_le_left (by positivity)]
      nlinarith [Real.sq_sqrt ha]
    linarith

/-- Relative errors halve under the square root. -/
theorem sqrt_rel {a b e : ℝ} (he : 0 ≤ e) (he1 : e ≤ 1) (ha : 0 ≤ a) (h : |b - a| ≤ e * a) : |√b - √a| ≤ e * √a := by
  have h := abs_le.1 h
  have s1 := Real.sqrt_nonneg a
  have hb : 0 ≤ b := by nlinarith
  rw [abs_le]
  constructor
  · have : (1 - e) * √a ≤ √b := by
      apply Real.le_sqrt_of_sq_le
      rw [mul_pow, Real.sq_sqrt ha]
      nlinarith
    linarith
  · have : √b ≤ (1 + e) * √a := by
      rw [Real.sqrt_le_left (by positivity), mul_pow, Real.sq_sqrt ha]
      nlinarith
    linarith

/-! ### Rounded means -/

theorem weightedSquares_mean {R : Rounding} {x w : List ℝ} {X : ℕ → ℝ} {n : ℕ} (hx : x.length = n) (hw : w.length = n)
    (h : ∀ i < n, R.Approx 1 |X i| (x.getD i 0) (X i)) {m : ℝ}
    (hm : R.IsMean (R.weightedSquares x w) m) :
    R.Approx (n + 6) ((∑ i ∈ range n, (X i / w.getD i 0) ^ 2) / n) m ((∑ i ∈ range n, (X i / w.getD i 0) ^ 2) / n) := by
  obtain ⟨total, h1, rfl⟩ := hm
  have hl : (R.weightedSquares x w).length = n := by simp [Rounding.weightedSquares, hx, hw]
  have e : ((R.weightedSquares x w : List ℝ) : Multiset ℝ) =
      (univ : Finset (Fin n)).val.map fun i : Fin n => R.sq (R.fl (x.getD i 0 / w.getD i 0)) := by
    rw [Fin.univ_val_map]
    congr 1
    refine List.ext_getElem (by simp [hl]) fun i h1 h2 => ?_
    have hi : i < n := by omega
    simp only [Rounding.weightedSquares, List.getElem_zipWith, List.getElem_ofFn]
    rw [List.getD_eq_getElem _ _ (by omega), List.getD_eq_getElem _ _ (by omega)]
  rw [e] at h1
  have h2 : ∀ i : Fin n, R.Approx 5 ((X i / w.getD i 0) ^ 2) (R.sq (R.fl (x.getD i 0 / w.getD i 0))) ((X i / w.getD i 0) ^ 2) := by
    intro i
    have := ((h i i.2).div_const (w.getD i 0)).round
    have := (this.mul this).round
    rw [← abs_div, abs_mul_abs_self, ← pow_two (X i / w.getD i 0)] at this
    exact this
  have h3 := (isSum_approx h2 h1).div_const (n : ℝ)
  have h4 := h3.round
  rw [Fintype.card_fin, Nat.abs_cast, Fin.sum_univ_eq_sum_range fun i => (X i / w.getD i 0) ^ 2] at h4
  rw [hl]
  exact h4.mono (by omega) le_rfl


/-! ### The penalty -/

theorem sigma_lip (x y : ℝ) : |1 / (1 + Real.exp (-x)) - 1 / (1 + Real.exp (-y))| ≤ |x - y| := by
  wlog h : y ≤ x generalizing x y
  · rw [abs_sub_comm, abs_sub_comm x]
    exact this y x (by linarith)
  have hx := Real.exp_pos (-x)
  have hy := Real.exp_pos (-y)
  have h1 : Real.exp (-x) ≤ Real.exp (-y) := Real.exp_le_exp.2 (by linarith)
  have h2 : Real.exp (-y) * (1 - (x - y)) ≤ Real.exp (-x) := by
    have := Real.add_one_le_exp (-(x - y))
    have h3 := mul_le_mul_of_nonneg_left this hy.le
    rw [← Real.exp_add] at h3
    rw [show -y + -(x - y) = -x by ring] at h3
    linarith
  have e : 1 / (1 + Real.exp (-x)) - 1 / (1 + Real.exp (-y)) =
      (Real.exp (-y) - Real.exp (-x)) / ((1 + Real.exp (-x)) * (1 + Real.exp (-y))) := by
    field_simp
    ring
  rw [e, abs_of_nonneg (div_nonneg (by linarith) (by positivity)), abs_of_nonneg (by linarith : 0 ≤ x - y),
    div_le_iff₀ (by positivity)]
  have h4 : 0 ≤ x - y := by linarith
  have h5 : Real.exp (-y) ≤ (1 + Real.exp (-x)) * (1 + Real.exp (-y)) := by nlinarith
  nlinarith

/-- The rounded argument of the penalty. -/
theorem sigma_arg {z z' : ℝ} (h : |z' - z| ≤ 2 / 10 ^ 7 * |z|) :
    |1 / (1 + Real.exp (-z')) - 1 / (1 + Real.exp (-z))| ≤ 4 / 10 ^ 6 := by
  by_cases hz : |z| ≤ 20
  · refine (sigma_lip z' z).trans (h.trans ?_)
    norm_num
    linarith
  push Not at hz
  have small : ∀ x : ℝ, 18 ≤ x → Real.exp (-x) ≤ 2 / 10 ^ 6 := by
    intro x hx
    have h2 : (2.7 : ℝ) ^ 18 ≤ Real.exp 1 ^ 18 := pow_le_pow_left₀ (by norm_num) (by linarith [Real.exp_one_gt_d9]) _
    rw [← Real.exp_nat_mul, mul_one] at h2
    have h3 : Real.exp ((18 : ℕ) : ℝ) ≤ Real.exp x := Real.exp_le_exp.2 (by norm_num; exact hx)
    have h4 : (10 ^ 6 : ℝ) ≤ Real.exp x := le_trans (by norm_num) (h2.trans h3)
    rw [Real.exp_neg, inv_le_comm₀ (Real.exp_pos x) (by norm_num)]
    refine le_trans (by norm_num) h4
  have pos : ∀ x : ℝ, 18 ≤ x → |1 / (1 + Real.exp (-x)) - 1| ≤ 2 / 10 ^ 6 := by
    intro x hx
    have h1 := small x hx
    have h2 := Real.exp_pos (-x)
    rw [show 1 / (1 + Real.exp (-x)) - 1 = -(Real.exp (-x) / (1 + Real.exp (-x))) by field_simp; ring, abs_neg,
      abs_of_pos (by positivity)]
    exact (div_le_self h2.le (by linarith)).trans h1
  have neg : ∀ x : ℝ, x ≤ -18 → |1 / (1 + Real.exp (-x))| ≤ 2 / 10 ^ 6 := by
    intro x hx
    have h1 := small (-x) (by linarith)
    have h2 := Real.exp_pos (-x)
    have h3 := Real.exp_pos x
    rw [neg_neg] at h1
    rw [abs_of_pos (by positivity)]
    have : 1 / (1 + Real.exp (-x)) ≤ Real.exp x := by
      rw [div_le_iff₀ (by positivity), mul_add, ← Real.exp_add]
      simp
      exact h3.le
    linarith
  have h' := abs_le.1 h
  rcases le_total 0 z with h0 | h0
  · rw [abs_of_nonneg h0] at hz h'
    have a := pos z (by linarith)
    have b := pos z' (by norm_num at h'; linarith)
    have := abs_sub_le (1 / (1 + Real.exp (-z'))) 1 (1 / (1 + Real.exp (-z)))
    rw [abs_sub_comm 1] at this
    norm_num at *
    linarith
  · rw [abs_of_nonpos h0] at hz h'
    have a := neg z (by linarith)
    have b := neg z' (by norm_num at h'; linarith)
    have := abs_sub (1 / (1 + Real.exp (-z'))) (1 / (1 + Real.exp (-z)))
    norm_num at *
    linarith

/-- The penalty in single precision. -/
theorem ridge_err (R : Rounding) (hu : R.u ≤ 2 ^ (-24 : ℤ)) {L : Rounding.MathLib} (hL : Accurate L) (x y : ℝ) (h100 : R.fl 100 = 100) :
    0 ≤ R.sigmoid L.exp (R.fl (x - y)) 0 50 100 0 ∧ |R.sigmoid L.exp (R.fl (x - y)) 0 50 100 0 - ridge x y| ≤ 6 / 10 ^ 4 := by
  have hu1 : R.u ≤ 6 / 10 ^ 8 := hu.trans (by norm_num)
  have hu0 := R.u_nonneg
  set z' := R.fl (50 * R.fl (R.fl (x - y) - 0)) with hz'
  have hz : |z' - 50 * (x - y)| ≤ 2 / 10 ^ 7 * |50 * (x - y)| := by
    have h1 := ((R.err (50 * R.fl (R.fl (x - y) - 0))))
    rw [← hz', sub_zero, R.idem] at h1
    have h2 := R.err (x - y)
    have h3 : |50 * R.fl (x - y) - 50 * (x - y)| ≤ 6 / 10 ^ 8 * |50 * (x - y)| := by
      rw [← mul_sub, abs_mul, abs_mul]
      have := mul_le_mul_of_nonneg_right hu1 (abs_nonneg (x - y))
      have h50 : |(50 : ℝ)| = 50 := by norm_num
      rw [h50]
      linarith
    have h4 := abs_sub_le z' (50 * R.fl (x - y)) (50 * (x - y))
    have h5 := abs_add_le (50 * R.fl (x - y) - 50 * (x - y)) (50 * (x - y))
    rw [sub_add_cancel] at h5
    have h6 := mul_le_mul hu1 h5 (abs_nonneg _) (by norm_num)
    have h7 := abs_nonneg (50 * (x - y))
    linarith
  have hs := nnSigmoidFl_close R hu hL.exp z'
  have hs1 := nnSigmoidFl_unit R L.exp (fun x => by
    have := (abs_le.1 (hL.exp x)).1
    have := Real.exp_pos x
    norm_num at *
    linarith) z'
  have hs2 := sigma_arg hz
  have e : R.sigmoid L.exp (R.fl (x - y)) 0 50 100 0 = R.fl (100 + R.fl (-100 * R.nnSigmoid L.exp z')) := by
    unfold Rounding.sigmoid
    rw [show (0 : ℝ) - 100 = -100 by norm_num, R.neg, h100]
  have e2 : ridge x y = 100 + -100 * (1 / (1 + Real.exp (-(50 * (x - y))))) := by
    rw [← ridge_eq]
    simp only [sigmoid, nnSigmoid]
    norm_num
  rw [e, e2]
  generalize R.nnSigmoid L.exp z' = s at *
  generalize 1 / (1 + Real.exp (-z')) = s1 at *
  generalize 1 / (1 + Real.exp (-(50 * (x - y)))) = s2 at *
  have a1 := R.err (-100 * s)
  have a1' : |(-100 : ℝ) * s| ≤ 100 := by rw [abs_mul, abs_of_nonneg hs1.1]; norm_num; linarith [hs1.2]
  have a2 := R.err (100 + R.fl (-100 * s))
  have hlo : -100 ≤ R.fl (-100 * s) := by
    have := R.mono (show (-100 : ℝ) ≤ -100 * s by linarith [hs1.2])
    rwa [R.neg, h100] at this
  have hhi : R.fl (-100 * s) ≤ 0 := by
    have := R.mono (show -100 * s ≤ 0 by linarith [hs1.1])
    rwa [R.fl_zero] at this
  refine ⟨R.fl_nonneg (by linarith), ?_⟩
  have a2' : |100 + R.fl (-100 * s)| ≤ 100 := by rw [abs_le]; constructor <;> linarith
  have b1 := abs_le.1 (a1.trans (mul_le_mul hu1 a1' (abs_nonneg _) (by norm_num)))
  have b2 := abs_le.1 (a2.trans (mul_le_mul hu1 a2' (abs_nonneg _) (by norm_num)))
  have b3 := abs_le.1 hs
  have b4 := abs_le.1 hs2
  rw [abs_le]
  norm_num at *
  constructor <;> linarith


/-! ### The terms -/

/-- Logarithms of numbers with a small relative error. -/
theorem log_rel {a b δ : ℝ} (hb : 0 < b) (h0 : 0 ≤ δ) (h1 : δ ≤ 0.02) (h : |a - b| ≤ δ * b) :
    0 < a ∧ |Real.logb 10 a - Real.logb 10 b| ≤ 0.45 * δ := by
  have h := abs_le.1 h
  have ha : 0 < a := by norm_num at h1; nlinarith
  refine ⟨ha, ?_⟩
  have hl : 2.28 ≤ Real.log 10 := by
    have e : (10 : ℝ) = 2 ^ 3 * (5 / 4) := by norm_num
    rw [e, Real.log_mul (by norm_num) (by norm_num), Real.log_pow]
    have h2 := Real.log_two_gt_d9
    have h3 := Real.one_sub_inv_le_log_of_pos (show (0 : ℝ) < 10 / 9 by norm_num)
    have h4 := Real.one_sub_inv_le_log_of_pos (show (0 : ℝ) < 9 / 8 by norm_num)
    have e2 : Real.log (5 / 4) = Real.log (10 / 9) + Real.log (9 / 8) := by
      rw [← Real.log_mul (by norm_num) (by norm_num)]; norm_num
    rw [e2]
    norm_num at *
    linarith
  have key : |Real.log (a / b)| ≤ δ / 0.98 := by
    have r1 : 1 - δ ≤ a / b := by rw [le_div_iff₀ hb]; linarith
    have r2 : a / b ≤ 1 + δ := by rw [div_le_iff₀ hb]; linarith
    have r0 : 0 < a / b := by positivity
    rw [abs_le]
    constructor
    · have h2 := Real.one_sub_inv_le_log_of_pos r0
      have h3 : (a / b)⁻¹ ≤ 1 + δ / 0.98 := by
        rw [inv_le_iff_one_le_mul₀ r0]
        norm_num at h1 ⊢
        nlinarith
      linarith
    · have h2 := Real.log_le_sub_one_of_pos r0
      have : δ ≤ δ / 0.98 := by rw [le_div_iff₀ (by norm_num)]; nlinarith
      linarith
  rw [← Real.logb_div ha.ne' hb.ne', Real.logb, abs_div, abs_of_pos (by linarith : 0 < Real.log 10), div_le_iff₀ (by linarith)]
  refine key.trans ?_
  norm_num at hl ⊢
  nlinarith

/-- The clipped mismatch of the rates. -/
theorem mismatch_err {S S' T mT δ z : ℝ} (hm : 0 < mT) (hS : 0 < S) (hδ0 : 0 ≤ δ) (hδ : δ ≤ 0.015) (h : |S' - S| ≤ δ * S) (hT0 : 0 ≤ T)
    (hT : 10 ^ 8 * T ≤ 2 * mT) (hz : |z - 10 ^ 8 * (S' - T) / mT| ≤ 3 / 10 ^ 7 * |10 ^ 8 * (S' - T) / mT|) :
    |max (-1) (min 1 z) - max (-1) (min 1 (10 ^ 8 * (S - T) / mT))| ≤ 3.05 * δ + 1 / 10 ^ 6 := by
  have hb : 10 ^ 8 * T / mT ≤ 2 := by rw [div_le_iff₀ hm]; linarith
  have hb0 : 0 ≤ 10 ^ 8 * T / mT := by positivity
  have ha0 : 0 < 10 ^ 8 * S / mT := by positivity
  have haa : |10 ^ 8 * S' / mT - 10 ^ 8 * S / mT| ≤ δ * (10 ^ 8 * S / mT) := by
    rw [← sub_div, ← mul_sub, abs_div, abs_mul, abs_of_pos hm, abs_of_pos (by norm_num : (0 : ℝ) < 10 ^ 8)]
    rw [← mul_div_assoc]
    exact div_le_div_of_nonneg_right (by nlinarith) hm.le
  have e1 : 10 ^ 8 * (S' - T) / mT = 10 ^ 8 * S' / mT - 10 ^ 8 * T / mT := by ring
  have e2 : 10 ^ 8 * (S - T) / mT = 10 ^ 8 * S / mT - 10 ^ 8 * T / mT := by ring
  rw [e1] at hz
  rw [e2]
  generalize 10 ^ 8 * S / mT = a at *
  generalize 10 ^ 8 * S' / mT = a' at *
  generalize 10 ^ 8 * T / mT = b at *
  have haa' := abs_le.1 haa
  have lip : ∀ x y : ℝ, |max (-1) (min 1 x) - max (-1) (min 1 y)| ≤ |x - y| := by
    intro x y
    have h1 := abs_max_sub_max_le_max (-1) (min 1 x) (-1) (min 1 y)
    have h2 := abs_min_sub_min_le_max 1 x 1 y
    exact h1.trans (max_le (by simp) (h2.trans (max_le (by simp) le_rfl)))
  norm_num at hδ
  by_cases hc : a ≤ 3.05
  · refine (lip _ _).trans ?_
    have h1 : δ * a ≤ 3.05 * δ := by nlinarith
    have h1' : δ * a ≤ 0.05 := by norm_num at hc ⊢; nlinarith
    have h2 : |a' - b| ≤ 3.3 := by
      norm_num at hc h1' ⊢
      rw [abs_le]; constructor <;> linarith
    have h3 := abs_sub_le z (a' - b) (a - b)
    have h4 : a' - b - (a - b) = a' - a := by ring
    rw [h4] at h3
    have h5 := mul_le_mul_of_nonneg_left h2 (by norm_num : (0 : ℝ) ≤ 3 / 10 ^ 7)
    norm_num at *
    linarith
  · push Not at hc
    norm_num at hc
    have h1 : δ * a ≤ 3 / 200 * a := mul_le_mul_of_nonneg_right hδ ha0.le
    have h2 : 1.004 ≤ a' - b := by norm_num; linarith
    have h3 := (abs_le.1 hz).1
    rw [abs_of_pos (by linarith)] at h3
    have h4 : 1 ≤ z := by norm_num at *; linarith
    rw [min_eq_left h4, min_eq_left (by linarith : (1 : ℝ) ≤ a - b), sub_self, abs_zero]
    positivity

/-- Error of the sum of all terms, from the errors of the terms. -/
theorem loss_core {R : Rounding} (hu : R.u ≤ 2 ^ (-24 : ℤ)) {n : ℕ} (hn0 : 0 < n) (hn : n ≤ 120)
    {x1 y1 x2 y2 x3 y3 : ℕ → ℝ} {xl yl E E' m1 m2 m3 q e1 e2 e3 : ℝ}
    (a1 : R.Approx (n + 6) ((∑ i ∈ range n, y1 i ^ 2) / n) m1 ((∑ i ∈ range n, y1 i ^ 2) / n))
    (a2 : R.Approx (n + 6) ((∑ i ∈ range n, y2 i ^ 2) / n) m2 ((∑ i ∈ range n, y2 i ^ 2) / n))
    (a3 : R.Approx (n + 6) ((∑ i ∈ range n, y3 i ^ 2) / n) m3 ((∑ i ∈ range n, y3 i ^ 2) / n))
    (aq : R.Approx 4 (yl ^ 2) q (yl ^ 2)) (hE' : 0 ≤ E') (hE : 0 ≤ E) (hEE : |E' - E| ≤ 6 / 10 ^ 4)
    (he1 : 0 ≤ e1) (he2 : 0 ≤ e2) (he3 : 0 ≤ e3) (h1 : ∀ i < n, |y1 i - x1 i| ≤ 2 * e1) (h2 : ∀ i < n, |y2 i - x2 i| ≤ 2 * e2)
    (h3 : ∀ i < n, |y3 i - x3 i| ≤ 2 * e3) (h4 : |yl - xl| ≤ e2) :
    let Q := 30 * ((∑ i ∈ range n, x1 i ^ 2) / n) + (∑ i ∈ range n, x2 i ^ 2) / n + (∑ i ∈ range n, x3 i ^ 2) / n + xl ^ 2 / 2 + E
    let loss := R.fl (R.fl (R.fl (R.fl (R.fl (30 * m1) + m2) + m3) + R.fl (0.5 * q)) + E')
    |√loss - √Q| ≤ (1 + 1 / 10 ^ 5) * √(120 * e1 ^ 2 + 4.5 * e2 ^ 2 + 4 * e3 ^ 2 + 6 / 10 ^ 4) + 1 / 10 ^ 5 * √Q := by
  intro Q loss
  have pos : ∀ z : ℕ → ℝ, 0 ≤ (∑ i ∈ range n, z i ^ 2) / (n : ℝ) := fun z =>
    div_nonneg (sum_nonneg fun i _ => sq_nonneg _) (Nat.cast_nonneg n)
  set Q' := 30 * ((∑ i ∈ range n, y1 i ^ 2) / n) + (∑ i ∈ range n, y2 i ^ 2) / n + (∑ i ∈ range n, y3 i ^ 2) / n +
    0.5 * yl ^ 2 + E' with hQ'
  have b1 := ((Rounding.Approx.exact (R := R) (30 : ℝ)).mul a1).round
  rw [show |(30 : ℝ)| = 30 by norm_num] at b1
  have b2 := (b1.add a2).round
  have b3 := (b2.add a3).round
  have b4 := ((Rounding.Approx.exact (R := R) (0.5 : ℝ)).mul aq).round
  rw [show |(0.5 : ℝ)| = 0.5 by norm_num] at b4
  have bE := Rounding.Approx.exact (R := R) E'
  rw [abs_of_nonneg hE'] at bE
  have b5 := ((b3.add b4).round.add bE).round
  have b6 := b5.mono (l := n + 12) (by omega) le_rfl
  have hrel : |loss - Q'| ≤ 1 / 10 ^ 5 * Q' := by
    refine b6.2.trans (mul_le_mul_of_nonneg_right ?_ b6.bound_nonneg)
    have := pow_u_le hu (k := n + 12) (by omega)
    refine this.trans ?_
    have hn' : ((n + 12 : ℕ) : ℝ) ≤ 132 := by exact_mod_cast (by omega : n + 12 ≤ 132)
    norm_num at hn' ⊢
    linarith
  have hQ0 : 0 ≤ Q' := b6.bound_nonneg
  have r1 := sqrt_rel (by norm_num) (by norm_num) hQ0 hrel
  have r2 := five_tri (a := ![30 * ((∑ i ∈ range n, x1 i ^ 2) / n), (∑ i ∈ range n, x2 i ^ 2) / n, (∑ i ∈ range n, x3 i ^ 2) / n,
      xl ^ 2 / 2, E]) (b := ![30 * ((∑ i ∈ range n, y1 i ^ 2) / n), (∑ i ∈ range n, y2 i ^ 2) / n, (∑ i ∈ range n, y3 i ^ 2) / n,
      0.5 * yl ^ 2, E']) (e := ![√30 * (2 * e1), √1 * (2 * e2), √1 * (2 * e3), √0.5 * e2, √(6 / 10 ^ 4)])
    (by
      intro j
      have := pos x1
      have := pos x2
      have := pos x3
      fin_cases j <;> simp <;> positivity)
    (by
      intro j
      have := pos y1
      have := pos y2
      have := pos y3
      fin_cases j <;> simp <;> positivity)
    (by
      intro j
      fin_cases j
      · exact mean_tri hn0 (by norm_num) (by linarith) _ _ h1
      · have := mean_tri hn0 (c := 1) (by norm_num) (by linarith) _ _ h2
        rwa [one_mul, one_mul] at this
      · have := mean_tri hn0 (c := 1) (by norm_num) (by linarith) _ _ h3
        rwa [one_mul, one_mul] at this
      · show |√(0.5 * yl ^ 2) - √(xl ^ 2 / 2)| ≤ √0.5 * e2
        rw [show xl ^ 2 / 2 = 0.5 * xl ^ 2 by ring, Real.sqrt_mul (by norm_num), Real.sqrt_mul (by norm_num), Real.sqrt_sq_eq_abs,
          Real.sqrt_sq_eq_abs, ← mul_sub, abs_mul, abs_of_nonneg (Real.sqrt_nonneg _)]
        exact mul_le_mul_of_nonneg_left ((abs_abs_sub_abs_le _ _).trans h4) (Real.sqrt_nonneg _)
      · show |√E' - √E| ≤ √(6 / 10 ^ 4)
        exact sqrt_sub_le (Real.sqrt_nonneg _) hE' hE (by rw [Real.sq_sqrt (by norm_num)]; exact hEE))
  have e : (√30 * (2 * e1)) ^ 2 + (√1 * (2 * e2)) ^ 2 + (√1 * (2 * e3)) ^ 2 + (√0.5 * e2) ^ 2 + √(6 / 10 ^ 4) ^ 2 =
      120 * e1 ^ 2 + 4.5 * e2 ^ 2 + 4 * e3 ^ 2 + 6 / 10 ^ 4 := by
    simp only [mul_pow]
    rw [Real.sq_sqrt (by norm_num), Real.sq_sqrt (by norm_num), Real.sq_sqrt (by norm_num), Real.sq_sqrt (by norm_num)]
    ring
  change |√Q' - √Q| ≤ √((√30 * (2 * e1)) ^ 2 + (√1 * (2 * e2)) ^ 2 + (√1 * (2 * e3)) ^ 2 + (√0.5 * e2) ^ 2 + √(6 / 10 ^ 4) ^ 2) at r2
  rw [e] at r2
  have r3 := abs_sub_le (√loss) (√Q') (√Q)
  have r4 := (abs_le.1 r2).2
  linarith


/-! ### The loss -/

theorem approx_sub_fl {R : Rounding} (a b : ℝ) : R.Approx 1 |a - b| (R.fl (a - b)) (a - b) :=
  (Rounding.Approx.exact (R := R) (a - b)).round

theorem div_weight {x y w e : ℝ} (hw : 0.5 ≤ w) (h : |y - x| ≤ e) : |y / w - x / w| ≤ 2 * e := by
  have hw0 : 0 < w := lt_of_lt_of_le (by norm_num) hw
  rw [← sub_div, abs_div, abs_of_pos hw0, div_le_iff₀ hw0]
  have he : 0 ≤ e := (abs_nonneg _).trans h
  norm_num at hw
  nlinarith

theorem div_big {x y w e : ℝ} (hw : 10 ^ 9 ≤ w) (he : 0.001 ≤ e) (h : |y - x| ≤ 2) : |y / w - x / w| ≤ 2 * e := by
  have hw0 : 0 < w := lt_of_lt_of_le (by norm_num) hw
  rw [← sub_div, abs_div, abs_of_pos hw0, div_le_iff₀ hw0]
  norm_num at hw he
  nlinarith

/-- The floor of the rates. -/
theorem clip_err {R : Rounding} (hu : R.u ≤ 2 ^ (-24 : ℤ)) {s s' m m' δ c : ℝ} (hs : 0 < s) (hm : 0 < m) (hc : 0 < c) (h0 : 0 ≤ δ)
    (hδ : δ ≤ 0.1) (h1 : |s' - s| ≤ δ * s) (h2 : |m' - m| ≤ δ * m) :
    |max s' (R.fl (m' * R.fl c)) - max s (m * c)| ≤ (δ + 2 / 10 ^ 7) * max s (m * c) := by
  have hu1 : R.u ≤ 6 / 10 ^ 8 := hu.trans (by norm_num)
  have hu0 := R.u_nonneg
  obtain ⟨a, ha, ea⟩ := fl_rel R hu1 c
  obtain ⟨b, hb, eb⟩ := fl_rel R hu1 (m' * R.fl c)
  have ha := abs_le.1 ha
  have hb := abs_le.1 hb
  have h2' := abs_le.1 h2
  have hab : |(1 + a) * (1 + b) - 1| ≤ 1.3 / 10 ^ 7 := by
    rw [abs_le]
    constructor <;> nlinarith
  have h3 : |R.fl (m' * R.fl c) - m * c| ≤ (δ + 2 / 10 ^ 7) * (m * c) := by
    rw [eb, ea]
    have e : m' * (c * (1 + a)) * (1 + b) - m * c = m' * c * ((1 + a) * (1 + b) - 1) + (m' - m) * c := by ring
    rw [e]
    refine (abs_add_le _ _).trans ?_
    rw [abs_mul, abs_mul, abs_mul, abs_of_pos hc]
    have hm' : |m'| ≤ 1.1 * m := by
      rw [abs_le]
      norm_num at hδ ⊢
      constructor <;> nlinarith
    have hmc : 0 < m * c := mul_pos hm hc
    have k1 : |m'| * c ≤ 1.1 * m * c := mul_le_mul_of_nonneg_right hm' hc.le
    have k2 := mul_le_mul k1 hab (abs_nonneg _) (by positivity)
    have k3 := mul_le_mul_of_nonneg_right h2 hc.le
    norm_num at k2 ⊢
    nlinarith
  have h4 := abs_max_sub_max_le_max s' (R.fl (m' * R.fl c)) s (m * c)
  refine h4.trans (max_le ?_ ?_)
  · refine h1.trans (mul_le_mul (by linarith) (le_max_left _ _) hs.le (by positivity))
  · exact h3.trans (mul_le_mul_of_nonneg_left (le_max_right _ _) (by positivity))

/-- The rounded mismatch before the clip. -/
theorem mismatch_round {R : Rounding} (hu : R.u ≤ 2 ^ (-24 : ℤ)) (S T m : ℝ) :
    |R.fl (R.fl (R.fl (10 ^ 8) * R.fl (S - T)) / m) - 10 ^ 8 * (S - T) / m| ≤ 3 / 10 ^ 7 * |10 ^ 8 * (S - T) / m| := by
  have h := (((Rounding.Approx.exact (R := R) (10 ^ 8 : ℝ)).round.mul (approx_sub_fl S T)).round.div_const m).round
  rw [← abs_mul, ← abs_div] at h
  refine h.2.trans (mul_le_mul_of_nonneg_right ?_ (abs_nonneg _))
  refine (pow_u_le hu (by norm_num)).trans (by norm_num)

/-- Mean of the squared differences of logarithms. -/
theorem logMean {R : Rounding} {log : ℝ → ℝ} {a T w : List ℝ} {n : ℕ} (ha : a.length = n) (hT : T.length = n) (hw : w.length = n) {m : ℝ}
    (h : R.IsMean (R.weightedSquares (R.subArrays (a.map log) T) w) m) :
    R.Approx (n + 6) ((∑ i ∈ range n, ((log (a.getD i 0) - T.getD i 0) / w.getD i 0) ^ 2) / n) m
      ((∑ i ∈ range n, ((log (a.getD i 0) - T.getD i 0) / w.getD i 0) ^ 2) / n) := by
  refine weightedSquares_mean (X := fun i => log (a.getD i 0) - T.getD i 0) (by simp [Rounding.subArrays, ha, hT]) hw (fun i hi => ?_) h
  unfold Rounding.subArrays
  rw [getD_zipWith _ _ _ _ (by simp; omega) (by omega), getD_map _ _ _ (by omega)]
  exact approx_sub_fl _ _

/-- Mean of the squared mismatches of the rates. -/
theorem mismatchMean {R : Rounding} {s T mT w : List ℝ} {n : ℕ} (hs : s.length = n) (hT : T.length = n) (hmT : mT.length = n)
    (hw : w.length = n) {m : ℝ}
    (h : R.IsMean (R.weightedSquares ((List.zipWith (fun x m => R.fl (R.fl (R.fl (10 ^ 8) * x) / m)) (R.subArrays s T) mT).map
      fun x => max (-1) (min 1 x)) w) m) :
    let z := fun i => R.fl (R.fl (R.fl (10 ^ 8) * R.fl (s.getD i 0 - T.getD i 0)) / mT.getD i 0)
    R.Approx (n + 6) ((∑ i ∈ range n, (max (-1) (min 1 (z i)) / w.getD i 0) ^ 2) / n) m
      ((∑ i ∈ range n, (max (-1) (min 1 (z i)) / w.getD i 0) ^ 2) / n) := by
  intro z
  refine weightedSquares_mean (X := fun i => max (-1) (min 1 (z i))) (by simp [Rounding.subArrays, hs, hT, hmT]) hw (fun i hi => ?_) h
  rw [getD_map _ _ _ (by simp [Rounding.subArrays, hs, hT, hmT]; omega),
    getD_zipWith _ _ _ _ (by simp [Rounding.subArrays, hs, hT]; omega) (by omega)]
  unfold Rounding.subArrays
  rw [getD_zipWith _ _ _ _ (by omega) (by omega)]
  exact (Rounding.Approx.exact (R := R) _).mono (by omega) le_rfl

/-- The last term. -/
theorem lastSquare {R : Rounding} {log : ℝ → ℝ} {a T : List ℝ} {n : ℕ} (hn : 0 < n) (ha : a.length = n) (hT : T.length = n) :
    R.Approx 4 ((log (a.getD (n - 1) 0) - T.getD (n - 1) 0) ^ 2) (R.sq ((R.subArrays (a.map log) T).getLastD 0))
      ((log (a.getD (n - 1) 0) - T.getD (n - 1) 0) ^ 2) := by
  have lres : (R.subArrays (a.map log) T).length = n := by simp [Rounding.subArrays, ha, hT]
  have hres : (R.subArrays (a.map log) T).getD (n - 1) 0 = R.fl (log (a.getD (n - 1) 0) - T.getD (n - 1) 0) := by
    unfold Rounding.subArrays
    rw [getD_zipWith _ _ _ _ (by simp; omega) (by omega), getD_map _ _ _ (by omega)]
  rw [List.getLastD_eq_getLast?, List.getLast?_eq_getElem?, lres, ← List.getD_eq_getElem?_getD, hres]
  have := approx_sub_fl (R := R) (log (a.getD (n - 1) 0)) (T.getD (n - 1) 0)
  have := (this.mul this).round
  rw [abs_mul_abs_self, ← pow_two (log (a.getD (n - 1) 0) - T.getD (n - 1) 0)] at this
  exact this.mono (by omega) le_rfl

/-- Error of the loss for given histories `H` and computed histories `H'`, with a bound `e2` on the errors of the averaged rates. -/
theorem fitLoss_aux {L : Rounding.MathLib} (hL : Accurate L) (hlog : ∀ x, 0 < x → |L.log10 x - Real.logb 10 x| ≤ 1 / 10 ^ 5)
    {M : Type} {d : LossData M} (wf : WellFormed d) {n : ℕ} (hn : n = d.t.length) (hn0 : 0 < n) (count : n ≤ 120)
    (targets : ∀ i, i < n → 0 ≤ d.sfhTarget.getD i 0 ∧
      (10 ^ 8 * d.sfhTarget.getD i 0 ≤ 2 * d.mstarTarget.getD i 0 ∨ 10 ^ 9 ≤ d.weight.getD i 0)) {H H' : GalHistory (List ℝ)}
    (lsfh' : H'.sfh.length = n) (lsmh' : H'.smh.length = n) (posS : ∀ i < n, 0 < H.sfh.getD i 0) (posM : ∀ i < n, 0 < H.smh.getD i 0)
    {X D : ℝ} (hX0 : 0 ≤ X) (hX1 : X ≤ 0.01) (hDdef : D = 0.004 + 1.2 * X)
    (eS : ∀ i < n, |H'.sfh.getD i 0 - H.sfh.getD i 0| ≤ (0.002 + X) * H.sfh.getD i 0)
    (eM : ∀ i < n, |H'.smh.getD i 0 - H.smh.getD i 0| ≤ (0.003 + 1.1 * X) * H.smh.getD i 0) {g' s' : List ℝ} (lg' : g'.length = n)
    (hs' : s' = float32.clipFstar H'.sfh H'.smh (1 / 10 ^ 12)) {m1 m2 m3 : ℝ}
    (i1 : float32.IsMean (float32.weightedSquares (float32.subArrays (H'.smh.map L.log10) d.logmstarTarget) d.weight) m1)
    (i2 : float32.IsMean (float32.weightedSquares (float32.subArrays (g'.map L.log10) d.logFstarTarget) d.weightFstar) m2)
    (i3 : float32.IsMean (float32.weightedSquares ((List.zipWith (fun x m => float32.fl (float32.fl (float32.fl (10 ^ 8) * x) / m))
      (float32.subArrays s' d.sfhTarget) d.mstarTarget).map fun x => max (-1) (min 1 x)) d.weight) m3)
    {e2 lq : ℝ} (he2 : 0 ≤ e2) {f : ℕ → ℝ}
    (hf : ∀ i, i < n →
      |(L.log10 (g'.getD i 0) - d.logFstarTarget.getD i 0) / d.weightFstar.getD i 0 -
        (Real.logb 10 (f i) - d.logFstarTarget.getD i 0) / d.weightFstar.getD i 0| ≤ 2 * e2 ∧
      (i + 1 = n → |L.log10 (g'.getD i 0) - Real.logb 10 (f i)| ≤ e2)) :
    let Q := 30 * ((∑ i ∈ range n, ((Real.logb 10 (H.smh.getD i 0) - d.logmstarTarget.getD i 0) / d.weight.getD i 0) ^ 2) / n) +
      (∑ i ∈ range n, ((Real.logb 10 (f i) - d.logFstarTarget.getD i 0) / d.weightFstar.getD i 0) ^ 2) / n +
      (∑ i ∈ range n, (sfrMismatch (1 / 10 ^ 12) (H.sfh.getD i 0) (H.smh.getD i 0) (d.sfhTarget.getD i 0) (d.mstarTarget.getD i 0) /
        d.weight.getD i 0) ^ 2) / n +
      (Real.logb 10 (f (n - 1)) - d.logFstarTarget.getD (n - 1) 0) ^ 2 / 2 + ridge lq d.lgtFstarMax
    let loss := float32.fl (float32.fl (float32.fl (float32.fl (float32.fl (30 * m1) + m2) + m3) +
      float32.fl (0.5 * float32.sq ((float32.subArrays (g'.map L.log10) d.logFstarTarget).getLastD 0))) +
      float32.sigmoid L.exp (float32.fl (lq - d.lgtFstarMax)) 0 50 100 0)
    |√loss - √Q| ≤ (1 + 1 / 10 ^ 5) * √(120 * (0.45 * D) ^ 2 + 4.5 * e2 ^ 2 + 4 * (3.1 * D) ^ 2 + 6 / 10 ^ 4) + 1 / 10 ^ 5 * √Q := by
  intro Q loss
  have hD0 : 0.004 ≤ D := by rw [hDdef]; linarith
  have l1 := wf.lenMstar
  have l2 := wf.lenLogmstar
  have l3 := wf.lenSfh
  have l4 := wf.lenFstar
  have l5 := wf.lenWeight
  have l6 := wf.lenWeightFstar
  rw [← hn] at l1 l2 l3 l4 l5 l6
  have w1 : ∀ i < n, 0.5 ≤ d.weight.getD i 0 := by
    intro i hi
    rw [List.getD_eq_getElem _ _ (by omega)]
    exact wf.weightPos _ (List.getElem_mem _)
  have hT1 : ∀ i < n, 0 < d.mstarTarget.getD i 0 := by
    intro i hi
    rw [List.getD_eq_getElem _ _ (by omega)]
    exact wf.mstarPos _ (List.getElem_mem _)
  -- masses
  have f1 : ∀ i < n, |L.log10 (H'.smh.getD i 0) - Real.logb 10 (H.smh.getD i 0)| ≤ 0.45 * D := by
    intro i hi
    obtain ⟨q1, q2⟩ := log_rel (posM i hi) (by linarith) (by norm_num at hX1 ⊢; linarith) (eM i hi)
    have q3 := hlog _ q1
    have q4 := abs_sub_le (L.log10 (H'.smh.getD i 0)) (Real.logb 10 (H'.smh.getD i 0)) (Real.logb 10 (H.smh.getD i 0))
    rw [hDdef]
    norm_num at *
    linarith
  have a1 := logMean lsmh' l2 l5 i1
  have a2 := logMean lg' l4 l6 i2
  have aq := lastSquare (R := float32) (log := L.log10) hn0 lg' l4
  have ls' : s'.length = n := by simp [hs', Rounding.clipFstar, lsmh', lsfh']
  have es' : ∀ i < n, |s'.getD i 0 - floored (1 / 10 ^ 12) (H.sfh.getD i 0) (H.smh.getD i 0)| ≤
      (0.0031 + 1.1 * X) * floored (1 / 10 ^ 12) (H.sfh.getD i 0) (H.smh.getD i 0) := by
    intro i hi
    have e : s'.getD i 0 = max (H'.sfh.getD i 0) (float32.fl (H'.smh.getD i 0 * float32.fl (1 / 10 ^ 12 / 10))) := by
      rw [hs']
      unfold Rounding.clipFstar
      rw [getD_zipWith _ _ _ _ (by omega) (by omega)]
    have pS := posS i hi
    have h3 := clip_err (R := float32) le_rfl (δ := 0.003 + 1.1 * X) pS (posM i hi) (show (0 : ℝ) < 1 / 10 ^ 12 / 10 by norm_num)
      (by linarith) (by norm_num at hX1 ⊢; linarith) ((eS i hi).trans (mul_le_mul_of_nonneg_right (by linarith) pS.le)) (eM i hi)
    rw [← e] at h3
    have pF : 0 < max (H.sfh.getD i 0) (H.smh.getD i 0 * (1 / 10 ^ 12 / 10)) := lt_of_lt_of_le pS (le_max_left _ _)
    exact h3.trans (mul_le_mul_of_nonneg_right (by norm_num; linarith) pF.le)
  set z := fun i => float32.fl (float32.fl (float32.fl (10 ^ 8) * float32.fl (s'.getD i 0 - d.sfhTarget.getD i 0)) /
    d.mstarTarget.getD i 0) with hz
  have f3 : ∀ i < n, |max (-1) (min 1 (z i)) / d.weight.getD i 0 -
      sfrMismatch (1 / 10 ^ 12) (H.sfh.getD i 0) (H.smh.getD i 0) (d.sfhTarget.getD i 0) (d.mstarTarget.getD i 0) /
        d.weight.getD i 0| ≤ 2 * (3.1 * D) := by
    intro i hi
    obtain ⟨t1, t2⟩ := targets i hi
    rcases t2 with t2 | t2
    · have pF : 0 < floored (1 / 10 ^ 12) (H.sfh.getD i 0) (H.smh.getD i 0) := lt_of_lt_of_le (posS i hi) (le_max_left _ _)
      have := mismatch_err (hT1 i hi) pF (by linarith) (by norm_num at hX1 ⊢; linarith) (es' i hi) t1 t2
        (mismatch_round (R := float32) le_rfl _ _ _)
      refine div_weight (w1 i hi) (this.trans ?_)
      rw [hDdef]
      norm_num
      linarith
    · refine div_big t2 (by linarith) ?_
      unfold sfrMismatch
      have b : ∀ x : ℝ, -1 ≤ max (-1) (min 1 x) ∧ max (-1) (min 1 x) ≤ 1 := fun x =>
        ⟨le_max_left _ _, max_le (by norm_num) (min_le_left _ _)⟩
      have b1 := b (z i)
      have b2 := b (10 ^ 8 * (floored (1 / 10 ^ 12) (H.sfh.getD i 0) (H.smh.getD i 0) - d.sfhTarget.getD i 0) /
        d.mstarTarget.getD i 0)
      rw [abs_le]
      constructor <;> linarith
  have a3 := mismatchMean ls' l3 l1 l5 i3
  have f100 : float32.fl 100 = 100 := by
    have := float32_exact 25 (by norm_num) 2
    norm_num at this
    exact this
  obtain ⟨hE', hEE⟩ := ridge_err float32 le_rfl hL lq d.lgtFstarMax f100
  have hE : 0 ≤ ridge lq d.lgtFstarMax := by unfold ridge; positivity
  exact loss_core le_rfl hn0 count a1 a2 a3 aq hE' hE hEE (by linarith : 0 ≤ 0.45 * D) he2 (by linarith : 0 ≤ 3.1 * D)
    (fun i hi => div_weight (w1 i hi) (by rw [sub_sub_sub_cancel_right]; exact f1 i hi))
    (fun i hi => (hf i hi).1) f3
    (by rw [sub_sub_sub_cancel_right]; exact (hf (n - 1) (by omega)).2 (by omega))

/-- Error of the loss, with a bound `e2` on the errors of the averaged rates. -/
theorem fitLoss_err {L : Rounding.MathLib} (hL : Accurate L) (hlog : ∀ x, 0 < x → |L.log10 x - Real.logb 10 x| ≤ 1 / 10 ^ 5)
    {M : Type} {logMah logMah' : M → ℝ → ℝ → ℝ} {u p : DiffstarParams ℝ} (hup : getBoundedDiffstarParams u = p)
    (hp : InFloatBounds p) {d : LossData M} (hd : FloatLossData logMah logMah' p d) {loss : ℝ}
    (h : float32.IsFitLoss L logMah' p d loss) {e2 : ℝ} (he2 : 0 ≤ e2)
    (hf : ∀ i, i < d.t.length →
      let m := (calcSfhSinglegalSmh logMah p d.mah d.t d.lgt0 d.fb).smh
      let m' := (float32.calcSfhSinglegalSmh L logMah' p d.mah d.t d.lgt0 d.fb).smh
      let y := L.log10 ((float32.clipFstar (float32.computeFstar d.t m' 1) m' (1 / 10 ^ 12)).getD i 0)
      let x := Real.logb 10 (max ((computeFstar d.t m 1).getD i 0) (m.getD i 0 * (1 / 10 ^ 12 / 10)))
      let T := d.logFstarTarget.getD i 0
      |(y - T) / d.weightFstar.getD i 0 - (x - T) / d.weightFstar.getD i 0| ≤ 2 * e2 ∧ (i + 1 = d.t.length → |y - x| ≤ e2)) :
    let D := 0.004 + 1.2 * (1 / 10 ^ 5 / (10 : ℝ) ^ p.qlglgdt)
    let Q := lossDefaultClipssfrh logMah u d
    |√loss - √Q| ≤ (1 + 1 / 10 ^ 5) * √(120 * (0.45 * D) ^ 2 + 4.5 * e2 ^ 2 + 4 * (3.1 * D) ^ 2 + 6 / 10 ^ 4) + 1 / 10 ^ 5 * √Q := by
  intro D Q
  have hQ := C49_loss_formula logMah u d hd.wf
  dsimp only at hQ
  rw [hup, hd.tdelay, hd.floor] at hQ
  have hinc : Increasing d.t := (List.pairwise_cons.1 hd.wf.increasing).2
  have hsfr := C127_sfr_error float32 le_rfl hL logMah logMah' p hp d.mah d.t d.lgt0 d.fb hd.fb hd.times hd.mass hd.massErr
  have hmass := C127_mass_error hL logMah logMah' p hp d.mah d.t d.lgt0 d.fb hd.fb hd.times hinc (by have := hd.count; omega)
    hd.mass hd.massErr
  have hX0 : 0 ≤ 1 / 10 ^ 5 / (10 : ℝ) ^ p.qlglgdt := by positivity
  have hXe : 1.1 / 10 ^ 5 / (10 : ℝ) ^ p.qlglgdt = 1.1 * (1 / 10 ^ 5 / (10 : ℝ) ^ p.qlglgdt) := by ring
  rw [hXe] at hmass
  have hX1 : 1 / 10 ^ 5 / (10 : ℝ) ^ p.qlglgdt ≤ 0.01 := by
    have h1 := Real.rpow_le_rpow_of_exponent_le (show (1 : ℝ) ≤ 10 by norm_num) hp.qlglgdt.1
    rw [show (-3 : ℝ) = ((-3 : ℤ) : ℝ) by norm_num, Real.rpow_intCast] at h1
    rw [div_le_iff₀ (by positivity)]
    norm_num at h1 ⊢
    linarith
  have hDdef : D = 0.004 + 1.2 * (1 / 10 ^ 5 / (10 : ℝ) ^ p.qlglgdt) := rfl
  generalize 1 / 10 ^ 5 / (10 : ℝ) ^ p.qlglgdt = X at hsfr hmass hX0 hX1 hDdef
  set n := d.t.length with hn
  have hn0 : 0 < n := List.length_pos_iff.2 hd.wf.nonempty
  obtain ⟨m1, m2, m3, i1, i2, i3, rfl⟩ := h
  rw [hd.tdelay, hd.floor] at i2
  rw [hd.floor] at i3
  rw [hd.tdelay, hd.floor]
  change List.Forall₂ _ _ (calcSfhSinglegalSmh logMah p d.mah d.t d.lgt0 d.fb).sfh at hsfr
  have lsfh : (calcSfhSinglegalSmh logMah p d.mah d.t d.lgt0 d.fb).sfh.length = n := List.length_map ..
  have lsmh : (calcSfhSinglegalSmh logMah p d.mah d.t d.lgt0 d.fb).smh.length = n :=
    cmf_length _ _ (by simp [sfhSinglegalKern])
  have hposS : ∀ x ∈ (calcSfhSinglegalSmh logMah p d.mah d.t d.lgt0 d.fb).sfh, 0 < x := by
    show ∀ x ∈ calcSfhSinglegal logMah p d.mah d.t d.lgt0 d.fb, 0 < x
    rw [calcSfhSinglegal_eq]
    intro x hx
    obtain ⟨t, -, rfl⟩ := List.mem_map.1 hx
    exact lt_of_lt_of_le (by norm_num) (le_max_left _ _)
  have posS : ∀ i < n, 0 < (calcSfhSinglegalSmh logMah p d.mah d.t d.lgt0 d.fb).sfh.getD i 0 := by
    intro i hi
    rw [List.getD_eq_getElem _ _ (by omega)]
    exact hposS _ (List.getElem_mem _)
  have posM : ∀ i < n, 0 < (calcSfhSinglegalSmh logMah p d.mah d.t d.lgt0 d.fb).smh.getD i 0 := by
    intro i hi
    have h1 := (C12_smh_increasing d.t (calcSfhSinglegalSmh logMah p d.mah d.t d.lgt0 d.fb).sfh lsfh hd.wf.increasing).1 hposS
    rw [List.getD_eq_getElem _ _ (by omega)]
    exact h1.2.1 _ (List.getElem_mem _)
  set H := calcSfhSinglegalSmh logMah p d.mah d.t d.lgt0 d.fb with hH
  set H' := float32.calcSfhSinglegalSmh L logMah' p d.mah d.t d.lgt0 d.fb with hH'
  have lsfh' : H'.sfh.length = n := by rw [hsfr.length_eq, lsfh]
  have lsmh' : H'.smh.length = n := by rw [hmass.length_eq, lsmh]
  have eS : ∀ i < n, |H'.sfh.getD i 0 - H.sfh.getD i 0| ≤ (0.002 + X) * H.sfh.getD i 0 := by
    intro i hi
    rw [List.getD_eq_getElem _ _ (by omega), List.getD_eq_getElem _ _ (by omega)]
    exact (List.forall₂_iff_get.1 hsfr).2 i (by omega) (by omega)
  have eM : ∀ i < n, |H'.smh.getD i 0 - H.smh.getD i 0| ≤ (0.003 + 1.1 * X) * H.smh.getD i 0 := by
    intro i hi
    rw [List.getD_eq_getElem _ _ (by omega), List.getD_eq_getElem _ _ (by omega)]
    exact (List.forall₂_iff_get.1 hmass).2 i (by omega) (by omega)
  have hQ' : Q = _ := hQ
  rw [hQ']
  exact fitLoss_aux hL hlog hd.wf hn hn0 hd.count hd.targets lsfh' lsmh' posS posM hX0 hX1 hDdef eS eM
    (by simp [Rounding.clipFstar, Rounding.computeFstar, lsmh', hn]) rfl i1 i2 i3 he2
    (f := fun i => floored (1 / 10 ^ 12) ((computeFstar d.t H.smh 1).getD i 0) (H.smh.getD i 0)) hf

theorem sqrt_bound {Y e : ℝ} (he : 0 ≤ e) (h : (1 + 1 / 10 ^ 5) ^ 2 * Y ≤ e ^ 2) : (1 + 1 / 10 ^ 5) * √Y ≤ e := by
  rw [← Real.sqrt_sq (show (0 : ℝ) ≤ 1 + 1 / 10 ^ 5 by norm_num), ← Real.sqrt_mul (by positivity)]
  exact Real.sqrt_le_iff.2 ⟨he, h⟩

theorem durationTerm {p : DiffstarParams ℝ} (hp : InFloatBounds p) :
    0 ≤ 1 / 10 ^ 5 / (10 : ℝ) ^ p.qlglgdt ∧ 1 / 10 ^ 5 / (10 : ℝ) ^ p.qlglgdt ≤ 0.01 := by
  refine ⟨by positivity, ?_⟩
  have h1 := Real.rpow_le_rpow_of_exponent_le (show (1 : ℝ) ≤ 10 by norm_num) hp.qlglgdt.1
  rw [show (-3 : ℝ) = ((-3 : ℤ) : ℝ) by norm_num, Real.rpow_intCast] at h1
  rw [div_le_iff₀ (by positivity)]
  norm_num at h1 ⊢
  linarith

/-- **C144** (`loss_default_clipssfrh`): for all parameters and loss data as in `FloatLossData` the square root of the loss computed
in single precision, with any order of the additions in the means, is within 0.45 (plus 1e-5 of itself) of the exact one. `p` are
the bounded parameters of `u`; the single precision logarithms may be off by 1e-5. -/
theorem C144_loss_error {L : Rounding.MathLib} (hL : Accurate L) (hlog : ∀ x, 0 < x → |L.log10 x - Real.logb 10 x| ≤ 1 / 10 ^ 5)
    {M : Type} (logMah logMah' : M → ℝ → ℝ → ℝ) (u p : DiffstarParams ℝ) (hup : getBoundedDiffstarParams u = p)
    (hp : InFloatBounds p) (d : LossData M) (hd : FloatLossData logMah logMah' p d) (loss : ℝ)
    (h : float32.IsFitLoss L logMah' p d loss) :
    |√loss - √(lossDefaultClipssfrh logMah u d)| ≤ 0.45 + 1 / 10 ^ 5 * √(lossDefaultClipssfrh logMah u d) := by
  have hinc : Increasing d.t := (List.pairwise_cons.1 hd.wf.increasing).2
  obtain ⟨hX0, hX1⟩ := durationTerm hp
  have key := fitLoss_err hL hlog hup hp hd h (e2 := 0.19001) (by norm_num) (fun i hi => by
    intro m m' y x T
    obtain ⟨g0, g1, -⟩ := C141_fitted_average hL logMah logMah' p hp d.mah d.t d.lgt0 d.fb hd.fb hd.times hinc hd.count hd.single
      hd.gaps hd.mass hd.massErr i hi (hd.rates i hi)
    obtain ⟨q1, q2⟩ := log_of_rel g0 g1
    have q3 := hlog _ q1
    have hxy : |y - x| ≤ 0.19001 := by
      refine (abs_sub_le y _ x).trans ((add_le_add q3 q2).trans (by norm_num))
    have hw : 0.5 ≤ d.weightFstar.getD i 0 := by
      rw [List.getD_eq_getElem _ _ (by rw [hd.wf.lenWeightFstar]; exact hi)]
      exact hd.wf.weightFstarPos _ (List.getElem_mem _)
    exact ⟨div_weight hw (by rw [sub_sub_sub_cancel_right]; exact hxy), fun _ => hxy⟩)
  refine key.trans (add_le_add (sqrt_bound (by norm_num) ?_) le_rfl)
  generalize 1 / 10 ^ 5 / (10 : ℝ) ^ p.qlglgdt = X at *
  norm_num at hX1 ⊢
  nlinarith

/-- **C144**: the same with a bound of 0.045 plus 1e-4 over the duration of quenching, if at the snapshots with weight in the fit of
the averaged rates, and at the last one, the galaxy forms stars at more than 1e-11 of its mass per year. -/
theorem C144_loss_error_forming {L : Rounding.MathLib} (hL : Accurate L)
    (hlog : ∀ x, 0 < x → |L.log10 x - Real.logb 10 x| ≤ 1 / 10 ^ 5)
    {M : Type} (logMah logMah' : M → ℝ → ℝ → ℝ) (u p : DiffstarParams ℝ) (hup : getBoundedDiffstarParams u = p)
    (hp : InFloatBounds p) (d : LossData M) (hd : FloatLossData logMah logMah' p d)
    (hforming : ∀ i, i < d.t.length →
      let m := (calcSfhSinglegalSmh logMah p d.mah d.t d.lgt0 d.fb).smh
      m.getD i 0 / 10 ^ 11 ≤ (computeFstar d.t m 1).getD i 0 ∨ (10 ^ 9 ≤ d.weightFstar.getD i 0 ∧ i + 1 < d.t.length))
    (loss : ℝ) (h : float32.IsFitLoss L logMah' p d loss) :
    |√loss - √(lossDefaultClipssfrh logMah u d)| ≤
      0.045 + 1 / 10 ^ 4 / (10 : ℝ) ^ p.qlglgdt + 1 / 10 ^ 5 * √(lossDefaultClipssfrh logMah u d) := by
  have hinc : Increasing d.t := (List.pairwise_cons.1 hd.wf.increasing).2
  obtain ⟨hX0, hX1⟩ := durationTerm hp
  have key := fitLoss_err hL hlog hup hp hd h (e2 := 0.7 * (0.004 + 1.2 * (1 / 10 ^ 5 / (10 : ℝ) ^ p.qlglgdt))) (by positivity)
    (fun i hi => by
      intro m m' y x T
      obtain ⟨g0, g1, g2⟩ := C141_fitted_average hL logMah logMah' p hp d.mah d.t d.lgt0 d.fb hd.fb hd.times hinc hd.count hd.single
        hd.gaps hd.mass hd.massErr i hi (hd.rates i hi)
      have hw : 0.5 ≤ d.weightFstar.getD i 0 := by
        rw [List.getD_eq_getElem _ _ (by rw [hd.wf.lenWeightFstar]; exact hi)]
        exact hd.wf.weightFstarPos _ (List.getElem_mem _)
      rcases hforming i hi with h1 | ⟨h1, h2⟩
      · have g3 := g2 h1
        generalize 1 / 10 ^ 5 / (10 : ℝ) ^ p.qlglgdt = X at g3 hX0 hX1 ⊢
        obtain ⟨q1, q2⟩ := log_rel g0 (by linarith) (by norm_num at hX1 ⊢; linarith) g3
        have q3 := hlog _ q1
        have hxy : |y - x| ≤ 0.7 * (0.004 + 1.2 * X) := by
          refine (abs_sub_le y _ x).trans ((add_le_add q3 q2).trans ?_)
          norm_num
          linarith
        exact ⟨div_weight hw (by rw [sub_sub_sub_cancel_right]; exact hxy), fun _ => hxy⟩
      · obtain ⟨q1, q2⟩ := log_of_rel g0 g1
        have q3 := hlog _ q1
        have hxy : |y - x| ≤ 2 := by
          refine (abs_sub_le y _ x).trans ((add_le_add q3 q2).trans (by norm_num))
        generalize 1 / 10 ^ 5 / (10 : ℝ) ^ p.qlglgdt = X at hX0 hX1 ⊢
        exact ⟨div_big h1 (by norm_num; linarith) (by rw [sub_sub_sub_cancel_right]; exact hxy), fun h3 => absurd h3 (by omega)⟩)
  refine key.trans (add_le_add (sqrt_bound (by positivity) ?_) le_rfl)
  rw [show 1 / 10 ^ 4 / (10 : ℝ) ^ p.qlglgdt = 10 * (1 / 10 ^ 5 / (10 : ℝ) ^ p.qlglgdt) by ring]
  generalize 1 / 10 ^ 5 / (10 : ℝ) ^ p.qlglgdt = X at *
  norm_num at hX1 ⊢
  nlinarith

/-- **C144**, the success criterion of the fits (`loss_tol = 0.1`): for a galaxy as in `C144_loss_error_forming` whose quenching
takes at least 0.01 dex, a computed loss up to 0.1 means an exact loss up to 0.14, and an exact loss up to 0.065 is computed as at
most 0.1. -/
theorem C144_tolerance {L : Rounding.MathLib} (hL : Accurate L)
    (hlog : ∀ x, 0 < x → |L.log10 x - Real.logb 10 x| ≤ 1 / 10 ^ 5)
    {M : Type} (logMah logMah' : M → ℝ → ℝ → ℝ) (u p : DiffstarParams ℝ) (hup : getBoundedDiffstarParams u = p)
    (hp : InFloatBounds p) (hq : -2 ≤ p.qlglgdt) (d : LossData M) (hd : FloatLossData logMah logMah' p d)
    (hforming : ∀ i, i < d.t.length →
      let m := (calcSfhSinglegalSmh logMah p d.mah d.t d.lgt0 d.fb).smh
      m.getD i 0 / 10 ^ 11 ≤ (computeFstar d.t m 1).getD i 0 ∨ (10 ^ 9 ≤ d.weightFstar.getD i 0 ∧ i + 1 < d.t.length))
    (loss : ℝ) (h : float32.IsFitLoss L logMah' p d loss) :
    (loss ≤ 0.1 → lossDefaultClipssfrh logMah u d ≤ 0.14) ∧ (lossDefaultClipssfrh logMah u d ≤ 0.065 → loss ≤ 0.1) := by
  have key := C144_loss_error_forming hL hlog logMah logMah' u p hup hp d hd hforming loss h
  have hX : 1 / 10 ^ 4 / (10 : ℝ) ^ p.qlglgdt ≤ 0.01 := by
    have h1 := Real.rpow_le_rpow_of_exponent_le (show (1 : ℝ) ≤ 10 by norm_num) hq
    rw [show (-2 : ℝ) = ((-2 : ℤ) : ℝ) by norm_num, Real.rpow_intCast] at h1
    rw [div_le_iff₀ (by positivity)]
    norm_num at h1 ⊢
    linarith
  generalize 1 / 10 ^ 4 / (10 : ℝ) ^ p.qlglgdt = X at key hX
  generalize lossDefaultClipssfrh logMah u d = Q at key ⊢
  have key := abs_le.1 key
  have sQ := Real.sqrt_nonneg Q
  constructor
  · intro hl
    have h1 : √loss ≤ 0.3163 := Real.sqrt_le_iff.2 ⟨by norm_num, hl.trans (by norm_num)⟩
    have h2 : √Q ≤ 0.374 := by norm_num at *; linarith
    by_contra hc
    push Not at hc
    have h3 : 0.374 < √Q := Real.lt_sqrt_of_sq_lt (lt_of_le_of_lt (by norm_num) hc)
    linarith
  · intro hl
    have h1 : √Q ≤ 0.25496 := Real.sqrt_le_iff.2 ⟨by norm_num, hl.trans (by norm_num)⟩
    have h2 : √loss ≤ 0.311 := by norm_num at *; linarith
    by_contra hc
    push Not at hc
    have h3 : 0.311 < √loss := Real.lt_sqrt_of_sq_lt (lt_of_le_of_lt (by norm_num) hc)
    linarith

/-- Two snapshots of a galaxy of any parameters in a halo of constant mass; the library functions are correctly rounded (the
logarithm wherever its argument is a finite single precision number). -/
example (u : DiffstarParams ℝ) : ∃ (L : Rounding.MathLib) (p : DiffstarParams ℝ) (logMah : Unit → ℝ → ℝ → ℝ) (d : LossData Unit)
    (loss : ℝ), Accurate L ∧ (∀ x, 0 < x → |L.log10 x - Real.logb 10 x| ≤ 1 / 10 ^ 5) ∧ getBoundedDiffstarParams u = p ∧
      InFloatBounds p ∧ FloatLossData logMah logMah p d ∧ float32.IsFitLoss L logMah p d loss ∧
      ∀ i, i < d.t.length →
        let m := (calcSfhSinglegalSmh logMah p d.mah d.t d.lgt0 d.fb).smh
        m.getD i 0 / 10 ^ 11 ≤ (computeFstar d.t m 1).getD i 0 ∨ (10 ^ 9 ≤ d.weightFstar.getD i 0 ∧ i + 1 < d.t.length) := by
  have f2 : float32.fl 2 = 2 := by
    have := float32_exact 1 (by norm_num) 1
    norm_num at this
    exact this
  obtain ⟨b1, b2, b3, b4, b5, b6, b7, b8⟩ := C01_bounded_params_in_bounds u
  set L : Rounding.MathLib := ⟨fun x => float32.fl (Real.exp x), fun x => float32.fl ((10 : ℝ) ^ x),
    fun x => if |Real.logb 10 x| ≤ 40 then float32.fl (Real.logb 10 x) else Real.logb 10 x⟩ with hLdef
  set d : LossData Unit := ⟨[1, 2], (), [10 ^ 9, 2 * 10 ^ 9], [9, 9.3], [1, 1], [0, 0], 1, 1 / 10 ^ 12, [1, 1], [10 ^ 10, 1], 0, 1.1,
    0.16⟩ with hd
  set p := getBoundedDiffstarParams u with hp
  have hpos : ∀ x ∈ calcSfhSinglegal (fun (_ : Unit) _ _ => 12) p () [1, 2] 1.1 0.16, 0 ≤ x := by
    intro x hx
    rw [calcSfhSinglegal_eq] at hx
    obtain ⟨t, -, rfl⟩ := List.mem_map.1 hx
    exact le_trans (by norm_num) (le_max_left _ _)
  have mean : ∀ l : List ℝ, ∃ m, float32.IsMean l m := fun l => by
    obtain ⟨s, hs⟩ := isSum_exists float32 (l : Multiset ℝ)
    exact ⟨_, s, hs, rfl⟩
  obtain ⟨m1, h1⟩ := mean (float32.weightedSquares (float32.subArrays ((float32.calcSfhSinglegalSmh L (fun _ _ _ => 12) p d.mah d.t
    d.lgt0 d.fb).smh.map L.log10) d.logmstarTarget) d.weight)
  obtain ⟨m2, h2⟩ := mean _
  obtain ⟨m3, h3⟩ := mean _
  refine ⟨L, p, fun _ _ _ => 12, d, _, ⟨accurate_rounded.exp, accurate_rounded.pow10, ?_⟩, ?_, rfl, ?_, ?_,
    ⟨m1, m2, m3, h1, h2, h3, rfl⟩, ?_⟩
  · intro t h1 h2
    have h3 : |Real.logb 10 t| ≤ 2 := by
      rw [abs_le]
      constructor
      · rw [Real.le_logb_iff_rpow_le (by norm_num) (by linarith), show (-2 : ℝ) = ((-2 : ℤ) : ℝ) by norm_num, Real.rpow_intCast]
        exact le_trans (by norm_num) h1
      · rw [Real.logb_le_iff_le_rpow (by norm_num) (by linarith), show (2 : ℝ) = ((2 : ℤ) : ℝ) by norm_num, Real.rpow_intCast]
        exact h2.trans (by norm_num)
    show |(if |Real.logb 10 t| ≤ 40 then float32.fl (Real.logb 10 t) else Real.logb 10 t) - Real.logb 10 t| ≤ _
    rw [if_pos (h3.trans (by norm_num))]
    exact accurate_rounded.log10 t h1 h2
  · intro x _
    show |(if |Real.logb 10 x| ≤ 40 then float32.fl (Real.logb 10 x) else Real.logb 10 x) - Real.logb 10 x| ≤ _
    split_ifs with h4
    · have hu : float32.u = 2 ^ (-24 : ℤ) := rfl
      have h5 := float32.err (Real.logb 10 x)
      rw [hu] at h5
      exact h5.trans ((mul_le_mul_of_nonneg_left h4 (by positivity)).trans (by norm_num))
    · simp
  · exact ⟨⟨b1.1.le, b1.2.le⟩, ⟨b2.1.le, b2.2.le⟩, ⟨b3.1.le, b3.2.le⟩, ⟨b4.1.le, b4.2.le⟩, ⟨b5.1.le, b5.2.le⟩,
      ⟨b6.1.le, b6.2.trans (by norm_num)⟩, ⟨b7.1.le, b7.2.le⟩, ⟨b8.1.le, b8.2.le⟩⟩
  · refine ⟨⟨by simp [hd], by simp only [hd]; unfold Increasing; norm_num, rfl, rfl, rfl, rfl, rfl, rfl, ?_, ?_, ?_, ?_, ?_⟩, rfl, rfl,
      ?_, ?_, ?_, ?_, ?_, fun _ _ => by norm_num, fun _ _ => by norm_num, fun i hi => ?_, fun i hi => ?_⟩
    · intro x hx
      simp only [hd, List.mem_cons, List.not_mem_nil, or_false] at hx
      rcases hx with rfl | rfl <;> norm_num
    · intro x hx
      simp only [hd, List.mem_cons, List.not_mem_nil, or_false] at hx
      rcases hx with rfl | rfl <;> norm_num
    · intro x hx
      simp only [hd, List.mem_cons, List.not_mem_nil, or_false] at hx
      rcases hx with rfl | rfl <;> norm_num
    · norm_num [hd]
    · norm_num [hd]
    · norm_num [hd]
    · intro x hx
      simp only [hd, List.mem_cons, List.not_mem_nil, or_false] at hx
      rcases hx with rfl | rfl <;> norm_num
    · simp [hd]
    · intro x hx
      simp only [hd, List.mem_cons, List.not_mem_nil, or_false] at hx
      rcases hx with rfl | rfl
      · exact float32.one
      · exact f2
    · intro k hk
      have : k + 1 < 2 := by simpa [hd] using hk
      obtain rfl : k = 0 := by omega
      norm_num [hd]
    · refine C141_rates_of_steps _ (calcSfhSinglegal _ _ _ _ _ _) (List.length_map ..) (by unfold Increasing; norm_num)
        hpos i hi ?_
      intro k hk
      have : i < 2 := by simpa [hd] using hi
      interval_cases i <;> interval_cases k <;> norm_num [hd]
    · have : i < 2 := by simpa [hd] using hi
      interval_cases i <;> norm_num [hd]
  · intro i hi
    have : i < 2 := by simpa [hd] using hi
    obtain rfl | rfl : i = 0 ∨ i = 1 := by omega
    · exact .inr ⟨by norm_num [hd], by norm_num [hd]⟩
    · left
      show (cumulativeMstarFormed [1, 2] (calcSfhSinglegal (fun (_ : Unit) _ _ => 12) p () [1, 2] 1.1 0.16)).getD 1 0 / 10 ^ 11 ≤
        (computeFstar [1, 2] (cumulativeMstarFormed [1, 2] (calcSfhSinglegal (fun (_ : Unit) _ _ => 12) p () [1, 2] 1.1 0.16)) 1).getD
          1 0
      have hmin : ∀ x ∈ calcSfhSinglegal (fun (_ : Unit) _ _ => 12) p () [1, 2] 1.1 0.16, 1 / 10 ^ 14 ≤ x := by
        intro x hx
        rw [calcSfhSinglegal_eq] at hx
        obtain ⟨t, -, rfl⟩ := List.mem_map.1 hx
        exact le_trans (by norm_num) (le_max_left _ _)
      have hlen : (calcSfhSinglegal (fun (_ : Unit) _ _ => 12) p () [1, 2] 1.1 0.16).length = 2 := List.length_map ..
      generalize calcSfhSinglegal (fun (_ : Unit) _ _ => 12) p () [1, 2] 1.1 0.16 = s at hmin hlen
      obtain ⟨a, b, rfl⟩ := List.length_eq_two.1 hlen
      have ha := hmin a (by simp)
      have hb := hmin b (by simp)
      rw [cmf_eq]
      simp only [List.zip_cons_cons, List.zip_nil_right, trapFrom_cons, trapFrom_nil, List.map_cons, List.map_nil, computeFstar,
        npInterp]
      clear h1 h2 h3 hpos mean hmin hlen
      norm_num at ha hb ⊢
      rw [if_pos (by linarith)]
      linarith

end Diffstar.Props
