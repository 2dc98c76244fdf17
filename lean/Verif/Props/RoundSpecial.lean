import Verif.Model.RoundSpecial
import Verif.Props.RoundTrip

/-!
C159: parameters on their bounds survive the way to unbounded parameters and back in single precision.
-/

namespace Diffstar.Spec

/-- Parameters in the closed ranges that single precision reaches. The largest `qlglgdt` is the number `-0.00999999...` (C125). -/
def ClosedFloat (p : DiffstarParams ℝ) : Prop :=
  (9 ≤ p.lgmcrit ∧ p.lgmcrit ≤ 13.5) ∧ (-12 ≤ p.lgyAtMcrit ∧ p.lgyAtMcrit ≤ -8) ∧ (0 ≤ p.indxLo ∧ p.indxLo ≤ 5) ∧
    (-5 ≤ p.indxHi ∧ p.indxHi ≤ 0) ∧ (float32.fl 0.1 ≤ p.lgQt ∧ p.lgQt ≤ 2) ∧ (-3 ≤ p.qlglgdt ∧ p.qlglgdt ≤ -(10737408 * 2 ^ (-30 : ℤ))) ∧
    (-3 ≤ p.lgDrop ∧ p.lgDrop ≤ 0) ∧ (p.lgDrop ≤ p.lgRejuv ∧ p.lgRejuv ≤ 0)

/-- The result `v` is a finite number close to `p`. -/
def ComesBack (v : Special) (p : ℝ) : Prop := ∃ y, v = Special.num y ∧ |y - p| ≤ 1e-4

/-- All parameters come back. -/
def AllComeBack (v : DiffstarParams Special) (p : DiffstarParams ℝ) : Prop :=
  ComesBack v.lgmcrit p.lgmcrit ∧ ComesBack v.lgyAtMcrit p.lgyAtMcrit ∧ ComesBack v.indxLo p.indxLo ∧ ComesBack v.indxHi p.indxHi ∧
    ComesBack v.lgQt p.lgQt ∧ ComesBack v.qlglgdt p.qlglgdt ∧ ComesBack v.lgDrop p.lgDrop ∧ ComesBack v.lgRejuv p.lgRejuv

end Diffstar.Spec

namespace Diffstar.Props

open Diffstar Diffstar.Spec

theorem exp_big : (80000 : ℝ) ≤ Real.exp 11.4 := by
  have h1 : (2.718 : ℝ) ^ 11 ≤ Real.exp 1 ^ 11 := pow_le_pow_left₀ (by norm_num) (by linarith [Real.exp_one_gt_d9]) _
  rw [← Real.exp_nat_mul, mul_one] at h1
  have h2 : (1.4 : ℝ) ≤ Real.exp 0.4 := by
    have := Real.add_one_le_exp (0.4 : ℝ)
    linarith
  have h3 : Real.exp 11.4 = Real.exp ((11 : ℕ) : ℝ) * Real.exp 0.4 := by
    rw [← Real.exp_add]
    norm_num
  rw [h3]
  calc (80000 : ℝ) ≤ 2.718 ^ 11 * 1.4 := by norm_num
    _ ≤ _ := mul_le_mul h1 h2 (by norm_num) (Real.exp_pos _).le

theorem exp_not_big : Real.exp 11.5 ≤ 105000 := by
  have h1 : Real.exp 1 ^ 23 ≤ (2.7183 : ℝ) ^ 23 := pow_le_pow_left₀ (Real.exp_pos _).le (by linarith [Real.exp_one_lt_d9]) _
  rw [← Real.exp_nat_mul, mul_one] at h1
  have h2 : Real.exp 11.5 ^ 2 = Real.exp ((23 : ℕ) : ℝ) := by
    rw [← Real.exp_nat_mul]
    norm_num
  have h3 : Real.exp 11.5 ^ 2 ≤ 105000 ^ 2 := by
    rw [h2]
    exact h1.trans (by norm_num)
  exact (pow_le_pow_iff_left₀ (Real.exp_pos _).le (by norm_num) (by norm_num)).1 h3

/-- The argument of the sigmoid for a large logarithm, of either sign. -/
theorem arg_large (R : Rounding) (hu : R.u ≤ 6e-8) {L x0 k : ℝ} (hk : 0 < k) (hx0 : k * |x0| ≤ 12.5) :
    (11.49 ≤ L → R.fl (k * R.fl (R.fl (x0 - R.fl (L / k)) - x0)) ≤ -11.4) ∧
      (L ≤ -11.49 → 11.4 ≤ R.fl (k * R.fl (R.fl (x0 - R.fl (L / k)) - x0))) := by
  obtain ⟨a, ha, ea⟩ := fl_rel R hu (L / k)
  obtain ⟨b, hb, eb⟩ := fl_rel R hu (x0 - R.fl (L / k))
  obtain ⟨c, hc, ec⟩ := fl_rel R hu (R.fl (x0 - R.fl (L / k)) - x0)
  obtain ⟨d, hd, ed⟩ := fl_rel R hu (k * R.fl (R.fl (x0 - R.fl (L / k)) - x0))
  obtain ⟨c1, c2⟩ := abs_le.1 hc
  obtain ⟨d1, d2⟩ := abs_le.1 hd
  obtain ⟨a1, a2⟩ := abs_le.1 ha
  obtain ⟨b1, b2⟩ := abs_le.1 hb
  have hkx : k * (R.fl (x0 - R.fl (L / k)) - x0) = -L * (1 + (a + b + a * b)) + k * x0 * b := by
    rw [eb, ea]
    field_simp
    ring
  have t1 : |k * x0 * b| ≤ 12.5 * 6e-8 := by
    rw [abs_mul, abs_mul, abs_of_pos hk]
    exact mul_le_mul hx0 hb (abs_nonneg _) (by norm_num)
  obtain ⟨t2, t3⟩ := abs_le.1 t1
  have hab : |a * b| ≤ 6e-8 * 6e-8 := by
    rw [abs_mul]
    exact mul_le_mul ha hb (abs_nonneg _) (by norm_num)
  obtain ⟨w1, w2⟩ := abs_le.1 hab
  have hcd : 0.999999 ≤ (1 + c) * (1 + d) := by nlinarith
  have e : R.fl (k * R.fl (R.fl (x0 - R.fl (L / k)) - x0)) = k * (R.fl (x0 - R.fl (L / k)) - x0) * ((1 + c) * (1 + d)) := by
    rw [ed, ec]
    ring
  rw [e, hkx]
  have hm : 0.99999 ≤ 1 + (a + b + a * b) := by linarith
  constructor
  · intro hL
    have h1 : 11.49 * 0.99999 ≤ L * (1 + (a + b + a * b)) := mul_le_mul hL hm (by norm_num) (by linarith)
    have h2 : -L * (1 + (a + b + a * b)) + k * x0 * b ≤ -11.48 := by linarith
    nlinarith
  · intro hL
    have h1 : 11.49 * 0.99999 ≤ -L * (1 + (a + b + a * b)) := mul_le_mul (by linarith) hm (by norm_num) (by linarith)
    have h2 : 11.48 ≤ -L * (1 + (a + b + a * b)) + k * x0 * b := by linarith
    nlinarith

/-- The logistic function far from its centre. -/
theorem logistic_far (R : Rounding) (hu : R.u ≤ 6e-8) (exp : ℝ → ℝ) (hexp : ∀ x, |exp x - Real.exp x| ≤ 5e-7 * Real.exp x) (z : ℝ) :
    (z ≤ -11.4 → R.nnSigmoid exp z ≤ 1.26e-5) ∧ (11.4 ≤ z → 1 - 1.27e-5 ≤ R.nnSigmoid exp z) := by
  obtain ⟨a, ha, ea⟩ := fl_rel R hu (1 + exp (-z))
  obtain ⟨b, hb, eb⟩ := fl_rel R hu (1 / R.fl (1 + exp (-z)))
  obtain ⟨a1, a2⟩ := abs_le.1 ha
  obtain ⟨b1, b2⟩ := abs_le.1 hb
  obtain ⟨x1, x2⟩ := abs_le.1 (hexp (-z))
  have hp := Real.exp_pos (-z)
  unfold Rounding.nnSigmoid
  have e0 : 0 < 1 + exp (-z) := by nlinarith
  rw [eb, ea]
  have e1 : 0 < (1 + exp (-z)) * (1 + a) := mul_pos e0 (by linarith)
  constructor
  · intro hz
    have h1 : 80000 ≤ Real.exp (-z) := exp_big.trans (Real.exp_le_exp.2 (by linarith))
    have h2 : 79999 ≤ exp (-z) := by nlinarith
    have h3 : 79999 ≤ (1 + exp (-z)) * (1 + a) := by nlinarith
    have h4 : 1 / ((1 + exp (-z)) * (1 + a)) ≤ 1 / 79999 := one_div_le_one_div_of_le (by norm_num) h3
    have h5 : 1 / ((1 + exp (-z)) * (1 + a)) * (1 + b) ≤ 1 / 79999 * (1 + 6e-8) :=
      mul_le_mul h4 (by linarith) (by linarith) (by norm_num)
    exact h5.trans (by norm_num)
  · intro hz
    have h1 : Real.exp (-z) ≤ 1 / 80000 := by
      rw [Real.exp_neg, ← one_div]
      exact one_div_le_one_div_of_le (by norm_num) (exp_big.trans (Real.exp_le_exp.2 hz))
    have h2 : exp (-z) ≤ 1.2501e-5 := by nlinarith
    have h3 : (1 + exp (-z)) * (1 + a) ≤ 1 + 1.2562e-5 := by nlinarith
    have h4 : 1 / (1 + 1.2562e-5) ≤ 1 / ((1 + exp (-z)) * (1 + a)) := one_div_le_one_div_of_le e1 h3
    have h5 : 1 / (1 + 1.2562e-5) * (1 - 6e-8) ≤ 1 / ((1 + exp (-z)) * (1 + a)) * (1 + b) :=
      mul_le_mul h4 (by linarith) (by norm_num) (by positivity)
    exact le_trans (by norm_num) h5

/-- The library logarithm of numbers far from one. -/
theorem log_far (log : ℝ → ℝ) (hlog : ∀ y, 0 < y → |log y - Real.log y| ≤ 5e-7 * |Real.log y|) {A : ℝ} (hA : 0 < A) :
    (105000 ≤ A → 11.49 ≤ log A) ∧ (A ≤ 1 / 105000 → log A ≤ -11.49) := by
  have h := abs_le.1 (hlog A hA)
  constructor
  · intro h1
    have h2 : 11.5 ≤ Real.log A := (Real.le_log_iff_exp_le hA).2 (exp_not_big.trans h1)
    rw [abs_of_pos (by linarith)] at h
    linarith [h.1]
  · intro h1
    have h2 : Real.log A ≤ -11.5 := by
      rw [Real.log_le_iff_le_exp hA, Real.exp_neg, ← one_div]
      exact h1.trans (one_div_le_one_div_of_le (Real.exp_pos _) exp_not_big)
    rw [abs_of_neg (by linarith)] at h
    linarith [h.2]

/-- `_inverse_sigmoid`, then the sigmoid inside `_sigmoid`, for all values between the bounds, with infinities. -/
theorem special_height (R : Rounding) (hu : R.u ≤ 6e-8) (exp log : ℝ → ℝ)
    (hexp : ∀ x, |exp x - Real.exp x| ≤ 5e-7 * Real.exp x)
    (hlog : ∀ y, 0 < y → |log y - Real.log y| ≤ 5e-7 * |Real.log y|) {p x0 k lo hi : ℝ} (hk : 0 < k) (hx0 : k * |x0| ≤ 12.5)
    (hH : 0 < R.fl (hi - lo)) (h0 : lo ≤ p) (h1 : R.fl (p - lo) ≤ R.fl (hi - lo)) :
    ∃ s, 0 ≤ s ∧ s ≤ 1 ∧ |s - (p - lo) / R.fl (hi - lo)| ≤ 1.3e-5 ∧ ∀ ymin ymax,
      R.sigmoidSpecial exp (R.inverseSigmoidSpecial log p x0 k lo hi) x0 k ymin ymax =
        Special.num (R.fl (ymin + R.fl (R.fl (ymax - ymin) * s))) := by
  have hpos : ∀ x, 0 ≤ exp x := fun x => by
    have := (abs_le.1 (hexp x)).1
    nlinarith [Real.exp_pos x]
  rcases le_or_gt (0.9e-5 * R.fl (hi - lo)) (p - lo) with r0 | r0
  swap
  · -- close to the lower bound
    set H := R.fl (hi - lo) with hHdef
    have hr0 : 0 ≤ (p - lo) / H := div_nonneg (by linarith) hH.le
    have hr1 : (p - lo) / H ≤ 0.9e-5 := (div_le_iff₀ hH).2 r0.le
    obtain ⟨t, ht, et⟩ := fl_rel R hu (p - lo)
    obtain ⟨t1, t2⟩ := abs_le.1 ht
    rcases eq_or_ne (R.fl (p - lo)) 0 with hd | hd
    · refine ⟨0, le_rfl, by norm_num, by rw [zero_sub, abs_neg, abs_of_nonneg hr0]; linarith, fun ymin ymax => ?_⟩
      unfold Rounding.inverseSigmoidSpecial
      dsimp only
      rw [if_pos hd, if_pos (by rw [← hHdef]; exact hH)]
      rfl
    · have hd0 : 0 < R.fl (p - lo) := lt_of_le_of_ne (R.fl_nonneg (by linarith)) (Ne.symm hd)
      have hq : 110000 ≤ H / R.fl (p - lo) := by
        rw [le_div_iff₀ hd0, et]
        nlinarith
      obtain ⟨q, hq', eq⟩ := fl_rel R hu (H / R.fl (p - lo))
      obtain ⟨v, hv', ev⟩ := fl_rel R hu (R.fl (H / R.fl (p - lo)) - 1)
      obtain ⟨q1, q2⟩ := abs_le.1 hq'
      obtain ⟨v1, v2⟩ := abs_le.1 hv'
      have hA1 : 109990 ≤ R.fl (H / R.fl (p - lo)) := by rw [eq]; nlinarith
      have hA : 105000 ≤ R.fl (R.fl (H / R.fl (p - lo)) - 1) := by rw [ev]; nlinarith
      have hs := (logistic_far R hu exp hexp _).1 ((arg_large R hu hk hx0).1 ((log_far log hlog (by linarith)).1 hA))
      obtain ⟨s0, s1⟩ := nnSigmoidFl_unit R exp hpos
        (R.fl (k * R.fl (R.fl (x0 - R.fl (log (R.fl (R.fl (H / R.fl (p - lo)) - 1)) / k)) - x0)))
      refine ⟨_, s0, s1, ?_, fun ymin ymax => ?_⟩
      · rw [abs_le]
        constructor <;> linarith
      · unfold Rounding.inverseSigmoidSpecial
        dsimp only
        rw [if_neg hd, if_neg (by rw [← hHdef]; linarith), if_neg (by rw [← hHdef]; linarith)]
        rfl
  rcases le_or_gt (p - lo) ((1 - 0.9e-5) * R.fl (hi - lo)) with r1 | r1
  · obtain ⟨x, ex, hx⟩ := height_round_trip R hu exp log hexp hlog hk hx0 hH r0 r1
    obtain ⟨s0, s1⟩ := nnSigmoidFl_unit R exp hpos (R.fl (k * R.fl (x - x0)))
    refine ⟨_, s0, s1, hx.trans (by norm_num), fun ymin ymax => ?_⟩
    have e : R.inverseSigmoidSpecial log p x0 k lo hi = Special.num x := by
      unfold Rounding.inverseSigmoid at ex
      unfold Rounding.inverseSigmoidSpecial
      dsimp only at ex ⊢
      split_ifs at ex with c1 c2
      rw [if_neg c1, if_neg (by linarith), if_neg (by intro c; exact c2 c.le)]
      exact congrArg Special.num (Option.some.inj ex)
    rw [e]
    rfl
  · set H := R.fl (hi - lo) with hHdef
    obtain ⟨t, ht, et⟩ := fl_rel R hu (p - lo)
    obtain ⟨t1, t2⟩ := abs_le.1 ht
    have hp0 : 0 < p - lo := by nlinarith
    have hd0 : 0 < R.fl (p - lo) := by rw [et]; nlinarith
    have hr1 : 1 - 0.9e-5 ≤ (p - lo) / H := (le_div_iff₀ hH).2 r1.le
    have hr2 : (p - lo) / H ≤ 1 + 1e-7 := by
      rw [div_le_iff₀ hH]
      rw [et] at h1
      nlinarith
    have hq : H / R.fl (p - lo) ≤ 1 + 0.91e-5 := by
      rw [div_le_iff₀ hd0, et]
      nlinarith
    have hq1 : 1 ≤ R.fl (H / R.fl (p - lo)) := by
      have := R.mono (show (1 : ℝ) ≤ H / R.fl (p - lo) by rwa [le_div_iff₀ hd0, one_mul])
      rwa [R.one] at this
    obtain ⟨q, hq', eq⟩ := fl_rel R hu (H / R.fl (p - lo))
    obtain ⟨v, hv', ev⟩ := fl_rel R hu (R.fl (H / R.fl (p - lo)) - 1)
    obtain ⟨q1, q2⟩ := abs_le.1 hq'
    obtain ⟨v1, v2⟩ := abs_le.1 hv'
    have hA1 : R.fl (H / R.fl (p - lo)) ≤ 1 + 0.92e-5 := by rw [eq]; nlinarith
    have hA : R.fl (R.fl (H / R.fl (p - lo)) - 1) ≤ 1 / 105000 := by rw [ev]; nlinarith
    have hA0 : 0 ≤ R.fl (R.fl (H / R.fl (p - lo)) - 1) := R.fl_nonneg (by linarith)
    rcases eq_or_ne (R.fl (R.fl (H / R.fl (p - lo)) - 1)) 0 with hz | hz
    · refine ⟨1, by norm_num, le_rfl, by rw [abs_le]; constructor <;> linarith, fun ymin ymax => ?_⟩
      unfold Rounding.inverseSigmoidSpecial
      dsimp only
      rw [if_neg hd0.ne', ← hHdef, if_neg (not_lt.2 hA0), if_pos hz]
      rfl
    · have hA2 := lt_of_le_of_ne hA0 (Ne.symm hz)
      have hs := (logistic_far R hu exp hexp _).2 ((arg_large R hu hk hx0).2 ((log_far log hlog hA2).2 hA))
      obtain ⟨s0, s1⟩ := nnSigmoidFl_unit R exp hpos
        (R.fl (k * R.fl (R.fl (x0 - R.fl (log (R.fl (R.fl (H / R.fl (p - lo)) - 1)) / k)) - x0)))
      refine ⟨_, s0, s1, ?_, fun ymin ymax => ?_⟩
      · rw [abs_le]
        constructor <;> linarith
      · unfold Rounding.inverseSigmoidSpecial
        dsimp only
        rw [if_neg hd0.ne', ← hHdef, if_neg (not_lt.2 hA0), if_neg hz]
        rfl

/-- One of the parameters with fixed bounds, to its unbounded value and back. -/
theorem special_recovered (R : Rounding) (hu : R.u ≤ 6e-8) (exp log : ℝ → ℝ)
    (hexp : ∀ x, |exp x - Real.exp x| ≤ 5e-7 * Real.exp x)
    (hlog : ∀ y, 0 < y → |log y - Real.log y| ≤ 5e-7 * |Real.log y|) {p lo hi : ℝ} (hh : 0 < hi - lo)
    (hlo : |lo| ≤ 3.05 * (hi - lo)) (hhi : |hi| ≤ 3.05 * (hi - lo)) (hp0 : R.fl lo ≤ p)
    (hp1 : R.fl (p - R.fl lo) ≤ R.fl (R.fl hi - R.fl lo)) :
    ∃ y, R.sigmoidBSpecial exp (R.inverseSigmoidBSpecial log p (calculateSigmoidBounds (lo, hi))) (calculateSigmoidBounds (lo, hi)) =
        Special.num y ∧ |y - p| ≤ 1.4e-5 * (hi - lo) ∧ y ≤ R.fl (R.fl lo + R.fl (R.fl hi - R.fl lo)) := by
  obtain ⟨h1, h2⟩ := range_close R hu hh hlo hhi
  obtain ⟨a1, a2⟩ := abs_le.1 h1
  obtain ⟨b1, b2⟩ := abs_le.1 h2
  obtain ⟨c1, c2⟩ := abs_le.1 hlo
  obtain ⟨d1, d2⟩ := abs_le.1 hhi
  have hm : |(lo + hi) / 2| ≤ 3.05 * (hi - lo) := by
    rw [abs_le]
    constructor <;> linarith
  obtain ⟨⟨hk, -⟩, hm', -⟩ := centre_close R hu (x := 0) hh hm
  have hk4 : R.fl (4 / (hi - lo)) ≤ 4.01 / (hi - lo) := by
    obtain ⟨a, ha, ea⟩ := fl_rel R hu (4 / (hi - lo))
    have := (abs_le.1 ha).2
    rw [ea, div_mul_eq_mul_div]
    exact div_le_div_of_nonneg_right (by linarith) hh.le
  have hkm : R.fl (4 / (hi - lo)) * |R.fl ((lo + hi) / 2)| ≤ 12.5 := by
    calc _ ≤ 4.01 / (hi - lo) * (3.06 * (hi - lo)) := mul_le_mul hk4 hm' (abs_nonneg _) (by positivity)
      _ = 4.01 * 3.06 := by field_simp
      _ ≤ 12.5 := by norm_num
  set H := R.fl (R.fl hi - R.fl lo) with hH
  have H0 : 0 < H := by linarith
  obtain ⟨s, s0, s1, hx, e⟩ := special_height R hu exp log hexp hlog (p := p) (lo := R.fl lo) (hi := R.fl hi) hk hkm H0 hp0 hp1
  rw [← hH] at hx
  unfold Rounding.inverseSigmoidBSpecial Rounding.sigmoidBSpecial calculateSigmoidBounds
  dsimp only
  rw [abs_of_pos (by positivity : 0 < 4 / (hi - lo)), e, ← hH]
  refine ⟨_, rfl, ?_, R.mono (by
    have : R.fl (H * s) ≤ H := by
      have := R.mono (show H * s ≤ H from mul_le_of_le_one_right H0.le s1)
      rwa [hH, R.idem, ← hH] at this
    linarith)⟩
  have hf := forward_close R hu H0 (lo := R.fl lo) (by rw [abs_le]; constructor <;> linarith) s0 s1
  have hs : |H * s - (p - R.fl lo)| ≤ 1.3e-5 * H := by
    have : H * s - (p - R.fl lo) = (s - (p - R.fl lo) / H) * H := by field_simp
    rw [this, abs_mul, abs_of_pos H0]
    exact mul_le_mul_of_nonneg_right hx H0.le
  obtain ⟨q1, q2⟩ := abs_le.1 hf
  obtain ⟨q3, q4⟩ := abs_le.1 hs
  rw [abs_le]
  constructor <;> linarith

theorem special_comes_back (exp log : ℝ → ℝ) (hexp : ∀ x, |exp x - Real.exp x| ≤ 5e-7 * Real.exp x)
    (hlog : ∀ y, 0 < y → |log y - Real.log y| ≤ 5e-7 * |Real.log y|) {p lo hi : ℝ} (top : ℝ) (hh : 0 < hi - lo) (hw : hi - lo ≤ 5)
    (hlo : |lo| ≤ 3.05 * (hi - lo)) (hhi : |hi| ≤ 3.05 * (hi - lo)) (hp : float32.fl lo ≤ p ∧ p ≤ top)
    (ht : float32.fl (top - float32.fl lo) = float32.fl (float32.fl hi - float32.fl lo)) :
    ComesBack (float32.sigmoidBSpecial exp (float32.inverseSigmoidBSpecial log p (calculateSigmoidBounds (lo, hi)))
      (calculateSigmoidBounds (lo, hi))) p := by
  obtain ⟨y, e, h, -⟩ := special_recovered float32 f32_u exp log hexp hlog hh hlo hhi hp.1
    (by rw [← ht]; exact float32.mono (by linarith [hp.2]))
  exact ⟨y, e, h.trans (by linarith)⟩

/-- Range of the quenching time. -/
theorem f32_qt_range : float32.fl (2 - float32.fl 0.1) = 15938355 * 2 ^ (-23 : ℤ) := by
  rw [f32_tenth]
  have := float32_eq (x := 2 - 13421773 * 2 ^ (-27 : ℤ)) 15938355 (-23) (by norm_num) (by norm_num) (by rw [abs_lt]; norm_num)
  simpa using this

theorem f32_duration_range : float32.fl (float32.fl (-0.01) - -3) = 12540969 * 2 ^ (-22 : ℤ) := by
  rw [f32_hundredth]
  have := float32_eq (x := -(10737418 * 2 ^ (-30 : ℤ)) - -3) 12540969 (-22) (by norm_num) (by norm_num)
    (by rw [abs_lt]; norm_num)
  simpa using this

/-- **C159**: in single precision all bounded parameters, on their bounds or not, come back from their unbounded values, which may be
infinite, if the quenching drop is not zero. -/
theorem C159_closed_round_trip_partial (exp log : ℝ → ℝ) (hexp : ∀ x, |exp x - Real.exp x| ≤ 5e-7 * Real.exp x)
    (hlog : ∀ y, 0 < y → |log y - Real.log y| ≤ 5e-7 * |Real.log y|) (p : DiffstarParams ℝ) (hp : ClosedFloat p) (hd : p.lgDrop ≠ 0) :
    AllComeBack (float32.getBoundedSpecial exp (float32.getUnboundedSpecial log p)) p := by
  obtain ⟨h1, h2, h3, h4, h5, h6, h7, h8⟩ := hp
  have z : float32.fl 0 = 0 := float32.fl_zero
  have f9 : float32.fl 9 = 9 := f32_exact' 9 0 _ (by norm_num) (by norm_num)
  have f135 : float32.fl 13.5 = 13.5 := f32_exact' 27 (-1) _ (by norm_num) (by norm_num)
  have f12 : float32.fl (-12) = -12 := f32_exact_neg 12 0 _ (by norm_num) (by norm_num)
  have f8 : float32.fl (-8) = -8 := f32_exact_neg 8 0 _ (by norm_num) (by norm_num)
  have f5 : float32.fl 5 = 5 := f32_exact' 5 0 _ (by norm_num) (by norm_num)
  have f5' : float32.fl (-5) = -5 := f32_exact_neg 5 0 _ (by norm_num) (by norm_num)
  have f2 : float32.fl 2 = 2 := f32_exact' 2 0 _ (by norm_num) (by norm_num)
  have f3 : float32.fl (-3) = -3 := f32_exact_neg 3 0 _ (by norm_num) (by norm_num)
  have g1 := special_comes_back exp log hexp hlog (lo := 9) (hi := 13.5) 13.5 (by norm_num) (by norm_num) (by norm_num [abs_le])
    (by norm_num [abs_le]) (by rw [f9]; exact h1) (by rw [f135])
  have g2 := special_comes_back exp log hexp hlog (lo := -12) (hi := -8) (-8) (by norm_num) (by norm_num) (by norm_num [abs_le])
    (by norm_num [abs_le]) (by rw [f12]; exact h2) (by rw [f8])
  have g3 := special_comes_back exp log hexp hlog (lo := 0) (hi := 5) 5 (by norm_num) (by norm_num) (by norm_num [abs_le])
    (by norm_num [abs_le]) (by rw [z]; exact h3) (by rw [f5])
  have g4 := special_comes_back exp log hexp hlog (lo := -5) (hi := 0) 0 (by norm_num) (by norm_num) (by norm_num [abs_le])
    (by norm_num [abs_le]) (by rw [f5']; exact h4) (by rw [z])
  have g5 := special_comes_back exp log hexp hlog (lo := 0.1) (hi := 2) 2 (by norm_num) (by norm_num) (by norm_num [abs_le])
    (by norm_num [abs_le]) h5 (by rw [f2])
  have g6 := special_comes_back exp log hexp hlog (lo := -3) (hi := -0.01) (-(10737408 * 2 ^ (-30 : ℤ))) (by norm_num) (by norm_num)
    (by norm_num [abs_le]) (by norm_num [abs_le]) (by rw [f3]; exact h6)
    (by rw [f3, f32_duration_range]
        exact (f32_exact' 12540969 (-22) _ (by norm_num) (by norm_num)).trans (by norm_num))
  obtain ⟨D', e7, g7, g7'⟩ := special_recovered float32 f32_u exp log hexp hlog (p := p.lgDrop) (lo := -3) (hi := 0) (by norm_num)
    (by norm_num [abs_le]) (by norm_num [abs_le]) (by rw [f3]; exact h7.1)
    (by rw [z]; exact float32.mono (by linarith [h7.2]))
  set D := p.lgDrop with hD
  have hDneg : D < 0 := lt_of_le_of_ne h7.2 hd
  obtain ⟨a, ha, ea⟩ := fl_rel float32 f32_u (0 - D)
  obtain ⟨a1, a2⟩ := abs_le.1 ha
  have hH0 : 0 < float32.fl (0 - D) := by
    rw [ea]; apply mul_pos <;> linarith
  obtain ⟨⟨hk, -⟩, hm', -⟩ := centre_close float32 f32_u (x := 0) (m := (-3 + 0) / 2) (h := 0 - -3) (by norm_num) (by norm_num [abs_le])
  have hk4 : float32.fl (4 / (0 - -3)) ≤ 1.34 := by
    obtain ⟨b, hb, eb⟩ := fl_rel float32 f32_u (4 / (0 - -3))
    have := (abs_le.1 hb).2
    rw [eb]; linarith
  have hkm : float32.fl (4 / (0 - -3)) * |float32.fl ((-3 + 0) / 2)| ≤ 12.5 := by
    calc _ ≤ 1.34 * (3.06 * (0 - -3)) := mul_le_mul hk4 hm' (abs_nonneg _) (by norm_num)
      _ ≤ 12.5 := by norm_num
  obtain ⟨s, s0, s1, g8, e8⟩ := special_height float32 f32_u exp log hexp hlog (p := p.lgRejuv) (lo := D) (hi := 0) hk hkm hH0 h8.1
    (float32.mono (by linarith [h8.2]))
  refine ⟨g1, g2, g3, g4, g5, g6, ⟨D', e7, g7.trans (by norm_num)⟩, ?_⟩
  have er : (float32.getBoundedSpecial exp (float32.getUnboundedSpecial log p)).lgRejuv =
      Special.num (float32.fl (D' + float32.fl (float32.fl (0 - D') * s))) := by
    have e : (float32.getBoundedSpecial exp (float32.getUnboundedSpecial log p)).lgRejuv =
        match float32.sigmoidBSpecial exp (float32.inverseSigmoidBSpecial log D (calculateSigmoidBounds (-3, 0))) (calculateSigmoidBounds (-3, 0)) with
        | .num d => float32.sigmoidSpecial exp (float32.inverseSigmoidSpecial log p.lgRejuv (float32.fl ((-3 + 0) / 2))
            (float32.fl |4 / (0 - -3)|) D (float32.fl 0)) (float32.fl ((-3 + 0) / 2)) (float32.fl |4 / (0 - -3)|) d (float32.fl 0)
        | _ => .nan := rfl
    rw [e, e7]
    dsimp only
    rw [z, abs_of_pos (by norm_num : (0 : ℝ) < 4 / (0 - -3)), e8]
  refine ⟨_, er, ?_⟩
  obtain ⟨w1, w2⟩ := abs_le.1 g7
  have hD0 : D' ≤ 0 := by
    rw [z, f3, zero_sub, float32.neg, f3] at g7'
    norm_num at g7'
    rwa [z] at g7'
  obtain ⟨b, hb, eb⟩ := fl_rel float32 f32_u (0 - D')
  obtain ⟨c, hc, ec⟩ := fl_rel float32 f32_u (float32.fl (0 - D') * s)
  obtain ⟨d, hd, ed⟩ := fl_rel float32 f32_u (D' + float32.fl (float32.fl (0 - D') * s))
  have hr : (p.lgRejuv - D) / float32.fl (0 - D) * ((0 - D) * (1 + a)) = p.lgRejuv - D := by
    rw [← ea]; field_simp
  set r := (p.lgRejuv - D) / float32.fl (0 - D)
  rw [ed, ec, eb]
  obtain ⟨b1, b2⟩ := abs_le.1 hb
  obtain ⟨c1, c2⟩ := abs_le.1 hc
  have hD3 : |D'| ≤ 3.01 := by rw [abs_le]; constructor <;> linarith [h7.1]
  have hbc : |b + c + b * c| ≤ 1.3e-7 := by
    have : |b * c| ≤ 6e-8 * 6e-8 := by
      rw [abs_mul]
      exact mul_le_mul hb hc (abs_nonneg _) (by norm_num)
    obtain ⟨m1, m2⟩ := abs_le.1 this
    rw [abs_le]
    constructor <;> linarith
  -- the result is `D' (1 - s)` up to small terms
  have k1 : |D' * s * (b + c + b * c)| ≤ 3.01 * 1 * 1.3e-7 := by
    rw [abs_mul, abs_mul, abs_of_nonneg s0]
    exact mul_le_mul (mul_le_mul hD3 s1 s0 (by norm_num)) hbc (abs_nonneg _) (by norm_num)
  obtain ⟨k2, k3⟩ := abs_le.1 k1
  have k4 : |D' * (1 - s)| ≤ 3.01 * 1 := by
    rw [abs_mul, abs_of_nonneg (by linarith : 0 ≤ 1 - s)]
    exact mul_le_mul hD3 (by linarith) (by linarith) (by norm_num)
  obtain ⟨k5, k6⟩ := abs_le.1 k4
  have eX : D' + (0 - D') * (1 + b) * s * (1 + c) = D' * (1 - s) - D' * s * (b + c + b * c) := by ring
  rw [eX]
  set X := D' * (1 - s) - D' * s * (b + c + b * c) with hX
  have k7 : |X * d| ≤ 3.02 * 6e-8 := by
    rw [abs_mul]
    exact mul_le_mul (by rw [abs_le]; constructor <;> linarith) hd (abs_nonneg _) (by norm_num)
  obtain ⟨k8, k9⟩ := abs_le.1 k7
  have k10 : |(D' - D) * (1 - s)| ≤ 4.2e-5 * 1 := by
    rw [abs_mul, abs_of_nonneg (by linarith : 0 ≤ 1 - s)]
    exact mul_le_mul (by rw [abs_le]; constructor <;> linarith) (by linarith) (by linarith) (by norm_num)
  have k11 : |D * (s - r)| ≤ 3 * 1.3e-5 := by
    rw [abs_mul]
    exact mul_le_mul (by rw [abs_le]; constructor <;> linarith [h7.1]) g8 (abs_nonneg _) (by norm_num)
  have hr1 : |r| ≤ 1.1 := by
    have := abs_le.1 g8
    rw [abs_le]
    constructor <;> linarith
  have k12 : |D * r * a| ≤ 3 * 1.1 * 6e-8 := by
    rw [abs_mul, abs_mul]
    exact mul_le_mul (mul_le_mul (by rw [abs_le]; constructor <;> linarith [h7.1]) hr1 (abs_nonneg _) (by norm_num)) ha (abs_nonneg _) (by norm_num)
  obtain ⟨l1, l2⟩ := abs_le.1 k10
  obtain ⟨l3, l4⟩ := abs_le.1 k11
  obtain ⟨l5, l6⟩ := abs_le.1 k12
  have eT : X * (1 + d) - p.lgRejuv = (D' - D) * (1 - s) - D * (s - r) + D * r * a - D' * s * (b + c + b * c) + X * d := by
    have : p.lgRejuv = r * ((0 - D) * (1 + a)) + D := by linarith
    rw [this, hX]
    ring
  rw [eT, abs_le]
  constructor <;> linarith

/-- **C159**: in single precision bounded parameters that come from unbounded parameters of any size come back. -/
theorem C159_stable_partial (exp log : ℝ → ℝ) (hexp : ∀ x, |exp x - Real.exp x| ≤ 5e-7 * Real.exp x)
    (hlog : ∀ y, 0 < y → |log y - Real.log y| ≤ 5e-7 * |Real.log y|) (u : DiffstarParams ℝ)
    (hd : (float32.getBoundedDiffstarParams exp u).lgDrop ≠ 0) :
    AllComeBack (float32.getBoundedSpecial exp (float32.getUnboundedSpecial log (float32.getBoundedDiffstarParams exp u)))
      (float32.getBoundedDiffstarParams exp u) := by
  have hpos : ∀ x, 0 ≤ exp x := fun x => by
    have := (abs_le.1 (hexp x)).1
    nlinarith [Real.exp_pos x]
  refine C159_closed_round_trip_partial exp log hexp hlog _ ?_ hd
  obtain ⟨h1, h2, h3, h4, h5, h6, h7, h8⟩ := C125_bounds_single_precision_partial exp hpos u
  refine ⟨h1, h2, h3, h4, ⟨?_, h5.2⟩, ⟨h6.1, ?_⟩, h7, h8⟩
  · have fq : float32.fl (float32.fl 0.1 + float32.fl (2 - float32.fl 0.1)) = 2 := by
      rw [f32_qt_range, f32_tenth]
      have := float32_eq (x := 13421773 * 2 ^ (-27 : ℤ) + 15938355 * 2 ^ (-23 : ℤ)) 16777216 (-23) (by norm_num) (by norm_num)
        (by rw [abs_lt]; norm_num)
      rw [this]
      norm_num
    exact (sigmoidBFl_range float32 exp hpos u.lgQt (0.1, 2) rfl (f32_exact' 2 0 _ (by norm_num) (by norm_num))
      (by rw [f32_tenth]; norm_num) fq).1
  · exact (sigmoidBFl_range float32 exp hpos u.qlglgdt (-3, -0.01) (f32_exact_neg 3 0 _ (by norm_num) (by norm_num)) rfl
      (by rw [f32_hundredth]; norm_num) f32_duration).2

/-- **C159**: in single precision there are finite unbounded parameters whose bounded values give NaN on the way back and again NaN on
the way forth. -/
theorem C159_drop_violated (exp log : ℝ → ℝ) (hexp : ∀ x, |exp x - Real.exp x| ≤ Real.exp x / 2) (hpos : ∀ x, 0 ≤ exp x) :
    ∃ u : DiffstarParams ℝ, let p := float32.getBoundedDiffstarParams exp u
      p.lgDrop = 0 ∧ p.lgRejuv = 0 ∧ (float32.getUnboundedSpecial log p).lgRejuv = Special.nan ∧
        (float32.getBoundedSpecial exp (float32.getUnboundedSpecial log p)).lgRejuv = Special.nan := by
  refine ⟨⟨12, -10, 1, -1, 1, -1, 40, -1⟩, ?_⟩
  intro p
  have f3 : float32.fl (-3) = -3 := f32_exact_neg 3 0 _ (by norm_num) (by norm_num)
  have f3' : float32.fl 3 = 3 := f32_exact' 3 0 _ (by norm_num) (by norm_num)
  have z : float32.fl 0 = 0 := float32.fl_zero
  have h : float32.fl ((-3 + 0) / 2) ≤ 0 := by
    have := float32.mono (show ((-3 : ℝ) + 0) / 2 ≤ 0 by norm_num)
    rwa [z] at this
  have hD := f32_saturated exp hexp hpos 40 (-3, 0) (by norm_num) (by dsimp only; linarith)
  dsimp only at hD
  rw [f3, z, show (0 : ℝ) - -3 = 3 by norm_num, f3', show (-3 : ℝ) + 3 = 0 by norm_num, z] at hD
  have e7 : p.lgDrop = 0 := hD
  obtain ⟨-, -, -, -, -, -, -, h8⟩ := C125_bounds_single_precision_partial exp hpos ⟨12, -10, 1, -1, 1, -1, 40, -1⟩
  have e8 : p.lgRejuv = 0 := le_antisymm h8.2 (by rw [← e7]; exact h8.1)
  have en : (float32.getUnboundedSpecial log p).lgRejuv = Special.nan := by
    have e : (float32.getUnboundedSpecial log p).lgRejuv = float32.inverseSigmoidSpecial log p.lgRejuv (float32.fl ((-3 + 0) / 2))
        (float32.fl |4 / (0 - -3)|) p.lgDrop (float32.fl 0) := rfl
    rw [e, e7, e8, z]
    unfold Rounding.inverseSigmoidSpecial
    dsimp only
    rw [sub_zero, z, if_pos rfl, if_neg (lt_irrefl _)]
  refine ⟨e7, e8, en, ?_⟩
  unfold Rounding.getBoundedSpecial
  dsimp only
  rw [en]
  split <;> rfl

/-- Parameters on their bounds meet the hypotheses. -/
example : ClosedFloat ⟨13.5, -8, 0, -5, 2, -3, -3, 0⟩ ∧ (⟨13.5, -8, 0, -5, 2, -3, -3, 0⟩ : DiffstarParams ℝ).lgDrop ≠ 0 := by
  unfold ClosedFloat
  rw [f32_tenth]
  norm_num

end Diffstar.Props
