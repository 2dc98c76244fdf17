import Verif.Props.RoundAvg
import Verif.Props.RoundPopErr
import Mathlib.Analysis.Complex.ExponentialBounds

/-! C146: how errors of the halo catalogue propagate. -/

namespace Diffstar.Props

open Diffstar Diffstar.Spec Diffstar.Pop MeasureTheory

/-! ### Star formation -/

theorem log_eleven : Real.log 11 ≤ 2.4 := by
  rw [Real.log_le_iff_le_exp (by norm_num)]
  have h1 := Real.exp_one_gt_d9
  have h2 : Real.exp 2.4 ^ 5 = Real.exp 1 ^ 12 := by
    rw [← Real.exp_nat_mul, ← Real.exp_nat_mul]
    norm_num
  have h3 : (11 : ℝ) ^ 5 ≤ Real.exp 2.4 ^ 5 := by
    rw [h2]
    exact le_trans (by norm_num) (pow_le_pow_left₀ (by norm_num) h1.le 12)
  exact le_of_pow_le_pow_left₀ (by norm_num) (Real.exp_pos _).le h3

/-- Derivative of `z * sigmoid z`. -/
theorem swish_ge (z : ℝ) : -0.1 ≤ nnSigmoid z + z * nnSigmoid z * nnSigmoid (-z) := by
  rw [nnSigmoid_neg, nnSigmoid_eq]
  have hE : 0 < Real.exp (-z) := Real.exp_pos _
  have hz : z = -Real.log (Real.exp (-z)) := by rw [Real.log_exp]; ring
  have hl : Real.log (Real.exp (-z)) ≤ 2.4 + Real.exp (-z) / 11 - 1 := by
    have h1 := Real.log_le_sub_one_of_pos (show 0 < Real.exp (-z) / 11 by positivity)
    rw [Real.log_div hE.ne' (by norm_num)] at h1
    linarith [log_eleven]
  rw [Real.log_exp] at hl
  generalize Real.exp (-z) = E at hE hl
  have h1 : (1 + E) ≠ 0 := by positivity
  have e : 1 / (1 + E) + z * (1 / (1 + E)) * (1 - 1 / (1 + E)) = (1 + E + z * E) / (1 + E) ^ 2 := by
    field_simp
    ring
  rw [e, le_div_iff₀ (by positivity)]
  norm_num at hl ⊢
  nlinarith [sq_nonneg (E - 11), mul_nonneg hE.le (sub_nonneg.2 hl)]

theorem swish_le (z : ℝ) : nnSigmoid z + z * nnSigmoid z * nnSigmoid (-z) ≤ 1.1 := by
  have h := swish_ge (-z)
  rw [neg_neg] at h
  have h2 := nnSigmoid_neg z
  rw [h2] at h ⊢
  norm_num at h ⊢
  nlinarith

/-- Logarithmic slope of the efficiency in halo mass. -/
theorem growth_lip {lo hi A : ℝ} (h1 : 0 ≤ lo ∧ lo ≤ A) (h2 : -A ≤ hi ∧ hi ≤ 0) (x x' : ℝ) :
    |(x + (lo + (hi - lo) / (1 + Real.exp (-(9 * x)))) * x) - (x' + (lo + (hi - lo) / (1 + Real.exp (-(9 * x')))) * x')| ≤
      (1 + 1.2 * A) * |x - x'| := by
  have h := Convex.norm_image_sub_le_of_norm_hasDerivWithin_le (f := fun x => x + (lo + (hi - lo) / (1 + Real.exp (-(9 * x)))) * x)
    (f' := fun x => 1 + (lo + (hi - lo) * nnSigmoid (9 * x) + (hi - lo) * (9 * x * nnSigmoid (9 * x) * nnSigmoid (-(9 * x)))))
    (s := Set.univ) (x := x') (y := x) (C := 1 + 1.2 * A)
    (fun y _ => ((hasDerivAt_id y).add (slope_deriv lo hi y)).hasDerivWithinAt) (fun y _ => by
      have a := swish_ge (9 * y)
      have b := swish_le (9 * y)
      have e : lo + (hi - lo) * nnSigmoid (9 * y) + (hi - lo) * (9 * y * nnSigmoid (9 * y) * nnSigmoid (-(9 * y))) =
        lo * (1 - (nnSigmoid (9 * y) + 9 * y * nnSigmoid (9 * y) * nnSigmoid (-(9 * y)))) +
          hi * (nnSigmoid (9 * y) + 9 * y * nnSigmoid (9 * y) * nnSigmoid (-(9 * y))) := by ring
      rw [e]
      generalize nnSigmoid (9 * y) + 9 * y * nnSigmoid (9 * y) * nnSigmoid (-(9 * y)) = w at a b
      rw [Real.norm_eq_abs, abs_le]
      have hA : 0 ≤ A := h1.1.trans h1.2
      norm_num at a b ⊢
      constructor <;> rcases le_total w 0 with c | c <;> rcases le_total w 1 with d | d <;> nlinarith) convex_univ (Set.mem_univ _) (Set.mem_univ _)
  simpa only [Real.norm_eq_abs] using h

theorem le_of_logb {s s' E : ℝ} (hs : 0 < s) (hs' : 0 < s') (h : Real.logb 10 s' ≤ E + Real.logb 10 s) : s' ≤ (10 : ℝ) ^ E * s := by
  rw [← Real.logb_le_logb (b := 10) (by norm_num) hs' (by positivity), Real.logb_mul (by positivity) hs.ne', Real.logb_rpow (by norm_num) (by norm_num)]
  exact h

/-- **C146**, star formation rate at one time: halo masses that differ by `δ` dex give star formation rates that differ by at most
`(1 + 1.2 A) δ` dex, for indices up to `A` in size. -/
theorem C146_sfr {M M' : Type*} (logMah : M → ℝ → ℝ → ℝ) (logMah' : M' → ℝ → ℝ → ℝ) (p : DiffstarParams ℝ) {A : ℝ}
    (h1 : 0 ≤ p.indxLo ∧ p.indxLo ≤ A) (h2 : -A ≤ p.indxHi ∧ p.indxHi ≤ 0) (mah : M) (mah' : M') (tarr : List ℝ) (lgt0 lgt0' fb : ℝ) (hfb : 0 < fb)
    (i : ℕ) (hi : i < tarr.length) (_ht : 0 < tarr[i]) :
    ∃ s s', (calcSfhSinglegal logMah p mah tarr lgt0 fb)[i]? = some s ∧ (calcSfhSinglegal logMah' p mah' tarr lgt0' fb)[i]? = some s' ∧
      0 < s ∧ 0 < s' ∧
      |Real.logb 10 s - Real.logb 10 s'| ≤ (1 + 1.2 * A) * |logMah mah tarr[i] lgt0 - logMah' mah' tarr[i] lgt0'| := by
  refine ⟨_, _, by rw [calcSfhSinglegal_eq, List.getElem?_map, List.getElem?_eq_getElem hi]; rfl,
    by rw [calcSfhSinglegal_eq, List.getElem?_map, List.getElem?_eq_getElem hi]; rfl, lt_max_of_lt_left (by norm_num),
    lt_max_of_lt_left (by norm_num), ?_⟩
  generalize logMah mah tarr[i] lgt0 = m
  generalize logMah' mah' tarr[i] lgt0' = m'
  have hpos : ∀ x m : ℝ, 0 < (10 : ℝ) ^ x * msSfr p fb m := by
    intro x m
    unfold msSfr
    positivity
  refine (logb_max_lip (by positivity) (hpos _ _) (hpos _ _)).trans ?_
  rw [logb_sfr p hfb, logb_sfr p hfb]
  have h := growth_lip h1 h2 (m - p.lgmcrit) (m' - p.lgmcrit)
  unfold msLogEfficiency
  rw [sub_sub_sub_cancel_right] at h
  refine le_trans (le_of_eq ?_) h
  congr 1
  ring

/-- Averaged rates are monotone in the star formation history, up to a factor. -/
theorem fstar_scale {t s s' : List ℝ} (hinc : Increasing t) (hs : s.length = t.length) (hs' : s'.length = t.length) {c τ : ℝ} (hc : 0 ≤ c) (hτ : 0 < τ)
    (h : ∀ k, k < t.length → s'.getD k 0 ≤ c * s.getD k 0) (i : ℕ) (hi : i < t.length)
    (h1 : i < (computeFstar t (cumulativeMstarFormed t s) τ).length) (h2 : i < (computeFstar t (cumulativeMstarFormed t s') τ).length) :
    (computeFstar t (cumulativeMstarFormed t s') τ)[i] ≤ c * (computeFstar t (cumulativeMstarFormed t s) τ)[i] := by
  have hl := cmf_length t s hs
  have hl' := cmf_length t s' hs'
  rw [computeFstar_getElem _ _ _ _ h1 hi (by omega), computeFstar_getElem _ _ _ _ h2 hi (by omega)]
  rw [← List.getD_eq_getElem (cumulativeMstarFormed t s) 0 (by omega), ← List.getD_eq_getElem (cumulativeMstarFormed t s') 0 (by omega),
    ← List.getD_eq_getElem t 0 hi]
  have hstep : ∀ k, k + 1 < t.length → (cumulativeMstarFormed t s').getD (k + 1) 0 - (cumulativeMstarFormed t s').getD k 0 ≤
      c * ((cumulativeMstarFormed t s).getD (k + 1) 0 - (cumulativeMstarFormed t s).getD k 0) := by
    intro k hk
    rw [cmf_step hs hk, cmf_step hs' hk]
    have a := h k (by omega)
    have b := h (k + 1) hk
    have d : 0 ≤ t.getD (k + 1) 0 - t.getD k 0 := by
      rw [List.getD_eq_getElem _ _ hk, List.getD_eq_getElem t 0 (show k < t.length by omega)]
      exact sub_nonneg.2 (List.pairwise_iff_getElem.1 hinc k (k + 1) (by omega) hk (by omega)).le
    have := mul_le_mul_of_nonneg_left (add_le_add b a) d
    nlinarith
  have hdrop : ∀ j k, j ≤ k → k < t.length → (cumulativeMstarFormed t s').getD k 0 - (cumulativeMstarFormed t s').getD j 0 ≤
      c * ((cumulativeMstarFormed t s).getD k 0 - (cumulativeMstarFormed t s).getD j 0) := by
    intro j k hjk
    induction hjk with
    | refl => intro _; simp
    | @step m hm ih =>
      intro hk
      have := ih (by omega)
      have := hstep m hk
      linarith
  have key : (cumulativeMstarFormed t s').getD i 0 - npInterp (t.getD i 0 - τ) t (cumulativeMstarFormed t s') ≤
      c * ((cumulativeMstarFormed t s).getD i 0 - npInterp (t.getD i 0 - τ) t (cumulativeMstarFormed t s)) := by
    rcases npInterp_bracket t hinc (t.getD i 0 - τ) i hi (by linarith) with ⟨-, h3⟩ | ⟨k, hk, hk1, hk2, h3⟩
    · rw [h3 _ hl, h3 _ hl']
      exact hdrop 0 i (by omega) hi
    · rw [h3 _ hl, h3 _ hl']
      have a := hdrop (k + 1) i hk hi
      have b := hstep k (by omega)
      have hd : 0 < t.getD (k + 1) 0 - t.getD k 0 := by linarith
      have e : ∀ Y0 Y1 : ℝ, (Y1 - Y0) / (t.getD (k + 1) 0 - t.getD k 0) * (t.getD i 0 - τ - t.getD k 0) =
          (Y1 - Y0) * ((t.getD i 0 - τ - t.getD k 0) / (t.getD (k + 1) 0 - t.getD k 0)) := fun _ _ => by ring
      rw [e, e]
      have w : (t.getD i 0 - τ - t.getD k 0) / (t.getD (k + 1) 0 - t.getD k 0) ≤ 1 := (div_le_one hd).2 (by linarith)
      generalize (t.getD i 0 - τ - t.getD k 0) / (t.getD (k + 1) 0 - t.getD k 0) = w' at w
      have := mul_le_mul_of_nonneg_right b (sub_nonneg.2 w)
      nlinarith
  generalize (cumulativeMstarFormed t s').getD i 0 - npInterp (t.getD i 0 - τ) t (cumulativeMstarFormed t s') = a at key
  generalize (cumulativeMstarFormed t s).getD i 0 - npInterp (t.getD i 0 - τ) t (cumulativeMstarFormed t s) = b at key
  have key' : a / τ / 10 ^ 9 ≤ c * (b / τ / 10 ^ 9) := by
    rw [← mul_div_assoc, ← mul_div_assoc]
    exact div_le_div_of_nonneg_right (div_le_div_of_nonneg_right key hτ.le) (by norm_num)
  have hf : ∀ x : ℝ, (if x > 0 then x else 0) = max x 0 := by
    intro x
    split_ifs with hx
    · exact (max_eq_left hx.le).symm
    · exact (max_eq_right (not_lt.1 hx)).symm
  rw [hf, hf, mul_max_of_nonneg _ _ hc, mul_zero]
  exact max_le_max key' le_rfl

/-- Stellar masses are monotone in the star formation history, up to a factor. -/
theorem cmf_scale {t s s' : List ℝ} (hinc : Increasing (0.001 :: t)) (hs : s.length = t.length) (hs' : s'.length = t.length) {c : ℝ} (hc : 1 ≤ c)
    (h : ∀ k, k < t.length → s'.getD k 0 ≤ c * s.getD k 0) (i : ℕ) (hi : i < t.length) :
    (cumulativeMstarFormed t s').getD i 0 ≤ c * (cumulativeMstarFormed t s).getD i 0 := by
  have hinc2 : Increasing t := (List.pairwise_cons.1 hinc).2
  have hstep : ∀ k, k + 1 < t.length → (cumulativeMstarFormed t s').getD (k + 1) 0 - (cumulativeMstarFormed t s').getD k 0 ≤
      c * ((cumulativeMstarFormed t s).getD (k + 1) 0 - (cumulativeMstarFormed t s).getD k 0) := by
    intro k hk
    rw [cmf_step hs hk, cmf_step hs' hk]
    have a := h k (by omega)
    have b := h (k + 1) hk
    have d : 0 ≤ t.getD (k + 1) 0 - t.getD k 0 := by
      rw [List.getD_eq_getElem _ _ hk, List.getD_eq_getElem t 0 (show k < t.length by omega)]
      exact sub_nonneg.2 (List.pairwise_iff_getElem.1 hinc2 k (k + 1) (by omega) hk (by omega)).le
    have := mul_le_mul_of_nonneg_left (add_le_add b a) d
    nlinarith
  induction i with
  | zero =>
    cases t with
    | nil => simp at hi
    | cons t0 t =>
      cases s with
      | nil => simp at hs
      | cons s0 s =>
        cases s' with
        | nil => simp at hs'
        | cons s0' s' =>
          have h0 := h 0 (by simp)
          have ht : (0.001 : ℝ) < t0 := (List.pairwise_cons.1 hinc).1 t0 List.mem_cons_self
          simp only [cmf_eq, List.zip_cons_cons, trapFrom_cons, List.map_cons, List.getD_cons_zero] at h0 ⊢
          have h1 : s0' + 1 / 10 ^ 14 ≤ c * (s0 + 1 / 10 ^ 14) := by nlinarith
          have := mul_le_mul_of_nonneg_left h1 (sub_nonneg.2 ht.le)
          nlinarith
  | succ i ih =>
    have := ih (by omega)
    have := hstep i hi
    linarith

/-- **C146**, histories: halo masses that differ by at most `δ` dex at the tabulated times give star formation rates, stellar masses and
averaged star formation rates that differ by at most the factor `10^((1 + 1.2 A) δ)`. -/
theorem C146_histories {M M' : Type*} (logMah : M → ℝ → ℝ → ℝ) (logMah' : M' → ℝ → ℝ → ℝ) (p : DiffstarParams ℝ) {A δ τ : ℝ}
    (h1 : 0 ≤ p.indxLo ∧ p.indxLo ≤ A) (h2 : -A ≤ p.indxHi ∧ p.indxHi ≤ 0) (mah : M) (mah' : M') (tarr : List ℝ)
    (ht : Increasing (0.001 :: tarr)) (lgt0 lgt0' fb : ℝ) (hfb : 0 < fb) (hδ : 0 ≤ δ) (hτ : 0 < τ)
    (hm : ∀ t ∈ tarr, |logMah mah t lgt0 - logMah' mah' t lgt0'| ≤ δ) :
    let g := calcSfhSinglegalSmh logMah p mah tarr lgt0 fb
    let g' := calcSfhSinglegalSmh logMah' p mah' tarr lgt0' fb
    let Close := List.Forall₂ fun x x' : ℝ => x' ≤ (10 : ℝ) ^ ((1 + 1.2 * A) * δ) * x ∧ x ≤ (10 : ℝ) ^ ((1 + 1.2 * A) * δ) * x'
    Close g.sfh g'.sfh ∧ Close g.smh g'.smh ∧ Close (computeFstar tarr g.smh τ) (computeFstar tarr g'.smh τ) := by
  intro g g' Close
  have hA : 0 ≤ A := h1.1.trans h1.2
  have hc : 1 ≤ (10 : ℝ) ^ ((1 + 1.2 * A) * δ) := Real.one_le_rpow (by norm_num) (by positivity)
  have hpos : ∀ t ∈ tarr, 0 < t := fun t h => lt_trans (by norm_num) ((List.pairwise_cons.1 ht).1 t h)
  have hl : g.sfh.length = tarr.length := by
    show (calcSfhSinglegal logMah p mah tarr lgt0 fb).length = _
    rw [calcSfhSinglegal_eq, List.length_map]
  have hl' : g'.sfh.length = tarr.length := by
    show (calcSfhSinglegal logMah' p mah' tarr lgt0' fb).length = _
    rw [calcSfhSinglegal_eq, List.length_map]
  have key : ∀ k, k < tarr.length → g'.sfh.getD k 0 ≤ (10 : ℝ) ^ ((1 + 1.2 * A) * δ) * g.sfh.getD k 0 ∧
      g.sfh.getD k 0 ≤ (10 : ℝ) ^ ((1 + 1.2 * A) * δ) * g'.sfh.getD k 0 := by
    intro k hk
    obtain ⟨s, s', e, e', hs, hs', hd⟩ := C146_sfr logMah logMah' p h1 h2 mah mah' tarr lgt0 lgt0' fb hfb k hk (hpos _ (List.getElem_mem hk))
    have f : g.sfh.getD k 0 = s := by
      rw [List.getD_eq_getElem?_getD, show g.sfh[k]? = some s from e]; rfl
    have f' : g'.sfh.getD k 0 = s' := by
      rw [List.getD_eq_getElem?_getD, show g'.sfh[k]? = some s' from e']; rfl
    rw [f, f']
    have hd' : |Real.logb 10 s - Real.logb 10 s'| ≤ (1 + 1.2 * A) * δ :=
      hd.trans (mul_le_mul_of_nonneg_left (hm _ (List.getElem_mem hk)) (by positivity))
    have := abs_le.1 hd'
    exact ⟨le_of_logb hs hs' (by linarith), le_of_logb hs' hs (by linarith)⟩
  refine ⟨List.forall₂_iff_get.2 ⟨by rw [hl, hl'], fun i hi hi' => ?_⟩, List.forall₂_iff_get.2 ⟨?_, fun i hi hi' => ?_⟩,
    List.forall₂_iff_get.2 ⟨?_, fun i hi hi' => ?_⟩⟩
  · have := key i (hl ▸ hi)
    rwa [List.getD_eq_getElem _ _ hi, List.getD_eq_getElem _ _ hi'] at this
  · show (cumulativeMstarFormed tarr g.sfh).length = (cumulativeMstarFormed tarr g'.sfh).length
    rw [cmf_length _ _ hl, cmf_length _ _ hl']
  · have hi0 : i < tarr.length := by
      have : g.smh.length = tarr.length := cmf_length _ _ hl
      rwa [this] at hi
    have a := cmf_scale ht hl hl' hc (fun k hk => (key k hk).1) i hi0
    have b := cmf_scale ht hl' hl hc (fun k hk => (key k hk).2) i hi0
    change g'.smh.getD i 0 ≤ _ * g.smh.getD i 0 at a
    change g.smh.getD i 0 ≤ _ * g'.smh.getD i 0 at b
    rw [List.getD_eq_getElem _ _ hi, List.getD_eq_getElem _ _ hi'] at a b
    exact ⟨a, b⟩
  · show (computeFstar tarr (cumulativeMstarFormed tarr g.sfh) τ).length = (computeFstar tarr (cumulativeMstarFormed tarr g'.sfh) τ).length
    rw [computeFstar_length _ _ (cmf_length _ _ hl) _, computeFstar_length _ _ (cmf_length _ _ hl') _]
  · have hi0 : i < tarr.length := by
      have : (computeFstar tarr g.smh τ).length = tarr.length := computeFstar_length _ _ (cmf_length _ _ hl) _
      rwa [this] at hi
    have hinc : Increasing tarr := (List.pairwise_cons.1 ht).2
    exact ⟨fstar_scale hinc hl hl' (zero_le_one.trans hc) hτ (fun k hk => (key k hk).1) i hi0 hi hi',
      fstar_scale hinc hl' hl (zero_le_one.trans hc) hτ (fun k hk => (key k hk).2) i hi0 hi' hi⟩

/-- A sigmoid whose argument, centre and limits change. -/
theorem sigmoid_lip {x x' x0 x0' k lo lo' hi hi' a b D E kmax : ℝ} (hk : 0 ≤ k ∧ k ≤ kmax) (hx : |x - x'| ≤ a) (hx0 : |x0 - x0'| ≤ b)
    (hlo : |lo - lo'| ≤ E) (hhi : |hi - hi'| ≤ E) (hD : |hi' - lo'| ≤ D) :
    |sigmoid x x0 k lo hi - sigmoid x' x0' k lo' hi'| ≤ E + D * (kmax * (a + b) / 4) := by
  have hs : ∀ y, nnSigmoid y = 1 / (1 + Real.exp (-y)) := fun y => by rw [nnSigmoid_eq]
  have h1 : |nnSigmoid (k * (x - x0)) - nnSigmoid (k * (x' - x0'))| ≤ kmax * (a + b) / 4 := by
    rw [hs, hs]
    refine (sigma_quarter _ _).trans ?_
    rw [← mul_sub, abs_mul, abs_of_nonneg hk.1]
    have : |x - x0 - (x' - x0')| ≤ a + b := by
      rw [show x - x0 - (x' - x0') = (x - x') - (x0 - x0') by ring]
      exact (abs_sub _ _).trans (add_le_add hx hx0)
    have := mul_le_mul hk.2 this (abs_nonneg _) (hk.1.trans hk.2)
    linarith
  have e : sigmoid x x0 k lo hi - sigmoid x' x0' k lo' hi' =
      ((lo - lo') + ((hi - hi') - (lo - lo')) * nnSigmoid (k * (x - x0))) +
        (hi' - lo') * (nnSigmoid (k * (x - x0)) - nnSigmoid (k * (x' - x0'))) := by
    simp only [sigmoid]
    ring
  rw [e]
  refine (abs_add_le _ _).trans (add_le_add (mix_abs hlo hhi (nnSigmoid_pos _).le (nnSigmoid_lt_one _).le) ?_)
  rw [abs_mul]
  exact mul_le_mul hD h1 (abs_nonneg _) ((abs_nonneg _).trans hD)

theorem field_mem {p : PF → ℝ} (hp : InPBounds p) (f : PF) {a b : ℝ} (h : PF.bounds f = (a, b)) : a < p f ∧ p f < b := by
  have := hp f
  rwa [h] at this

theorem width_le {a b x y : ℝ} (hx : a < x ∧ x < b) (hy : a < y ∧ y < b) : |x - y| ≤ b - a := by
  rw [abs_le]; constructor <;> linarith

/-- Variation of a quenched fraction with mass and peak time. -/
theorem frac_lip {x0t kt x0lo x0hi ylo1 ylo2 k yhi m m' t t' : ℝ} (hkt : 0.01 < kt ∧ kt < 10) (hx1 : 11 < x0lo ∧ x0lo < 14) (hx2 : 11 < x0hi ∧ x0hi < 14)
    (hy1 : 0 < ylo1 ∧ ylo1 < 1) (hy2 : 0 < ylo2 ∧ ylo2 < 1) (hk : 0.01 < k ∧ k < 5) (hy3 : 0 < yhi ∧ yhi < 1) :
    |sigmoid m (sigmoid t x0t kt x0lo x0hi) k (sigmoid t x0t kt ylo1 ylo2) yhi - sigmoid m' (sigmoid t' x0t kt x0lo x0hi) k (sigmoid t' x0t kt ylo1 ylo2) yhi| ≤
      1.25 * |m - m'| + 12 * |t - t'| := by
  have a := sigmoid_lip (x := t) (x' := t') (x0 := x0t) (x0' := x0t) (k := kt) (lo := x0lo) (lo' := x0lo) (hi := x0hi) (hi' := x0hi) (b := 0) (E := 0)
    (kmax := 10) (D := 3) ⟨le_trans (by norm_num) hkt.1.le, hkt.2.le⟩ le_rfl (by simp) (by simp) (by simp)
    ((width_le hx2 hx1).trans (by norm_num))
  have b := sigmoid_lip (x := t) (x' := t') (x0 := x0t) (x0' := x0t) (k := kt) (lo := ylo1) (lo' := ylo1) (hi := ylo2) (hi' := ylo2) (b := 0) (E := 0)
    (kmax := 10) (D := 1) ⟨le_trans (by norm_num) hkt.1.le, hkt.2.le⟩ le_rfl (by simp) (by simp) (by simp)
    ((width_le hy2 hy1).trans (by norm_num))
  have c := sigmoid_lip (x := m) (x' := m') (k := k) (hi := yhi) (hi' := yhi) (kmax := 5) (D := 1) ⟨le_trans (by norm_num) hk.1.le, hk.2.le⟩ le_rfl a b
    (by have := abs_nonneg (t - t'); rw [sub_self, abs_zero]; linarith) ((width_le hy3 (sigmoid_mem_Ioo hy1 hy2)).trans (by norm_num))
  refine c.trans ?_
  have := abs_nonneg (t - t')
  norm_num
  linarith

theorem fracQuenchCen_lip {p : PF → ℝ} (hp : InPBounds p) (m m' t t' : ℝ) :
    |fracQuenchCen (sfhPdfPart p) m t - fracQuenchCen (sfhPdfPart p) m' t'| ≤ 1.25 * |m - m'| + 12 * |t - t'| := by
  simp only [fracQuenchCen, sfhPdfPart_apply]
  exact frac_lip (field_mem hp (.inl .frac_quench_cen_k_tpeak) bnd) (field_mem hp (.inl .frac_quench_cen_x0_ylotpeak) bnd)
    (field_mem hp (.inl .frac_quench_cen_x0_yhitpeak) bnd) (field_mem hp (.inl .frac_quench_cen_ylo_ylotpeak) bnd)
    (field_mem hp (.inl .frac_quench_cen_ylo_yhitpeak) bnd) (field_mem hp (.inl .frac_quench_cen_k) bnd) (field_mem hp (.inl .frac_quench_cen_yhi) bnd)

theorem fracQuenchSat_lip {p : PF → ℝ} (hp : InPBounds p) (m m' t t' : ℝ) :
    |fracQuenchSat (sfhPdfPart p) m t - fracQuenchSat (sfhPdfPart p) m' t'| ≤ 1.25 * |m - m'| + 12 * |t - t'| := by
  simp only [fracQuenchSat, sfhPdfPart_apply]
  exact frac_lip (field_mem hp (.inl .frac_quench_sat_k_tpeak) bnd) (field_mem hp (.inl .frac_quench_sat_x0_ylotpeak) bnd)
    (field_mem hp (.inl .frac_quench_sat_x0_yhitpeak) bnd) (field_mem hp (.inl .frac_quench_sat_ylo_ylotpeak) bnd)
    (field_mem hp (.inl .frac_quench_sat_ylo_yhitpeak) bnd) (field_mem hp (.inl .frac_quench_sat_k) bnd) (field_mem hp (.inl .frac_quench_sat_yhi) bnd)

theorem fracDelta_lip {p : PF → ℝ} (hp : InPBounds p) (mu mu' mh mh' t t' : ℝ) :
    |predictSatFracDeltaQprob (satquenchPart p) mu mh t - predictSatFracDeltaQprob (satquenchPart p) mu' mh' t'| ≤
      0.5 * |mu - mu'| + 25 * |mh - mh'| + 1.25 * |t - t'| := by
  simp only [predictSatFracDeltaQprob, satquenchKernel, qprobHiVsSubHostMass, tDelayVsLogmhost, satquenchPart_apply, DEFAULT_Q_SPEED, DEFAULT_LGMH_K,
    LGMU_SPEED]
  have q1 := field_mem hp (.inr .lgmu_lo_mh_lo) (a := 0) (b := 1) bnd
  have q2 := field_mem hp (.inr .lgmu_hi_mh_lo) (a := 0) (b := 1) bnd
  have q3 := field_mem hp (.inr .lgmu_lo_mh_hi) (a := 0) (b := 1) bnd
  have q4 := field_mem hp (.inr .lgmu_hi_mh_hi) (a := 0) (b := 1) bnd
  have d1 := field_mem hp (.inr .td_mlo) (a := -5) (b := 10) bnd
  have d2 := field_mem hp (.inr .td_mhi) (a := -5) (b := 10) bnd
  generalize p (.inr .lgmu_lo_mh_lo) = l1 at *
  generalize p (.inr .lgmu_hi_mh_lo) = l2 at *
  generalize p (.inr .lgmu_lo_mh_hi) = l3 at *
  generalize p (.inr .lgmu_hi_mh_hi) = l4 at *
  generalize p (.inr .td_mlo) = t1 at *
  generalize p (.inr .td_mhi) = t2 at *
  generalize p (.inr .qphi_lgmu_crit) = c1
  generalize p (.inr .qp_lgmh_crit) = c2
  generalize p (.inr .td_lgmhc) = c3
  have n1 := abs_nonneg (mu - mu')
  have n2 := abs_nonneg (mh - mh')
  have n3 := abs_nonneg (t - t')
  have a := sigmoid_lip (x := mu) (x' := mu') (x0 := c1) (x0' := c1) (k := 2) (lo := l1) (lo' := l1) (hi := l2) (hi' := l2) (b := 0) (E := 0)
    (kmax := 2) (D := 1) ⟨by norm_num, le_rfl⟩ le_rfl (by simp) (by simp) (by simp) ((width_le q2 q1).trans (by norm_num))
  have b := sigmoid_lip (x := mu) (x' := mu') (x0 := c1) (x0' := c1) (k := 2) (lo := l3) (lo' := l3) (hi := l4) (hi' := l4) (b := 0) (E := 0)
    (kmax := 2) (D := 1) ⟨by norm_num, le_rfl⟩ le_rfl (by simp) (by simp) (by simp) ((width_le q4 q3).trans (by norm_num))
  have c := sigmoid_lip (x := mh) (x' := mh') (x0 := c2) (x0' := c2) (k := 5) (b := 0) (kmax := 5) (D := 1) ⟨by norm_num, le_rfl⟩ le_rfl (by simp) a b
    ((width_le (sigmoid_mem_Ioo q3 q4) (sigmoid_mem_Ioo q1 q2)).trans (by norm_num))
  have d := sigmoid_lip (x := mh) (x' := mh') (x0 := c3) (x0' := c3) (k := 5) (lo := t1) (lo' := t1) (hi := t2) (hi' := t2) (b := 0) (E := 0)
    (kmax := 5) (D := 15) ⟨by norm_num, le_rfl⟩ le_rfl (by simp) (by simp) (by simp) ((width_le d2 d1).trans (by norm_num))
  have q0 := sigmoid_mem_Ioo (x := mh') (x0 := c2) (k := 5) (sigmoid_mem_Ioo (x := mu') (x0 := c1) (k := 2) q1 q2)
    (sigmoid_mem_Ioo (x := mu') (x0 := c1) (k := 2) q3 q4)
  have e := sigmoid_lip (x := t) (x' := t') (k := 5) (lo := 0) (lo' := 0) (kmax := 5) (D := 1) ⟨by norm_num, le_rfl⟩ le_rfl d
    (by rw [sub_self, abs_zero]; linarith) c (abs_le.2 ⟨by linarith, by linarith⟩)
  refine e.trans ?_
  norm_num
  linarith

/-- **C146**: the quenched fraction of a halo, for any population parameters produced by the bounding transform, changes by at most 1.25 per
dex of peak mass, 12 per Gyr of peak time and, for satellites, 0.5 per dex of mass ratio at infall, 25 per dex of host mass at infall and
1.25 per Gyr since infall. -/
theorem C146_frac_quench {K : Type} (rng : Rng K) (u : PF → ℝ) (logmp0 logmp0' tpeak tpeak' : ℝ) (upid : ℤ)
    (lgmu lgmu' logmhost logmhost' gyr gyr' : ℝ) (key : K) :
    |(mcDiffstarParamsSinglegal rng (getBoundedDiffstarpopParams u) logmp0 tpeak upid lgmu logmhost gyr key).fracQ -
        (mcDiffstarParamsSinglegal rng (getBoundedDiffstarpopParams u) logmp0' tpeak' upid lgmu' logmhost' gyr' key).fracQ| ≤
      1.25 * |logmp0 - logmp0'| + 12 * |tpeak - tpeak'| +
        (if upid = -1 then 0 else 0.5 * |lgmu - lgmu'| + 25 * |logmhost - logmhost'| + 1.25 * |gyr - gyr'|) := by
  have hp := getBounded_in u
  simp only [mcDiffstarParamsSinglegal, mcDiffstarUParamsSinglegalKernel, diffstarpopMeansCovs, sfhPdfScalarKernel]
  split_ifs with hc
  · rw [add_zero]
    exact fracQuenchCen_lip hp _ _ _ _
  · simp only [getQprobSat]
    have a := fracQuenchSat_lip hp logmp0 logmp0' tpeak tpeak'
    have b := fracDelta_lip hp lgmu lgmu' logmhost logmhost' gyr gyr'
    have q1 := fracQuenchSat_mem hp logmp0 tpeak
    have d1 := fracDelta_mem (p := satquenchPart (getBoundedDiffstarpopParams u)) (fun f => by rw [satquenchPart_apply]; exact hp (.inr f)) lgmu' logmhost' gyr'
    generalize fracQuenchSat (sfhPdfPart (getBoundedDiffstarpopParams u)) logmp0 tpeak = q at *
    generalize fracQuenchSat (sfhPdfPart (getBoundedDiffstarpopParams u)) logmp0' tpeak' = q' at *
    generalize predictSatFracDeltaQprob (satquenchPart (getBoundedDiffstarpopParams u)) lgmu logmhost gyr = d at *
    generalize predictSatFracDeltaQprob (satquenchPart (getBoundedDiffstarpopParams u)) lgmu' logmhost' gyr' = d' at *
    rw [show q + d * (1 - q) - (q' + d' * (1 - q')) = (q - q') * (1 - d') + (d - d') * (1 - q) by ring]
    refine (abs_add_le _ _).trans (add_le_add ?_ ?_)
    · rw [abs_mul, abs_of_nonneg (show 0 ≤ 1 - d' by linarith)]
      exact (mul_le_of_le_one_right (abs_nonneg _) (by linarith)).trans a
    · rw [abs_mul, abs_of_nonneg (show 0 ≤ 1 - q by linarith)]
      exact (mul_le_of_le_one_right (abs_nonneg _) (by linarith)).trans b

open Classical in
/-- **C146**: two halo catalogues of the same galaxies, run with the same key and the same uniform draws: the flag of galaxy `i` differs
with probability at most the change of its quenched fraction as bounded above, and the number of flags that differ has expectation at most
the sum of these bounds. -/
theorem C146_population_flags {K : Type} {n : ℕ} (rng : Rng K) (key : K) (r : (Fin n → ℝ) → Rng K) (hr : Spec.UniformDraws rng key r)
    (logMah logMah' : MahParams ℝ → ℝ → ℝ → ℝ) (u : PF → ℝ) (mah mah' : MahParams (Fin n → ℝ)) (logmp0 logmp0' : Fin n → ℝ) (upid : Fin n → ℤ)
    (lgmu lgmu' logmhost logmhost' gyr gyr' : Fin n → ℝ) (tarr tarr' : List ℝ) (lgt0 lgt0' fb fb' : ℝ) :
    let p := getBoundedDiffstarpopParams u
    let g := fun (x : Fin n → ℝ) => mcDiffstarSfhGalpop (r x) logMah p mah logmp0 upid lgmu logmhost gyr key tarr lgt0 fb
    let g' := fun (x : Fin n → ℝ) => mcDiffstarSfhGalpop (r x) logMah' p mah' logmp0' upid lgmu' logmhost' gyr' key tarr' lgt0' fb'
    let bound := fun i => 1.25 * |logmp0 i - logmp0' i| + 12 * |mah.tPeak i - mah'.tPeak i| +
        (if upid i = -1 then 0 else 0.5 * |lgmu i - lgmu' i| + 25 * |logmhost i - logmhost' i| + 1.25 * |gyr i - gyr' i|)
    (∀ i, Spec.unifs n {x | ¬((g x i).mcIsQ ↔ (g' x i).mcIsQ)} ≤ ENNReal.ofReal (bound i)) ∧
      ∫⁻ x, (Finset.univ.filter fun i => ¬((g x i).mcIsQ ↔ (g' x i).mcIsQ)).card ∂Spec.unifs n ≤ ENNReal.ofReal (∑ i, bound i) := by
  intro p g g' bound
  have hset : ∀ i, ∃ f f' : ℝ, |f - f'| ≤ bound i ∧
      {x | ¬((g x i).mcIsQ ↔ (g' x i).mcIsQ)} = Function.eval i ⁻¹' {y : ℝ | ¬(y < f ↔ y < f')} := by
    intro i
    refine ⟨_, _, C146_frac_quench rng u (logmp0 i) (logmp0' i) (mah.tPeak i) (mah'.tPeak i) (upid i) (lgmu i) (lgmu' i) (logmhost i) (logmhost' i)
      (gyr i) (gyr' i) (rng.split key n i), ?_⟩
    ext x
    have h1 := (galpop_draws hr logMah p mah logmp0 upid lgmu logmhost gyr tarr lgt0 fb x i).2.2.2.2.2
    have h2 := (galpop_draws hr logMah' p mah' logmp0' upid lgmu' logmhost' gyr' tarr' lgt0' fb' x i).2.2.2.2.2
    exact not_congr (iff_congr h1 h2)
  have hmeas : ∀ i, MeasurableSet {x | ¬((g x i).mcIsQ ↔ (g' x i).mcIsQ)} := by
    intro i
    obtain ⟨f, f', -, e⟩ := hset i
    rw [e]
    exact measurable_pi_apply i (MeasurableSet.iff measurableSet_Iio measurableSet_Iio).compl
  have h1 : ∀ i, Spec.unifs n {x | ¬((g x i).mcIsQ ↔ (g' x i).mcIsQ)} ≤ ENNReal.ofReal (bound i) := by
    intro i
    obtain ⟨f, f', he, e⟩ := hset i
    have hm : MeasurableSet {y : ℝ | ¬(y < f ↔ y < f')} := (MeasurableSet.iff measurableSet_Iio measurableSet_Iio).compl
    rw [e, Spec.unifs, (measurePreserving_eval (fun _ => Spec.unif) i).measure_preimage hm.nullMeasurableSet]
    exact unif_between _ _ _ he
  refine ⟨h1, ?_⟩
  have hb : ∀ i ∈ Finset.univ, 0 ≤ bound i := by
    intro i _
    simp only [bound]
    split_ifs <;> positivity
  have hcard : ∀ x, ((Finset.univ.filter fun i => ¬((g x i).mcIsQ ↔ (g' x i).mcIsQ)).card : ENNReal) =
      ∑ i, ({x | ¬((g x i).mcIsQ ↔ (g' x i).mcIsQ)} : Set (Fin n → ℝ)).indicator 1 x := by
    intro x
    rw [Finset.card_filter, Nat.cast_sum]
    refine Finset.sum_congr rfl fun i _ => ?_
    by_cases h : (g x i).mcIsQ ↔ (g' x i).mcIsQ <;> simp [Set.indicator, h]
  simp only [hcard]
  rw [lintegral_finsetSum _ fun i _ => measurable_one.indicator (hmeas i), ENNReal.ofReal_sum_of_nonneg hb]
  refine Finset.sum_le_sum fun i _ => ?_
  rw [lintegral_indicator_one (hmeas i)]
  exact h1 i

/-- **C146**, parameters returned by the bounding transform: halo masses known to `δ` dex give the histories within a factor `10^(7δ)`. -/
theorem C146_histories_bounded {M M' : Type*} (logMah : M → ℝ → ℝ → ℝ) (logMah' : M' → ℝ → ℝ → ℝ) (u : DiffstarParams ℝ) {δ τ : ℝ} (mah : M)
    (mah' : M') (tarr : List ℝ) (ht : Increasing (0.001 :: tarr)) (lgt0 lgt0' fb : ℝ) (hfb : 0 < fb) (hδ : 0 ≤ δ) (hτ : 0 < τ)
    (hm : ∀ t ∈ tarr, |logMah mah t lgt0 - logMah' mah' t lgt0'| ≤ δ) :
    let g := calcSfhSinglegalSmh logMah (getBoundedDiffstarParams u) mah tarr lgt0 fb
    let g' := calcSfhSinglegalSmh logMah' (getBoundedDiffstarParams u) mah' tarr lgt0' fb
    let Close := List.Forall₂ fun x x' : ℝ => x' ≤ (10 : ℝ) ^ (7 * δ) * x ∧ x ≤ (10 : ℝ) ^ (7 * δ) * x'
    Close g.sfh g'.sfh ∧ Close g.smh g'.smh ∧ Close (computeFstar tarr g.smh τ) (computeFstar tarr g'.smh τ) := by
  have hb := C01_bounded_params_in_bounds u
  have h := C146_histories logMah logMah' (getBoundedDiffstarParams u) (A := 5) ⟨hb.indxLo.1.le, hb.indxLo.2.le⟩ ⟨hb.indxHi.1.le, hb.indxHi.2.le⟩
    mah mah' tarr ht lgt0 lgt0' fb hfb hδ hτ hm
  rwa [show (1 + 1.2 * 5 : ℝ) = 7 by norm_num] at h

/-- `A = 1` serves for the default galaxy. -/
example : (0 ≤ DEFAULT_DIFFSTAR_PARAMS.indxLo ∧ DEFAULT_DIFFSTAR_PARAMS.indxLo ≤ 1) ∧
    (-1 ≤ DEFAULT_DIFFSTAR_PARAMS.indxHi ∧ DEFAULT_DIFFSTAR_PARAMS.indxHi ≤ 0) := by
  norm_num [DEFAULT_DIFFSTAR_PARAMS, DiffstarParams.join, DEFAULT_MS_PARAMS]

/-- A table and a pair of halo histories (here: constant masses 0.01 dex apart) that meet the hypotheses of `C146_histories`. -/
example : Increasing (0.001 :: [1, 5, 13.8]) ∧
    ∀ t ∈ [(1 : ℝ), 5, 13.8], |(fun (m : ℝ) (_ _ : ℝ) => m) 12 t 1.14 - (fun (m : ℝ) (_ _ : ℝ) => m) 12.01 t 1.14| ≤ 0.01 := by
  unfold Increasing
  norm_num

end Diffstar.Props
