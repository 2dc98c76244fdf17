import Verif.Props.Sfh

/-!
C112: star formation history of the default galaxy.
-/

namespace Diffstar.Props

open Diffstar Diffstar.Spec

theorem default_dt : 0.309 < (10 : ℝ) ^ (-0.50725 : ℝ) ∧ (10 : ℝ) ^ (-0.50725 : ℝ) < 0.317 := by
  constructor
  · have h : (0.309 : ℝ) ^ (100 : ℕ) < ((10 : ℝ) ^ (-0.51 : ℝ)) ^ (100 : ℕ) := by
      rw [← Real.rpow_natCast ((10 : ℝ) ^ (-0.51 : ℝ)), ← Real.rpow_mul (by norm_num)]
      norm_num
    have h1 : (0.309 : ℝ) < (10 : ℝ) ^ (-0.51 : ℝ) := lt_of_pow_lt_pow_left₀ 100 (by positivity) h
    exact h1.trans (Real.rpow_lt_rpow_of_exponent_lt (by norm_num) (by norm_num))
  · have h : ((10 : ℝ) ^ (-0.5 : ℝ)) ^ (2 : ℕ) < (0.317 : ℝ) ^ (2 : ℕ) := by
      rw [← Real.rpow_natCast ((10 : ℝ) ^ (-0.5 : ℝ)), ← Real.rpow_mul (by norm_num)]
      norm_num
    have h1 : (10 : ℝ) ^ (-0.5 : ℝ) < 0.317 := lt_of_pow_lt_pow_left₀ 2 (by positivity) h
    exact (Real.rpow_lt_rpow_of_exponent_lt (by norm_num) (by norm_num)).trans h1

theorem logb_le_of_pow {x : ℝ} {a b : ℕ} (hx : 0 < x) (hb : 0 < b) (h : x ^ b ≤ 10 ^ a) : Real.logb 10 x ≤ a / b := by
  have h1 : Real.logb 10 (x ^ b) ≤ Real.logb 10 (10 ^ a) := Real.logb_le_logb_of_le (by norm_num) (by positivity) h
  rw [Real.logb_pow, Real.logb_pow, Real.logb_self_eq_one (by norm_num), mul_one] at h1
  rw [le_div_iff₀ (by positivity)]
  linarith

theorem le_logb_of_pow {x : ℝ} {a b : ℕ} (hb : 0 < b) (h : 10 ^ a ≤ x ^ b) : a / b ≤ Real.logb 10 x := by
  have h1 : Real.logb 10 (10 ^ a) ≤ Real.logb 10 (x ^ b) := Real.logb_le_logb_of_le (by norm_num) (by positivity) h
  rw [Real.logb_pow, Real.logb_pow, Real.logb_self_eq_one (by norm_num), mul_one] at h1
  rw [div_le_iff₀ (by positivity)]
  linarith

theorem default_efficiency (lgm : ℝ) : msLogEfficiency DEFAULT_DIFFSTAR_PARAMS lgm =
    -10 - |lgm - 12| + 2 * |lgm - 12| / (1 + Real.exp (9 * |lgm - 12|)) := by
  simp only [msLogEfficiency, DEFAULT_DIFFSTAR_PARAMS, DEFAULT_MS_PARAMS, DEFAULT_Q_PARAMS, DiffstarParams.join]
  have hp : ∀ x : ℝ, 0 < Real.exp x := Real.exp_pos
  rcases abs_cases (lgm - 12) with ⟨h, _⟩ | ⟨h, _⟩ <;> rw [h]
  · set d := lgm - 12
    rw [Real.exp_neg]
    have := hp (9 * d)
    set E := Real.exp (9 * d)
    field_simp
    ring
  · set d := lgm - 12
    simp only [mul_neg]
    have := hp (-(9 * d))
    generalize Real.exp (-(9 * d)) = E at this ⊢
    field_simp
    ring

/-- **C112.** A galaxy with the default parameters forms stars with an efficiency that depends on halo mass only through
the distance from `10**12` Msun: at most `1e-10` per year, reached exactly there, and falling at most linearly on both
sides. It is unquenched until 6.9 Gyr, suppressed by `10**-1.01773` at 10 Gyr and, from 14.5 Gyr on, by
`10**-0.212307`; the suppression is never stronger than at 10 Gyr. -/
theorem C112_default_galaxy {M : Type*} (logMah : M → ℝ → ℝ → ℝ) (mah : M) (tarr : List ℝ) (lgt0 fb : ℝ) (i : ℕ)
    (hi : i < tarr.length) (ht : 0 < tarr[i]) :
    let d := |logMah mah tarr[i] lgt0 - 12|
    ∃ s e f, (calcSfhSinglegal logMah DEFAULT_DIFFSTAR_PARAMS mah tarr lgt0 fb)[i]? = some s ∧
      s = max (1 / 10 ^ 14) (fb * (10 : ℝ) ^ logMah mah tarr[i] lgt0 * (10 : ℝ) ^ e * f) ∧
      e = -10 - d + 2 * d / (1 + Real.exp (9 * d)) ∧ -10 - d ≤ e ∧ e ≤ -10 ∧ (e = -10 ↔ d = 0) ∧
      (tarr[i] ≤ 6.9 → f = 1) ∧ (tarr[i] = 10 → f = (10 : ℝ) ^ (-1.01773 : ℝ)) ∧
      (14.5 ≤ tarr[i] → f = (10 : ℝ) ^ (-0.212307 : ℝ)) ∧ (10 : ℝ) ^ (-1.01773 : ℝ) ≤ f ∧ f ≤ 1 ∧
      (10 ≤ tarr[i] → f ≤ (10 : ℝ) ^ (-0.212307 : ℝ)) := by
  intro d
  have hd : 0 ≤ d := abs_nonneg _
  obtain ⟨a1, a2⟩ := default_dt
  have hq : ∀ x, quenchingKern x DEFAULT_DIFFSTAR_PARAMS.lgQt ((10 : ℝ) ^ DEFAULT_DIFFSTAR_PARAMS.qlglgdt)
      DEFAULT_DIFFSTAR_PARAMS.lgDrop DEFAULT_DIFFSTAR_PARAMS.lgRejuv =
      quenchingKern x 1 ((10 : ℝ) ^ (-0.50725 : ℝ)) (-1.01773) (-0.212307) := fun x => rfl
  obtain ⟨q1, q2, q3, q4⟩ := C05_quenching_range (Real.logb 10 tarr[i]) 1 ((10 : ℝ) ^ (-0.50725 : ℝ)) (-1.01773)
    (-0.212307) (by positivity)
  obtain ⟨q5, q6, q7⟩ := q4 (by norm_num) (by norm_num)
  have hE : (2 : ℝ) ≤ 1 + Real.exp (9 * d) := by
    have : (1 : ℝ) ≤ Real.exp (9 * d) := Real.one_le_exp (by positivity)
    linarith
  refine ⟨_, _, quenchingKern (Real.logb 10 tarr[i]) 1 ((10 : ℝ) ^ (-0.50725 : ℝ)) (-1.01773) (-0.212307),
    by rw [calcSfhSinglegal_eq, List.getElem?_map, List.getElem?_eq_getElem hi]; rfl, ?_, rfl, ?_, ?_, ?_, ?_, ?_, ?_, q5,
    q6, ?_⟩
  · beta_reduce
    rw [← quenchingKern_eq, hq, ← default_efficiency]
    unfold msSfr
    congr 1
    ring
  · have : 0 ≤ 2 * d / (1 + Real.exp (9 * d)) := by positivity
    linarith
  · have : 2 * d / (1 + Real.exp (9 * d)) ≤ d := by
      rw [div_le_iff₀ (by linarith)]
      nlinarith
    linarith
  · constructor
    · intro h
      by_contra h0
      have hpos : 0 < d := lt_of_le_of_ne hd (Ne.symm h0)
      have : 2 * d / (1 + Real.exp (9 * d)) < d := by
        have hE' : (1 : ℝ) < Real.exp (9 * d) := Real.one_lt_exp_iff.2 (by positivity)
        rw [div_lt_iff₀ (by linarith)]
        nlinarith
      linarith
    · intro h
      rw [h]
      simp
  · intro h
    apply q1
    have : Real.logb 10 tarr[i] ≤ (21 : ℕ) / (25 : ℕ) := by
      refine logb_le_of_pow ht (by norm_num) ((pow_le_pow_left₀ ht.le h 25).trans ?_)
      norm_num
    norm_num at this
    linarith
  · intro h
    rw [h, Real.logb_self_eq_one (by norm_num)]
    exact q2
  · intro h
    apply q3
    have : (29 : ℕ) / (25 : ℕ) ≤ Real.logb 10 tarr[i] := by
      refine le_logb_of_pow (by norm_num) (le_trans ?_ (pow_le_pow_left₀ (by norm_num) h 25))
      norm_num
    norm_num at this
    linarith
  · intro h
    apply q7
    rw [Real.le_logb_iff_rpow_le (by norm_num) ht]
    simpa using h

/-- A halo of `10**12` Msun at 1 Gyr: 15.6 Msun/yr. -/
example : (calcSfhSinglegal (M := Unit) (fun _ _ _ => 12) DEFAULT_DIFFSTAR_PARAMS () [1] 1.14 0.156)[0]? =
    some (15.6 : ℝ) := by
  obtain ⟨s, e, f, h1, h2, h3, _, _, h4, h5, _⟩ := C112_default_galaxy (M := Unit) (fun _ _ _ => 12) () [1] 1.14 0.156 0
    (by simp) (by simp)
  have he : e = -10 := h4.2 (by norm_num)
  have hf : f = 1 := h5 (by norm_num)
  rw [h1, h2, he, hf]
  norm_num

end Diffstar.Props
