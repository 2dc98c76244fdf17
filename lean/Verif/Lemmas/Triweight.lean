import Verif.Model.Quenching
import Mathlib.Analysis.Calculus.Deriv.Pow
import Mathlib.Analysis.Calculus.Deriv.Add
import Mathlib.Analysis.Calculus.Deriv.Mul
import Mathlib.Analysis.Calculus.MeanValue
import Mathlib.Analysis.Calculus.Deriv.MeanValue
import Mathlib.Tactic.Linarith
import Mathlib.Tactic.NormNum
import Mathlib.Tactic.Positivity

/-! Facts about the triweight cumulative kernel `jaxTw`. -/

namespace Diffstar

/-- The polynomial piece. -/
noncomputable def twPoly (y : ℝ) : ℝ :=
  -5 * y ^ 7 / 69984 + 7 * y ^ 5 / 2592 - 35 * y ^ 3 / 864 + 35 * y / 96 + 1 / 2

theorem twPoly_neg3 : twPoly (-3) = 0 := by unfold twPoly; norm_num
theorem twPoly_3 : twPoly 3 = 1 := by unfold twPoly; norm_num
theorem twPoly_add_neg (y : ℝ) : twPoly y + twPoly (-y) = 1 := by unfold twPoly; ring

theorem jaxTw_lo {y : ℝ} (h : y ≤ -3) : jaxTw y = 0 := by
  unfold jaxTw
  rcases h.lt_or_eq with h | h
  · simp [h, show ¬ (3 < y) by linarith]
  · subst h; norm_num

theorem jaxTw_hi {y : ℝ} (h : 3 ≤ y) : jaxTw y = 1 := by
  unfold jaxTw
  rcases h.lt_or_eq with h | h
  · simp [h]
  · subst h; norm_num

theorem jaxTw_mid {y : ℝ} (h1 : -3 ≤ y) (h2 : y ≤ 3) : jaxTw y = twPoly y := by
  unfold jaxTw twPoly
  simp only [show ¬ (y < -3) by linarith, show ¬ (y > 3) by linarith, if_false]
  norm_num

theorem twPoly_hasDerivAt (y : ℝ) : HasDerivAt twPoly (35 / 96 * (1 - y ^ 2 / 9) ^ 3) y := by
  have h : HasDerivAt twPoly
      (-5 * (((7 : ℕ) : ℝ) * y ^ (7 - 1)) / 69984 + 7 * (((5 : ℕ) : ℝ) * y ^ (5 - 1)) / 2592
        - 35 * (((3 : ℕ) : ℝ) * y ^ (3 - 1)) / 864 + 35 * 1 / 96) y := by
    unfold twPoly
    exact ((((((hasDerivAt_pow 7 y).const_mul (-5)).div_const 69984).add
      (((hasDerivAt_pow 5 y).const_mul 7).div_const 2592)).sub
      (((hasDerivAt_pow 3 y).const_mul 35).div_const 864)).add
      (((hasDerivAt_id y).const_mul 35).div_const 96)).add_const (1 / 2)
  convert h using 1
  norm_num
  ring

/-- Triweight density. -/
noncomputable def twDensity (y : ℝ) : ℝ := if |y| ≤ 3 then 35 / 96 * (1 - y ^ 2 / 9) ^ 3 else 0

theorem twDensity_nonneg (y : ℝ) : 0 ≤ twDensity y := by
  unfold twDensity
  split_ifs with h
  · have : y ^ 2 ≤ 9 := by
      have := sq_le_sq' (abs_le.1 h).1 (abs_le.1 h).2
      norm_num at this; exact this
    have : 0 ≤ 1 - y ^ 2 / 9 := by linarith
    positivity
  · exact le_rfl

theorem twDensity_pos {y : ℝ} (h : |y| < 3) : 0 < twDensity y := by
  unfold twDensity
  rw [if_pos h.le]
  have : y ^ 2 < 9 := by
    have := sq_lt_sq' (abs_lt.1 h).1 (abs_lt.1 h).2
    norm_num at this; exact this
  have : 0 < 1 - y ^ 2 / 9 := by linarith
  positivity

open Set Filter in
theorem jaxTw_hasDerivAt (y : ℝ) : HasDerivAt jaxTw (twDensity y) y := by
  have hconst0 : ∀ y : ℝ, y ≤ -3 → HasDerivWithinAt jaxTw 0 (Iic (-3)) y := fun y hy =>
    (hasDerivWithinAt_const y _ (0 : ℝ)).congr (fun x hx => jaxTw_lo hx) (jaxTw_lo hy)
  have hconst1 : ∀ y : ℝ, 3 ≤ y → HasDerivWithinAt jaxTw 0 (Ici 3) y := fun y hy =>
    (hasDerivWithinAt_const y _ (1 : ℝ)).congr (fun x hx => jaxTw_hi hx) (jaxTw_hi hy)
  have hmid : ∀ y : ℝ, -3 ≤ y → y ≤ 3 →
      HasDerivWithinAt jaxTw (35 / 96 * (1 - y ^ 2 / 9) ^ 3) (Icc (-3) 3) y := fun y h1 h2 =>
    (twPoly_hasDerivAt y).hasDerivWithinAt.congr (fun x hx => jaxTw_mid hx.1 hx.2)
      (jaxTw_mid h1 h2)
  rcases lt_trichotomy y (-3) with h | h | h
  · have e : twDensity y = 0 := by
      unfold twDensity; rw [if_neg]; rw [abs_of_neg (by linarith)]; linarith
    rw [e]
    exact (hconst0 y h.le).hasDerivAt (Iic_mem_nhds h)
  · have e : twDensity y = 0 := by unfold twDensity; subst h; norm_num
    rw [e]
    have a := hconst0 y h.le
    have b := hmid y h.ge (by linarith)
    rw [show (35 / 96 * (1 - y ^ 2 / 9) ^ 3 : ℝ) = 0 by subst h; norm_num] at b
    exact (a.union b).hasDerivAt (by
      rw [Iic_union_Icc_eq_Iic (by norm_num)]
      exact Iic_mem_nhds (by linarith))
  · rcases lt_trichotomy y 3 with h' | h' | h'
    · have e : twDensity y = 35 / 96 * (1 - y ^ 2 / 9) ^ 3 := by
        unfold twDensity; rw [if_pos (abs_le.2 ⟨h.le, h'.le⟩)]
      rw [e]
      exact (hmid y h.le h'.le).hasDerivAt (Icc_mem_nhds h h')
    · have e : twDensity y = 0 := by unfold twDensity; subst h'; norm_num
      rw [e]
      have a := hconst1 y h'.ge
      have b := hmid y h.le h'.le
      rw [show (35 / 96 * (1 - y ^ 2 / 9) ^ 3 : ℝ) = 0 by subst h'; norm_num] at b
      exact (b.union a).hasDerivAt (by
        rw [Icc_union_Ici_eq_Ici (by norm_num)]
        exact Ici_mem_nhds (by linarith))
    · have e : twDensity y = 0 := by
        unfold twDensity; rw [if_neg]; rw [abs_of_pos (by linarith)]; linarith
      rw [e]
      exact (hconst1 y h'.le).hasDerivAt (Ici_mem_nhds h')

theorem jaxTw_differentiable : Differentiable ℝ jaxTw := fun y => (jaxTw_hasDerivAt y).differentiableAt

theorem jaxTw_continuous : Continuous jaxTw := jaxTw_differentiable.continuous

theorem jaxTw_mono : Monotone jaxTw :=
  monotone_of_deriv_nonneg jaxTw_differentiable fun y => by
    rw [(jaxTw_hasDerivAt y).deriv]; exact twDensity_nonneg y

theorem jaxTw_nonneg (y : ℝ) : 0 ≤ jaxTw y := by
  have := jaxTw_mono (min_le_left y (-3))
  rwa [jaxTw_lo (min_le_right y (-3))] at this

theorem jaxTw_le_one (y : ℝ) : jaxTw y ≤ 1 := by
  have := jaxTw_mono (le_max_left y 3)
  rwa [jaxTw_hi (le_max_right y 3)] at this

open Set in
theorem jaxTw_strictMonoOn : StrictMonoOn jaxTw (Icc (-3) 3) := by
  apply strictMonoOn_of_deriv_pos (convex_Icc _ _) jaxTw_continuous.continuousOn
  intro y hy
  rw [interior_Icc] at hy
  rw [(jaxTw_hasDerivAt y).deriv]
  exact twDensity_pos (abs_lt.2 ⟨hy.1, hy.2⟩)

theorem jaxTw_add_neg (y : ℝ) : jaxTw y + jaxTw (-y) = 1 := by
  rcases le_total y (-3) with h | h
  · rw [jaxTw_lo h, jaxTw_hi (by linarith)]; norm_num
  · rcases le_total y 3 with h' | h'
    · rw [jaxTw_mid h h', jaxTw_mid (by linarith) (by linarith)]; exact twPoly_add_neg y
    · rw [jaxTw_hi h', jaxTw_lo (by linarith)]; norm_num

/-- `tw_cuml_jax_kern(x, m, h) = _jax_tw((x - m) / h)`. -/
theorem twCumlJaxKern_eq (x m h : ℝ) : twCumlJaxKern x m h = jaxTw ((x - m) / h) := by
  unfold twCumlJaxKern jaxTw
  simp only
  by_cases h1 : (x - m) / h < -3
  · simp [h1, show ¬ (3 < (x - m) / h) by linarith]
  · by_cases h2 : (x - m) / h > 3
    · simp [h1, h2]
    · simp only [h1, h2, if_false]; norm_num

end Diffstar
