import Verif.Lemmas.Sfh
import Verif.Lemmas.Cumtrapz
import Mathlib.Analysis.Calculus.ContDiff.Deriv
import Mathlib.Analysis.SpecialFunctions.ExpDeriv
import Mathlib.Analysis.Calculus.Deriv.Pow

/-! Smoothness of the triweight step, of the sigmoid and of the quenching exponent. -/

namespace Diffstar

open Set

theorem hasDerivAt_posPart_pow (n : ℕ) (x : ℝ) :
    HasDerivAt (fun x : ℝ => max x 0 ^ (n + 2)) ((n + 2 : ℕ) * max x 0 ^ (n + 1)) x := by
  have hlo : ∀ y : ℝ, y ≤ 0 → HasDerivWithinAt (fun x : ℝ => max x 0 ^ (n + 2)) 0 (Iic 0) y := fun y hy =>
    (hasDerivWithinAt_const y _ (0 : ℝ)).congr (fun x hx => by simp [max_eq_right (mem_Iic.1 hx)])
      (by simp [max_eq_right hy])
  have hhi : ∀ y : ℝ, 0 ≤ y →
      HasDerivWithinAt (fun x : ℝ => max x 0 ^ (n + 2)) ((n + 2 : ℕ) * y ^ (n + 1)) (Ici 0) y := fun y hy =>
    ((hasDerivAt_pow (n + 2) y).hasDerivWithinAt).congr (fun x hx => by simp [max_eq_left (mem_Ici.1 hx)])
      (by simp [max_eq_left hy])
  rcases lt_trichotomy x 0 with h | h | h
  · rw [max_eq_right h.le]
    simpa using (hlo x h.le).hasDerivAt (Iic_mem_nhds h)
  · subst h
    have a := hlo 0 le_rfl
    have b := hhi 0 le_rfl
    simp only [ne_eq, Nat.add_eq_zero_iff, one_ne_zero, and_false, not_false_eq_true, zero_pow, mul_zero] at b
    simp only [max_self, ne_eq, Nat.add_eq_zero_iff, one_ne_zero, and_false, not_false_eq_true, zero_pow, mul_zero]
    exact (a.union b).hasDerivAt (by rw [Iic_union_Ici]; exact Filter.univ_mem)
  · rw [max_eq_left h.le]
    exact (hhi x h.le).hasDerivAt (Ici_mem_nhds h)

theorem contDiff_posPart_pow (n : ℕ) : ContDiff ℝ n (fun x : ℝ => max x 0 ^ (n + 1)) := by
  induction n with
  | zero =>
    have : Continuous (fun x : ℝ => max x 0 ^ (0 + 1)) := by fun_prop
    exact_mod_cast (contDiff_zero (𝕜 := ℝ)).2 this
  | succ n ih =>
    have := contDiff_succ_iff_deriv (𝕜 := ℝ) (n := n) (f := fun x : ℝ => max x 0 ^ (n + 1 + 1))
    push_cast
    rw [this]
    refine ⟨fun x => (hasDerivAt_posPart_pow n x).differentiableAt, by simp, ?_⟩
    have e : deriv (fun x : ℝ => max x 0 ^ (n + 1 + 1)) = fun x => ((n + 2 : ℕ) : ℝ) * max x 0 ^ (n + 1) :=
      funext fun x => (hasDerivAt_posPart_pow n x).deriv
    rw [e]
    exact contDiff_const.mul ih

theorem twDensity_eq (y : ℝ) : twDensity y = 35 / 96 * max (1 - y ^ 2 / 9) 0 ^ 3 := by
  unfold twDensity
  split_ifs with h
  · have : y ^ 2 ≤ 9 := by
      have := sq_le_sq' (abs_le.1 h).1 (abs_le.1 h).2
      norm_num at this; exact this
    rw [max_eq_left (by linarith)]
  · have : 9 ≤ y ^ 2 := by
      have h' : 3 ≤ |y| := (not_le.1 h).le
      have := pow_le_pow_left₀ (by norm_num) h' 2
      rw [sq_abs] at this; norm_num at this; exact this
    rw [max_eq_right (by linarith)]; norm_num

theorem contDiff_jaxTw : ContDiff ℝ 3 jaxTw := by
  have := contDiff_succ_iff_deriv (𝕜 := ℝ) (n := 2) (f := jaxTw)
  rw [show (3 : WithTop ℕ∞) = 2 + 1 by norm_num, this]
  refine ⟨jaxTw_differentiable, by simp, ?_⟩
  rw [show deriv jaxTw = fun y => 35 / 96 * max (1 - y ^ 2 / 9) 0 ^ 3 from
    funext fun y => (jaxTw_hasDerivAt y).deriv.trans (twDensity_eq y)]
  have h2 : ContDiff ℝ 2 (fun x : ℝ => max x 0 ^ 3) := contDiff_posPart_pow 2
  have h3 : ContDiff ℝ 2 (fun y : ℝ => 1 - y ^ 2 / 9) := by fun_prop
  exact contDiff_const.mul (h2.comp h3)

theorem contDiff_nnSigmoid {n : WithTop ℕ∞} : ContDiff ℝ n nnSigmoid := by
  unfold nnSigmoid
  exact contDiff_const.div (contDiff_const.add (Real.contDiff_exp.comp contDiff_neg))
    fun x => (one_add_exp_pos _).ne'

section

variable {E : Type*} [NormedAddCommGroup E] [NormedSpace ℝ E] {n : WithTop ℕ∞}

theorem ContDiff.sigmoid' {f g : E → ℝ} {x0 k ymax : ℝ} (hf : ContDiff ℝ n f) (hg : ContDiff ℝ n g) :
    ContDiff ℝ n fun v => sigmoid (f v) x0 k (g v) ymax := by
  unfold sigmoid
  have := contDiff_nnSigmoid (n := n)
  fun_prop

theorem ContDiff.ten_rpow {f : E → ℝ} (hf : ContDiff ℝ n f) : ContDiff ℝ n fun v => (10 : ℝ) ^ f v := by
  simp only [Real.rpow_def_of_pos (show (0 : ℝ) < 10 by norm_num)]
  fun_prop

theorem ContDiff.qExp' {qt dt drop rejuv : E → ℝ} (lgt : ℝ) (h1 : ContDiff ℝ 3 qt) (h2 : ContDiff ℝ 3 dt)
    (h3 : ContDiff ℝ 3 drop) (h4 : ContDiff ℝ 3 rejuv) (hdt : ∀ v, dt v ≠ 0) :
    ContDiff ℝ 3 fun v => qExp lgt (qt v) (dt v) (drop v) (rejuv v) := by
  unfold qExp
  have hy : ContDiff ℝ 3 fun v => (lgt - qt v) / (dt v / 12) :=
    (contDiff_const.sub h1).div (h2.div_const 12) fun v => div_ne_zero (hdt v) (by norm_num)
  have := contDiff_jaxTw
  exact (h3.mul (this.comp (hy.add contDiff_const))).sub
    ((h3.sub h4).mul (this.comp (hy.sub contDiff_const)))

end

end Diffstar
