import Verif.Props.RoundPop

/-! C145, continued: errors of the quenched fractions, flags. -/

namespace Diffstar.Props

open Diffstar Diffstar.Spec Diffstar.Pop MeasureTheory

theorem range_abs {x l h B : ℝ} (h1 : l ≤ x) (h2 : x ≤ h) (hl : -B ≤ l) (hh : h ≤ B) : |x| ≤ B :=
  abs_le.2 ⟨hl.trans h1, h2.trans hh⟩

theorem int_field {p : PF → ℝ} (hp : InPopFloatBounds p) (f : PF) (hf : f ≠ .inr .qphi_lgmu_crit) (a b : ℤ) (ha : |a| < 2 ^ 24)
    (hb : |b| < 2 ^ 24) (h : PF.bounds f = ((a : ℝ), (b : ℝ))) : (a : ℝ) ≤ p f ∧ p f ≤ b := by
  have h1 := hp.lower f
  have h2 := hp.upper f hf
  rw [h] at h1 h2
  rw [f32_int a ha] at h1
  rw [f32_int b hb] at h2
  exact ⟨h1, h2⟩

/-- A speed parameter. -/
theorem speed_field {p : PF → ℝ} (hp : InPopFloatBounds p) (f : PF) (hf : f ≠ .inr .qphi_lgmu_crit) (b : ℤ)
    (hb : |b| < 2 ^ 24) (h : PF.bounds f = ((0.01 : ℝ), (b : ℝ))) : 0 ≤ p f ∧ p f ≤ b := by
  have h1 := hp.lower f
  have h2 := hp.upper f hf
  rw [h] at h1 h2
  rw [f32_int b hb] at h2
  exact ⟨(float32.fl_nonneg (by norm_num)).trans h1, h2⟩

section err

variable {exp : ℝ → ℝ} (hexp : ∀ x, |exp x - Real.exp x| ≤ 5 / 10 ^ 7 * Real.exp x) {p : PF → ℝ} (hp : InPopFloatBounds p)

include hexp

theorem accurate_nonneg (x : ℝ) : 0 ≤ exp x := by
  have := (abs_le.1 (hexp x)).1
  have := Real.exp_pos x
  norm_num at *
  linarith

theorem sigmoidFl_err_prob {x x0 x0' k lo lo' hi hi' a b : ℝ} (hk : 0 ≤ k) (hx0 : |x0' - x0| ≤ a) (hlo : |lo' - lo| ≤ b)
    (hhi : |hi' - hi| ≤ b) (h1 : 0 ≤ lo' ∧ lo' ≤ 1) (h2 : 0 ≤ hi' ∧ hi' ≤ 1) :
    |float32.sigmoid exp x x0' k lo' hi' - sigmoid x x0 k lo hi| ≤ b + 5.67 / 10 ^ 6 + k * a / 4 := by
  have h := sigmoidFl_err float32 le_rfl hexp (x := x) hk hx0 hlo hhi (B := 1) (D := 1) (abs_le.2 ⟨by linarith, h1.2⟩) (abs_le.2 ⟨by linarith, h2.2⟩)
    (abs_le.2 ⟨by linarith, by linarith⟩)
  norm_num at h ⊢
  linarith

include hp

theorem fracQuenchCenFl_err (m t : ℝ) :
    |float32.fracQuenchCen exp (sfhPdfPart p) m t - fracQuenchCen (sfhPdfPart p) m t| ≤ 3.4 / 10 ^ 5 := by
  have h0 := accurate_nonneg hexp
  simp only [Rounding.fracQuenchCen, fracQuenchCen, sfhPdfPart_apply]
  have hz : ∀ x : ℝ, |x - x| ≤ 0 := fun x => by simp
  have k1 := (speed_field hp (.inl .frac_quench_cen_k_tpeak) (by simp) 10 (by decide) bnd).1
  obtain ⟨k2, k3⟩ := speed_field hp (.inl .frac_quench_cen_k) (by simp) 5 (by decide) bnd
  obtain ⟨l1, l2⟩ := int_field hp (.inl .frac_quench_cen_x0_ylotpeak) (by simp) 11 14 (by decide) (by decide) bnd
  obtain ⟨l3, l4⟩ := int_field hp (.inl .frac_quench_cen_x0_yhitpeak) (by simp) 11 14 (by decide) (by decide) bnd
  have e1 := sigmoidFl_err float32 le_rfl hexp (x := t) k1 (hz (p (.inl .frac_quench_cen_x0_tpeak))) (hz _) (hz _) (B := 14) (D := 3)
    (range_abs l1 l2 (by norm_num) (by norm_num)) (range_abs l3 l4 (by norm_num) (by norm_num))
    (abs_le.2 ⟨by push_cast at *; linarith, by push_cast at *; linarith⟩)
  have y1 := float_prob_field hp (.inl .frac_quench_cen_ylo_ylotpeak) (by simp) bnd
  have y2 := float_prob_field hp (.inl .frac_quench_cen_ylo_yhitpeak) (by simp) bnd
  have e2 := sigmoidFl_err_prob hexp (x := t) k1 (hz (p (.inl .frac_quench_cen_x0_tpeak))) (hz _) (hz _) y1 y2
  have y3 := sigmoidFl_prob h0 t (p (.inl .frac_quench_cen_x0_tpeak)) (p (.inl .frac_quench_cen_k_tpeak)) (hp.single _) y1 y2
  have e2' : |float32.sigmoid exp t (p (.inl .frac_quench_cen_x0_tpeak)) (p (.inl .frac_quench_cen_k_tpeak))
    (p (.inl .frac_quench_cen_ylo_ylotpeak)) (p (.inl .frac_quench_cen_ylo_yhitpeak)) - sigmoid t (p (.inl .frac_quench_cen_x0_tpeak))
    (p (.inl .frac_quench_cen_k_tpeak)) (p (.inl .frac_quench_cen_ylo_ylotpeak)) (p (.inl .frac_quench_cen_ylo_yhitpeak))| ≤ 5.67 / 10 ^ 6 := by
    linarith
  have e3 := sigmoidFl_err_prob hexp (x := m) k2 e1 e2' ((hz _).trans (by norm_num)) y3.1
    (float_prob_field hp (.inl .frac_quench_cen_yhi) (by simp) bnd)
  refine e3.trans ?_
  push_cast at k3
  norm_num
  linarith

theorem fracQuenchSatFl_err (m t : ℝ) :
    |float32.fracQuenchSat exp (sfhPdfPart p) m t - fracQuenchSat (sfhPdfPart p) m t| ≤ 3.4 / 10 ^ 5 := by
  have h0 := accurate_nonneg hexp
  simp only [Rounding.fracQuenchSat, fracQuenchSat, sfhPdfPart_apply]
  have hz : ∀ x : ℝ, |x - x| ≤ 0 := fun x => by simp
  have k1 := (speed_field hp (.inl .frac_quench_sat_k_tpeak) (by simp) 10 (by decide) bnd).1
  obtain ⟨k2, k3⟩ := speed_field hp (.inl .frac_quench_sat_k) (by simp) 5 (by decide) bnd
  obtain ⟨l1, l2⟩ := int_field hp (.inl .frac_quench_sat_x0_ylotpeak) (by simp) 11 14 (by decide) (by decide) bnd
  obtain ⟨l3, l4⟩ := int_field hp (.inl .frac_quench_sat_x0_yhitpeak) (by simp) 11 14 (by decide) (by decide) bnd
  have e1 := sigmoidFl_err float32 le_rfl hexp (x := t) k1 (hz (p (.inl .frac_quench_sat_x0_tpeak))) (hz _) (hz _) (B := 14) (D := 3)
    (range_abs l1 l2 (by norm_num) (by norm_num)) (range_abs l3 l4 (by norm_num) (by norm_num))
    (abs_le.2 ⟨by push_cast at *; linarith, by push_cast at *; linarith⟩)
  have y1 := float_prob_field hp (.inl .frac_quench_sat_ylo_ylotpeak) (by simp) bnd
  have y2 := float_prob_field hp (.inl .frac_quench_sat_ylo_yhitpeak) (by simp) bnd
  have e2 := sigmoidFl_err_prob hexp (x := t) k1 (hz (p (.inl .frac_quench_sat_x0_tpeak))) (hz _) (hz _) y1 y2
  have y3 := sigmoidFl_prob h0 t (p (.inl .frac_quench_sat_x0_tpeak)) (p (.inl .frac_quench_sat_k_tpeak)) (hp.single _) y1 y2
  have e2' : |float32.sigmoid exp t (p (.inl .frac_quench_sat_x0_tpeak)) (p (.inl .frac_quench_sat_k_tpeak))
    (p (.inl .frac_quench_sat_ylo_ylotpeak)) (p (.inl .frac_quench_sat_ylo_yhitpeak)) - sigmoid t (p (.inl .frac_quench_sat_x0_tpeak))
    (p (.inl .frac_quench_sat_k_tpeak)) (p (.inl .frac_quench_sat_ylo_ylotpeak)) (p (.inl .frac_quench_sat_ylo_yhitpeak))| ≤ 5.67 / 10 ^ 6 := by
    linarith
  have e3 := sigmoidFl_err_prob hexp (x := m) k2 e1 e2' ((hz _).trans (by norm_num)) y3.1
    (float_prob_field hp (.inl .frac_quench_sat_yhi) (by simp) bnd)
  refine e3.trans ?_
  push_cast at k3
  norm_num
  linarith

theorem fracDeltaFl_err (mu mh t : ℝ) :
    |float32.predictSatFracDeltaQprob exp (satquenchPart p) mu mh t - predictSatFracDeltaQprob (satquenchPart p) mu mh t| ≤
      1.24 / 10 ^ 4 := by
  have h0 := accurate_nonneg hexp
  have hq := (qprobHiFl_prob h0 hp mu mh).1
  simp only [Rounding.predictSatFracDeltaQprob, predictSatFracDeltaQprob, Rounding.satquenchKernel, satquenchKernel]
  have hz : ∀ x : ℝ, |x - x| ≤ 0 := fun x => by simp
  have eq : |float32.qprobHiVsSubHostMass exp (satquenchPart p) mu mh - qprobHiVsSubHostMass (satquenchPart p) mu mh| ≤ 1.134 / 10 ^ 5 := by
    simp only [Rounding.qprobHiVsSubHostMass, qprobHiVsSubHostMass, satquenchPart_apply]
    have a1 := float_prob_field hp (.inr .lgmu_lo_mh_lo) (by simp) bnd
    have a2 := float_prob_field hp (.inr .lgmu_hi_mh_lo) (by simp) bnd
    have a3 := float_prob_field hp (.inr .lgmu_lo_mh_hi) (by simp) bnd
    have a4 := float_prob_field hp (.inr .lgmu_hi_mh_hi) (by simp) bnd
    have hs : (0 : ℝ) ≤ LGMU_SPEED := by norm_num [LGMU_SPEED]
    have hs' : (0 : ℝ) ≤ DEFAULT_LGMH_K := by norm_num [DEFAULT_LGMH_K]
    have e1 := sigmoidFl_err_prob hexp (x := mu) hs (hz (p (.inr .qphi_lgmu_crit))) (hz _) (hz _) a1 a2
    have e2 := sigmoidFl_err_prob hexp (x := mu) hs (hz (p (.inr .qphi_lgmu_crit))) (hz _) (hz _) a3 a4
    have y1 := (sigmoidFl_prob h0 mu (p (.inr .qphi_lgmu_crit)) LGMU_SPEED (hp.single _) a1 a2).1
    have y2 := (sigmoidFl_prob h0 mu (p (.inr .qphi_lgmu_crit)) LGMU_SPEED (hp.single _) a3 a4).1
    have e3 := sigmoidFl_err_prob hexp (x := mh) hs' (hz (p (.inr .qp_lgmh_crit))) e1 e2 y1 y2
    refine e3.trans ?_
    norm_num
  have et : |float32.tDelayVsLogmhost exp (satquenchPart p) mh - tDelayVsLogmhost (satquenchPart p) mh| ≤ 8.47 / 10 ^ 5 := by
    simp only [Rounding.tDelayVsLogmhost, tDelayVsLogmhost, satquenchPart_apply]
    have hs' : (0 : ℝ) ≤ DEFAULT_LGMH_K := by norm_num [DEFAULT_LGMH_K]
    obtain ⟨l1, l2⟩ := int_field hp (.inr .td_mlo) (by simp) (-5) 10 (by decide) (by decide) bnd
    obtain ⟨l3, l4⟩ := int_field hp (.inr .td_mhi) (by simp) (-5) 10 (by decide) (by decide) bnd
    have e := sigmoidFl_err float32 le_rfl hexp (x := mh) hs' (hz (p (.inr .td_lgmhc))) (hz _) (hz _) (B := 10) (D := 15)
      (range_abs l1 l2 (by norm_num) (by norm_num)) (range_abs l3 l4 (by norm_num) (by norm_num))
      (abs_le.2 ⟨by push_cast at *; linarith, by push_cast at *; linarith⟩)
    refine e.trans ?_
    norm_num
  have e := sigmoidFl_err_prob hexp (x := t) (k := DEFAULT_Q_SPEED) (by norm_num [DEFAULT_Q_SPEED]) et ((hz 0).trans (by norm_num)) eq (by norm_num) hq
  refine e.trans ?_
  norm_num [DEFAULT_Q_SPEED]

end err

/-! ### Errors of the parameters -/

/-- Error of a bounded parameter, for any interval. -/
theorem getPFl_err (R : Rounding) (hu : R.u ≤ 2 ^ (-24 : ℤ)) {exp : ℝ → ℝ}
    (hexp : ∀ x, |exp x - Real.exp x| ≤ 5 / 10 ^ 7 * Real.exp x) (x : ℝ) {lo hi B : ℝ} (hlt : lo ≤ hi) (hlo : |lo| ≤ B) (hhi : |hi| ≤ B)
    (hB : B ≤ 20) :
    |R.getPFromUPScalar exp x (lo, hi) - sigmoid x (0.5 * (lo + hi)) 0.1 lo hi| ≤ 1 / 10 ^ 5 * (hi - lo) + 2 / 10 ^ 7 * B := by
  have hu1 : R.u ≤ 6 / 10 ^ 8 := hu.trans (by norm_num)
  have hB0 : 0 ≤ B := (abs_nonneg _).trans hlo
  have hstep : ∀ x B, |x| ≤ B → |R.fl x - x| ≤ 6 / 10 ^ 8 * B := fun x B h =>
    (R.err x).trans (mul_le_mul hu1 h (abs_nonneg _) (by norm_num))
  unfold Rounding.getPFromUPScalar
  dsimp only
  have a1 := hstep lo B hlo
  have a2 := hstep hi B hhi
  generalize R.fl lo = lo' at a1
  generalize R.fl hi = hi' at a2
  have l1 := abs_le.1 hlo
  have l2 := abs_le.1 hhi
  have l3 := abs_le.1 a1
  have l4 := abs_le.1 a2
  have a3 := hstep (lo' + hi') (2.000001 * B) (abs_le.2 ⟨by norm_num at *; linarith, by norm_num at *; linarith⟩)
  generalize R.fl (lo' + hi') = sm at a3
  have l5 := abs_le.1 a3
  have a4 := hstep (0.5 * sm) (1.00001 * B) (abs_le.2 ⟨by norm_num at *; linarith, by norm_num at *; linarith⟩)
  generalize R.fl (0.5 * sm) = p0 at a4
  have l6 := abs_le.1 a4
  have a5 : |p0 - 0.5 * (lo + hi)| ≤ 1.9 / 10 ^ 7 * B := abs_le.2 ⟨by norm_num at *; linarith, by norm_num at *; linarith⟩
  have hk := hstep BOUNDING_K 0.1 (by norm_num [BOUNDING_K])
  generalize R.fl BOUNDING_K = k at hk
  rw [show BOUNDING_K = (0.1 : ℝ) from rfl] at hk
  have l7 := abs_le.1 hk
  have k0 : 0 ≤ k := by norm_num at *; linarith
  have e1 := sigmoidFl_err R hu hexp (x := x) k0 a5 a1 a2 (B := 1.0000001 * B) (D := hi - lo + 1.2 / 10 ^ 7 * B)
    (abs_le.2 ⟨by norm_num at *; linarith, by norm_num at *; linarith⟩) (abs_le.2 ⟨by norm_num at *; linarith, by norm_num at *; linarith⟩)
    (abs_le.2 ⟨by norm_num at *; linarith, by norm_num at *; linarith⟩)
  have e2 : |sigmoid x (0.5 * (lo + hi)) k lo hi - sigmoid x (0.5 * (lo + hi)) 0.1 lo hi| ≤ (hi - lo) * (4 / 10 ^ 6) := by
    have h := sigma_arg (z := 0.1 * (x - 0.5 * (lo + hi))) (z' := k * (x - 0.5 * (lo + hi))) (by
      rw [← sub_mul, abs_mul, abs_mul]
      have := mul_le_mul_of_nonneg_right hk (abs_nonneg (x - 0.5 * (lo + hi)))
      rw [abs_of_nonneg (show (0 : ℝ) ≤ 0.1 by norm_num)]
      have h0 := abs_nonneg (x - 0.5 * (lo + hi))
      generalize |k - 0.1| * |x - 0.5 * (lo + hi)| = y at this ⊢
      generalize |x - 0.5 * (lo + hi)| = w at *
      norm_num at this ⊢
      linarith)
    simp only [sigmoid, nnSigmoid]
    rw [add_sub_add_left_eq_sub, ← mul_sub, abs_mul, abs_of_nonneg (show 0 ≤ hi - lo by linarith)]
    exact mul_le_mul_of_nonneg_left h (by linarith)
  have e3 := abs_sub_le (R.sigmoid exp x p0 k lo' hi') (sigmoid x (0.5 * (lo + hi)) k lo hi) (sigmoid x (0.5 * (lo + hi)) 0.1 lo hi)
  have hka : k * (1.9 / 10 ^ 7 * B) / 4 ≤ 1 / 10 ^ 7 := by
    have : k ≤ 0.100001 := by norm_num at *; linarith
    have := mul_le_mul this hB hB0 (by norm_num)
    norm_num at *
    linarith
  have hD : (hi - lo + 1.2 / 10 ^ 7 * B) * (5.6 / 10 ^ 6 + k * (1.9 / 10 ^ 7 * B) / 4) ≤ (hi - lo + 1.2 / 10 ^ 7 * B) * (5.7 / 10 ^ 6) := by
    refine mul_le_mul_of_nonneg_left ?_ ?_
    · norm_num at *
      linarith
    · have : 0 ≤ 1.2 / 10 ^ 7 * B := mul_nonneg (by norm_num) hB0
      linarith
  have e4 := e3.trans (add_le_add (e1.trans (add_le_add_left (add_le_add_right hD _) _)) e2)
  refine e4.trans ?_
  norm_num
  linarith

theorem QF.bounds_width (f : QF) : |f.boundsQ.1| ≤ 5 * (f.boundsQ.2 - f.boundsQ.1) ∧ |f.boundsQ.2| ≤ 5 * (f.boundsQ.2 - f.boundsQ.1) ∧
    |f.boundsQ.1| ≤ 20 ∧ |f.boundsQ.2| ≤ 20 := by
  cases f <;> decide +kernel

theorem SF.bounds_width (f : SF) : |f.boundsQ.1| ≤ 5 * (f.boundsQ.2 - f.boundsQ.1) ∧ |f.boundsQ.2| ≤ 5 * (f.boundsQ.2 - f.boundsQ.1) ∧
    |f.boundsQ.1| ≤ 20 ∧ |f.boundsQ.2| ≤ 20 := by
  cases f <;> decide +kernel

theorem PF.bounds_width (f : PF) : |(PF.bounds f).1| ≤ 5 * ((PF.bounds f).2 - (PF.bounds f).1) ∧
    |(PF.bounds f).2| ≤ 5 * ((PF.bounds f).2 - (PF.bounds f).1) ∧ |(PF.bounds f).1| ≤ 20 ∧ |(PF.bounds f).2| ≤ 20 := by
  have cast : ∀ a b : ℚ, |a| ≤ 5 * (b - a) ∧ |b| ≤ 5 * (b - a) ∧ |a| ≤ 20 ∧ |b| ≤ 20 →
      |(a : ℝ)| ≤ 5 * ((b : ℝ) - a) ∧ |(b : ℝ)| ≤ 5 * ((b : ℝ) - a) ∧ |(a : ℝ)| ≤ 20 ∧ |(b : ℝ)| ≤ 20 := by
    intro a b h
    exact_mod_cast h
  cases f with
  | inl f => exact cast _ _ (QF.bounds_width f)
  | inr f => exact cast _ _ (SF.bounds_width f)

/-- **C145**: each of the 88 bounded parameters computed in single precision is within `1.1e-5` times the width of its interval of the exact
one. -/
theorem C145_params_error {exp : ℝ → ℝ} (hexp : ∀ x, |exp x - Real.exp x| ≤ 5 / 10 ^ 7 * Real.exp x) (u : PF → ℝ) (f : PF) :
    |float32.getBoundedDiffstarpopParams exp u f - getBoundedDiffstarpopParams u f| ≤
      1.1 / 10 ^ 5 * ((PF.bounds f).2 - (PF.bounds f).1) := by
  rw [getBoundedFl_apply, getBounded_apply]
  obtain ⟨h1, h2, h3, h4⟩ := PF.bounds_width f
  have hB : max |(PF.bounds f).1| |(PF.bounds f).2| ≤ 5 * ((PF.bounds f).2 - (PF.bounds f).1) := max_le h1 h2
  have h := getPFl_err float32 le_rfl hexp (u f) (PF.bounds_lt f).le (le_max_left |(PF.bounds f).1| |(PF.bounds f).2|)
    (le_max_right _ _) (max_le h3 h4)
  refine h.trans ?_
  generalize max |(PF.bounds f).1| |(PF.bounds f).2| = B at hB
  norm_num
  linarith

/-- Combination of the satellite increment. -/
theorem satCombine_err (R : Rounding) (hu : R.u ≤ 2 ^ (-24 : ℤ)) {q q' d d' e f : ℝ} (hq : |q' - q| ≤ e) (hd : |d' - d| ≤ f) (h0 : 0 ≤ q' ∧ q' ≤ 1)
    (h1 : 0 ≤ d' ∧ d' ≤ 1) (h2 : 0 ≤ d ∧ d ≤ 1) :
    |R.fl (q' + R.fl (d' * R.fl (1 - q'))) - (q + d * (1 - q))| ≤ e + f + 2.5 / 10 ^ 7 := by
  have hu1 : R.u ≤ 6 / 10 ^ 8 := hu.trans (by norm_num)
  have hstep : ∀ x B, |x| ≤ B → |R.fl x - x| ≤ 6 / 10 ^ 8 * B := fun x B h =>
    (R.err x).trans (mul_le_mul hu1 h (abs_nonneg _) (by norm_num))
  have a1 := hstep (1 - q') 1 (abs_le.2 ⟨by linarith, by linarith⟩)
  generalize R.fl (1 - q') = r at a1
  have r1 := abs_le.1 a1
  have b1 : |d' * r - d' * (1 - q')| ≤ 6 / 10 ^ 8 * 1 := by
    rw [← mul_sub, abs_mul, abs_of_nonneg h1.1]
    exact (mul_le_of_le_one_left (abs_nonneg _) h1.2).trans a1
  have b2 : |d' * r| ≤ 1.0000001 := by
    rw [abs_mul, abs_of_nonneg h1.1]
    refine (mul_le_of_le_one_left (abs_nonneg _) h1.2).trans (abs_le.2 ⟨?_, ?_⟩) <;> norm_num at * <;> linarith
  have b3 := hstep _ _ b2
  generalize R.fl (d' * r) = s at b3
  have b4 : |s - d' * (1 - q')| ≤ 1.21 / 10 ^ 7 := by
    have := abs_sub_le s (d' * r) (d' * (1 - q'))
    norm_num at b1 b3 ⊢
    linarith
  have c1 : |q' + s| ≤ 1.000001 := by
    have h := abs_le.1 b4
    have : q' + d' * (1 - q') ≤ 1 := by nlinarith
    have : 0 ≤ d' * (1 - q') := mul_nonneg h1.1 (by linarith)
    rw [abs_le]
    norm_num at *
    constructor <;> linarith
  have c2 := hstep _ _ c1
  generalize R.fl (q' + s) = t at c2
  have c3 : |(d' - d) * (1 - q')| ≤ f := by
    rw [abs_mul, abs_of_nonneg (show 0 ≤ 1 - q' by linarith)]
    exact (mul_le_of_le_one_right (abs_nonneg _) (by linarith)).trans hd
  have c4 : |(q' - q) * (1 - d)| ≤ e := by
    rw [abs_mul, abs_of_nonneg (show 0 ≤ 1 - d by linarith)]
    exact (mul_le_of_le_one_right (abs_nonneg _) (by linarith)).trans hq
  have h3 := abs_le.1 c2
  have h4 := abs_le.1 b4
  have h5 := abs_le.1 c3
  have h6 := abs_le.1 c4
  rw [abs_le]
  norm_num at h3 h4 ⊢
  constructor <;> nlinarith

theorem fracDelta_unit {p : PF → ℝ} (hp : InPopFloatBounds p) (mu mh t : ℝ) :
    0 ≤ predictSatFracDeltaQprob (satquenchPart p) mu mh t ∧ predictSatFracDeltaQprob (satquenchPart p) mu mh t ≤ 1 := by
  simp only [predictSatFracDeltaQprob, satquenchKernel, qprobHiVsSubHostMass, satquenchPart_apply]
  exact sigmoid_mem_Icc (by norm_num) (sigmoid_mem_Icc
    (sigmoid_mem_Icc (float_prob_field hp (.inr .lgmu_lo_mh_lo) (by simp) bnd) (float_prob_field hp (.inr .lgmu_hi_mh_lo) (by simp) bnd))
    (sigmoid_mem_Icc (float_prob_field hp (.inr .lgmu_lo_mh_hi) (by simp) bnd) (float_prob_field hp (.inr .lgmu_hi_mh_hi) (by simp) bnd)))

/-- **C145**: the quenched fraction computed in single precision is within `3.4e-5` of the exact one for centrals and within `1.6e-4` for
satellites, whatever the halo. -/
theorem C145_frac_quench_error {K : Type} (rng : Rng K) {exp : ℝ → ℝ} (hexp : ∀ x, |exp x - Real.exp x| ≤ 5 / 10 ^ 7 * Real.exp x) {p : PF → ℝ}
    (hp : InPopFloatBounds p) (logmp0 tpeak : ℝ) (upid : ℤ) (lgmu logmhost gyr : ℝ) (key : K) :
    let r := mcDiffstarParamsSinglegal rng p logmp0 tpeak upid lgmu logmhost gyr key
    |float32.fracQuench exp p logmp0 tpeak upid lgmu logmhost gyr - r.fracQ| ≤ (if upid = -1 then 3.4 / 10 ^ 5 else 1.6 / 10 ^ 4) := by
  simp only [mcDiffstarParamsSinglegal, mcDiffstarUParamsSinglegalKernel, diffstarpopMeansCovs, sfhPdfScalarKernel, Rounding.fracQuench]
  split_ifs
  · exact fracQuenchCenFl_err hexp hp logmp0 tpeak
  · have h0 := accurate_nonneg hexp
    simp only [Rounding.getQprobSat, getQprobSat]
    refine (satCombine_err float32 le_rfl (fracQuenchSatFl_err hexp hp logmp0 tpeak) (fracDeltaFl_err hexp hp lgmu logmhost gyr)
      (fracQuenchSatFl_prob h0 hp logmp0 tpeak).1 (fracDeltaFl_prob h0 hp lgmu logmhost gyr) (fracDelta_unit hp lgmu logmhost gyr)).trans ?_
    norm_num

/-- **C145**: the sequence a galaxy is put on in single precision is the exact one unless its uniform draw is within `1.6e-4` of the exact
quenched fraction. -/
theorem C145_flag_agrees {K : Type} (rng : Rng K) {exp : ℝ → ℝ} (hexp : ∀ x, |exp x - Real.exp x| ≤ 5 / 10 ^ 7 * Real.exp x) {p : PF → ℝ}
    (hp : InPopFloatBounds p) (logmp0 tpeak : ℝ) (upid : ℤ) (lgmu logmhost gyr : ℝ) (key : K) :
    let r := mcDiffstarParamsSinglegal rng p logmp0 tpeak upid lgmu logmhost gyr key
    let draw := rng.uniform (rng.split key 4 3)
    1.6 / 10 ^ 4 < |draw - r.fracQ| → (draw < float32.fracQuench exp p logmp0 tpeak upid lgmu logmhost gyr ↔ r.mcIsQ) := by
  intro r draw h
  have he : |float32.fracQuench exp p logmp0 tpeak upid lgmu logmhost gyr - r.fracQ| ≤ 1.6 / 10 ^ 4 := by
    refine (C145_frac_quench_error rng hexp hp logmp0 tpeak upid lgmu logmhost gyr key).trans ?_
    split_ifs <;> norm_num
  have hr : r.mcIsQ ↔ draw < r.fracQ := Iff.rfl
  rw [hr]
  have h1 := abs_le.1 he
  rcases lt_abs.1 h with h2 | h2
  · exact ⟨fun h3 => by linarith, fun h3 => by norm_num at *; linarith⟩
  · exact ⟨fun h3 => by norm_num at *; linarith, fun h3 => by linarith⟩

/-- Two fractions close to each other: the draws between them. -/
theorem unif_between (a b e : ℝ) (h : |a - b| ≤ e) : Spec.unif {x | ¬(x < a ↔ x < b)} ≤ ENNReal.ofReal e := by
  have hsub : {x : ℝ | ¬(x < a ↔ x < b)} ⊆ Set.Ico (min a b) (max a b) := by
    intro x hx
    simp only [Set.mem_ofPred_eq, not_iff] at hx
    rw [Set.mem_Ico, min_le_iff, lt_max_iff]
    by_cases h1 : x < a
    · exact ⟨.inr (not_lt.1 fun h2 => (hx.2 h2) h1), .inl h1⟩
    · exact ⟨.inl (not_lt.1 h1), .inr (hx.1 h1)⟩
  refine (measure_mono hsub).trans ((Measure.restrict_apply_le _ _).trans ?_)
  rw [Real.volume_Ico, max_sub_min_eq_abs']
  exact ENNReal.ofReal_le_ofReal h

/-- **C145**: with independent uniform draws, for any population of `n` galaxies the flag of galaxy `i` computed in single precision differs
from the exact one with probability at most `1.6e-4`; hence the probability that any of the `n` flags differs is at most `1.6e-4 n`. -/
theorem C145_population_flags {K : Type} {n : ℕ} (rng : Rng K) (key : K) (r : (Fin n → ℝ) → Rng K) (hr : Spec.UniformDraws rng key r)
    (logMah : MahParams ℝ → ℝ → ℝ → ℝ) {exp : ℝ → ℝ} (hexp : ∀ x, |exp x - Real.exp x| ≤ 5 / 10 ^ 7 * Real.exp x) {p : PF → ℝ}
    (hp : InPopFloatBounds p) (mah : MahParams (Fin n → ℝ)) (logmp0 : Fin n → ℝ) (upid : Fin n → ℤ) (lgmu logmhost gyr : Fin n → ℝ)
    (tarr : List ℝ) (lgt0 fb : ℝ) :
    let g := fun (x : Fin n → ℝ) => mcDiffstarSfhGalpop (r x) logMah p mah logmp0 upid lgmu logmhost gyr key tarr lgt0 fb
    let single := fun (x : Fin n → ℝ) i => x i < float32.fracQuench exp p (logmp0 i) (mah.tPeak i) (upid i) (lgmu i) (logmhost i) (gyr i)
    (∀ i, Spec.unifs n {x | ¬(single x i ↔ (g x i).mcIsQ)} ≤ ENNReal.ofReal (1.6 / 10 ^ 4)) ∧
      Spec.unifs n {x | ∃ i, ¬(single x i ↔ (g x i).mcIsQ)} ≤ ENNReal.ofReal (1.6 / 10 ^ 4 * n) := by
  intro g single
  have h1 : ∀ i, Spec.unifs n {x | ¬(single x i ↔ (g x i).mcIsQ)} ≤ ENNReal.ofReal (1.6 / 10 ^ 4) := by
    intro i
    set f := (mcDiffstarSfhGalpop rng logMah p mah logmp0 upid lgmu logmhost gyr key tarr lgt0 fb i).fracQ with hf
    set f' := float32.fracQuench exp p (logmp0 i) (mah.tPeak i) (upid i) (lgmu i) (logmhost i) (gyr i) with hf'
    have he : |f' - f| ≤ 1.6 / 10 ^ 4 := by
      refine (C145_frac_quench_error rng hexp hp (logmp0 i) (mah.tPeak i) (upid i) (lgmu i) (logmhost i) (gyr i) (rng.split key n i)).trans ?_
      split_ifs <;> norm_num
    have hset : {x | ¬(single x i ↔ (g x i).mcIsQ)} = Function.eval i ⁻¹' {y : ℝ | ¬(y < f' ↔ y < f)} := by
      ext x
      have := (galpop_draws hr logMah p mah logmp0 upid lgmu logmhost gyr tarr lgt0 fb x i).2.2.2.2.2
      exact not_congr (iff_congr Iff.rfl this)
    have hm : MeasurableSet {y : ℝ | ¬(y < f' ↔ y < f)} := by
      exact (MeasurableSet.iff measurableSet_Iio measurableSet_Iio).compl
    rw [hset, Spec.unifs, (measurePreserving_eval (fun _ => Spec.unif) i).measure_preimage hm.nullMeasurableSet]
    exact unif_between _ _ _ he
  refine ⟨h1, ?_⟩
  have hset : {x | ∃ i, ¬(single x i ↔ (g x i).mcIsQ)} = ⋃ i, {x | ¬(single x i ↔ (g x i).mcIsQ)} := by
    ext x
    simp only [Set.mem_ofPred_eq, Set.mem_iUnion]
  rw [hset]
  refine (measure_iUnion_fintype_le _ _).trans ((Finset.sum_le_sum fun i _ => h1 i).trans ?_)
  rw [Finset.sum_const, Finset.card_univ, Fintype.card_fin, nsmul_eq_mul, mul_comm (1.6 / 10 ^ 4 : ℝ), ENNReal.ofReal_mul (by positivity),
    ENNReal.ofReal_natCast]

/-- A saturated probability parameter. -/
theorem prob_saturates (exp : ℝ → ℝ) (hexp : ∀ x, |exp x - Real.exp x| ≤ Real.exp x / 2) (hpos : ∀ x, 0 ≤ exp x) (f : PF)
    (h : PF.bounds f = (0, 1)) : float32.getBoundedDiffstarpopParams exp (fun _ => 300) f = 1 := by
  rw [getBoundedFl_apply, Rounding.getPFromUPScalar, Rounding.sigmoid]
  simp only [h, float32.fl_zero, float32.one, zero_add, sub_zero, mul_one]
  rw [f32_exact' 1 (-1) 0.5 (by norm_num) (by norm_num)]
  have hk : (0.1 : ℝ) ≤ float32.fl BOUNDING_K := by
    rw [show BOUNDING_K = 0.1 from rfl, f32_tenth]
    norm_num
  have hz : 27 ≤ float32.fl (float32.fl BOUNDING_K * float32.fl (300 - 0.5)) := by
    rw [f32_exact' 599 (-1) (300 - 0.5) (by norm_num) (by norm_num)]
    have h6 := float32.mono (show 27 ≤ float32.fl BOUNDING_K * (300 - 0.5) by norm_num at *; linarith)
    rwa [f32_exact' 27 0 27 (by norm_num) (by norm_num)] at h6
  rw [nnSigmoidFl_saturates exp hexp hpos hz, one_mul, float32.one, float32.one]

/-- **C145**: in single precision a quenched fraction can be exactly 1 (C29 excludes this for exact arithmetic): with saturated parameters every
central of every mass and peak time is quenched with probability 1. -/
theorem C145_strict_violated (exp : ℝ → ℝ) (hexp : ∀ x, |exp x - Real.exp x| ≤ Real.exp x / 2) (hpos : ∀ x, 0 ≤ exp x) :
    ∃ u : PF → ℝ, ∀ logmp0 tpeak lgmu logmhost gyr,
      float32.fracQuench exp (float32.getBoundedDiffstarpopParams exp u) logmp0 tpeak (-1) lgmu logmhost gyr = 1 := by
  refine ⟨fun _ => 300, fun logmp0 tpeak lgmu logmhost gyr => ?_⟩
  rw [Rounding.fracQuench, if_pos rfl]
  simp only [Rounding.fracQuenchCen, sfhPdfPart_apply]
  rw [prob_saturates exp hexp hpos (.inl .frac_quench_cen_ylo_ylotpeak) bnd, prob_saturates exp hexp hpos (.inl .frac_quench_cen_ylo_yhitpeak) bnd,
    prob_saturates exp hexp hpos (.inl .frac_quench_cen_yhi) bnd]
  simp [Rounding.sigmoid, float32.fl_zero, float32.one]

/-- The hypotheses are met, for every choice of unbounded parameters. -/
example (u : PF → ℝ) : ∃ exp : ℝ → ℝ, ∃ p : PF → ℝ, (∀ x, |exp x - Real.exp x| ≤ 5 / 10 ^ 7 * Real.exp x) ∧
    (∀ x, |exp x - Real.exp x| ≤ Real.exp x / 2) ∧ (∀ x, 0 ≤ exp x) ∧ InPopFloatBounds p ∧ p = float32.getBoundedDiffstarpopParams exp u :=
  ⟨_, _, accurate_rounded.exp, fun x => (accurate_rounded.exp x).trans (by linarith [Real.exp_pos x]), accurate_nonneg accurate_rounded.exp,
    (C145_params_closed_bounds_partial _ (accurate_nonneg accurate_rounded.exp) u).1, rfl⟩

end Diffstar.Props
