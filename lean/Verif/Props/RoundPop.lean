import Verif.Model.RoundPop
import Verif.Props.RoundLoss
import Verif.Props.Expectation
import Mathlib.Analysis.SpecialFunctions.Sigmoid
import Mathlib.Analysis.Calculus.MeanValue

/-! C145: population parameters and quenched fractions in single precision. -/

namespace Diffstar.Spec

open Diffstar.Pop

/-- Population parameters that are single precision numbers within or on their (rounded) bounds; the upper bound of
`qphi_lgmu_crit` is left out. -/
structure InPopFloatBounds (p : PF → ℝ) : Prop where
  single : ∀ f, float32.fl (p f) = p f
  lower : ∀ f, float32.fl (PF.bounds f).1 ≤ p f
  upper : ∀ f, f ≠ .inr .qphi_lgmu_crit → p f ≤ float32.fl (PF.bounds f).2

end Diffstar.Spec

namespace Diffstar.Props

open Diffstar Diffstar.Spec Diffstar.Pop

/-! ### Ranges -/

theorem unit_top {q : ℝ} (h1 : q ≤ 1) (h0 : 0 ≤ q) : float32.fl (q + float32.fl (1 - q)) ≤ 1 := by
  have hu : float32.u = 2 ^ (-24 : ℤ) := rfl
  have h := (abs_le.1 (float32.err (1 - q))).2
  rw [abs_of_nonneg (by linarith), hu] at h
  have h2 : q + float32.fl (1 - q) ≤ 1 + 2 ^ (-24 : ℤ) := by
    have : (2 : ℝ) ^ (-24 : ℤ) * (1 - q) ≤ 2 ^ (-24 : ℤ) := mul_le_of_le_one_right (by positivity) (by linarith)
    linarith
  have h3 : float32.fl (1 + 2 ^ (-24 : ℤ)) = 1 := by
    have := float32_tie (x := 1 + 2 ^ (-24 : ℤ)) (2 ^ 23) (by decide) (-23) (by norm_num) (by norm_num) (by rw [abs_le]; norm_num)
    rw [this]
    norm_num
  exact (float32.mono h2).trans h3.le

/-- A sigmoid between probabilities is a probability. -/
theorem sigmoidFl_prob {exp : ℝ → ℝ} (hexp : ∀ x, 0 ≤ exp x) (x x0 k : ℝ) {lo hi : ℝ} (hlo : float32.fl lo = lo) (h1 : 0 ≤ lo ∧ lo ≤ 1)
    (h2 : 0 ≤ hi ∧ hi ≤ 1) :
    (0 ≤ float32.sigmoid exp x x0 k lo hi ∧ float32.sigmoid exp x x0 k lo hi ≤ 1) ∧
      float32.fl (float32.sigmoid exp x x0 k lo hi) = float32.sigmoid exp x x0 k lo hi := by
  refine ⟨?_, float32.idem _⟩
  rcases le_total lo hi with h | h
  · obtain ⟨a, b⟩ := sigmoidFl_range float32 exp hexp x x0 k lo hi hlo h
    refine ⟨h1.1.trans a, b.trans (le_trans (float32.mono ?_) (unit_top h1.2 h1.1))⟩
    have := float32.mono (show hi - lo ≤ 1 - lo by linarith [h2.2])
    linarith
  · obtain ⟨s0, s1⟩ := nnSigmoidFl_unit float32 exp hexp (float32.fl (k * float32.fl (x - x0)))
    unfold Rounding.sigmoid
    generalize float32.nnSigmoid exp (float32.fl (k * float32.fl (x - x0))) = s at s0 s1
    have d0 : float32.fl (hi - lo) ≤ 0 := by
      have := float32.mono (show hi - lo ≤ 0 by linarith)
      rwa [float32.fl_zero] at this
    have d1 : -lo ≤ float32.fl (hi - lo) := by
      have := float32.mono (show -lo ≤ hi - lo by linarith [h2.1])
      rwa [float32.neg, hlo] at this
    have e1 : -lo ≤ float32.fl (hi - lo) * s := by nlinarith
    have e2 : float32.fl (hi - lo) * s ≤ 0 := mul_nonpos_of_nonpos_of_nonneg d0 s0
    have g1 := float32.mono e1
    have g2 := float32.mono e2
    rw [float32.neg, hlo] at g1
    rw [float32.fl_zero] at g2
    constructor
    · exact float32.fl_nonneg (by linarith)
    · have := float32.mono (show lo + float32.fl (float32.fl (hi - lo) * s) ≤ 1 by linarith [h1.2])
      rwa [float32.one] at this

theorem getBoundedFl_apply (R : Rounding) (exp : ℝ → ℝ) (u : PF → ℝ) (f : PF) :
    R.getBoundedDiffstarpopParams exp u f = R.getPFromUPScalar exp (u f) (PF.bounds f) := by
  rw [Rounding.getBoundedDiffstarpopParams, joinPop_eq]
  cases f with
  | inl f =>
    rw [Sum.elim_inl, Rounding.getBoundedSfhPdfParams, zipWith_map_same, makeTuple_map _ _ _ (QF.mem_fields f), sfhPdfPart_apply]
    rfl
  | inr f =>
    rw [Sum.elim_inr, Rounding.getBoundedSatquenchpopParams, zipWith_map_same, makeTuple_map _ _ _ (SF.mem_fields f),
      satquenchPart_apply]
    rfl

theorem f32_cent : float32.fl 0.01 = 10737418 * 2 ^ (-30 : ℤ) := by
  have := float32_eq (x := 0.01) 10737418 (-30) (by norm_num) (by norm_num) (by rw [abs_lt]; norm_num)
  simpa using this

/-- Exactness for integers. -/
theorem f32_int (m : ℤ) (hm : |m| < 2 ^ 24) : float32.fl (m : ℝ) = m := by
  rcases le_total 0 m with h | h
  · obtain ⟨n, rfl⟩ := Int.eq_ofNat_of_zero_le h
    have := float32_exact n (by rw [abs_of_nonneg h] at hm; exact_mod_cast hm) 0
    simpa using this
  · obtain ⟨n, hn⟩ := Int.eq_ofNat_of_zero_le (show 0 ≤ -m by omega)
    have := float32_exact n (by rw [abs_of_nonpos h, hn] at hm; exact_mod_cast hm) 0
    have e : (m : ℝ) = -(n : ℝ) := by
      have : m = -(n : ℤ) := by omega
      rw [this]; push_cast; ring
    rw [e, float32.neg]
    simpa using this

theorem QF.bounds_kinds (f : QF) : (f.boundsQ.1.den = 1 ∧ f.boundsQ.2.den = 1 ∧ f.boundsQ.1.num.natAbs ≤ 20 ∧
      f.boundsQ.2.num.natAbs ≤ 20) ∨
    f.boundsQ = (1 / 100, 1) ∨ f.boundsQ = (1 / 100, 3) ∨ f.boundsQ = (1 / 100, 1 / 2) ∨ f.boundsQ = (1 / 100, 2) ∨
    f.boundsQ = (1 / 100, 10) ∨ f.boundsQ = (1 / 100, 5) ∨ f.boundsQ = (-1 / 10, 1 / 10) := by
  cases f <;> decide +kernel

theorem SF.bounds_kinds (f : SF) (hf : f ≠ .qphi_lgmu_crit) :
    f.boundsQ.1.den = 1 ∧ f.boundsQ.2.den = 1 ∧ f.boundsQ.1.num.natAbs ≤ 20 ∧ f.boundsQ.2.num.natAbs ≤ 20 := by
  cases f <;> first | decide +kernel | exact absurd rfl hf

theorem top_int {a b : ℚ} (h : a.den = 1 ∧ b.den = 1 ∧ a.num.natAbs ≤ 20 ∧ b.num.natAbs ≤ 20) :
    float32.fl ((a : ℝ)) = a ∧ float32.fl (float32.fl (a : ℝ) + float32.fl (float32.fl (b : ℝ) - float32.fl (a : ℝ))) = float32.fl b := by
  obtain ⟨h1, h2, h3, h4⟩ := h
  have ea : (a : ℝ) = (a.num : ℝ) := by
    conv_lhs => rw [← Rat.coe_int_num_of_den_eq_one h1]
    simp
  have eb : (b : ℝ) = (b.num : ℝ) := by
    conv_lhs => rw [← Rat.coe_int_num_of_den_eq_one h2]
    simp
  have fa := f32_int a.num (by rw [abs_lt]; omega)
  have fb := f32_int b.num (by rw [abs_lt]; omega)
  have fd := f32_int (b.num - a.num) (by rw [abs_lt]; omega)
  push_cast at fd
  rw [ea, eb, fa, fb, fd, add_sub_cancel, fb]
  exact ⟨rfl, rfl⟩

theorem top_cent {c : ℝ} (hc : float32.fl c = c) (m : ℕ) (k : ℤ) (n : ℕ) (l : ℤ)
    (h1 : 2 ^ 23 * 2 ^ k ≤ c - 10737418 * 2 ^ (-30 : ℤ)) (h2 : c - 10737418 * 2 ^ (-30 : ℤ) < 2 ^ 24 * 2 ^ k)
    (h3 : |c - 10737418 * 2 ^ (-30 : ℤ) - m * 2 ^ k| < 2 ^ k / 2)
    (h4 : 2 ^ 23 * 2 ^ l ≤ 10737418 * 2 ^ (-30 : ℤ) + (m : ℝ) * 2 ^ k) (h5 : 10737418 * 2 ^ (-30 : ℤ) + (m : ℝ) * 2 ^ k < 2 ^ 24 * 2 ^ l)
    (h6 : |10737418 * 2 ^ (-30 : ℤ) + (m : ℝ) * 2 ^ k - n * 2 ^ l| < 2 ^ l / 2) (h7 : c = n * 2 ^ l) :
    float32.fl (float32.fl 0.01 + float32.fl (float32.fl c - float32.fl 0.01)) = float32.fl c := by
  rw [f32_cent, hc, float32_eq m k h1 h2 h3, float32_eq n l h4 h5 h6, h7]

/-- The largest value of a bounded parameter is the upper bound. -/
theorem pop_top (f : PF) (hf : f ≠ .inr .qphi_lgmu_crit) :
    float32.fl (float32.fl (PF.bounds f).1 + float32.fl (float32.fl (PF.bounds f).2 - float32.fl (PF.bounds f).1)) =
      float32.fl (PF.bounds f).2 := by
  cases f with
  | inr f => exact (top_int (SF.bounds_kinds f fun h => hf (by rw [h]))).2
  | inl f =>
    show float32.fl (float32.fl ((f.boundsQ.1 : ℚ) : ℝ) + float32.fl (float32.fl ((f.boundsQ.2 : ℚ) : ℝ) -
      float32.fl ((f.boundsQ.1 : ℚ) : ℝ))) = float32.fl ((f.boundsQ.2 : ℚ) : ℝ)
    have e : ((1 / 100 : ℚ) : ℝ) = 0.01 := by norm_num
    rcases QF.bounds_kinds f with h | h | h | h | h | h | h | h
    · exact (top_int h).2
    all_goals rw [h]; dsimp only
    · rw [e, show ((1 : ℚ) : ℝ) = 1 by norm_num]
      exact top_cent float32.one 16609444 (-24) 8388608 (-23) (by norm_num) (by norm_num) (by rw [abs_lt]; norm_num)
        (by norm_num) (by norm_num) (by rw [abs_lt]; norm_num) (by norm_num)
    · rw [e, show ((3 : ℚ) : ℝ) = 3 by norm_num]
      exact top_cent (f32_exact' 3 0 _ (by norm_num) (by norm_num)) 12540969 (-22) 12582912 (-22) (by norm_num) (by norm_num)
        (by rw [abs_lt]; norm_num) (by norm_num) (by norm_num) (by rw [abs_lt]; norm_num) (by norm_num)
    · rw [e, show ((1 / 2 : ℚ) : ℝ) = 1 / 2 by norm_num]
      exact top_cent (f32_exact' 1 (-1) _ (by norm_num) (by norm_num)) 16441672 (-25) 8388608 (-24) (by norm_num) (by norm_num)
        (by rw [abs_lt]; norm_num) (by norm_num) (by norm_num) (by rw [abs_lt]; norm_num) (by norm_num)
    · rw [e, show ((2 : ℚ) : ℝ) = 2 by norm_num]
      exact top_cent (f32_exact' 1 1 _ (by norm_num) (by norm_num)) 16693330 (-23) 8388608 (-22) (by norm_num) (by norm_num)
        (by rw [abs_lt]; norm_num) (by norm_num) (by norm_num) (by rw [abs_lt]; norm_num) (by norm_num)
    · rw [e, show ((10 : ℚ) : ℝ) = 10 by norm_num]
      exact top_cent (f32_exact' 5 1 _ (by norm_num) (by norm_num)) 10475274 (-20) 10485760 (-20) (by norm_num) (by norm_num)
        (by rw [abs_lt]; norm_num) (by norm_num) (by norm_num) (by rw [abs_lt]; norm_num) (by norm_num)
    · rw [e, show ((5 : ℚ) : ℝ) = 5 by norm_num]
      exact top_cent (f32_exact' 5 0 _ (by norm_num) (by norm_num)) 10464788 (-21) 10485760 (-21) (by norm_num) (by norm_num)
        (by rw [abs_lt]; norm_num) (by norm_num) (by norm_num) (by rw [abs_lt]; norm_num) (by norm_num)
    · rw [show ((-1 / 10 : ℚ) : ℝ) = -0.1 by norm_num, show ((1 / 10 : ℚ) : ℝ) = 0.1 by norm_num, float32.neg, f32_tenth]
      have e2 : float32.fl (13421773 * 2 ^ (-27 : ℤ) - -(13421773 * 2 ^ (-27 : ℤ))) = 2 * (13421773 * 2 ^ (-27 : ℤ)) := by
        rw [sub_neg_eq_add, ← two_mul]
        exact f32_exact' 13421773 (-26) _ (by norm_num) (by norm_num)
      rw [e2, show -(13421773 * 2 ^ (-27 : ℤ)) + 2 * (13421773 * 2 ^ (-27 : ℤ)) = (13421773 : ℝ) * 2 ^ (-27 : ℤ) by ring]
      exact f32_exact' 13421773 (-27) _ (by norm_num) (by norm_num)

/-- The largest value of `qphi_lgmu_crit`. -/
theorem lgmu_top : float32.fl (float32.fl (PF.bounds (.inr .qphi_lgmu_crit)).1 + float32.fl (float32.fl
    (PF.bounds (.inr .qphi_lgmu_crit)).2 - float32.fl (PF.bounds (.inr .qphi_lgmu_crit)).1)) = -(13421760 * 2 ^ (-27 : ℤ)) := by
  have e1 : (PF.bounds (.inr .qphi_lgmu_crit)).1 = -4 := by norm_num [PF.bounds, SF.bounds, SF.boundsQ]
  have e2 : (PF.bounds (.inr .qphi_lgmu_crit)).2 = -0.1 := by norm_num [PF.bounds, SF.bounds, SF.boundsQ]
  rw [e1, e2, float32.neg 0.1, f32_tenth, f32_exact_neg 1 2 (-4) (by norm_num) (by norm_num)]
  have := float32_eq (x := -(13421773 * 2 ^ (-27 : ℤ)) - -4) 16357786 (-22) (by norm_num) (by norm_num) (by rw [abs_lt]; norm_num)
  rw [this]
  rw [show (-4 : ℝ) + ((16357786 : ℕ) : ℝ) * 2 ^ (-22 : ℤ) = -(13421760 * 2 ^ (-27 : ℤ)) by norm_num]
  exact f32_exact_neg 13421760 (-27) _ (by norm_num) (by norm_num)

/-- **C145**: in single precision bounded population parameters lie in the closed intervals, but for the upper bound of
`qphi_lgmu_crit`. -/
theorem C145_params_closed_bounds_partial (exp : ℝ → ℝ) (hexp : ∀ x, 0 ≤ exp x) (u : PF → ℝ) :
    InPopFloatBounds (float32.getBoundedDiffstarpopParams exp u) ∧
      float32.getBoundedDiffstarpopParams exp u (.inr .qphi_lgmu_crit) ≤ -0.0999999 := by
  have key : ∀ f, float32.fl (PF.bounds f).1 ≤ float32.getBoundedDiffstarpopParams exp u f ∧
      float32.getBoundedDiffstarpopParams exp u f ≤ float32.fl (float32.fl (PF.bounds f).1 +
        float32.fl (float32.fl (PF.bounds f).2 - float32.fl (PF.bounds f).1)) := by
    intro f
    rw [getBoundedFl_apply]
    exact sigmoidFl_range float32 exp hexp _ _ _ _ _ (float32.idem _) (float32.mono (PF.bounds_lt f).le)
  refine ⟨⟨fun f => ?_, fun f => (key f).1, fun f hf => pop_top f hf ▸ (key f).2⟩, ?_⟩
  · rw [getBoundedFl_apply]
    exact float32.idem _
  · refine (key (.inr .qphi_lgmu_crit)).2.trans ?_
    rw [lgmu_top]
    norm_num

/-- **C145**: in single precision `qphi_lgmu_crit` can exceed its upper bound. -/
theorem C145_lgmu_crit_violated (exp : ℝ → ℝ) (hexp : ∀ x, |exp x - Real.exp x| ≤ Real.exp x / 2) (hpos : ∀ x, 0 ≤ exp x) :
    ∃ u : PF → ℝ, -0.1 < float32.getBoundedDiffstarpopParams exp u (.inr .qphi_lgmu_crit) := by
  refine ⟨fun _ => 300, ?_⟩
  rw [getBoundedFl_apply, Rounding.getPFromUPScalar, Rounding.sigmoid]
  have e1 : (PF.bounds (.inr .qphi_lgmu_crit)).1 = -4 := by norm_num [PF.bounds, SF.bounds, SF.boundsQ]
  have e2 : (PF.bounds (.inr .qphi_lgmu_crit)).2 = -0.1 := by norm_num [PF.bounds, SF.bounds, SF.boundsQ]
  have neg : ∀ {x : ℝ}, x ≤ 0 → float32.fl x ≤ 0 := fun {x} hx => by
    have := float32.mono hx
    rwa [float32.fl_zero] at this
  have h0 : float32.fl (0.5 * float32.fl (float32.fl (PF.bounds (.inr .qphi_lgmu_crit)).1 +
      float32.fl (PF.bounds (.inr .qphi_lgmu_crit)).2)) ≤ 0 := by
    have h1 : float32.fl (PF.bounds (.inr .qphi_lgmu_crit)).1 ≤ 0 := neg (by rw [e1]; norm_num)
    have h2 : float32.fl (PF.bounds (.inr .qphi_lgmu_crit)).2 ≤ 0 := neg (by rw [e2]; norm_num)
    have h3 := neg (add_nonpos h1 h2)
    exact neg (by linarith)
  have hk : (0.1 : ℝ) ≤ float32.fl BOUNDING_K := by
    rw [show BOUNDING_K = 0.1 from rfl, f32_tenth]
    norm_num
  have hz : 27 ≤ float32.fl (float32.fl BOUNDING_K * float32.fl (300 - float32.fl (0.5 * float32.fl (float32.fl
      (PF.bounds (.inr .qphi_lgmu_crit)).1 + float32.fl (PF.bounds (.inr .qphi_lgmu_crit)).2)))) := by
    generalize float32.fl (0.5 * float32.fl (float32.fl (PF.bounds (.inr .qphi_lgmu_crit)).1 +
      float32.fl (PF.bounds (.inr .qphi_lgmu_crit)).2)) = q at h0
    have h4 := float32.mono (show 300 ≤ 300 - q by linarith)
    rw [f32_exact' 300 0 300 (by norm_num) (by norm_num)] at h4
    have h5 : 27 ≤ float32.fl BOUNDING_K * float32.fl (300 - q) := by nlinarith
    have h6 := float32.mono h5
    rwa [f32_exact' 27 0 27 (by norm_num) (by norm_num)] at h6
  rw [nnSigmoidFl_saturates exp hexp hpos hz, mul_one, float32.idem, lgmu_top]
  norm_num

/-! ### Quenched fractions as probabilities -/

theorem float_prob_field {p : PF → ℝ} (hp : InPopFloatBounds p) (f : PF) (hf : f ≠ .inr .qphi_lgmu_crit) (h : PF.bounds f = (0, 1)) :
    0 ≤ p f ∧ p f ≤ 1 := by
  have h1 := hp.lower f
  have h2 := hp.upper f hf
  rw [h] at h1 h2
  rw [float32.fl_zero] at h1
  rw [float32.one] at h2
  exact ⟨h1, h2⟩

theorem bnd {f : PF} {a b : ℝ} (h : PF.bounds f = ((a : ℝ), b) := by simp [PF.bounds, QF.bounds, SF.bounds, QF.boundsQ, SF.boundsQ]) :
    PF.bounds f = (a, b) := h

section prob

variable {exp : ℝ → ℝ} (hexp : ∀ x, 0 ≤ exp x) {p : PF → ℝ} (hp : InPopFloatBounds p)

include hexp hp

theorem fracQuenchCenFl_prob (m t : ℝ) :
    (0 ≤ float32.fracQuenchCen exp (sfhPdfPart p) m t ∧ float32.fracQuenchCen exp (sfhPdfPart p) m t ≤ 1) ∧
      float32.fl (float32.fracQuenchCen exp (sfhPdfPart p) m t) = float32.fracQuenchCen exp (sfhPdfPart p) m t := by
  simp only [Rounding.fracQuenchCen, sfhPdfPart_apply]
  obtain ⟨h1, h2⟩ := sigmoidFl_prob hexp t (p (.inl .frac_quench_cen_x0_tpeak)) (p (.inl .frac_quench_cen_k_tpeak)) (hp.single _)
    (float_prob_field hp (.inl .frac_quench_cen_ylo_ylotpeak) (by simp) bnd)
    (float_prob_field hp (.inl .frac_quench_cen_ylo_yhitpeak) (by simp) bnd)
  exact sigmoidFl_prob hexp _ _ _ h2 h1 (float_prob_field hp (.inl .frac_quench_cen_yhi) (by simp) bnd)

theorem fracQuenchSatFl_prob (m t : ℝ) :
    (0 ≤ float32.fracQuenchSat exp (sfhPdfPart p) m t ∧ float32.fracQuenchSat exp (sfhPdfPart p) m t ≤ 1) ∧
      float32.fl (float32.fracQuenchSat exp (sfhPdfPart p) m t) = float32.fracQuenchSat exp (sfhPdfPart p) m t := by
  simp only [Rounding.fracQuenchSat, sfhPdfPart_apply]
  obtain ⟨h1, h2⟩ := sigmoidFl_prob hexp t (p (.inl .frac_quench_sat_x0_tpeak)) (p (.inl .frac_quench_sat_k_tpeak)) (hp.single _)
    (float_prob_field hp (.inl .frac_quench_sat_ylo_ylotpeak) (by simp) bnd)
    (float_prob_field hp (.inl .frac_quench_sat_ylo_yhitpeak) (by simp) bnd)
  exact sigmoidFl_prob hexp _ _ _ h2 h1 (float_prob_field hp (.inl .frac_quench_sat_yhi) (by simp) bnd)

theorem qprobHiFl_prob (mu mh : ℝ) :
    (0 ≤ float32.qprobHiVsSubHostMass exp (satquenchPart p) mu mh ∧ float32.qprobHiVsSubHostMass exp (satquenchPart p) mu mh ≤ 1) ∧
      float32.fl (float32.qprobHiVsSubHostMass exp (satquenchPart p) mu mh) =
        float32.qprobHiVsSubHostMass exp (satquenchPart p) mu mh := by
  simp only [Rounding.qprobHiVsSubHostMass, satquenchPart_apply]
  obtain ⟨h1, h2⟩ := sigmoidFl_prob hexp mu (p (.inr .qphi_lgmu_crit)) LGMU_SPEED (hp.single _)
    (float_prob_field hp (.inr .lgmu_lo_mh_lo) (by simp) bnd) (float_prob_field hp (.inr .lgmu_hi_mh_lo) (by simp) bnd)
  obtain ⟨h3, -⟩ := sigmoidFl_prob hexp mu (p (.inr .qphi_lgmu_crit)) LGMU_SPEED (hp.single _)
    (float_prob_field hp (.inr .lgmu_lo_mh_hi) (by simp) bnd) (float_prob_field hp (.inr .lgmu_hi_mh_hi) (by simp) bnd)
  exact sigmoidFl_prob hexp _ _ _ h2 h1 h3

theorem fracDeltaFl_prob (mu mh t : ℝ) :
    0 ≤ float32.predictSatFracDeltaQprob exp (satquenchPart p) mu mh t ∧
      float32.predictSatFracDeltaQprob exp (satquenchPart p) mu mh t ≤ 1 := by
  simp only [Rounding.predictSatFracDeltaQprob, Rounding.satquenchKernel]
  exact (sigmoidFl_prob hexp _ _ _ float32.fl_zero (by norm_num) (qprobHiFl_prob hexp hp mu mh).1).1

/-- **C145**: in single precision the quenched fraction is a number between 0 and 1 (both included), for centrals and satellites. -/
theorem C145_frac_quench_probability (logmp0 tpeak : ℝ) (upid : ℤ) (lgmu logmhost gyr : ℝ) :
    0 ≤ float32.fracQuench exp p logmp0 tpeak upid lgmu logmhost gyr ∧
      float32.fracQuench exp p logmp0 tpeak upid lgmu logmhost gyr ≤ 1 := by
  unfold Rounding.fracQuench
  split_ifs
  · exact (fracQuenchCenFl_prob hexp hp _ _).1
  · obtain ⟨⟨h0, h1⟩, h2⟩ := fracQuenchSatFl_prob hexp hp logmp0 tpeak
    obtain ⟨d0, d1⟩ := fracDeltaFl_prob hexp hp lgmu logmhost gyr
    unfold Rounding.getQprobSat
    dsimp only
    generalize float32.predictSatFracDeltaQprob exp (satquenchPart p) lgmu logmhost gyr = d at d0 d1
    generalize float32.fracQuenchSat exp (sfhPdfPart p) logmp0 tpeak = q at h0 h1 h2
    have h3 : 0 ≤ float32.fl (1 - q) := float32.fl_nonneg (by linarith)
    have h4 : float32.fl (d * float32.fl (1 - q)) ≤ float32.fl (1 - q) := by
      have := float32.mono (show d * float32.fl (1 - q) ≤ float32.fl (1 - q) by nlinarith)
      rwa [float32.idem] at this
    have h5 := float32.fl_nonneg (mul_nonneg d0 h3)
    exact ⟨float32.fl_nonneg (by linarith), (float32.mono (by linarith)).trans (unit_top h1 h0)⟩

end prob

/-- **C145**: in single precision, too, satellite quenching only adds. -/
theorem C145_satellites_only_add {exp : ℝ → ℝ} (hexp : ∀ x, 0 ≤ exp x) {p : PF → ℝ} (hp : InPopFloatBounds p) (logmp0 tpeak lgmu logmhost gyr : ℝ)
    (upid : ℤ) (hupid : upid ≠ -1) :
    float32.fracQuenchSat exp (sfhPdfPart p) logmp0 tpeak ≤ float32.fracQuench exp p logmp0 tpeak upid lgmu logmhost gyr := by
  obtain ⟨⟨h0, h1⟩, h2⟩ := fracQuenchSatFl_prob hexp hp logmp0 tpeak
  obtain ⟨d0, d1⟩ := fracDeltaFl_prob hexp hp lgmu logmhost gyr
  rw [Rounding.fracQuench, if_neg hupid, Rounding.getQprobSat]
  have h5 := float32.fl_nonneg (mul_nonneg d0 (float32.fl_nonneg (show 0 ≤ 1 - float32.fracQuenchSat exp (sfhPdfPart p) logmp0 tpeak by
    linarith)))
  have := float32.mono (show float32.fracQuenchSat exp (sfhPdfPart p) logmp0 tpeak ≤ float32.fracQuenchSat exp (sfhPdfPart p) logmp0 tpeak +
    float32.fl (float32.predictSatFracDeltaQprob exp (satquenchPart p) lgmu logmhost gyr *
      float32.fl (1 - float32.fracQuenchSat exp (sfhPdfPart p) logmp0 tpeak)) by linarith)
  rwa [h2] at this

/-! ### Errors -/

theorem sigma_quarter (x y : ℝ) : |1 / (1 + Real.exp (-x)) - 1 / (1 + Real.exp (-y))| ≤ |x - y| / 4 := by
  have h := Convex.norm_image_sub_le_of_norm_deriv_le (f := Real.sigmoid) (C := 1 / 4) (s := Set.univ) (x := y) (y := x)
    (fun z _ => differentiableAt_sigmoid) (fun z _ => by
      rw [Real.deriv_sigmoid, Real.norm_eq_abs, abs_of_nonneg (mul_nonneg (Real.sigmoid_nonneg z) (by linarith [Real.sigmoid_le_one z]))]
      nlinarith [sq_nonneg (Real.sigmoid z - 1 / 2)]) convex_univ (Set.mem_univ _) (Set.mem_univ _)
  simp only [Real.norm_eq_abs, Real.sigmoid_def, ← one_div] at h
  linarith

theorem mix_abs {a b s B : ℝ} (ha : |a| ≤ B) (hb : |b| ≤ B) (h0 : 0 ≤ s) (h1 : s ≤ 1) : |a + (b - a) * s| ≤ B := by
  have l1 := abs_le.1 ha
  have l2 := abs_le.1 hb
  rw [abs_le]
  constructor <;> nlinarith

/-- Error of a sigmoid whose centre and limits have errors. -/
theorem sigmoidFl_err (R : Rounding) (hu : R.u ≤ 2 ^ (-24 : ℤ)) {exp : ℝ → ℝ}
    (hexp : ∀ x, |exp x - Real.exp x| ≤ 5 / 10 ^ 7 * Real.exp x) {x x0 x0' k lo lo' hi hi' a b D B : ℝ} (hk : 0 ≤ k)
    (hx0 : |x0' - x0| ≤ a) (hlo : |lo' - lo| ≤ b) (hhi : |hi' - hi| ≤ b) (hB : |lo'| ≤ B) (hB' : |hi'| ≤ B) (hD : |hi' - lo'| ≤ D) :
    |R.sigmoid exp x x0' k lo' hi' - sigmoid x x0 k lo hi| ≤ b + D * (5.6 / 10 ^ 6 + k * a / 4) + 7 / 10 ^ 8 * B := by
  have hu1 : R.u ≤ 6 / 10 ^ 8 := hu.trans (by norm_num)
  set z' := R.fl (k * R.fl (x - x0')) with hz'
  have hz : |z' - k * (x - x0')| ≤ 2 / 10 ^ 7 * |k * (x - x0')| := by
    have h1 := R.err (k * R.fl (x - x0'))
    rw [← hz'] at h1
    have h2 := R.err (x - x0')
    have h3 : |k * R.fl (x - x0') - k * (x - x0')| ≤ 6 / 10 ^ 8 * |k * (x - x0')| := by
      rw [← mul_sub, abs_mul, abs_mul, abs_of_nonneg hk]
      have := mul_le_mul_of_nonneg_left (h2.trans (mul_le_mul_of_nonneg_right hu1 (abs_nonneg (x - x0')))) hk
      linarith
    have h4 := abs_sub_le z' (k * R.fl (x - x0')) (k * (x - x0'))
    have h5 := abs_add_le (k * R.fl (x - x0') - k * (x - x0')) (k * (x - x0'))
    rw [sub_add_cancel] at h5
    have h6 := mul_le_mul hu1 h5 (abs_nonneg _) (by norm_num)
    have h7 := abs_nonneg (k * (x - x0'))
    linarith
  have hs := nnSigmoidFl_close R hu hexp z'
  have hs1 := nnSigmoidFl_unit R exp (fun x => by
    have := (abs_le.1 (hexp x)).1
    have := Real.exp_pos x
    norm_num at *
    linarith) z'
  have hs2 := sigma_arg hz
  have hs3 := sigma_quarter (k * (x - x0')) (k * (x - x0))
  have hs4 : |k * (x - x0') - k * (x - x0)| ≤ k * a := by
    rw [← mul_sub, abs_mul, abs_of_nonneg hk, sub_sub_sub_cancel_left, abs_sub_comm]
    exact mul_le_mul_of_nonneg_left hx0 hk
  have hs5 : 0 ≤ 1 / (1 + Real.exp (-(k * (x - x0)))) ∧ 1 / (1 + Real.exp (-(k * (x - x0)))) ≤ 1 := by
    have := Real.exp_pos (-(k * (x - x0)))
    exact ⟨by positivity, by rw [div_le_one (by positivity)]; linarith⟩
  have e2 : sigmoid x x0 k lo hi = lo + (hi - lo) * (1 / (1 + Real.exp (-(k * (x - x0))))) := by
    simp only [sigmoid, nnSigmoid]
  rw [e2]
  unfold Rounding.sigmoid
  dsimp only
  rw [← hz']
  generalize R.nnSigmoid exp z' = s at *
  generalize 1 / (1 + Real.exp (-z')) = s1 at *
  generalize 1 / (1 + Real.exp (-(k * (x - x0')))) = s2 at *
  generalize 1 / (1 + Real.exp (-(k * (x - x0)))) = s3 at *
  have hD0 : 0 ≤ D := (abs_nonneg _).trans hD
  have hB0 : 0 ≤ B := (abs_nonneg _).trans hB
  have g : |s - s3| ≤ 5.4 / 10 ^ 6 + k * a / 4 := by
    have := abs_sub_le s s1 s3
    have := abs_sub_le s1 s2 s3
    norm_num at *
    linarith
  have a1 := (R.err (hi' - lo')).trans (mul_le_mul hu1 hD (abs_nonneg _) (by norm_num))
  generalize R.fl (hi' - lo') = h at *
  have hh : |h| ≤ 1.0000001 * D := by
    have := abs_sub_abs_le_abs_sub h (hi' - lo')
    norm_num at *
    linarith
  have a2' : |h * s| ≤ 1.0000001 * D := by
    rw [abs_mul, abs_of_nonneg hs1.1]
    exact (mul_le_of_le_one_right (abs_nonneg _) hs1.2).trans hh
  have a2 := (R.err (h * s)).trans (mul_le_mul hu1 a2' (abs_nonneg _) (by norm_num))
  generalize R.fl (h * s) = w at *
  have a4 : |h * s - (hi' - lo') * s| ≤ 6 / 10 ^ 8 * D := by
    rw [← sub_mul, abs_mul, abs_of_nonneg hs1.1]
    exact (mul_le_of_le_one_right (abs_nonneg _) hs1.2).trans a1
  have a5 : |lo' + (hi' - lo') * s| ≤ B := by
    exact mix_abs hB hB' hs1.1 hs1.2
  have a6 : |lo' + w - (lo' + (hi' - lo') * s)| ≤ 1.3 / 10 ^ 7 * D := by
    rw [add_sub_add_left_eq_sub]
    have := abs_sub_le w (h * s) ((hi' - lo') * s)
    norm_num at *
    linarith
  have a7 : |lo' + w| ≤ B + 1.3 / 10 ^ 7 * D := by
    have := abs_sub_abs_le_abs_sub (lo' + w) (lo' + (hi' - lo') * s)
    linarith
  have a8 := (R.err (lo' + w)).trans (mul_le_mul hu1 a7 (abs_nonneg _) (by norm_num))
  have a9 : |lo' + (hi' - lo') * s - (lo' + (hi' - lo') * s3)| ≤ D * (5.4 / 10 ^ 6 + k * a / 4) := by
    rw [add_sub_add_left_eq_sub, ← mul_sub, abs_mul]
    exact mul_le_mul hD g (abs_nonneg _) hD0
  have a10 : |lo' + (hi' - lo') * s3 - (lo + (hi - lo) * s3)| ≤ b := by
    have := mix_abs hlo hhi hs5.1 hs5.2
    rwa [show lo' - lo + (hi' - hi - (lo' - lo)) * s3 = lo' + (hi' - lo') * s3 - (lo + (hi - lo) * s3) by ring] at this
  have b1 := abs_sub_le (R.fl (lo' + w)) (lo' + w) (lo + (hi - lo) * s3)
  have b2 := abs_sub_le (lo' + w) (lo' + (hi' - lo') * s) (lo + (hi - lo) * s3)
  have b3 := abs_sub_le (lo' + (hi' - lo') * s) (lo' + (hi' - lo') * s3) (lo + (hi - lo) * s3)
  generalize k * a / 4 = ka at *
  clear_value z'
  rw [mul_add] at a9 ⊢
  generalize D * ka = Dk at *
  rw [add_sub_add_left_eq_sub] at a6 a9
  rw [add_sub_add_left_eq_sub w _ lo'] at b2
  rw [add_sub_add_left_eq_sub ((hi' - lo') * s) ((hi' - lo') * s3) lo'] at b3
  norm_num at a6 a8 a9 ⊢
  linarith only [a6, a8, a9, a10, b1, b2, b3, hD0, hB0]

end Diffstar.Props
