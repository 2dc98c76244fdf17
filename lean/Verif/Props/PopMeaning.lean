import Verif.Props.PopNan
import Verif.Props.Sfh
import Mathlib.Analysis.SpecialFunctions.ExpDeriv
import Mathlib.Analysis.SpecialFunctions.Exp

/-! C100: what the 88 population parameters mean for the galaxies drawn. -/

namespace Diffstar.Spec

open Diffstar.Pop Filter Topology

/-- A transition from `a` to `b` centred at `x0` with rate `k`. -/
def Switches (f : ℝ → ℝ) (x0 k a b : ℝ) : Prop :=
  Tendsto f atBot (𝓝 a) ∧ Tendsto f atTop (𝓝 b) ∧ f x0 = (a + b) / 2 ∧ HasDerivAt f (k * (b - a) / 4) x0 ∧
    (a ≤ b → Monotone f) ∧ (b ≤ a → Antitone f)

/-- The line through `(12.5, a)` with slope `m`, cut off one hundredth of the way before the bounds. -/
noncomputable def clampLine (lgm a m lo hi : ℝ) : ℝ :=
  max (lo + (a - lo) / 100) (min (hi - (hi - a) / 100) (a + m * (lgm - 12.5)))

/-- The broken line through `(xtp, ytp)` with slope `lo` to the left and `hi` to the right. -/
noncomputable def brokenLine (lgm xtp ytp lo hi : ℝ) : ℝ := ytp + (if xtp ≤ lgm then hi else lo) * (lgm - xtp)

/-- `v` follows the clamped line of two parameters to `1/6000` of the range. -/
def FollowsLine (v lgm : ℝ) (p : PF → ℝ) (int slp : QF) (lo hi : ℝ) : Prop :=
  |v - clampLine lgm (p (.inl int)) (p (.inl slp)) lo hi| ≤ (hi - lo) / 6000

/-- `v` follows the broken line of four parameters to a ninth of the change of slope, and passes through its vertex. -/
def FollowsBroken (v lgm : ℝ) (p : PF → ℝ) (xtp ytp lo hi : QF) : Prop :=
  |v - brokenLine lgm (p (.inl xtp)) (p (.inl ytp)) (p (.inl lo)) (p (.inl hi))| ≤ |p (.inl hi) - p (.inl lo)| / 9 ∧
    (lgm = p (.inl xtp) → v = p (.inl ytp))

/-- The sampler returns `mean + standard deviation * z` with normal deviates `z` of the key (for positive diagonal
covariances; `jax.random.multivariate_normal` returns `mean + cholesky(cov) @ z`). -/
def GaussianSampler {K : Type} (rng : Rng K) (z : K → Fin 4 → ℝ) : Prop :=
  ∀ (key : K) (mu s : Fin 4 → ℝ), (∀ i, 0 < s i) →
    rng.multivariateNormal key mu (Matrix.diagonal fun i => s i ^ 2) = fun i => mu i + s i * z key i

end Diffstar.Spec

namespace Diffstar.Props

open Diffstar.Pop Diffstar.Spec Filter Topology

/-! ### Transitions and lines -/

theorem nnSigmoid_hasDerivAt_zero : HasDerivAt nnSigmoid (1 / 4) 0 := by
  have h1 : HasDerivAt (fun x : ℝ => 1 + Real.exp (-x)) (-1) 0 := by
    have := ((hasDerivAt_neg (0 : ℝ)).exp).const_add 1
    simpa using this
  have h2 := (hasDerivAt_const (0 : ℝ) (1 : ℝ)).div h1 (by simp)
  have h3 : HasDerivAt nnSigmoid _ 0 := h2
  exact h3.congr_deriv (by norm_num)

theorem nnSigmoid_atTop : Tendsto nnSigmoid atTop (𝓝 1) := by
  have h : Tendsto (fun x : ℝ => Real.exp (-x)) atTop (𝓝 0) := Real.tendsto_exp_neg_atTop_nhds_zero
  have h2 : Tendsto (fun x : ℝ => 1 / (1 + Real.exp (-x))) atTop (𝓝 (1 / (1 + 0))) :=
    tendsto_const_nhds.div (tendsto_const_nhds.add h) (by norm_num)
  rw [add_zero, div_one] at h2
  exact h2

theorem nnSigmoid_atBot : Tendsto nnSigmoid atBot (𝓝 0) := by
  have h := (nnSigmoid_atTop.comp tendsto_neg_atBot_atTop).const_sub 1
  have e : (fun x => 1 - (nnSigmoid ∘ Neg.neg) x) = nnSigmoid := by
    funext x
    simp only [Function.comp_apply]
    rw [nnSigmoid_neg]
    ring
  rw [e] at h
  simpa using h

theorem switches_sigmoid {k : ℝ} (hk : 0 < k) (x0 a b : ℝ) : Switches (fun x => sigmoid x x0 k a b) x0 k a b := by
  have hin : Tendsto (fun x : ℝ => k * (x - x0)) atTop atTop :=
    (tendsto_atTop_add_const_right _ (-x0) tendsto_id).const_mul_atTop hk
  have hib : Tendsto (fun x : ℝ => k * (x - x0)) atBot atBot :=
    (tendsto_atBot_add_const_right _ (-x0) tendsto_id).const_mul_atBot hk
  refine ⟨?_, ?_, ?_, ?_, ?_, ?_⟩
  · have := ((nnSigmoid_atBot.comp hib).const_mul (b - a)).const_add a
    simpa [sigmoid] using this
  · have := ((nnSigmoid_atTop.comp hin).const_mul (b - a)).const_add a
    simpa [sigmoid] using this
  · simp only [sigmoid, sub_self, mul_zero, nnSigmoid_zero]
    ring
  · have h1 : HasDerivAt (fun x : ℝ => k * (x - x0)) k x0 := by
      simpa using ((hasDerivAt_id x0).sub_const x0).const_mul k
    have h0 : HasDerivAt nnSigmoid (1 / 4) (k * (x0 - x0)) := by simpa using nnSigmoid_hasDerivAt_zero
    have h2 := ((h0.comp x0 h1).const_mul (b - a)).const_add a
    simp only [sigmoid]
    refine h2.congr_deriv ?_
    ring
  · intro h
    exact sigmoid_mono hk.le h
  · intro h x y hxy
    have h1 := nnSigmoid_strictMono.monotone (mul_le_mul_of_nonneg_left (sub_le_sub_right hxy x0) hk.le)
    simp only [sigmoid]
    nlinarith

/-- `x σ(k x)` is the positive part of `x`, from below, to `1/(3k)`. -/
theorem relu_near {k : ℝ} (hk : 0 < k) (x : ℝ) :
    max 0 x - 1 / (3 * k) ≤ x * nnSigmoid (k * x) ∧ x * nnSigmoid (k * x) ≤ max 0 x := by
  have h0 := nnSigmoid_pos (k * x)
  have h1 := nnSigmoid_lt_one (k * x)
  have e : 1 / (3 * k) = 1 / 3 / k := by field_simp
  rcases le_total 0 x with hx | hx
  · rw [max_eq_right hx]
    refine ⟨?_, by nlinarith⟩
    have := mul_nnSigmoid_neg_le (k * x)
    rw [nnSigmoid_neg] at this
    rw [e, sub_le_iff_le_add, ← sub_le_iff_le_add', le_div_iff₀ hk]
    linarith
  · rw [max_eq_left hx]
    refine ⟨?_, by nlinarith⟩
    have := mul_nnSigmoid_ge (k * x)
    rw [zero_sub, e, ← neg_div, div_le_iff₀ hk]
    linarith

theorem clipOf_near {D U y0 : ℝ} (hD : 0 < D) (hU : 0 < U) (Y : ℝ) :
    |clipOf D U y0 Y - max (y0 - 0.99 * D) (min (y0 + 0.99 * U) Y)| ≤ D / 6000 := by
  simp only [clipOf]
  set L := y0 - 0.99 * D with hL
  set H := y0 + 0.99 * U with hH
  have hLH : L < H := by rw [hL, hH]; linarith
  have hk : (0 : ℝ) < 2000 / D := by positivity
  have ek : 1 / (3 * (2000 / D)) = D / 6000 := by field_simp; norm_num
  obtain ⟨b1, b2⟩ := relu_near hk (Y - L)
  obtain ⟨c1, c2⟩ := relu_near hk (Y - H)
  rw [ek] at b1 c1
  have s0 := nnSigmoid_pos (2000 / D * (Y - H))
  have s1 := nnSigmoid_lt_one (2000 / D * (Y - H))
  set s := nnSigmoid (2000 / D * (Y - H))
  set r := (Y - L) * nnSigmoid (2000 / D * (Y - L))
  have e1 : 0 ≤ D / 6000 := by positivity
  rw [abs_le]
  rcases le_total L Y with hY | hY
  · rw [max_eq_right (by linarith : 0 ≤ Y - L)] at b1 b2
    rcases le_total H Y with hYH | hYH
    · rw [max_eq_right (by linarith : 0 ≤ Y - H)] at c1 c2
      rw [min_eq_left hYH, max_eq_right hLH.le]
      constructor <;> nlinarith
    · rw [max_eq_left (by linarith : Y - H ≤ 0)] at c1 c2
      rw [min_eq_right hYH, max_eq_right hY]
      constructor <;> nlinarith
  · rw [max_eq_left (by linarith : Y - L ≤ 0)] at b1 b2
    rw [max_eq_left (by linarith : Y - H ≤ 0)] at c1 c2
    rw [max_eq_left ((min_le_right _ _).trans hY)]
    constructor <;> nlinarith

theorem line_follows {u : PF → ℝ} {fi fs : QF} {lo hi lgm v : ℝ} (hb1 : ((QF.boundsQ fi).1 : ℝ) = lo)
    (hb2 : ((QF.boundsQ fi).2 : ℝ) = hi)
    (h : lineModel lgm (getBoundedDiffstarpopParams u (.inl fi)) (getBoundedDiffstarpopParams u (.inl fs)) (lo, hi) =
      some v) : FollowsLine v lgm (getBoundedDiffstarpopParams u) fi fs lo hi := by
  have hb := getBounded_in u (.inl fi)
  simp only [PF.bounds, QF.bounds, hb1, hb2] at hb
  unfold FollowsLine
  set a := getBoundedDiffstarpopParams u (.inl fi)
  set m := getBoundedDiffstarpopParams u (.inl fs)
  have hm : m ≠ 0 := by
    rintro hm
    rw [hm] at h
    simp [lineModel, smoothlyClippedLine] at h
  rw [lineModel, smoothlyClippedLine_eq hm hb.1, Option.some.injEq] at h
  have hn := clipOf_near (sub_pos.2 hb.1) (sub_pos.2 hb.2) (a + m * (lgm - LGM_X0)) (y0 := a)
  rw [h] at hn
  have e : clampLine lgm a m lo hi = max (a - 0.99 * (a - lo)) (min (a + 0.99 * (hi - a)) (a + m * (lgm - LGM_X0))) := by
    unfold clampLine LGM_X0
    congr 1
    · ring
    · congr 1
      ring
  rw [e]
  refine hn.trans ?_
  have := hb.2
  linarith

theorem mcrit_follows (p : PF → ℝ) (lgm : ℝ) (xtp ytp lo hi : QF) :
    FollowsBroken (mcritModel lgm (p (.inl xtp)) (p (.inl ytp)) (p (.inl lo)) (p (.inl hi))) lgm p xtp ytp lo hi := by
  refine ⟨?_, ?_⟩
  · simp only [mcritModel, sigSlope, sigmoid, brokenLine]
    set x := lgm - p (.inl xtp)
    set A := p (.inl lo)
    set B := p (.inl hi)
    obtain ⟨r1, r2⟩ := relu_near (k := 3) (by norm_num) x
    have key : |(A + (B - A) * nnSigmoid (3 * x)) * x - (if p (.inl xtp) ≤ lgm then B else A) * x| ≤ |B - A| / 9 := by
      split_ifs with hx
      · have hx' : 0 ≤ x := sub_nonneg.2 hx
        rw [max_eq_right hx'] at r1 r2
        rw [show (A + (B - A) * nnSigmoid (3 * x)) * x - B * x = (B - A) * (x * nnSigmoid (3 * x) - x) by ring, abs_mul,
          div_eq_mul_one_div]
        refine mul_le_mul_of_nonneg_left ?_ (abs_nonneg _)
        rw [abs_le]
        constructor <;> linarith
      · have hx' : x ≤ 0 := sub_nonpos.2 (not_le.1 hx).le
        rw [max_eq_left hx'] at r1 r2
        rw [show (A + (B - A) * nnSigmoid (3 * x)) * x - A * x = (B - A) * (x * nnSigmoid (3 * x)) by ring, abs_mul,
          div_eq_mul_one_div]
        refine mul_le_mul_of_nonneg_left ?_ (abs_nonneg _)
        rw [abs_le]
        constructor <;> linarith
    refine le_trans (le_of_eq ?_) key
    congr 1
    ring
  · rintro rfl
    simp [mcritModel, sigSlope]

theorem follows_pos {v lgm hi : ℝ} {p : PF → ℝ} {fi fs : QF} (h : FollowsLine v lgm p fi fs 0.01 hi) (hhi : hi ≤ 3)
    (hp : 0.01 < p (.inl fi)) : 0 < v := by
  unfold FollowsLine at h
  have h1 := (abs_le.1 h).1
  have h2 : 0.01 ≤ clampLine lgm (p (.inl fi)) (p (.inl fs)) 0.01 hi := le_max_of_le_left (by linarith)
  norm_num at h1 h2 ⊢
  linarith

theorem std_pos {u : PF → ℝ} {fi fs : QF} {hi lgm v : ℝ} (hb1 : (QF.boundsQ fi).1 = 1 / 100) (hhi : hi ≤ 3)
    (h : FollowsLine v lgm (getBoundedDiffstarpopParams u) fi fs 0.01 hi) : 0 < v := by
  refine follows_pos h hhi ?_
  have := (getBounded_in u (.inl fi)).1
  simp only [PF.bounds, QF.bounds, hb1] at this
  norm_num at this ⊢
  exact this

/-! ### C100 -/

/-- C100: the quenched fraction of centrals rises or falls with halo mass from a floor to a plateau `yhi` around a mass
scale; the floor and the mass scale change with the time of peak mass. -/
theorem C100_central_quenched_fraction (u : PF → ℝ) :
    let p := getBoundedDiffstarpopParams u
    ∃ X Y : ℝ → ℝ,
      Switches X (p (.inl .frac_quench_cen_x0_tpeak)) (p (.inl .frac_quench_cen_k_tpeak))
        (p (.inl .frac_quench_cen_x0_ylotpeak)) (p (.inl .frac_quench_cen_x0_yhitpeak)) ∧
      Switches Y (p (.inl .frac_quench_cen_x0_tpeak)) (p (.inl .frac_quench_cen_k_tpeak))
        (p (.inl .frac_quench_cen_ylo_ylotpeak)) (p (.inl .frac_quench_cen_ylo_yhitpeak)) ∧
      ∀ {K : Type} (rng : Rng K) (key : K) (lgmu logmhost gyr tpeak : ℝ),
        Switches (fun lgm => (mcDiffstarParamsSinglegal rng p lgm tpeak (-1) lgmu logmhost gyr key).fracQ) (X tpeak)
          (p (.inl .frac_quench_cen_k)) (Y tpeak) (p (.inl .frac_quench_cen_yhi)) := by
  intro p
  have hk1 : 0 < p (.inl .frac_quench_cen_k_tpeak) := by
    have := (getBounded_in u (.inl .frac_quench_cen_k_tpeak)).1
    norm_num [PF.bounds, QF.bounds, QF.boundsQ] at this
    linarith
  have hk2 : 0 < p (.inl .frac_quench_cen_k) := by
    have := (getBounded_in u (.inl .frac_quench_cen_k)).1
    norm_num [PF.bounds, QF.bounds, QF.boundsQ] at this
    linarith
  refine ⟨_, _, switches_sigmoid hk1 _ _ _, switches_sigmoid hk1 _ _ _, ?_⟩
  intro K rng key lgmu logmhost gyr tpeak
  have := switches_sigmoid hk2 (sigmoid tpeak (p (.inl .frac_quench_cen_x0_tpeak)) (p (.inl .frac_quench_cen_k_tpeak))
        (p (.inl .frac_quench_cen_x0_ylotpeak)) (p (.inl .frac_quench_cen_x0_yhitpeak)))
    (sigmoid tpeak (p (.inl .frac_quench_cen_x0_tpeak)) (p (.inl .frac_quench_cen_k_tpeak))
        (p (.inl .frac_quench_cen_ylo_ylotpeak)) (p (.inl .frac_quench_cen_ylo_yhitpeak))) (p (.inl .frac_quench_cen_yhi))
  simpa only [mcDiffstarParamsSinglegal, mcDiffstarUParamsSinglegalKernel, diffstarpopMeansCovs, sfhPdfScalarKernel,
    if_true, fracQuenchCen, sfhPdfPart_apply] using this

/-- C100: a satellite starts from a fraction `G` of the same form as that of centrals, with its own parameters. After
infall the fraction switches, around a delay set by the host mass, to `G + Q (1 - G)`; the efficiency `Q` switches with
the host mass between two functions of the mass ratio, each of which switches between two parameters. -/
theorem C100_satellite_quenched_fraction (u : PF → ℝ) :
    let p := getBoundedDiffstarpopParams u
    ∃ (X Y D Qlo Qhi : ℝ → ℝ) (G Q : ℝ → ℝ → ℝ),
      Switches X (p (.inl .frac_quench_sat_x0_tpeak)) (p (.inl .frac_quench_sat_k_tpeak))
        (p (.inl .frac_quench_sat_x0_ylotpeak)) (p (.inl .frac_quench_sat_x0_yhitpeak)) ∧
      Switches Y (p (.inl .frac_quench_sat_x0_tpeak)) (p (.inl .frac_quench_sat_k_tpeak))
        (p (.inl .frac_quench_sat_ylo_ylotpeak)) (p (.inl .frac_quench_sat_ylo_yhitpeak)) ∧
      (∀ tpeak, Switches (fun lgm => G lgm tpeak) (X tpeak) (p (.inl .frac_quench_sat_k)) (Y tpeak)
        (p (.inl .frac_quench_sat_yhi))) ∧
      Switches D (p (.inr .td_lgmhc)) 5 (p (.inr .td_mlo)) (p (.inr .td_mhi)) ∧
      Switches Qlo (p (.inr .qphi_lgmu_crit)) 2 (p (.inr .lgmu_lo_mh_lo)) (p (.inr .lgmu_hi_mh_lo)) ∧
      Switches Qhi (p (.inr .qphi_lgmu_crit)) 2 (p (.inr .lgmu_lo_mh_hi)) (p (.inr .lgmu_hi_mh_hi)) ∧
      (∀ lgmu, Switches (Q lgmu) (p (.inr .qp_lgmh_crit)) 5 (Qlo lgmu) (Qhi lgmu)) ∧
      ∀ {K : Type} (rng : Rng K) (key : K) (upid : ℤ) (lgmu logmhost lgm tpeak : ℝ), upid ≠ -1 →
        Switches (fun gyr => (mcDiffstarParamsSinglegal rng p lgm tpeak upid lgmu logmhost gyr key).fracQ) (D logmhost) 5
          (G lgm tpeak) (G lgm tpeak + Q lgmu logmhost * (1 - G lgm tpeak)) := by
  intro p
  have hk1 : 0 < p (.inl .frac_quench_sat_k_tpeak) := by
    have := (getBounded_in u (.inl .frac_quench_sat_k_tpeak)).1
    norm_num [PF.bounds, QF.bounds, QF.boundsQ] at this
    linarith
  have hk2 : 0 < p (.inl .frac_quench_sat_k) := by
    have := (getBounded_in u (.inl .frac_quench_sat_k)).1
    norm_num [PF.bounds, QF.bounds, QF.boundsQ] at this
    linarith
  refine ⟨_, _, _, _, _, fracQuenchSat (sfhPdfPart p), fun lgmu logmhost => qprobHiVsSubHostMass (satquenchPart p) lgmu logmhost,
    switches_sigmoid hk1 _ _ _, switches_sigmoid hk1 _ _ _, ?_, switches_sigmoid (by norm_num) _ _ _,
    switches_sigmoid (by norm_num) _ _ _, switches_sigmoid (by norm_num) _ _ _, ?_, ?_⟩
  · intro tpeak
    have := switches_sigmoid hk2 (sigmoid tpeak (p (.inl .frac_quench_sat_x0_tpeak)) (p (.inl .frac_quench_sat_k_tpeak))
        (p (.inl .frac_quench_sat_x0_ylotpeak)) (p (.inl .frac_quench_sat_x0_yhitpeak)))
      (sigmoid tpeak (p (.inl .frac_quench_sat_x0_tpeak)) (p (.inl .frac_quench_sat_k_tpeak))
        (p (.inl .frac_quench_sat_ylo_ylotpeak)) (p (.inl .frac_quench_sat_ylo_yhitpeak))) (p (.inl .frac_quench_sat_yhi))
    simpa only [fracQuenchSat, sfhPdfPart_apply] using this
  · intro lgmu
    have := switches_sigmoid (k := 5) (by norm_num) (p (.inr .qp_lgmh_crit))
      (sigmoid lgmu (p (.inr .qphi_lgmu_crit)) 2 (p (.inr .lgmu_lo_mh_lo)) (p (.inr .lgmu_hi_mh_lo)))
      (sigmoid lgmu (p (.inr .qphi_lgmu_crit)) 2 (p (.inr .lgmu_lo_mh_hi)) (p (.inr .lgmu_hi_mh_hi)))
    simpa only [qprobHiVsSubHostMass, satquenchPart_apply, LGMU_SPEED, DEFAULT_LGMH_K] using this
  · intro K rng key upid lgmu logmhost lgm tpeak hup
    have := switches_sigmoid (k := 5) (by norm_num) (sigmoid logmhost (p (.inr .td_lgmhc)) 5 (p (.inr .td_mlo))
      (p (.inr .td_mhi))) (fracQuenchSat (sfhPdfPart p) lgm tpeak) (fracQuenchSat (sfhPdfPart p) lgm tpeak +
        qprobHiVsSubHostMass (satquenchPart p) lgmu logmhost * (1 - fracQuenchSat (sfhPdfPart p) lgm tpeak))
    convert this using 1
    funext gyr
    simp only [mcDiffstarParamsSinglegal, mcDiffstarUParamsSinglegalKernel, diffstarpopMeansCovs, sfhPdfScalarKernel,
      if_neg hup, getQprobSat, predictSatFracDeltaQprob, satquenchKernel, tDelayVsLogmhost, satquenchPart_apply, sigmoid,
      DEFAULT_LGMH_K, DEFAULT_Q_SPEED]
    ring

/-- C100: a main-sequence galaxy has four drawn parameters, normally distributed about a mean and with a standard
deviation that follow the lines of the main-sequence parameters with halo mass, and is never quenched by more than one
percent. -/
theorem C100_main_sequence_draw {K : Type} (rng : Rng K) (z : K → Fin 4 → ℝ) (hz : GaussianSampler rng z) (u : PF → ℝ)
    (lgm tpeak : ℝ) (upid : ℤ) (lgmu logmhost gyr : ℝ) (key : K) (d : DiffstarParams ℝ)
    (h : (mcDiffstarUParamsSinglegalKernel rng (getBoundedDiffstarpopParams u) lgm tpeak upid lgmu logmhost gyr
      key).uMs = some d) :
    let p := getBoundedDiffstarpopParams u
    (∃ m s : Fin 4 → ℝ,
      let k := rng.split key 4 0
      d.lgmcrit = m 0 + s 0 * z k 0 ∧ d.lgyAtMcrit = m 1 + s 1 * z k 1 ∧ d.indxLo = m 2 + s 2 * z k 2 ∧
      d.indxHi = m 3 + s 3 * z k 3 ∧
      FollowsBroken (m 0) lgm p .mean_ulgm_mseq_xtp .mean_ulgm_mseq_ytp .mean_ulgm_mseq_lo .mean_ulgm_mseq_hi ∧
      FollowsBroken (m 1) lgm p .mean_ulgy_mseq_xtp .mean_ulgy_mseq_ytp .mean_ulgy_mseq_lo .mean_ulgy_mseq_hi ∧
      FollowsLine (m 2) lgm p .mean_ul_mseq_int .mean_ul_mseq_slp (-3) 5 ∧
      FollowsLine (m 3) lgm p .mean_uh_mseq_int .mean_uh_mseq_slp (-5) 3 ∧
      FollowsLine (s 0) lgm p .std_ulgm_mseq_int .std_ulgm_mseq_slp 0.01 1 ∧
      FollowsLine (s 1) lgm p .std_ulgy_mseq_int .std_ulgy_mseq_slp 0.01 1 ∧
      FollowsLine (s 2) lgm p .std_ul_mseq_int .std_ul_mseq_slp 0.01 3 ∧
      FollowsLine (s 3) lgm p .std_uh_mseq_int .std_uh_mseq_slp 0.01 3) ∧
    ∀ lgt, let q := getBoundedDiffstarParams d
      0.99 < quenchingKern lgt q.lgQt ((10 : ℝ) ^ q.qlglgdt) q.lgDrop q.lgRejuv := by
  intro p
  simp only [mcDiffstarUParamsSinglegalKernel, diffstarpopMeansCovs, sfhPdfScalarKernel, drawMs, Option.bind_eq_bind,
    Option.bind_eq_some_iff, Option.pure_def, Option.some.injEq, getMeanUParamsMseq, getCovarianceMseqMsBlock,
    getCovParamsMseqMsBlock, sfhPdfPart_apply, Option.map_eq_some_iff, BV_mean_ul, BV_mean_uh, BV_std_ulgm, BV_std_ulgy,
    BV_std_ul, BV_std_uh] at h
  obtain ⟨_, ⟨a, ha, b, hb, rfl⟩, _, ⟨_, ⟨s0, h0, s1, h1, s2, h2, s3, h3, rfl⟩, rfl⟩, rfl⟩ := h
  have fa := line_follows (by norm_num [QF.boundsQ]) (by norm_num [QF.boundsQ]) ha
  have fb := line_follows (by norm_num [QF.boundsQ]) (by norm_num [QF.boundsQ]) hb
  have f0 := line_follows (by norm_num [QF.boundsQ]) (by norm_num [QF.boundsQ]) h0
  have f1 := line_follows (by norm_num [QF.boundsQ]) (by norm_num [QF.boundsQ]) h1
  have f2 := line_follows (by norm_num [QF.boundsQ]) (by norm_num [QF.boundsQ]) h2
  have f3 := line_follows (by norm_num [QF.boundsQ]) (by norm_num [QF.boundsQ]) h3
  have p0 := std_pos (by norm_num [QF.boundsQ]) (by norm_num) f0
  have p1 := std_pos (by norm_num [QF.boundsQ]) (by norm_num) f1
  have p2 := std_pos (by norm_num [QF.boundsQ]) (by norm_num) f2
  have p3 := std_pos (by norm_num [QF.boundsQ]) (by norm_num) f3
  have hp : ∀ i, 0 < (![s0, s1, s2, s3] : Fin 4 → ℝ) i := by
    intro i; fin_cases i <;> assumption
  refine ⟨⟨![mcritModel lgm _ _ _ _, mcritModel lgm _ _ _ _, a, b], ![s0, s1, s2, s3], ?_, ?_, ?_, ?_,
    mcrit_follows p lgm _ _ _ _, mcrit_follows p lgm _ _ _ _, fa, fb, f0, f1, f2, f3⟩, ?_⟩
  · simp only [covarianceFromCovParams_zero, hz _ _ _ hp, DiffstarParams.join]
    rfl
  · simp only [covarianceFromCovParams_zero, hz _ _ _ hp, DiffstarParams.join]
    rfl
  · simp only [covarianceFromCovParams_zero, hz _ _ _ hp, DiffstarParams.join]
    rfl
  · simp only [covarianceFromCovParams_zero, hz _ _ _ hp, DiffstarParams.join]
    rfl
  · intro lgt
    exact (C08_unquenched_within_one_percent lgt).1

/-- C100: a galaxy of the quenched sequence has eight drawn parameters about means and with standard deviations that
follow the lines of the quenched-sequence parameters; the mean quenching time also switches with the time of peak mass. -/
theorem C100_quenched_sequence_draw (u : PF → ℝ) :
    let p := getBoundedDiffstarpopParams u
    ∃ δ : ℝ → ℝ, Switches δ (p (.inl .delta_uqt_x0)) (p (.inl .delta_uqt_k)) (p (.inl .delta_uqt_ylo))
        (p (.inl .delta_uqt_yhi)) ∧
      ∀ {K : Type} (rng : Rng K) (z : K → Fin 4 → ℝ) (_ : GaussianSampler rng z) (lgm tpeak : ℝ) (upid : ℤ)
        (lgmu logmhost gyr : ℝ) (key : K) (d : DiffstarParams ℝ),
        (mcDiffstarUParamsSinglegalKernel rng p lgm tpeak upid lgmu logmhost gyr key).uQ = some d →
        ∃ m s m' s' : Fin 4 → ℝ,
          let k := rng.split key 4 1
          let k' := rng.split key 4 2
          d.lgmcrit = m 0 + s 0 * z k 0 ∧ d.lgyAtMcrit = m 1 + s 1 * z k 1 ∧ d.indxLo = m 2 + s 2 * z k 2 ∧
          d.indxHi = m 3 + s 3 * z k 3 ∧
          d.lgQt = m' 0 + s' 0 * z k' 0 ∧ d.qlglgdt = m' 1 + s' 1 * z k' 1 ∧ d.lgDrop = m' 2 + s' 2 * z k' 2 ∧
          d.lgRejuv = m' 3 + s' 3 * z k' 3 ∧
          FollowsBroken (m 0) lgm p .mean_ulgm_qseq_xtp .mean_ulgm_qseq_ytp .mean_ulgm_qseq_lo .mean_ulgm_qseq_hi ∧
          FollowsBroken (m 1) lgm p .mean_ulgy_qseq_xtp .mean_ulgy_qseq_ytp .mean_ulgy_qseq_lo .mean_ulgy_qseq_hi ∧
          FollowsLine (m 2) lgm p .mean_ul_qseq_int .mean_ul_qseq_slp (-3) 5 ∧
          FollowsLine (m 3) lgm p .mean_uh_qseq_int .mean_uh_qseq_slp (-5) 3 ∧
          FollowsBroken (m' 0 - δ tpeak - p (.inl .delta_uqt_slope) * (lgm - 12.5)) lgm p .mean_uqt_xtp .mean_uqt_ytp
            .mean_uqt_lo .mean_uqt_hi ∧
          FollowsLine (m' 1) lgm p .mean_uqs_int .mean_uqs_slp (-5) 2 ∧
          FollowsLine (m' 2) lgm p .mean_udrop_int .mean_udrop_slp (-3) 2 ∧
          FollowsLine (m' 3) lgm p .mean_urej_int .mean_urej_slp (-10) 2 ∧
          FollowsLine (s 0) lgm p .std_ulgm_qseq_int .std_ulgm_qseq_slp 0.01 1 ∧
          FollowsLine (s 1) lgm p .std_ulgy_qseq_int .std_ulgy_qseq_slp 0.01 1 ∧
          FollowsLine (s 2) lgm p .std_ul_qseq_int .std_ul_qseq_slp 0.01 3 ∧
          FollowsLine (s 3) lgm p .std_uh_qseq_int .std_uh_qseq_slp 0.01 3 ∧
          FollowsLine (s' 0) lgm p .std_uqt_int .std_uqt_slp 0.01 0.5 ∧
          FollowsLine (s' 1) lgm p .std_uqs_int .std_uqs_slp 0.01 1 ∧
          FollowsLine (s' 2) lgm p .std_udrop_int .std_udrop_slp 0.01 2 ∧
          FollowsLine (s' 3) lgm p .std_urej_int .std_urej_slp 0.01 2 := by
  intro p
  have hk : 0 < p (.inl .delta_uqt_k) := by
    have := (getBounded_in u (.inl .delta_uqt_k)).1
    norm_num [PF.bounds, QF.bounds, QF.boundsQ] at this
    linarith
  refine ⟨_, switches_sigmoid hk _ _ _, ?_⟩
  intro K rng z hz lgm tpeak upid lgmu logmhost gyr key d h
  simp only [mcDiffstarUParamsSinglegalKernel, diffstarpopMeansCovs, sfhPdfScalarKernel, drawQ, Option.bind_eq_bind,
    Option.bind_eq_some_iff, Option.pure_def, Option.some.injEq, getMeanUParamsQseq, getCovarianceQseqMsBlock,
    getCovParamsQseqMsBlock, getCovarianceQseqQBlock, getCovParamsQseqQBlock, sfhPdfPart_apply, Option.map_eq_some_iff,
    BV_mean_ul, BV_mean_uh, BV_mean_uqs, BV_mean_udrop, BV_mean_urej, BV_std_ulgm, BV_std_ulgy, BV_std_ul, BV_std_uh,
    BV_std_uqt, BV_std_uqs, BV_std_udrop, BV_std_urej] at h
  obtain ⟨_, ⟨a, ha, b, hb, c, hc, e, he, g, hg, rfl⟩, _, ⟨_, ⟨s0, h0, s1, h1, s2, h2, s3, h3, rfl⟩, rfl⟩, _,
    ⟨_, ⟨t0, k0, t1, k1, t2, k2, t3, k3, rfl⟩, rfl⟩, rfl⟩ := h
  have fa := line_follows (by norm_num [QF.boundsQ]) (by norm_num [QF.boundsQ]) ha
  have fb := line_follows (by norm_num [QF.boundsQ]) (by norm_num [QF.boundsQ]) hb
  have fc := line_follows (by norm_num [QF.boundsQ]) (by norm_num [QF.boundsQ]) hc
  have fe := line_follows (by norm_num [QF.boundsQ]) (by norm_num [QF.boundsQ]) he
  have fg := line_follows (by norm_num [QF.boundsQ]) (by norm_num [QF.boundsQ]) hg
  have f0 := line_follows (by norm_num [QF.boundsQ]) (by norm_num [QF.boundsQ]) h0
  have f1 := line_follows (by norm_num [QF.boundsQ]) (by norm_num [QF.boundsQ]) h1
  have f2 := line_follows (by norm_num [QF.boundsQ]) (by norm_num [QF.boundsQ]) h2
  have f3 := line_follows (by norm_num [QF.boundsQ]) (by norm_num [QF.boundsQ]) h3
  have g0 := line_follows (by norm_num [QF.boundsQ]) (by norm_num [QF.boundsQ]) k0
  have g1 := line_follows (by norm_num [QF.boundsQ]) (by norm_num [QF.boundsQ]) k1
  have g2 := line_follows (by norm_num [QF.boundsQ]) (by norm_num [QF.boundsQ]) k2
  have g3 := line_follows (by norm_num [QF.boundsQ]) (by norm_num [QF.boundsQ]) k3
  have p0 := std_pos (by norm_num [QF.boundsQ]) (by norm_num) f0
  have p1 := std_pos (by norm_num [QF.boundsQ]) (by norm_num) f1
  have p2 := std_pos (by norm_num [QF.boundsQ]) (by norm_num) f2
  have p3 := std_pos (by norm_num [QF.boundsQ]) (by norm_num) f3
  have r0 := std_pos (by norm_num [QF.boundsQ]) (by norm_num) g0
  have r1 := std_pos (by norm_num [QF.boundsQ]) (by norm_num) g1
  have r2 := std_pos (by norm_num [QF.boundsQ]) (by norm_num) g2
  have r3 := std_pos (by norm_num [QF.boundsQ]) (by norm_num) g3
  have hp : ∀ i, 0 < (![s0, s1, s2, s3] : Fin 4 → ℝ) i := by
    intro i; fin_cases i <;> assumption
  have hr : ∀ i, 0 < (![t0, t1, t2, t3] : Fin 4 → ℝ) i := by
    intro i; fin_cases i <;> assumption
  have hq := mcrit_follows p lgm .mean_uqt_xtp .mean_uqt_ytp .mean_uqt_lo .mean_uqt_hi
  refine ⟨![mcritModel lgm _ _ _ _, mcritModel lgm _ _ _ _, a, b], ![s0, s1, s2, s3],
    ![mcritModel lgm (p (.inl .mean_uqt_xtp)) (p (.inl .mean_uqt_ytp)) (p (.inl .mean_uqt_lo)) (p (.inl .mean_uqt_hi)) +
      deltaUqt (sfhPdfPart p) lgm tpeak, c, e, g], ![t0, t1, t2, t3], ?_, ?_, ?_, ?_, ?_, ?_, ?_, ?_,
    mcrit_follows p lgm _ _ _ _, mcrit_follows p lgm _ _ _ _, fa, fb, ?_, fc, fe, fg, f0, f1, f2, f3, g0, g1, g2, g3⟩
  iterate 8
    · simp only [covarianceFromCovParams_zero, hz _ _ _ hp, hz _ _ _ hr, DiffstarParams.join, deltaUqt, sfhPdfPart_apply]
      rfl
  · convert hq using 1
    simp only [deltaUqt, sfhPdfPart_apply, Matrix.cons_val_zero]
    ring

/-- A sampler of the assumed form, and vectors for which both draws exist. -/
example : ∃ (rng : Rng Unit) (z : Unit → Fin 4 → ℝ), GaussianSampler rng z ∧
    ∃ d d', (mcDiffstarUParamsSinglegalKernel rng (getBoundedDiffstarpopParams fun _ => 1) 12 5 7 (-1) 13 2 ()).uMs =
      some d ∧
    (mcDiffstarUParamsSinglegalKernel rng (getBoundedDiffstarpopParams fun _ => 1) 12 5 7 (-1) 13 2 ()).uQ = some d' := by
  refine ⟨⟨fun _ _ _ => (), fun _ m c i => m i + Real.sqrt (c i i) * (i.val - 1), fun _ => 0⟩,
    fun _ i => i.val - 1, ?_, ?_⟩
  · intro key mu s hs
    funext i
    simp [Matrix.diagonal_apply_eq, Real.sqrt_sq (hs i).le]
  · obtain ⟨h1, h2⟩ := C94_nan_iff_zero_slope (K := Unit) ⟨fun _ _ _ => (),
      fun _ m c i => m i + Real.sqrt (c i i) * (i.val - 1), fun _ => 0⟩ (fun _ => 1) 12 5 7 (-1) 13 2 ()
    have n1 := h1.not.2 (by simp)
    have n2 := h2.not.2 (by simp)
    simp only [mcDiffstarParamsSinglegal, Option.map_eq_none_iff] at n1 n2
    obtain ⟨d, hd⟩ := Option.ne_none_iff_exists'.1 n1
    obtain ⟨d', hd'⟩ := Option.ne_none_iff_exists'.1 n2
    exact ⟨d, d', hd, hd'⟩

end Diffstar.Props
