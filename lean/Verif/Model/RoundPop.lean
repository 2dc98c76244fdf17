import Verif.Model.Rounding
import Verif.Model.PopKernel

/-!
Floating-point versions of the transforms of the population parameters and of the quenched fractions. Same conventions as
`Model/Rounding.lean`; `_sigmoid` of `diffstar/diffstarpop/utils.py` L12-36 is the same text as the one of `diffstar/utils.py`.
Python constants of the source (`BOUNDING_K`, bounds) enter as floating-point numbers.
-/

namespace Diffstar.Rounding

noncomputable section

open Diffstar.Pop

variable (R : Rounding)

/-- `_get_p_from_u_p_scalar`, `sfh_pdf_mgash.py` L621-626, and `_get_bounded_satq_param`, `satquenchpop_model.py` L136-140 (same
operations; `BOUNDING_K` is 0.1). -/
def getPFromUPScalar (exp : ℝ → ℝ) (uP : ℝ) (bounds : ℝ × ℝ) : ℝ :=
  let lo := R.fl bounds.1
  let hi := R.fl bounds.2
  let p0 := R.fl (0.5 * R.fl (lo + hi))
  R.sigmoid exp uP p0 (R.fl BOUNDING_K) lo hi

/-- `get_bounded_sfh_pdf_params`, `sfh_pdf_mgash.py` L641-649. -/
def getBoundedSfhPdfParams (exp : ℝ → ℝ) (u : QF → ℝ) : QF → ℝ :=
  makeTuple QF.fields (List.zipWith (R.getPFromUPScalar exp) (QF.fields.map u) (QF.fields.map QF.bounds))

/-- `get_bounded_satquenchpop_params`, `satquenchpop_model.py` L155-159. -/
def getBoundedSatquenchpopParams (exp : ℝ → ℝ) (u : SF → ℝ) : SF → ℝ :=
  makeTuple SF.fields (List.zipWith (R.getPFromUPScalar exp) (SF.fields.map u) (SF.fields.map SF.bounds))

/-- `get_bounded_diffstarpop_params`, `defaults_mgash.py` L36-50. -/
def getBoundedDiffstarpopParams (exp : ℝ → ℝ) (u : PF → ℝ) : PF → ℝ :=
  joinPop (R.getBoundedSfhPdfParams exp (sfhPdfPart u)) (R.getBoundedSatquenchpopParams exp (satquenchPart u))

/-- `_frac_quench_cen`, `sfh_pdf_mgash.py` L565-590. -/
def fracQuenchCen (exp : ℝ → ℝ) (p : QF → ℝ) (logmp0 tpeak : ℝ) : ℝ :=
  let fquenchX0 := R.sigmoid exp tpeak (p .frac_quench_cen_x0_tpeak) (p .frac_quench_cen_k_tpeak)
    (p .frac_quench_cen_x0_ylotpeak) (p .frac_quench_cen_x0_yhitpeak)
  let ylo := R.sigmoid exp tpeak (p .frac_quench_cen_x0_tpeak) (p .frac_quench_cen_k_tpeak)
    (p .frac_quench_cen_ylo_ylotpeak) (p .frac_quench_cen_ylo_yhitpeak)
  R.sigmoid exp logmp0 fquenchX0 (p .frac_quench_cen_k) ylo (p .frac_quench_cen_yhi)

/-- `_frac_quench_sat`, `sfh_pdf_mgash.py` L593-618. -/
def fracQuenchSat (exp : ℝ → ℝ) (p : QF → ℝ) (logmp0 tpeak : ℝ) : ℝ :=
  let fquenchX0 := R.sigmoid exp tpeak (p .frac_quench_sat_x0_tpeak) (p .frac_quench_sat_k_tpeak)
    (p .frac_quench_sat_x0_ylotpeak) (p .frac_quench_sat_x0_yhitpeak)
  let ylo := R.sigmoid exp tpeak (p .frac_quench_sat_x0_tpeak) (p .frac_quench_sat_k_tpeak)
    (p .frac_quench_sat_ylo_ylotpeak) (p .frac_quench_sat_ylo_yhitpeak)
  R.sigmoid exp logmp0 fquenchX0 (p .frac_quench_sat_k) ylo (p .frac_quench_sat_yhi)

/-- `_qprob_hi_vs_sub_host_mass`, `satquenchpop_model.py` L83-108. -/
def qprobHiVsSubHostMass (exp : ℝ → ℝ) (p : SF → ℝ) (lgmuInfall logmhostInfall : ℝ) : ℝ :=
  let qprobHiMhLo := R.sigmoid exp lgmuInfall (p .qphi_lgmu_crit) LGMU_SPEED (p .lgmu_lo_mh_lo) (p .lgmu_hi_mh_lo)
  let qprobHiMhHi := R.sigmoid exp lgmuInfall (p .qphi_lgmu_crit) LGMU_SPEED (p .lgmu_lo_mh_hi) (p .lgmu_hi_mh_hi)
  R.sigmoid exp logmhostInfall (p .qp_lgmh_crit) DEFAULT_LGMH_K qprobHiMhLo qprobHiMhHi

/-- `_t_delay_vs_logmhost`, `satquenchpop_model.py` L124-133. -/
def tDelayVsLogmhost (exp : ℝ → ℝ) (p : SF → ℝ) (logmhostInfall : ℝ) : ℝ :=
  R.sigmoid exp logmhostInfall (p .td_lgmhc) DEFAULT_LGMH_K (p .td_mlo) (p .td_mhi)

/-- `_satquench_kernel`, `satquenchpop_model.py` L111-121. -/
def satquenchKernel (exp : ℝ → ℝ) (gyrSinceInfall : ℝ) (satQuenchParams : ℝ × ℝ) : ℝ :=
  R.sigmoid exp gyrSinceInfall satQuenchParams.1 DEFAULT_Q_SPEED 0 satQuenchParams.2

/-- `predict_sat_frac_delta_qprob`, `satquenchpop_model.py` L68-80. -/
def predictSatFracDeltaQprob (exp : ℝ → ℝ) (p : SF → ℝ) (lgmuInfall logmhostInfall gyrSinceInfall : ℝ) : ℝ :=
  let qprobHi := R.qprobHiVsSubHostMass exp p lgmuInfall logmhostInfall
  let tDelay := R.tDelayVsLogmhost exp p logmhostInfall
  R.satquenchKernel exp gyrSinceInfall (tDelay, qprobHi)

/-- `get_qprob_sat`, `satquenchpop_model.py` L56-65. -/
def getQprobSat (exp : ℝ → ℝ) (p : SF → ℝ) (lgmuInfall logmhostInfall gyrSinceInfall qprobCen : ℝ) : ℝ :=
  let fracDeltaQprob := R.predictSatFracDeltaQprob exp p lgmuInfall logmhostInfall gyrSinceInfall
  let deltaQprob := R.fl (fracDeltaQprob * R.fl (1 - qprobCen))
  R.fl (qprobCen + deltaQprob)

/-- `frac_quench` of `mc_diffstar_u_params_singlegal_kernel`, `kernels/diffstarpop_mgash.py` L91-112 and L47. -/
def fracQuench (exp : ℝ → ℝ) (p : PF → ℝ) (logmp0 tpeak : ℝ) (upid : ℤ) (lgmuInfall logmhostInfall gyrSinceInfall : ℝ) : ℝ :=
  if upid = -1 then R.fracQuenchCen exp (sfhPdfPart p) logmp0 tpeak
  else R.getQprobSat exp (satquenchPart p) lgmuInfall logmhostInfall gyrSinceInfall
    (R.fracQuenchSat exp (sfhPdfPart p) logmp0 tpeak)

end

end Diffstar.Rounding
