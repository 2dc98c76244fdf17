import Verif.Model.PopParams

/-! Model of `diffstar/diffstarpop/kernels/satquenchpop_model.py` (satellite quenching probability). -/

namespace Diffstar.Pop

noncomputable section

/-- `DEFAULT_Q_SPEED`, L11. -/
def DEFAULT_Q_SPEED : ℝ := 5
/-- `DEFAULT_LGMH_K`, L12. -/
def DEFAULT_LGMH_K : ℝ := 5
/-- `LGMU_SPEED`, L13. -/
def LGMU_SPEED : ℝ := 2

/-- `_qprob_hi_vs_sub_host_mass`, L83-108. -/
def qprobHiVsSubHostMass (p : SF → ℝ) (lgmuInfall logmhostInfall : ℝ) : ℝ :=
  let qprobHiMhLo := sigmoid lgmuInfall (p .qphi_lgmu_crit) LGMU_SPEED (p .lgmu_lo_mh_lo) (p .lgmu_hi_mh_lo)
  let qprobHiMhHi := sigmoid lgmuInfall (p .qphi_lgmu_crit) LGMU_SPEED (p .lgmu_lo_mh_hi) (p .lgmu_hi_mh_hi)
  sigmoid logmhostInfall (p .qp_lgmh_crit) DEFAULT_LGMH_K qprobHiMhLo qprobHiMhHi

/-- `_t_delay_vs_logmhost`, L124-133. -/
def tDelayVsLogmhost (p : SF → ℝ) (logmhostInfall : ℝ) : ℝ :=
  sigmoid logmhostInfall (p .td_lgmhc) DEFAULT_LGMH_K (p .td_mlo) (p .td_mhi)

/-- `_satquench_kernel`, L111-121; the pair is `SatQuenchParams(t_delay, qprob_hi)`, L15-16. -/
def satquenchKernel (gyrSinceInfall : ℝ) (satQuenchParams : ℝ × ℝ) : ℝ :=
  sigmoid gyrSinceInfall satQuenchParams.1 DEFAULT_Q_SPEED 0 satQuenchParams.2

/-- `predict_sat_frac_delta_qprob`, L68-80. -/
def predictSatFracDeltaQprob (p : SF → ℝ) (lgmuInfall logmhostInfall gyrSinceInfall : ℝ) : ℝ :=
  let qprobHi := qprobHiVsSubHostMass p lgmuInfall logmhostInfall
  let tDelay := tDelayVsLogmhost p logmhostInfall
  satquenchKernel gyrSinceInfall (tDelay, qprobHi)

/-- `get_qprob_sat`, L56-65. -/
def getQprobSat (p : SF → ℝ) (lgmuInfall logmhostInfall gyrSinceInfall qprobCen : ℝ) : ℝ :=
  let fracDeltaQprob := predictSatFracDeltaQprob p lgmuInfall logmhostInfall gyrSinceInfall
  let deltaQprob := fracDeltaQprob * (1 - qprobCen)
  qprobCen + deltaQprob

end

end Diffstar.Pop
