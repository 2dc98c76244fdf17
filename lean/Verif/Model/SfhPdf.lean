import Verif.Model.PopParams
import Verif.Model.PopUtils
import Mathlib.Tactic.IntervalCases

/-!
Model of `diffstar/diffstarpop/kernels/sfh_pdf_mgash.py` (means, covariances, quenched fractions).

`none` = some entry is NaN (see `smoothlyClippedLine`).
-/

namespace Diffstar.Pop

noncomputable section

/-- `LGM_X0`, L21. -/
def LGM_X0 : ℝ := 12.5

/-- `line_model`, L266-268; `bounds` is the unpacked `*BOUNDING_VALS.<name>`. -/
def lineModel (x y0 m : ℝ) (bounds : ℝ × ℝ) : Option ℝ :=
  smoothlyClippedLine x LGM_X0 y0 m bounds.1 bounds.2

/-- `_sig_slope`, L271-274. -/
def sigSlope (x xtp ytp x0 slopeK lo hi : ℝ) : ℝ :=
  let slope := sigmoid x x0 slopeK lo hi
  ytp + slope * (x - xtp)

/-- `Mcrit_model`, L277-280. -/
def mcritModel (x xtp ytp lo hi : ℝ) : ℝ :=
  let x0 := xtp
  let slopeK := 3
  sigSlope x xtp ytp x0 slopeK lo hi

/-- `BOUNDING_MEAN_VALS_PDICT`, L201-210 (the entries used by `line_model`). -/
def BV_mean_ul : ℝ × ℝ := (-3, 5)
/-- L205. -/
def BV_mean_uh : ℝ × ℝ := (-5, 3)
/-- L207. -/
def BV_mean_uqs : ℝ × ℝ := (-5, 2)
/-- L208. -/
def BV_mean_udrop : ℝ × ℝ := (-3, 2)
/-- L209. -/
def BV_mean_urej : ℝ × ℝ := (-10, 2)
/-- `BOUNDING_STD_VALS_PDICT`, L212-221. -/
def BV_std_ulgm : ℝ × ℝ := (0.01, 1)
/-- L214. -/
def BV_std_ulgy : ℝ × ℝ := (0.01, 1)
/-- L215. -/
def BV_std_ul : ℝ × ℝ := (0.01, 3)
/-- L216. -/
def BV_std_uh : ℝ × ℝ := (0.01, 3)
/-- L217. -/
def BV_std_uqt : ℝ × ℝ := (0.01, 0.5)
/-- L218. -/
def BV_std_uqs : ℝ × ℝ := (0.01, 1)
/-- L219. -/
def BV_std_udrop : ℝ × ℝ := (0.01, 2)
/-- L220. -/
def BV_std_urej : ℝ × ℝ := (0.01, 2)

/-- `_delta_uqt`, L306-318. -/
def deltaUqt (p : QF → ℝ) (logmp0 tpeak : ℝ) : ℝ :=
  let vsTpeak := sigmoid tpeak (p .delta_uqt_x0) (p .delta_uqt_k) (p .delta_uqt_ylo) (p .delta_uqt_yhi)
  let vsLogmp0 := (logmp0 - 12.5) * p .delta_uqt_slope
  vsTpeak + vsLogmp0

/-- `_get_mean_u_params_mseq`, L321-354. -/
def getMeanUParamsMseq (p : QF → ℝ) (logmp0 : ℝ) : Option (Fin 4 → ℝ) := do
  let ulgm := mcritModel logmp0 (p .mean_ulgm_mseq_xtp) (p .mean_ulgm_mseq_ytp) (p .mean_ulgm_mseq_lo)
    (p .mean_ulgm_mseq_hi)
  let ulgy := mcritModel logmp0 (p .mean_ulgy_mseq_xtp) (p .mean_ulgy_mseq_ytp) (p .mean_ulgy_mseq_lo)
    (p .mean_ulgy_mseq_hi)
  let ul ← lineModel logmp0 (p .mean_ul_mseq_int) (p .mean_ul_mseq_slp) BV_mean_ul
  let uh ← lineModel logmp0 (p .mean_uh_mseq_int) (p .mean_uh_mseq_slp) BV_mean_uh
  return ![ulgm, ulgy, ul, uh]

/-- `_get_mean_u_params_qseq`, L357-420. -/
def getMeanUParamsQseq (p : QF → ℝ) (logmp0 tpeak : ℝ) : Option (Fin 8 → ℝ) := do
  let ulgm := mcritModel logmp0 (p .mean_ulgm_qseq_xtp) (p .mean_ulgm_qseq_ytp) (p .mean_ulgm_qseq_lo)
    (p .mean_ulgm_qseq_hi)
  let ulgy := mcritModel logmp0 (p .mean_ulgy_qseq_xtp) (p .mean_ulgy_qseq_ytp) (p .mean_ulgy_qseq_lo)
    (p .mean_ulgy_qseq_hi)
  let ul ← lineModel logmp0 (p .mean_ul_qseq_int) (p .mean_ul_qseq_slp) BV_mean_ul
  let uh ← lineModel logmp0 (p .mean_uh_qseq_int) (p .mean_uh_qseq_slp) BV_mean_uh
  let uqt0 := mcritModel logmp0 (p .mean_uqt_xtp) (p .mean_uqt_ytp) (p .mean_uqt_lo) (p .mean_uqt_hi)
  let uqt := uqt0 + deltaUqt p logmp0 tpeak
  let uqs ← lineModel logmp0 (p .mean_uqs_int) (p .mean_uqs_slp) BV_mean_uqs
  let udrop ← lineModel logmp0 (p .mean_udrop_int) (p .mean_udrop_slp) BV_mean_udrop
  let urej ← lineModel logmp0 (p .mean_urej_int) (p .mean_urej_slp) BV_mean_urej
  return ![ulgm, ulgy, ul, uh, uqt, uqs, udrop, urej]

/-- `_get_cov_params_mseq_ms_block`, L423-457: standard deviations and off-diagonal correlations. -/
def getCovParamsMseqMsBlock (p : QF → ℝ) (logmp0 : ℝ) : Option ((Fin 4 → ℝ) × (Fin 6 → ℝ)) := do
  let stdUlgm ← lineModel logmp0 (p .std_ulgm_mseq_int) (p .std_ulgm_mseq_slp) BV_std_ulgm
  let stdUlgy ← lineModel logmp0 (p .std_ulgy_mseq_int) (p .std_ulgy_mseq_slp) BV_std_ulgy
  let stdUl ← lineModel logmp0 (p .std_ul_mseq_int) (p .std_ul_mseq_slp) BV_std_ul
  let stdUh ← lineModel logmp0 (p .std_uh_mseq_int) (p .std_uh_mseq_slp) BV_std_uh
  return (![stdUlgm, stdUlgy, stdUl, stdUh], fun _ => 0)

/-- `_get_cov_params_qseq_ms_block`, L460-493. -/
def getCovParamsQseqMsBlock (p : QF → ℝ) (logmp0 : ℝ) : Option ((Fin 4 → ℝ) × (Fin 6 → ℝ)) := do
  let stdUlgm ← lineModel logmp0 (p .std_ulgm_qseq_int) (p .std_ulgm_qseq_slp) BV_std_ulgm
  let stdUlgy ← lineModel logmp0 (p .std_ulgy_qseq_int) (p .std_ulgy_qseq_slp) BV_std_ulgy
  let stdUl ← lineModel logmp0 (p .std_ul_qseq_int) (p .std_ul_qseq_slp) BV_std_ul
  let stdUh ← lineModel logmp0 (p .std_uh_qseq_int) (p .std_uh_qseq_slp) BV_std_uh
  return (![stdUlgm, stdUlgy, stdUl, stdUh], fun _ => 0)

/-- `_get_cov_params_qseq_q_block`, L496-529. -/
def getCovParamsQseqQBlock (p : QF → ℝ) (logmp0 : ℝ) : Option ((Fin 4 → ℝ) × (Fin 6 → ℝ)) := do
  let stdUqt ← lineModel logmp0 (p .std_uqt_int) (p .std_uqt_slp) BV_std_uqt
  let stdUqs ← lineModel logmp0 (p .std_uqs_int) (p .std_uqs_slp) BV_std_uqs
  let stdUdrop ← lineModel logmp0 (p .std_udrop_int) (p .std_udrop_slp) BV_std_udrop
  let stdUrej ← lineModel logmp0 (p .std_urej_int) (p .std_urej_slp) BV_std_urej
  return (![stdUqt, stdUqs, stdUdrop, stdUrej], fun _ => 0)

/-- diffmah's `get_cholesky_from_params` for a 4-dimensional matrix (external; assumed to fill the diagonal
with the first four entries and the strict lower triangle, row by row, with the remaining six). -/
def getCholeskyFromParams (diag : Fin 4 → ℝ) (off : Fin 6 → ℝ) : Matrix (Fin 4) (Fin 4) ℝ :=
  fun i j =>
    if i = j then diag i
    else if h : j < i then
      off ⟨i.val * (i.val - 1) / 2 + j.val, by
        obtain ⟨i, hi⟩ := i
        obtain ⟨j, hj⟩ := j
        simp only [Fin.mk_lt_mk] at h
        interval_cases i <;> simp <;> omega⟩
    else 0

/-- Common body of the three covariance functions, L532-562: unit diagonal, `M == 0` entries replaced by
the transpose, then `covariance_from_correlation` with the standard deviations. -/
def covarianceFromCovParams (diags : Fin 4 → ℝ) (offDiags : Fin 6 → ℝ) : Matrix (Fin 4) (Fin 4) ℝ :=
  let M := getCholeskyFromParams (fun _ => 1) offDiags
  let corrMatrix : Matrix (Fin 4) (Fin 4) ℝ := fun i j => if M i j = 0 then M j i else M i j
  covarianceFromCorrelation corrMatrix diags

/-- `_get_covariance_mseq_ms_block`, L532-540. -/
def getCovarianceMseqMsBlock (p : QF → ℝ) (logmp0 : ℝ) : Option (Matrix (Fin 4) (Fin 4) ℝ) :=
  (getCovParamsMseqMsBlock p logmp0).map fun d => covarianceFromCovParams d.1 d.2

/-- `_get_covariance_qseq_q_block`, L543-551. -/
def getCovarianceQseqQBlock (p : QF → ℝ) (logmp0 : ℝ) : Option (Matrix (Fin 4) (Fin 4) ℝ) :=
  (getCovParamsQseqQBlock p logmp0).map fun d => covarianceFromCovParams d.1 d.2

/-- `_get_covariance_qseq_ms_block`, L554-562. -/
def getCovarianceQseqMsBlock (p : QF → ℝ) (logmp0 : ℝ) : Option (Matrix (Fin 4) (Fin 4) ℝ) :=
  (getCovParamsQseqMsBlock p logmp0).map fun d => covarianceFromCovParams d.1 d.2

/-- `_frac_quench_cen`, L565-590. -/
def fracQuenchCen (p : QF → ℝ) (logmp0 tpeak : ℝ) : ℝ :=
  let fquenchX0 := sigmoid tpeak (p .frac_quench_cen_x0_tpeak) (p .frac_quench_cen_k_tpeak)
    (p .frac_quench_cen_x0_ylotpeak) (p .frac_quench_cen_x0_yhitpeak)
  let ylo := sigmoid tpeak (p .frac_quench_cen_x0_tpeak) (p .frac_quench_cen_k_tpeak)
    (p .frac_quench_cen_ylo_ylotpeak) (p .frac_quench_cen_ylo_yhitpeak)
  sigmoid logmp0 fquenchX0 (p .frac_quench_cen_k) ylo (p .frac_quench_cen_yhi)

/-- `_frac_quench_sat`, L593-618. -/
def fracQuenchSat (p : QF → ℝ) (logmp0 tpeak : ℝ) : ℝ :=
  let fquenchX0 := sigmoid tpeak (p .frac_quench_sat_x0_tpeak) (p .frac_quench_sat_k_tpeak)
    (p .frac_quench_sat_x0_ylotpeak) (p .frac_quench_sat_x0_yhitpeak)
  let ylo := sigmoid tpeak (p .frac_quench_sat_x0_tpeak) (p .frac_quench_sat_k_tpeak)
    (p .frac_quench_sat_ylo_ylotpeak) (p .frac_quench_sat_ylo_yhitpeak)
  sigmoid logmp0 fquenchX0 (p .frac_quench_sat_k) ylo (p .frac_quench_sat_yhi)

/-- The 7-tuple returned by `_sfh_pdf_scalar_kernel`. -/
structure MeansCovs where
  fracQuenchCen : ℝ
  fracQuenchSat : ℝ
  muMseq : Option (Fin 4 → ℝ)
  muQseq : Option (Fin 8 → ℝ)
  covMseqMs : Option (Matrix (Fin 4) (Fin 4) ℝ)
  covQseqMs : Option (Matrix (Fin 4) (Fin 4) ℝ)
  covQseqQ : Option (Matrix (Fin 4) (Fin 4) ℝ)

/-- `_sfh_pdf_scalar_kernel`, L283-303. -/
def sfhPdfScalarKernel (p : QF → ℝ) (logmp0 tpeak : ℝ) : MeansCovs :=
  { fracQuenchCen := fracQuenchCen p logmp0 tpeak
    fracQuenchSat := fracQuenchSat p logmp0 tpeak
    muMseq := getMeanUParamsMseq p logmp0
    muQseq := getMeanUParamsQseq p logmp0 tpeak
    covMseqMs := getCovarianceMseqMsBlock p logmp0
    covQseqMs := getCovarianceQseqMsBlock p logmp0
    covQseqQ := getCovarianceQseqQBlock p logmp0 }

end

end Diffstar.Pop
