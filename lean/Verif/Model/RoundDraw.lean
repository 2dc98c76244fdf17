import Verif.Model.RoundPop

/-!
Floating-point versions of the means, standard deviations and draws of the population model
(`diffstar/diffstarpop/kernels/sfh_pdf_mgash.py`, `diffstar/diffstarpop/kernels/diffstarpop_mgash.py`). Same conventions as
`Model/Rounding.lean`.
-/

namespace Diffstar.Rounding

noncomputable section

open Diffstar.Pop

variable (R : Rounding)

/-- `_sigmoid(x, x0, k, ymin, ymax)` for `k = +inf`: NaN (`none`) for `x = x0`, otherwise the transition function is 0 or 1. -/
def sigmoidStep (x x0 ymin ymax : ℝ) : Option ℝ :=
  if R.fl (x - x0) = 0 then none
  else
    let heightDiff := R.fl (ymax - ymin)
    some (R.fl (ymin + R.fl (heightDiff * if 0 < R.fl (x - x0) then 1 else 0)))

/-- `smoothly_clipped_line`, `diffstar/diffstarpop/utils.py` L154-201. `none` is NaN. For slope zero the code divides by zero and
returns NaN. For `eps_lo = 0` (which is `x0 - x0`, hence `+0`) the number `CLIPPING_K = 20 / eps_lo` is `+inf`. -/
def smoothlyClippedLine (exp : ℝ → ℝ) (x x0 y0 m yLo yHi : ℝ) : Option ℝ :=
  if m = 0 then none
  else
    let xLo := R.fl (R.fl (R.fl (yLo - y0) / m) + x0)
    let xHi := R.fl (R.fl (R.fl (yHi - y0) / m) + x0)
    let dxLo := R.fl (x0 - xLo)
    let dxHi := R.fl (xHi - x0)
    let epsLo := R.fl (dxLo / 100)
    let epsHi := R.fl (dxHi / 100)
    let xcLo := R.fl (xLo + epsLo)
    let xcHi := R.fl (xHi - epsHi)
    let yLoBound := R.fl (y0 + R.fl (m * R.fl (xcLo - x0)))
    let yHiBound := R.fl (y0 + R.fl (m * R.fl (xcHi - x0)))
    let yUnclipped := R.fl (y0 + R.fl (m * R.fl (x - x0)))
    if epsLo = 0 then do
      let yClippedFromBelow ← R.sigmoidStep x xcLo yLoBound yUnclipped
      R.sigmoidStep x xcHi yClippedFromBelow yHiBound
    else
      let clippingK := R.fl (20 / epsLo)
      let yClippedFromBelow := R.sigmoid exp x xcLo clippingK yLoBound yUnclipped
      some (R.sigmoid exp x xcHi clippingK yClippedFromBelow yHiBound)

/-- `line_model`, `sfh_pdf_mgash.py` L266-268; the bounds enter as floating-point numbers (`LGM_X0 = 12.5` is one). -/
def lineModel (exp : ℝ → ℝ) (x y0 m : ℝ) (bounds : ℝ × ℝ) : Option ℝ :=
  R.smoothlyClippedLine exp x LGM_X0 y0 m (R.fl bounds.1) (R.fl bounds.2)

/-- `_sig_slope`, L271-274. -/
def sigSlope (exp : ℝ → ℝ) (x xtp ytp x0 slopeK lo hi : ℝ) : ℝ :=
  let slope := R.sigmoid exp x x0 slopeK lo hi
  R.fl (ytp + R.fl (slope * R.fl (x - xtp)))

/-- `Mcrit_model`, L277-280. -/
def mcritModel (exp : ℝ → ℝ) (x xtp ytp lo hi : ℝ) : ℝ :=
  let x0 := xtp
  let slopeK := 3
  R.sigSlope exp x xtp ytp x0 slopeK lo hi

/-- `_delta_uqt`, L306-318. -/
def deltaUqt (exp : ℝ → ℝ) (p : QF → ℝ) (logmp0 tpeak : ℝ) : ℝ :=
  let vsTpeak := R.sigmoid exp tpeak (p .delta_uqt_x0) (p .delta_uqt_k) (p .delta_uqt_ylo) (p .delta_uqt_yhi)
  let vsLogmp0 := R.fl (R.fl (logmp0 - 12.5) * p .delta_uqt_slope)
  R.fl (vsTpeak + vsLogmp0)

/-- `_get_mean_u_params_mseq`, L321-354. -/
def getMeanUParamsMseq (exp : ℝ → ℝ) (p : QF → ℝ) (logmp0 : ℝ) : Option (Fin 4 → ℝ) := do
  let ulgm := R.mcritModel exp logmp0 (p .mean_ulgm_mseq_xtp) (p .mean_ulgm_mseq_ytp) (p .mean_ulgm_mseq_lo)
    (p .mean_ulgm_mseq_hi)
  let ulgy := R.mcritModel exp logmp0 (p .mean_ulgy_mseq_xtp) (p .mean_ulgy_mseq_ytp) (p .mean_ulgy_mseq_lo)
    (p .mean_ulgy_mseq_hi)
  let ul ← R.lineModel exp logmp0 (p .mean_ul_mseq_int) (p .mean_ul_mseq_slp) BV_mean_ul
  let uh ← R.lineModel exp logmp0 (p .mean_uh_mseq_int) (p .mean_uh_mseq_slp) BV_mean_uh
  return ![ulgm, ulgy, ul, uh]

/-- `_get_mean_u_params_qseq`, L357-420. -/
def getMeanUParamsQseq (exp : ℝ → ℝ) (p : QF → ℝ) (logmp0 tpeak : ℝ) : Option (Fin 8 → ℝ) := do
  let ulgm := R.mcritModel exp logmp0 (p .mean_ulgm_qseq_xtp) (p .mean_ulgm_qseq_ytp) (p .mean_ulgm_qseq_lo)
    (p .mean_ulgm_qseq_hi)
  let ulgy := R.mcritModel exp logmp0 (p .mean_ulgy_qseq_xtp) (p .mean_ulgy_qseq_ytp) (p .mean_ulgy_qseq_lo)
    (p .mean_ulgy_qseq_hi)
  let ul ← R.lineModel exp logmp0 (p .mean_ul_qseq_int) (p .mean_ul_qseq_slp) BV_mean_ul
  let uh ← R.lineModel exp logmp0 (p .mean_uh_qseq_int) (p .mean_uh_qseq_slp) BV_mean_uh
  let uqt0 := R.mcritModel exp logmp0 (p .mean_uqt_xtp) (p .mean_uqt_ytp) (p .mean_uqt_lo) (p .mean_uqt_hi)
  let uqt := R.fl (uqt0 + R.deltaUqt exp p logmp0 tpeak)
  let uqs ← R.lineModel exp logmp0 (p .mean_uqs_int) (p .mean_uqs_slp) BV_mean_uqs
  let udrop ← R.lineModel exp logmp0 (p .mean_udrop_int) (p .mean_udrop_slp) BV_mean_udrop
  let urej ← R.lineModel exp logmp0 (p .mean_urej_int) (p .mean_urej_slp) BV_mean_urej
  return ![ulgm, ulgy, ul, uh, uqt, uqs, udrop, urej]

/-- Standard deviations of `_get_cov_params_mseq_ms_block`, L423-457 (the correlations are all zero). -/
def getStdMseqMsBlock (exp : ℝ → ℝ) (p : QF → ℝ) (logmp0 : ℝ) : Option (Fin 4 → ℝ) := do
  let stdUlgm ← R.lineModel exp logmp0 (p .std_ulgm_mseq_int) (p .std_ulgm_mseq_slp) BV_std_ulgm
  let stdUlgy ← R.lineModel exp logmp0 (p .std_ulgy_mseq_int) (p .std_ulgy_mseq_slp) BV_std_ulgy
  let stdUl ← R.lineModel exp logmp0 (p .std_ul_mseq_int) (p .std_ul_mseq_slp) BV_std_ul
  let stdUh ← R.lineModel exp logmp0 (p .std_uh_mseq_int) (p .std_uh_mseq_slp) BV_std_uh
  return ![stdUlgm, stdUlgy, stdUl, stdUh]

/-- Standard deviations of `_get_cov_params_qseq_ms_block`, L460-493. -/
def getStdQseqMsBlock (exp : ℝ → ℝ) (p : QF → ℝ) (logmp0 : ℝ) : Option (Fin 4 → ℝ) := do
  let stdUlgm ← R.lineModel exp logmp0 (p .std_ulgm_qseq_int) (p .std_ulgm_qseq_slp) BV_std_ulgm
  let stdUlgy ← R.lineModel exp logmp0 (p .std_ulgy_qseq_int) (p .std_ulgy_qseq_slp) BV_std_ulgy
  let stdUl ← R.lineModel exp logmp0 (p .std_ul_qseq_int) (p .std_ul_qseq_slp) BV_std_ul
  let stdUh ← R.lineModel exp logmp0 (p .std_uh_qseq_int) (p .std_uh_qseq_slp) BV_std_uh
  return ![stdUlgm, stdUlgy, stdUl, stdUh]

/-- Standard deviations of `_get_cov_params_qseq_q_block`, L496-529. -/
def getStdQseqQBlock (exp : ℝ → ℝ) (p : QF → ℝ) (logmp0 : ℝ) : Option (Fin 4 → ℝ) := do
  let stdUqt ← R.lineModel exp logmp0 (p .std_uqt_int) (p .std_uqt_slp) BV_std_uqt
  let stdUqs ← R.lineModel exp logmp0 (p .std_uqs_int) (p .std_uqs_slp) BV_std_uqs
  let stdUdrop ← R.lineModel exp logmp0 (p .std_udrop_int) (p .std_udrop_slp) BV_std_udrop
  let stdUrej ← R.lineModel exp logmp0 (p .std_urej_int) (p .std_urej_slp) BV_std_urej
  return ![stdUqt, stdUqs, stdUdrop, stdUrej]

/-- `jran.multivariate_normal(key, mu, cov)` (library): `mu + cholesky(cov) z` with standard normal deviates `z`, for the diagonal
covariance `covariance_from_correlation(identity, std)`, `sfh_pdf_mgash.py` L532-562. Simplification: products with and sums of
zeros, which are exact, are left out. -/
def drawDiagonal (mu std z : Fin 4 → ℝ) : Fin 4 → ℝ := fun i =>
  R.fl (mu i + R.fl (R.fl (Real.sqrt (R.fl (std i * std i))) * z i))

/-- Parameters of the main-sequence galaxy: `mc_diffstar_u_params_singlegal_kernel`, `kernels/diffstarpop_mgash.py` L53-55 and
L72-80, followed by the bounding transform, `mc_diffstarpop_mgash.py` L145-222. `z` are the standard normal deviates. -/
def mcParamsMs (exp : ℝ → ℝ) (p : PF → ℝ) (logmp0 : ℝ) (z : Fin 4 → ℝ) : Option (DiffstarParams ℝ) := do
  let mu ← R.getMeanUParamsMseq exp (sfhPdfPart p) logmp0
  let std ← R.getStdMseqMsBlock exp (sfhPdfPart p) logmp0
  let u := R.drawDiagonal mu std z
  let q := DEFAULT_Q_U_PARAMS_UNQUENCHED
  return R.getBoundedDiffstarParams exp
    (DiffstarParams.join ⟨u 0, u 1, u 2, u 3⟩ ⟨R.fl q.lgQt, R.fl q.qlglgdt, R.fl q.lgDrop, R.fl q.lgRejuv⟩)

/-- Parameters of the quenched galaxy, `kernels/diffstarpop_mgash.py` L56-71, followed by the bounding transform. `z` and `z'`
are the standard normal deviates of the two blocks. -/
def mcParamsQ (exp : ℝ → ℝ) (p : PF → ℝ) (logmp0 tpeak : ℝ) (z z' : Fin 4 → ℝ) : Option (DiffstarParams ℝ) := do
  let mu ← R.getMeanUParamsQseq exp (sfhPdfPart p) logmp0 tpeak
  let stdMs ← R.getStdQseqMsBlock exp (sfhPdfPart p) logmp0
  let stdQ ← R.getStdQseqQBlock exp (sfhPdfPart p) logmp0
  let uMs := R.drawDiagonal ![mu 0, mu 1, mu 2, mu 3] stdMs z
  let uQ := R.drawDiagonal ![mu 4, mu 5, mu 6, mu 7] stdQ z'
  return R.getBoundedDiffstarParams exp (DiffstarParams.join ⟨uMs 0, uMs 1, uMs 2, uMs 3⟩ ⟨uQ 0, uQ 1, uQ 2, uQ 3⟩)

/-- Star formation history of the main-sequence galaxy, `mc_diffstar_sfh_singlegal`, `mc_diffstarpop_mgash.py` L27-142. -/
def mcSfhMs (L : MathLib) (logMah : MahParams ℝ → ℝ → ℝ → ℝ) (p : PF → ℝ) (mah : MahParams ℝ) (logmp0 : ℝ) (z : Fin 4 → ℝ) (tarr : List ℝ)
    (lgt0 fb : ℝ) : Option (List ℝ) :=
  (R.mcParamsMs L.exp p logmp0 z).map fun q => (R.calcSfhSinglegalSmh L logMah q mah tarr lgt0 fb).sfh

/-- Star formation history of the quenched galaxy, `mc_diffstar_sfh_singlegal`, `mc_diffstarpop_mgash.py` L27-142. -/
def mcSfhQ (L : MathLib) (logMah : MahParams ℝ → ℝ → ℝ → ℝ) (p : PF → ℝ) (mah : MahParams ℝ) (logmp0 : ℝ) (z z' : Fin 4 → ℝ) (tarr : List ℝ)
    (lgt0 fb : ℝ) : Option (List ℝ) :=
  (R.mcParamsQ L.exp p logmp0 mah.tPeak z z').map fun q => (R.calcSfhSinglegalSmh L logMah q mah tarr lgt0 fb).sfh

end

end Diffstar.Rounding
