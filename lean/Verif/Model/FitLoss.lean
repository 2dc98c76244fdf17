import Verif.Model.Sfh
import Verif.Model.FitDrivers

/-!
Model of `diffstar/fitting_helpers/diffstar_fitting_helpers.py` L25-235: loss data, weights, loss, fitter.

Arrays are lists. numpy operations between arrays of unequal length raise; the functions below return `none`
when the input arrays have different lengths or are empty (`IndexError` at `[-1]`, `ValueError` of `max`).
diffmah's `mah_singlehalo(mah_params, t_table, lgt0)[1]` is `logMah mah_params t lgt0` at every time.
-/

namespace Diffstar.Fit

noncomputable section

open Classical

/-- `T_FIT_MIN`, `diffstar_fitting_helpers.py` L25. -/
def T_FIT_MIN : ℝ := 1
/-- `DLOGM_CUT`, L26. -/
def DLOGM_CUT : ℝ := 3.5
/-- `MIN_MASS_CUT`, L27. -/
def MIN_MASS_CUT : ℝ := 7
/-- `FSTAR_TIME_DELAY`, L28. -/
def FSTAR_TIME_DELAY : ℝ := 1
/-- `SSFRH_FLOOR`, L29. -/
def SSFRH_FLOOR : ℝ := 1 / 10 ^ 12

/-- `np.clip(x, lo, hi)` (library): `minimum(maximum(x, lo), hi)`. -/
def clip (x lo hi : ℝ) : ℝ := min (max x lo) hi

/-- numpy mask assignment `a[mask] = v` (library). -/
def setWhere (a : List ℝ) (mask : List Bool) (v : ℝ) : List ℝ :=
  List.zipWith (fun x b => if b then v else x) a mask

/-- `arr.max()` of a non-empty array (library). -/
def arrMax (l : List ℝ) : ℝ := l.max?.getD 0

/-- `np.argmax(arr)` of a non-empty array (library): first index of the maximum. -/
def argMax (l : List ℝ) : ℕ := l.findIdx fun x => decide (x = arrMax l)

/-- `jnp.mean` of a non-empty array (library). -/
def mean (l : List ℝ) : ℝ := l.sum / l.length

/-- `get_weights`, L158-184. -/
def getWeights (t logSmah logFstar : List ℝ) (fstarTdelay dlogmCut tFitMin massFitMin : ℝ) :
    Option (List ℝ × List ℝ) :=
  if t.length = 0 ∨ logSmah.length ≠ t.length ∨ logFstar.length ≠ t.length then none
  else
    let last := logSmah.getLastD 0
    let massFitMin := min (last - 0.5) massFitMin
    let mask0 := logSmah.map fun x => decide (x > last - dlogmCut)
    let mask1 := List.zipWith (fun b x => b && decide (x > massFitMin)) mask0 logSmah
    let mask := List.zipWith (fun b x => b && decide (x ≥ tFitMin)) mask1 t
    let nmask := mask.map fun b => !b
    let weight := List.replicate t.length (1 : ℝ)
    let weight := setWhere weight nmask (10 ^ 10)
    let weight := setWhere weight (logSmah.map fun x => decide (last - x < 0.1)) 0.5
    let weightFstar := List.replicate t.length (1 : ℝ)
    let weightFstar := setWhere weightFstar nmask (10 ^ 10)
    let weightFstar := setWhere weightFstar (logFstar.map fun x => decide (arrMax logFstar - x < 0.1)) 0.5
    let weightFstar := setWhere weightFstar (weightFstar.map fun x => decide (x = -10)) (10 ^ 10)
    let weightFstar := setWhere weightFstar (t.map fun x => decide (x < fstarTdelay + 0.01)) (10 ^ 10)
    some (weight, weightFstar)

/-- The tuple `loss_data`, L135-149. -/
structure LossData (M : Type) where
  t : List ℝ
  mah : M
  mstarTarget : List ℝ
  logmstarTarget : List ℝ
  sfhTarget : List ℝ
  logFstarTarget : List ℝ
  fstarTdelay : ℝ
  ssfrhFloor : ℝ
  weight : List ℝ
  weightFstar : List ℝ
  lgtFstarMax : ℝ
  lgt0 : ℝ
  fb : ℝ

/-- `fstar_target` as computed at L91-99. -/
def fstarTarget (t mstarTarget : List ℝ) (fstarTdelay ssfrhFloor : ℝ) : List ℝ :=
  let fstarTable := computeFstar t mstarTarget fstarTdelay
  let ssfrhTable := List.zipWith (fun f m => f / m) fstarTable mstarTarget
  let ssfrhTarget := ssfrhTable.map fun x => max x ssfrhFloor
  let fstar := List.zipWith (fun x m => x * m) ssfrhTarget mstarTarget
  let fmin := arrMax fstar / 1000
  fstar.map fun f => if f < fmin then fmin else f

/-- The main-sequence guess, L119-123: three entries of the default are overwritten. -/
def msGuess (logmp0 : ℝ) : MSParams ℝ :=
  ⟨clip (0.3 * (logmp0 - 11) + 11.4) 11 13, clip (0.2 * (logmp0 - 11) - 9.7) (-10.5) (-9.2),
   clip (0.7 * (logmp0 - 11) - 0.3) 0.2 3, DEFAULT_MS_PARAMS.indxHi⟩

/-- The array `varied_q_params` as edited at L128-130. -/
def variedQArray (logmp0 : ℝ) : QParams ℝ :=
  ⟨clip (-0.5 * (logmp0 - 11) + 1.5) 0.7 1.5, DEFAULT_Q_PARAMS.qlglgdt, -2, DEFAULT_Q_PARAMS.lgRejuv⟩

/-- `varied_q_params` after L131, `DEFAULT_Q_PARAMS._make(DEFAULT_Q_PARAMS)`: the edited array is not used. -/
def qGuess (logmp0 : ℝ) : QParams ℝ :=
  let _edited := variedQArray logmp0
  DEFAULT_Q_PARAMS

/-- `u_p_init_and_err`, L116-133 and L151-154: mean and width of the random starts. -/
def uPInitAndErr (logmp0 : ℝ) : DiffstarParams ℝ × DiffstarParams ℝ :=
  (DiffstarParams.join (getUnboundedSfrParams (msGuess logmp0)) (getUnboundedQParams (qGuess logmp0)),
   DiffstarParams.join ⟨0.5, 0.5, 1, 1⟩ ⟨0.3, 0.5, 0.3, 0.3⟩)

/-- `get_loss_data_default`, L75-155. -/
def getLossDataDefault {M : Type} (logMah : M → ℝ → ℝ → ℝ) (t sfh : List ℝ) (mah : M)
    (dlogmCut tFitMin massFitMin fstarTdelay ssfrhFloor lgt0 fb : ℝ) :
    Option ((DiffstarParams ℝ × DiffstarParams ℝ) × LossData M) :=
  if sfh.length ≠ t.length then none
  else
    let sfhTarget := sfh.map fun x => max x SFR_MIN
    let mstarTarget := cumulativeMstarFormed t sfh
    let logmstarTarget := mstarTarget.map (Real.logb 10)
    let logFstarTarget := (fstarTarget t mstarTarget fstarTdelay ssfrhFloor).map (Real.logb 10)
    let lgtTable := t.map (Real.logb 10)
    let logMahTable := t.map fun x => logMah mah x lgt0
    let logmp0 := logMahTable.getLastD 0
    match getWeights t logmstarTarget logFstarTarget fstarTdelay dlogmCut tFitMin massFitMin with
    | none => none
    | some w =>
      let lgtFstarMax := lgtTable.getD (argMax logFstarTarget) 0
      some (uPInitAndErr logmp0,
        ⟨t, mah, mstarTarget, logmstarTarget, sfhTarget, logFstarTarget, fstarTdelay, ssfrhFloor, w.1, w.2,
          lgtFstarMax, lgt0, fb⟩)

/-- `loss_default_clipssfrh`, L187-235. `jnp.clip(x, lo, inf)` is `max x lo`. -/
def lossDefaultClipssfrh {M : Type} (logMah : M → ℝ → ℝ → ℝ) (u : DiffstarParams ℝ) (d : LossData M) : ℝ :=
  let p := getBoundedDiffstarParams u
  let h := calcSfhSinglegalSmh logMah p d.mah d.t d.lgt0 d.fb
  let mstarTable := h.smh
  let fstar := computeFstar d.t mstarTable d.fstarTdelay
  let fstar := List.zipWith (fun f m => max f (m * (d.ssfrhFloor / 10))) fstar mstarTable
  let sfhTable := List.zipWith (fun f m => max f (m * (d.ssfrhFloor / 10))) h.sfh mstarTable
  let logFstar := fstar.map (Real.logb 10)
  let logsmTable := mstarTable.map (Real.logb 10)
  let sfrRes := List.zipWith (fun x m => 10 ^ 8 * x / m)
    (List.zipWith (fun a b => a - b) sfhTable d.sfhTarget) d.mstarTarget
  let sfrRes := sfrRes.map fun x => clip x (-1) 1
  let loss := 30 * mean (List.zipWith (fun x w => (x / w) ^ 2)
    (List.zipWith (fun a b => a - b) logsmTable d.logmstarTarget) d.weight)
  let loss := loss + mean (List.zipWith (fun x w => (x / w) ^ 2)
    (List.zipWith (fun a b => a - b) logFstar d.logFstarTarget) d.weightFstar)
  let loss := loss + mean (List.zipWith (fun x w => (x / w) ^ 2) sfrRes d.weight)
  let loss := loss + 0.5 * ((List.zipWith (fun a b => a - b) logFstar d.logFstarTarget).getLastD 0) ^ 2
  loss + sigmoid (p.lgQt - d.lgtFstarMax) 0 50 100 0

/-- `diffstar_fitter`, L35-72. The random draws `normal initAndErr k` and the gradient test `gradNan lossData`
are arbitrary; `minimize lossData p` is scipy's result, whose parameter vector is `none` if it contains NaN or inf.
The defaults `loss_tol = 0.1`, `max_iter = 10` of `minimizer_wrapper` are used. -/
def diffstarFitter {M : Type} (logMah : M → ℝ → ℝ → ℝ)
    (normal : DiffstarParams ℝ × DiffstarParams ℝ → ℕ → Option (DiffstarParams ℝ))
    (gradNan : LossData M → Option (DiffstarParams ℝ) → Bool)
    (minimize : LossData M → Option (DiffstarParams ℝ) → Option (DiffstarParams ℝ) × F)
    (t sfh : List ℝ) (mah : M) (dlogmCut tFitMin massFitMin fstarTdelay ssfrhFloor lgt0 fb : ℝ) :
    Option (Option (DiffstarParams ℝ) × F × ℤ) :=
  (getLossDataDefault logMah t sfh mah dlogmCut tFitMin massFitMin fstarTdelay ssfrhFloor lgt0 fb).map fun x =>
    let r := minimizerWrapper (normal x.1) (gradNan x.2) (minimize x.2) (some x.1.1) ((0.1 : ℝ) : EReal) 10
    (r.p.map getBoundedDiffstarParams, r.loss, r.success)

end

end Diffstar.Fit
