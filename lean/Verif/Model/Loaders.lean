import Verif.Model.Output
import Mathlib.Analysis.SpecialFunctions.Log.Base

/-!
Model of the data loaders `diffstar/data_loaders/*.py`, of the decision of the fitting scripts whether to fit a halo,
and of `prepare_ragged`. Files are their content; `none` = an exception.
-/

namespace Diffstar.Load

open Diffstar.Text Diffstar.Fit Diffstar.Output

noncomputable section

open Classical

/-! ### Flat hdf5 files -/

/-- A flat hdf5 file: named arrays (first axis as list). -/
abbrev Flat (α : Type) := List (Str × List α)

/-- `arr[istart:]` or `arr[istart:iend]` for non-negative indices (library). -/
def slice {α : Type} (l : List α) (istart : ℕ) (iend : Option ℕ) : List α :=
  match iend with
  | none => l.drop istart
  | some e => (l.take e).drop istart

/-- `load_flat_hdf5`, `data_loaders/utils.py` L6-21; `none` = `KeyError`. -/
def loadFlat {α : Type} (file : Flat α) (istart : ℕ) (iend : Option ℕ) (keys : Option (List Str)) : Option (Flat α) :=
  let keys := keys.getD (file.map Prod.fst)
  keys.mapM fun k => (file.lookup k).map fun col => (k, slice col istart iend)

/-- `load_galacticus_sfh_data_block`, `load_galacticus_sfh.py` L115-121 (all columns with entries in `α`). -/
def loadGalacticusBlock {α : Type} (file : Flat α) (istart iend : ℕ) : Option (Flat α) :=
  (loadFlat file 0 none (some ["tarr".toList])).bind fun tarr =>
    (loadFlat file istart (some iend) (some ["sfh_in_situ".toList, "sfh_tot".toList, "is_cen".toList])).map
      fun block => block ++ tarr

/-! ### Halo assembly fits -/

/-- One row of the file of diffmah fits. -/
structure MahRow where
  par : MahParams ℝ
  loss : ℝ
  nPoints : ℤ

/-- `load_smdpl_diffmah_fits`, `load_smah_data.py` L108-140, for one row. `dflt` is diffmah's
`DEFAULT_MAH_PARAMS` and `logMah p t lgt0` is diffmah's mass history. -/
def loadRow (logMah : MahParams ℝ → ℝ → ℝ → ℝ) (dflt : MahParams ℝ) (t0 : ℝ) (nptsFitMin : ℤ) (row : MahRow) :
    MahParams ℝ × ℝ × ℝ × ℤ :=
  let mskNofit := row.loss < 0 ∨ row.nPoints < nptsFitMin
  let zz : ℝ := 0
  let logm0 := if mskNofit then zz + dflt.logmp else row.par.logmp
  let logtc := if mskNofit then zz + dflt.logtc else row.par.logtc
  let early := if mskNofit then zz + dflt.earlyIndex else row.par.earlyIndex
  let late := if mskNofit then zz + dflt.lateIndex else row.par.lateIndex
  let tPeak := if mskNofit then zz + dflt.tPeak else row.par.tPeak
  let logmp0 := logMah ⟨logm0, logtc, early, late, tPeak⟩ t0 (Real.logb 10 t0)
  let logm0 := if mskNofit then zz - 1 else logm0
  let logtc := if mskNofit then zz - 1 else logtc
  let early := if mskNofit then zz - 1 else early
  let late := if mskNofit then zz - 1 else late
  let tPeak := if mskNofit then zz - 1 else tPeak
  (⟨logm0, logtc, early, late, tPeak⟩, logmp0, row.loss, row.nPoints)

/-- `load_smdpl_diffmah_fits`, L64-140 (rows `[istart, iend)` of the file, element by element). -/
def loadDiffmahFits (logMah : MahParams ℝ → ℝ → ℝ → ℝ) (dflt : MahParams ℝ) (t0 : ℝ) (nptsFitMin : ℤ)
    (rows : List MahRow) (istart : ℕ) (iend : Option ℕ) : List (MahParams ℝ × ℝ × ℝ × ℤ) :=
  (slice rows istart iend).map (loadRow logMah dflt t0 nptsFitMin)

/-- `run_fitter` of `scripts/diffstar_fitting_script_umachine_mgash.py` L151, L189. -/
def runFitterUm (logmp0Min logmp0 diffmahLoss : ℝ) : Bool :=
  let hasDiffmahFit : Bool := decide (diffmahLoss > 0) && decide (logmp0 > logmp0Min)
  decide (logmp0 > logmp0Min) && hasDiffmahFit

/-- `MIN_LOGSM_Z0` of `scripts/galacticus_diffstar_fitter_script_mgash.py`. -/
def MIN_LOGSM_Z0 : ℝ := 8

/-- `run_fitter` of `scripts/galacticus_diffstar_fitter_script_mgash.py` L117-118, L141-143; `logsmZ0` is the log of
the final stellar mass (`-inf` or NaN possible). -/
def runFitterGalacticus (logmp0Min logmp0 diffmahLoss : ℝ) (logsmZ0 : F) : Bool :=
  let hasDiffmahFit : Bool := decide (diffmahLoss > 0) && decide (logmp0 > logmp0Min)
  decide (logmp0 > logmp0Min) && hasDiffmahFit && decide (gtTol logsmZ0 ((MIN_LOGSM_Z0 : ℝ) : EReal))

/-- The row a halo gets in the SMDPL script, L182-205: `fitter mah` is the result of `diffstar_fitter`. -/
def scriptHaloUm (fitter : MahParams ℝ → DiffstarParams F × F × ℤ) (logmp0Min : ℝ) (haloId : ℤ)
    (row : MahParams ℝ × ℝ × ℝ × ℤ) : HaloOut :=
  if runFitterUm logmp0Min row.2.1 row.2.2.1 then ⟨haloId, some (fitter row.1)⟩ else ⟨haloId, none⟩

/-- The row a halo gets in `scripts/history_fitting_script_TNG_mgash.py` L124-135: always fitted. -/
def scriptHaloTng (fitter : MahParams ℝ → DiffstarParams F × F × ℤ) (haloId : ℤ)
    (row : MahParams ℝ × ℝ × ℝ × ℤ) : HaloOut :=
  ⟨haloId, some (fitter row.1)⟩

/-! ### Mass histories -/

/-- `np.maximum.accumulate` along an axis (library), with the running maximum so far. -/
def accMaxFrom : ℝ → List ℝ → List ℝ
  | _, [] => []
  | m, x :: xs => max m x :: accMaxFrom (max m x) xs

/-- `np.maximum.accumulate` (library). -/
def accMax : List ℝ → List ℝ
  | [] => []
  | x :: xs => x :: accMaxFrom x xs

/-- `log_mahs` for one halo in `load_SMDPL_nomerging_data` L518-523 and `load_SMDPL_DR1_data` L575-580. -/
def smdplLogMah (mpeakHistory : List ℝ) : List ℝ :=
  let lgmhMin : ℝ := 7
  let mhMin := (10 : ℝ) ^ lgmhMin
  let clipped := mpeakHistory.map fun m => if m < mhMin then 1 else m
  accMax (clipped.map (Real.logb 10))

/-- `logmp0 = log_mahs[:, -1]`, L525 and L582 (`none` = `IndexError` on an empty history). -/
def smdplLogmp0 (mpeakHistory : List ℝ) : Option ℝ := (smdplLogMah mpeakHistory).getLast?

/-- `log_mahs` for one halo in `load_tng_data` L329-332, `h` = `H_TNG`. -/
def tngLogMah (h : ℝ) (mpeakh : List ℝ) : List ℝ := accMax (mpeakh.map fun x => x - Real.logb 10 h)

/-! ### Galacticus -/

/-- `np.diff` (library). -/
def diffs (l : List ℝ) : List ℝ := (l.tail.zip l).map fun p => p.1 - p.2

/-- One row of `sfh_in_situ` or `sfh_tot` in `load_galacticus_sfh_target_data`, `load_galacticus_sfh.py` L79-90. -/
def galacticusSfh (tarr dmBulge dmDisk : List ℝ) : List ℝ :=
  let dtarr := diffs (0 :: tarr)
  let dm := List.zipWith (· + ·) dmBulge dmDisk
  List.zipWith (fun m dt => m / dt / 1e9) dm dtarr

/-- `np.sum(X, axis=0)` of a list of rows of length `nT` (library). -/
def sumRows (nT : ℕ) (rows : List (List ℝ)) : List ℝ :=
  (List.range nT).map fun t => (rows.map fun r => r.getD t 0).sum

/-- One pass of the loop of `extract_galacticus_sfh_tables`, `extract_galacticus_sfh_data.py` L64-75: the state is the
pair of tables (tot, in situ). `none` = `IndexError`. -/
def extractStep (data : List (List (List ℝ))) (nMet nT : ℕ) (st : List (List ℝ) × List (List ℝ)) (igal : ℕ) :
    Option (List (List ℝ) × List (List ℝ)) :=
  match data[igal]? with
  | none => none
  | some x =>
    if x.length > 0 then
      if 2 * nMet ≤ x.length ∧ igal < st.1.length ∧ igal < st.2.length then
        let xTot := x.take nMet
        let xIn := (x.drop nMet).take nMet
        some (st.1.set igal (sumRows nT xTot), st.2.set igal (sumRows nT xIn))
      else none
    else some st

/-- `extract_galacticus_sfh_tables`, L45-77, without the time array: `data` is the column (per galaxy a list of
`2 * n_met` histories, or empty), result (tot, in situ). `none` = an exception (`NameError` for `n_t` if all galaxies
are empty, or `IndexError`). Requires `istart ≤ iend`. -/
def extractSfh (data : List (List (List ℝ))) (istart : ℕ) (iend : Option ℕ) :
    Option (List (List ℝ) × List (List ℝ)) :=
  let iend := iend.getD data.length
  let nOut := iend - istart
  match data.find? (fun x => decide (x.length > 0)) with
  | none => none
  | some x =>
    let nMet := x.length / 2
    let nT := (x.headD []).length
    let zeros := List.replicate nOut (List.replicate nT (0 : ℝ))
    (List.range' istart nOut).foldlM (extractStep data nMet nT) (zeros, zeros)

/-! ### Ragged bins -/

/-- `idx_np[z, :m] = …` on a row of zeros of length `mmax` (library). -/
def padRow {α : Type} [Zero α] (mmax : ℕ) (row : List α) : List α := row ++ List.replicate (mmax - row.length) 0

/-- `prepare_ragged`, `scripts/diffstarpop_scripts/fit_get_loss_helpers_mgash.py` L329-348: per redshift the padded
indices and weights. `nmhaloPdf` has one row per redshift. (`max` of an empty list raises; excluded.) -/
def prepareRagged (indxPdf : List (List ℕ)) (nmhaloPdf : List (List ℝ)) (indexMhalo : List (List ℕ)) :
    List (List ℕ × List ℝ) :=
  let mmax := (indxPdf.map List.length).max?.getD 0
  (indxPdf.zip (nmhaloPdf.zip indexMhalo)).map fun x =>
    (padRow mmax x.1, padRow mmax (x.2.2.map fun j => x.2.1.getD j 0))

/-- `jnp.einsum("zmab,zm->zab", jnp.take(pred, indx, axis=0), w)` for one redshift and one cell `(a, b)`,
`mstar_ssfr_loss_mgash_anyz.py` L319-320: `pred k` is the cell's value in the histogram of halo bin `k`. -/
def contract (pred : ℕ → ℝ) (row : List ℕ × List ℝ) : ℝ := (List.zipWith (fun k w => pred k * w) row.1 row.2).sum

end

end Diffstar.Load
