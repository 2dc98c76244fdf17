import Verif.Model.FitScripts
import Verif.Model.Targets
import Verif.Model.TngRanks

/-!
Model of the way `load_diffstar_sfh_tables` reads the catalogues written by the fitting scripts:
`scripts/diffstarpop_scripts/smhm_utils_smdpl_mgash.py` L98-152, `smhm_utils_tng_mgash.py` L58-102,
`smhm_utils_galacticus_mgash.py` L32-66 and `diffstar/data_loaders/load_galacticus_sfh.py` L27-72.

The file of diffmah fits has the columns of `MahRow`, all of the same length, so it is a list of rows. `none` is an
exception (missing column, arrays of different length).
-/

namespace Diffstar.Scripts

open Diffstar.Text Diffstar.Fit Diffstar.Output Diffstar.Load Diffstar.Targets

noncomputable section

open Classical

/-- `diffstar_data[key]` of a float column. -/
def fltColumn (file : H5) (name : Str) : Option (List F) :=
  match file.get name with
  | some (.flt c) => some c
  | _ => none

/-- `diffstar_data[key]` of an integer column. -/
def intColumn (file : H5) (name : Str) : Option (List ℤ) :=
  match file.get name with
  | some (.int c) => some c
  | _ => none

/-- `a[indx]` in the TNG script (L91-102); the other two use all rows. -/
def pick {α : Type} (indx : Option (List ℕ)) (l : List α) : Option (List α) :=
  match indx with
  | none => some l
  | some ix => takeIdx l ix

/-- `a[mask]` with a boolean mask (library). -/
def maskBy {α : Type} (m : List Bool) (l : List α) : Option (List α) :=
  if m.length ≠ l.length then none
  else some ((m.zip l).filterMap fun x => if x.1 then some x.2 else none)

/-- `has_fit`, SMDPL L143, TNG L90-94, Galacticus L52-56. -/
def hasFitMask (sim : Sim) (mahLoss : List ℝ) (starLoss : List F) (success : List ℤ) : Option (List Bool) :=
  match sim with
  | .smdpl =>
    if mahLoss.length ≠ success.length then none
    else some (List.zipWith (fun l s => decide (l > 0) && decide (s = 1)) mahLoss success)
  | .tng | .galacticus =>
    if mahLoss.length ≠ starLoss.length ∨ mahLoss.length ≠ success.length then none
    else some (List.zipWith (fun b s => b && decide (s = 1))
      (List.zipWith (fun l d => decide (l > 0) && decide (gtTol d (0 : EReal))) mahLoss starLoss) success)

/-- The selected columns: namedtuples of arrays. -/
structure FitColumns where
  mah : MahParams (List ℝ)
  sfh : DiffstarParams (List F)
  hasFit : List Bool

/-- SMDPL L143-150, TNG L84-102, Galacticus L44-66: the arrays `mah_params`, `sfh_params` and `has_fit`. -/
def readCatalogue (sim : Sim) (indx : Option (List ℕ)) (mahRows : List MahRow) (file : H5) : Option FitColumns := do
  let mahLoss ← pick indx (mahRows.map MahRow.loss)
  let starLoss ← (fltColumn file "loss".toList).bind (pick indx)
  let success ← (intColumn file "success".toList).bind (pick indx)
  let hasFit ← hasFitMask sim mahLoss starLoss success
  let mahCol := fun f : MahRow → ℝ => (pick indx (mahRows.map f)).bind (maskBy hasFit)
  let sfhCol := fun name : Str => ((fltColumn file name).bind (pick indx)).bind (maskBy hasFit)
  let logm0 ← mahCol fun r => r.par.logmp
  let logtc ← mahCol fun r => r.par.logtc
  let early ← mahCol fun r => r.par.earlyIndex
  let late ← mahCol fun r => r.par.lateIndex
  let tPeak ← mahCol fun r => r.par.tPeak
  let lgmcrit ← sfhCol "lgmcrit".toList
  let lgyAtMcrit ← sfhCol "lgy_at_mcrit".toList
  let indxLo ← sfhCol "indx_lo".toList
  let indxHi ← sfhCol "indx_hi".toList
  let lgQt ← sfhCol "lg_qt".toList
  let qlglgdt ← sfhCol "qlglgdt".toList
  let lgDrop ← sfhCol "lg_drop".toList
  let lgRejuv ← sfhCol "lg_rejuv".toList
  return ⟨⟨logm0, logtc, early, late, tPeak⟩, ⟨lgmcrit, lgyAtMcrit, indxLo, indxHi, lgQt, qlglgdt, lgDrop, lgRejuv⟩, hasFit⟩

/-- Name of the catalogue read for a value of `sfh_type`, Galacticus L45-49, `load_galacticus_sfh.py` L13-14. -/
def galReadName : SfhType → Str
  | .inSitu => "diffstar_fits_in_situ.hdf5".toList
  | .inPlusExSitu => "diffstar_fits_in_plus_ex_situ.hdf5".toList

/-- The rows read by the TNG script for a chunk, L84-87. -/
def tngChunkIndx (mahRows : List MahRow) (subvol : ℕ) : Option (List ℕ) :=
  Targets.chunk (List.range mahRows.length) subvol

end

end Diffstar.Scripts
