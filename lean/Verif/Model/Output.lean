import Verif.Model.Text
import Verif.Model.Sfh

/-!
Model of the output side of the fitting scripts: `diffstar_fitting_helpers.py` L245-288, the division of work and
the collation of `scripts/diffstar_fitting_script_umachine_mgash.py` L156-232, and the reader `load_fit_sfh`.

`f4` is the cast to single precision applied to the parameters (library); theorems hold for every such cast.
-/

namespace Diffstar.Output

open Diffstar.Fit Diffstar.Text

noncomputable section

open Classical

/-- The fields of `DEFAULT_MS_PARAMS` and `DEFAULT_Q_PARAMS` in order, as a list. -/
def paramList {α : Type*} (p : DiffstarParams α) : List α :=
  [p.lgmcrit, p.lgyAtMcrit, p.indxLo, p.indxHi, p.lgQt, p.qlglgdt, p.lgDrop, p.lgRejuv]

/-- `colnames` of `get_header`, `diffstar_fitting_helpers.py` L247-250 (`_fields` of `DEFAULT_MS_PARAMS`,
`kernels/main_sequence_kernels.py`, and of `DEFAULT_Q_PARAMS`, `kernels/quenching_kernels.py`). -/
def colnames : List Str :=
  ["halo_id".toList] ++ ["lgmcrit".toList, "lgy_at_mcrit".toList, "indx_lo".toList, "indx_hi".toList]
    ++ ["lg_qt".toList, "qlglgdt".toList, "lg_drop".toList, "lg_rejuv".toList] ++ ["loss".toList, "success".toList]

/-- `header_str` of `get_header`, L251. -/
def header : Str := "# ".toList ++ joinWs colnames ++ ['\n']

/-- `get_outline`, L255-261. -/
def outline (f4 : F → F) (haloId : ℤ) (p : DiffstarParams F) (loss : F) (success : ℤ) : Str :=
  let dataOut := (paramList p).map f4 ++ [loss]
  let out := intStr haloId ++ ' ' :: joinWs (dataOut.map fmtF)
  out ++ ' ' :: intStr success ++ ['\n']

/-- `NOFIT_FILL`, L32. -/
def NOFIT_FILL : ℝ := -99

/-- `get_outline_nofit`, L264-275. -/
def outlineNofit (haloId : ℤ) : Str :=
  let d : List F := List.replicate 8 (some ((0 + NOFIT_FILL : ℝ) : EReal))
  let dataOut := d ++ [some ((-1 : ℝ) : EReal)]
  let out := intStr haloId ++ ' ' :: joinWs (dataOut.map fmtF)
  out ++ ' ' :: intStr (-1) ++ ['\n']

/-- A stored column of the hdf5 file. -/
inductive Col
  | int (l : List ℤ)
  | flt (l : List F)

/-- The hdf5 file: named columns. -/
abbrev H5 := List (Str × Col)

/-- `hdf[name]` (`none` = `KeyError`). -/
def H5.get (h : H5) (name : Str) : Option Col := h.lookup name

/-- `data[:, i].astype(int)`, `none` = `ValueError`. -/
def intCol (rows : List (List Str)) (i : ℕ) : Option (List ℤ) := rows.mapM fun r => parseInt (r.getD i [])

/-- `data[:, i].astype(float)`, `none` = `ValueError`. -/
def fltCol (rows : List (List Str)) (i : ℕ) : Option (List F) := rows.mapM fun r => parseFloat (r.getD i [])

/-- The loop of `write_collated_data`, L283-288, from column `i` on; writing an existing name raises. -/
def writeCols (rows : List (List Str)) : ℕ → List Str → H5 → Option H5
  | _, [], hdf => some hdf
  | i, name :: names, hdf =>
      if (hdf.map Prod.fst).contains name then none
      else if name = "halo_id".toList ∨ name = "success".toList then
        (intCol rows i).bind fun c => writeCols rows (i + 1) names (hdf ++ [(name, Col.int c)])
      else
        (fltCol rows i).bind fun c => writeCols rows (i + 1) names (hdf ++ [(name, Col.flt c)])

/-- `write_collated_data`, L278-288; `none` = an exception (`IndexError` of `np.shape(data)[1]` on a 1-d array,
the assertion, or a failing cast). -/
def writeCollated (data : NdArr) (names : List Str) : Option H5 :=
  match data with
  | .d1 _ => none
  | .d2 rows => if names.length = (rows.headD []).length then writeCols rows 0 names [] else none

/-- Section sizes of `np.array_split` (library): `[n//r + 1] * (n % r) + [n//r] * (r - n % r)`. -/
def sectionSizes (n r : ℕ) : List ℕ := List.replicate (n % r) (n / r + 1) ++ List.replicate (r - n % r) (n / r)

/-- `np.array_split(l, r)` (library): consecutive slices between the cumulative section sizes. -/
def arraySplit {α : Type*} (l : List α) (r : ℕ) : List (List α) :=
  let divPoint := fun i => ((sectionSizes l.length r).take i).sum
  (List.range r).map fun i => (l.take (divPoint (i + 1))).drop (divPoint i)

/-- What the script knows of a halo when writing its row: the id and the fit (`none` if the fitter is not run). -/
structure HaloOut where
  haloId : ℤ
  fit : Option (DiffstarParams F × F × ℤ)

/-- The row of a halo, `diffstar_fitting_script_umachine_mgash.py` L189-205. -/
def haloLine (f4 : F → F) (h : HaloOut) : Str :=
  match h.fit with
  | some (p, loss, success) => outline f4 h.haloId p loss success
  | none => outlineNofit h.haloId

/-- Content of the file of one rank, L178-207. -/
def rankFile (f4 : F → F) (hs : List HaloOut) : Str := header ++ (hs.map (haloLine f4)).flatten

/-- Division of the halos over `r` ranks (L162-170), one text file per rank, and collation by rank 0 (L219-233).
`none` = an exception. -/
def fitAndCollate (f4 : F → F) (halos : List HaloOut) (r : ℕ) : Option H5 :=
  let files := (arraySplit halos r).map (rankFile f4)
  ((files.mapM genfromtxt).bind concatenate).bind fun data => writeCollated data colnames

/-- `load_fit_sfh`, `load_smah_data.py` L143-182: the columns read, in order, `none` = `KeyError`. The final
transposition is left out. -/
def loadFitSfh (h : H5) : Option (List Col × List Col) :=
  (["lgmcrit".toList, "lgy_at_mcrit".toList, "indx_lo".toList, "indx_hi".toList, "tau_dep".toList].mapM h.get).bind
    fun ms => (["lg_qt".toList, "qlglgdt".toList, "lg_drop".toList, "lg_rejuv".toList].mapM h.get).map
      fun q => (ms, q)

end

end Diffstar.Output
