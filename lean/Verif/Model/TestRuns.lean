import Verif.Model.RankFiles

/-!
The option `-test` ("Short test run?") of the fitting scripts `scripts/galacticus_diffstar_fitter_script_mgash.py`,
`scripts/diffstar_fitting_script_umachine_mgash.py` and `scripts/history_fitting_script_TNG_mgash.py`, which the models of
`Model/FitScripts.lean` and `Model/RankFiles.lean` take as not given.
-/

namespace Diffstar.TestRuns

open Diffstar.Text Diffstar.Fit Diffstar.Output Diffstar.Load Diffstar.Galcus Diffstar.Scripts Diffstar.RankFiles

noncomputable section

/-- `bool(s)` of a string (library). -/
def pyBool (s : Str) : Bool := s ≠ []

/-- `parser.add_argument("-test", type=bool, default=False)`, Galacticus L58, SMDPL L70, TNG L51: the argument is the text
given after `-test`, if any. -/
def testOption : Option Str → Bool
  | none => false
  | some s => pyBool s

/-- `NHALOS_TEST`, Galacticus L24. -/
def NHALOS_TEST : ℕ := 30

/-- What one rank of the Galacticus script writes, L90-157, as `Scripts.galRank` but with the option, L112-115. -/
def galRank (test : Bool) (L : Libs) (o : Opts) (ty : SfhType) (block : Flat Cell) (mahRows : List MahRow)
    (nranks rank : ℕ) : Option (List HaloOut) := do
  let ins ← block.lookup "sfh_in_situ".toList
  let nhalosTot := ins.length
  let indx := (arraySplit (List.range nhalosTot) nranks).getD rank []
  let istart ← indx.head?
  let last ← indx.getLast?
  let iend := last + 1
  let data ← loadGalacticusBlock block istart iend
  let tarr ← (data.lookup "tarr".toList).bind numCol
  let t0 ← tarr.getLast?
  let mah := loadDiffmahFits L.logMah L.defaultMah t0 NPTS_FIT_MIN mahRows istart (some iend)
  let haloIds := slice (List.range nhalosTot) istart (some iend)
  let sfhs ← (data.lookup (sfhColname ty)).bind rowCol
  let nhalosForRank := if test then NHALOS_TEST else haloIds.length
  (List.range nhalosForRank).mapM fun i => do
    let haloId ← haloIds[i]?
    let m ← mah[i]?
    let sfh ← sfhs[i]?
    galHalo L o tarr t0 haloId sfh m

/-- The Galacticus script with the text of `-test`, L75-187, as `RankFiles.galRun`. -/
def galRun (testArg : Option Str) (L : Libs) (o : Opts) (ty : SfhType) (block : Flat Cell) (mahRows : List MahRow)
    (nranks : ℕ) (indir outdir : Str) (fs : Fs) : Option Fs := do
  let outdir := if outdir = [] then indir else outdir
  let parts ← (List.range nranks).mapM (galRank (testOption testArg) L o ty block mahRows nranks)
  let names ← (List.range nranks).mapM fun i => pyFormat [natStr i, ty.text] (pathJoin outdir galTmp)
  let fs := writeRanks L.f4 fs names parts
  let data ← collateFiles fs names
  let fs := fs.write (pathJoin outdir (galOutName ty)) (.h5 data)
  return names.foldl (fun fs fn => fs.rm fn) fs

/-- `nhalos_tot`, SMDPL L157-160, TNG L83-86. -/
def nhalosTot (test : Bool) (nranks nhalos : ℕ) : ℕ := if test then nranks * 5 else nhalos

/-- What one rank of the SMDPL script writes for one subvolume, L141-207, as `Scripts.umRank` but with the option. -/
def umRank (test : Bool) (L : Libs) (o : Opts) (haloIds : List ℤ) (sfhs : List (List ℝ)) (t : List ℝ)
    (mahRows : List MahRow) (nranks rank : ℕ) : Option (List HaloOut) := do
  let mah := loadDiffmahFits L.logMah L.defaultMah T0_SMDPL NPTS_FIT_MIN mahRows 0 none
  if haloIds.length ≠ mah.length then none else
  let indx := (arraySplit (List.range (nhalosTot test nranks haloIds.length)) nranks).getD rank []
  let ids ← takeIdx haloIds indx
  let sfhsForRank ← takeIdx sfhs indx
  let mahForRank ← takeIdx mah indx
  (List.range ids.length).mapM fun i => do
    let haloId ← ids[i]?
    let sfh ← sfhsForRank[i]?
    let m ← mahForRank[i]?
    umHalo L o t haloId sfh m

/-- The file written for one subvolume. -/
def umScript (test : Bool) (L : Libs) (o : Opts) (haloIds : List ℤ) (sfhs : List (List ℝ)) (t : List ℝ)
    (mahRows : List MahRow) (nranks : ℕ) : Option H5 :=
  ((List.range nranks).mapM (umRank test L o haloIds sfhs t mahRows nranks)).bind (collate L.f4)

/-- `subvolumes`, SMDPL L113-123; `avail` are the numbers of the directories found, in ascending order. -/
def umSubvolumes (test : Bool) (avail : List ℤ) (istart iend : ℤ) : Option (List ℤ) :=
  if test then avail.head?.map fun s => [s] else some (Scripts.umSubvolumes istart iend)

/-- What one rank of the TNG script writes, L75-135, as `Scripts.tngFitRank` but with the option. -/
def tngFitRank (test : Bool) (L : Libs) (o : Opts) (haloIds : List ℤ) (sfhs : List (List ℝ)) (t : List ℝ)
    (mahRows : List MahRow) (nranks rank : ℕ) : Option (List HaloOut) := do
  let t0 ← t.getLast?
  let indx := (arraySplit (List.range (nhalosTot test nranks haloIds.length)) nranks).getD rank []
  let istart ← indx.head?
  let last ← indx.getLast?
  let iend := last + 1
  let mah := loadDiffmahFits L.logMah L.defaultMah t0 NPTS_FIT_MIN mahRows istart (some iend)
  let ids ← takeIdx haloIds indx
  let sfhsForRank ← takeIdx sfhs indx
  (List.range ids.length).mapM fun i => do
    let haloId ← ids[i]?
    let sfh ← sfhsForRank[i]?
    let m ← mah[i]?
    tngHalo L o t t0 haloId sfh m

/-- The file written by the TNG script. -/
def tngFitScript (test : Bool) (L : Libs) (o : Opts) (haloIds : List ℤ) (sfhs : List (List ℝ)) (t : List ℝ)
    (mahRows : List MahRow) (nranks : ℕ) : Option H5 :=
  ((List.range nranks).mapM (tngFitRank test L o haloIds sfhs t mahRows nranks)).bind (collate L.f4)

end

end Diffstar.TestRuns
