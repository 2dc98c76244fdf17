import Verif.Model.FitLoss
import Verif.Model.SimLoaders
import Verif.Model.GalacticusBlock

/-!
Model of the fitting scripts `scripts/galacticus_diffstar_fitter_script_mgash.py`,
`scripts/diffstar_fitting_script_umachine_mgash.py` and `scripts/history_fitting_script_TNG_mgash.py` from the loaded
data to the collated file. (The Galacticus and SMDPL scripts without `_mgash` differ from these at most in a file name.)

`none` is an exception in one of the ranks, which ends the run. The option `-test` is not given. Rank files are read back
by rank 0 after the barrier; writing and reading a file of that name is not modelled further.
-/

namespace Diffstar.Scripts

open Diffstar.Text Diffstar.Fit Diffstar.Output Diffstar.Load Diffstar.Galcus

noncomputable section

open Classical

/-- What the scripts take from other libraries: diffmah's mass history and default parameters, and the random numbers,
gradients and optimiser of `diffstar_fitter` (see `Fit.diffstarFitter`), the cast to single precision. -/
structure Libs where
  logMah : MahParams ℝ → ℝ → ℝ → ℝ
  defaultMah : MahParams ℝ
  normal : DiffstarParams ℝ × DiffstarParams ℝ → ℕ → Option (DiffstarParams ℝ)
  gradNan : LossData (MahParams ℝ) → Option (DiffstarParams ℝ) → Bool
  minimize : LossData (MahParams ℝ) → Option (DiffstarParams ℝ) → Option (DiffstarParams ℝ) × F
  f4 : F → F

/-- Command line options, Galacticus L41-64, SMDPL L51-80, TNG L34-51. -/
structure Opts where
  fstarTdelay : ℝ
  massFitMin : ℝ
  ssfrhFloor : ℝ
  logmp0Min : ℝ

/-- The namedtuple returned by `diffstar_fitter`; a vector with NaN or infinities is kept as NaN. -/
def floats : Option (DiffstarParams ℝ) → DiffstarParams F
  | none => ⟨none, none, none, none, none, none, none, none⟩
  | some p => ⟨some p.lgmcrit, some p.lgyAtMcrit, some p.indxLo, some p.indxHi, some p.lgQt, some p.qlglgdt,
      some p.lgDrop, some p.lgRejuv⟩

/-- The call of `dfh.diffstar_fitter`, Galacticus L146-148, SMDPL L191-197, TNG L127-129. The dict `kwargs` made of the
options (Galacticus L82-86, SMDPL L93-97, TNG L67-71) is not passed: the defaults of the function are used. -/
def callFitter (L : Libs) (_kwargs : Opts) (t sfh : List ℝ) (mah : MahParams ℝ) (lgt0 fb : ℝ) :
    Option (DiffstarParams F × F × ℤ) :=
  (diffstarFitter L.logMah L.normal L.gradNan L.minimize t sfh mah DLOGM_CUT T_FIT_MIN MIN_MASS_CUT FSTAR_TIME_DELAY
    SSFRH_FLOOR lgt0 fb).map fun r => (floats r.1, r.2)

/-- `NPTS_FIT_MIN`, `load_smah_data.py` L44. -/
def NPTS_FIT_MIN : ℤ := 5

/-- Collation by rank 0, Galacticus L168-182, SMDPL L219-233, TNG L149-167. -/
def collate (f4 : F → F) (parts : List (List HaloOut)) : Option H5 :=
  (((parts.map (rankFile f4)).mapM genfromtxt).bind concatenate).bind fun data => writeCollated data colnames

/-- `a[indx]` with an array of indices (library). -/
def takeIdx {α : Type} (l : List α) (indx : List ℕ) : Option (List α) := indx.mapM fun i => l[i]?

/-! ### Galacticus -/

/-- The values of the argument `sfh_type`, L35. -/
inductive SfhType | inSitu | inPlusExSitu
deriving DecidableEq

/-- The text of the argument. -/
def SfhType.text : SfhType → Str
  | .inSitu => "in_situ".toList
  | .inPlusExSitu => "in_plus_ex_situ".toList

/-- `sfh_colname`, L90-93. -/
def sfhColname : SfhType → Str
  | .inSitu => "sfh_in_situ".toList
  | .inPlusExSitu => "sfh_tot".toList

/-- `FB`, `load_galacticus_sfh.py` L22-24. -/
def FB_GALACTICUS : ℝ := 0.04930 / 0.31530

/-- A column of numbers. -/
def numCol (c : List Cell) : Option (List ℝ) := c.mapM fun | .num x => some x | _ => none

/-- A column of histories. -/
def rowCol (c : List Cell) : Option (List (List ℝ)) := c.mapM fun | .row r => some r | _ => none

/-- One pass of the halo loop, L131-155; a history of another length than `tarr` raises in `cumulative_mstar_formed`. -/
def galHalo (L : Libs) (o : Opts) (tarr : List ℝ) (t0 : ℝ) (haloId : ℕ) (sfh : List ℝ)
    (m : MahParams ℝ × ℝ × ℝ × ℤ) : Option HaloOut :=
  if sfh.length ≠ tarr.length then none else
  let logsmZ0 := npLog10 ((cumulativeMstarFormed tarr sfh).getLastD 0)
  if runFitterGalacticus o.logmp0Min m.2.1 m.2.2.1 logsmZ0 then
    (callFitter L o tarr sfh m.1 (Real.logb 10 t0) FB_GALACTICUS).map fun r => ⟨haloId, some r⟩
  else some ⟨haloId, none⟩

/-- What one rank writes, L90-157. `block` is the file `fn_sfh_block`, `mahRows` the file `diffmah_fits.h5`. -/
def galRank (L : Libs) (o : Opts) (ty : SfhType) (block : Flat Cell) (mahRows : List MahRow) (nranks rank : ℕ) :
    Option (List HaloOut) := do
  let ins ← block.lookup "sfh_in_situ".toList
  let nhalosTot := ins.length
  let indx := (arraySplit (List.range nhalosTot) nranks).getD rank []
  let istart ← indx.head?
  let last ← indx.getLast?
  let iend := last + 1
  let data ← loadGalacticusBlock block istart iend
  let tarr ← (data.lookup "tarr".toList).bind numCol
  let t0 ← tarr.getLast?
  let mah := loadDiffmahFits L.logMah L.defaultMah t0 NPTS_FIT_MIN mahRows istart (some iend)
  let haloIds := slice (List.range nhalosTot) istart (some iend)
  let sfhs ← (data.lookup (sfhColname ty)).bind rowCol
  (List.range haloIds.length).mapM fun i => do
    let haloId ← haloIds[i]?
    let m ← mah[i]?
    let sfh ← sfhs[i]?
    galHalo L o tarr t0 haloId sfh m

/-- A run of the script with `nranks` processes: the content of the file `outfn`. -/
def galScript (L : Libs) (o : Opts) (ty : SfhType) (block : Flat Cell) (mahRows : List MahRow) (nranks : ℕ) : Option H5 :=
  ((List.range nranks).mapM (galRank L o ty block mahRows nranks)).bind (collate L.f4)

/-- `outbn`, L178. -/
def galOutName (ty : SfhType) : Str := "diffstar_fits_".toList ++ ty.text ++ ".hdf5".toList

/-! ### SMDPL -/

/-- `T0_SMDPL` and `FB_SMDPL`, `load_smah_data.py` L34-37. -/
def T0_SMDPL : ℝ := 13.820002

@[inherit_doc T0_SMDPL]
def FB_SMDPL : ℝ := 0.048206 / 0.307115

/-- One pass of the halo loop, L182-207. -/
def umHalo (L : Libs) (o : Opts) (t : List ℝ) (haloId : ℤ) (sfh : List ℝ) (m : MahParams ℝ × ℝ × ℝ × ℤ) :
    Option HaloOut :=
  if runFitterUm o.logmp0Min m.2.1 m.2.2.1 then
    (callFitter L o t sfh m.1 (Real.logb 10 T0_SMDPL) FB_SMDPL).map fun r => ⟨haloId, some r⟩
  else some ⟨haloId, none⟩

/-- What one rank writes for one subvolume, L141-207: `haloIds`, `sfhs`, `t` are those returned by the loader, `mahRows`
is the file of diffmah fits. -/
def umRank (L : Libs) (o : Opts) (haloIds : List ℤ) (sfhs : List (List ℝ)) (t : List ℝ) (mahRows : List MahRow)
    (nranks rank : ℕ) : Option (List HaloOut) := do
  let mah := loadDiffmahFits L.logMah L.defaultMah T0_SMDPL NPTS_FIT_MIN mahRows 0 none
  if haloIds.length ≠ mah.length then none else
  let indx := (arraySplit (List.range haloIds.length) nranks).getD rank []
  let ids ← takeIdx haloIds indx
  let sfhsForRank ← takeIdx sfhs indx
  let mahForRank ← takeIdx mah indx
  (List.range ids.length).mapM fun i => do
    let haloId ← ids[i]?
    let sfh ← sfhsForRank[i]?
    let m ← mahForRank[i]?
    umHalo L o t haloId sfh m

/-- The file written for one subvolume. -/
def umScript (L : Libs) (o : Opts) (haloIds : List ℤ) (sfhs : List (List ℝ)) (t : List ℝ) (mahRows : List MahRow)
    (nranks : ℕ) : Option H5 :=
  ((List.range nranks).mapM (umRank L o haloIds sfhs t mahRows nranks)).bind (collate L.f4)

/-- `subvolumes`, L122: `np.arange(istart, iend)`; the defaults of the options are `0` and `-1` (L70-71). -/
def umSubvolumes (istart iend : ℤ) : List ℤ := (List.range (iend - istart).toNat).map fun i => istart + (i : ℕ)

/-! ### TNG -/

/-- `FB_TNG`, `load_smah_data.py` L40. -/
def FB_TNG : ℝ := 0.0486 / 0.3089

/-- One pass of the halo loop, L120-135. -/
def tngHalo (L : Libs) (o : Opts) (t : List ℝ) (t0 : ℝ) (haloId : ℤ) (sfh : List ℝ) (m : MahParams ℝ × ℝ × ℝ × ℤ) :
    Option HaloOut :=
  (callFitter L o t sfh m.1 (Real.logb 10 t0) FB_TNG).map fun r => ⟨haloId, some r⟩

/-- What one rank writes, L75-135: `haloIds`, `sfhs`, `t` are those returned by `load_tng_data`, `mahRows` is the file
`diffmah_tng_fits.hdf5`. -/
def tngFitRank (L : Libs) (o : Opts) (haloIds : List ℤ) (sfhs : List (List ℝ)) (t : List ℝ) (mahRows : List MahRow)
    (nranks rank : ℕ) : Option (List HaloOut) := do
  let t0 ← t.getLast?
  let indx := (arraySplit (List.range haloIds.length) nranks).getD rank []
  let istart ← indx.head?
  let last ← indx.getLast?
  let iend := last + 1
  let mah := loadDiffmahFits L.logMah L.defaultMah t0 NPTS_FIT_MIN mahRows istart (some iend)
  let ids ← takeIdx haloIds indx
  let sfhsForRank ← takeIdx sfhs indx
  (List.range ids.length).mapM fun i => do
    let haloId ← ids[i]?
    let sfh ← sfhsForRank[i]?
    let m ← mah[i]?
    tngHalo L o t t0 haloId sfh m

/-- The file written by the script. -/
def tngFitScript (L : Libs) (o : Opts) (haloIds : List ℤ) (sfhs : List (List ℝ)) (t : List ℝ) (mahRows : List MahRow)
    (nranks : ℕ) : Option H5 :=
  ((List.range nranks).mapM (tngFitRank L o haloIds sfhs t mahRows nranks)).bind (collate L.f4)

end

end Diffstar.Scripts
