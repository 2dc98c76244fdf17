import Verif.Model.Loaders
import Verif.Model.Utils

/-!
Model of the loaders of simulated histories, `diffstar/data_loaders/load_smah_data.py` L185-584.

A structured array (`np.load`, `load_mock_from_binaries`) is its field names and its rows; a file system gives the
content of a path. `none` is an exception (missing file or field, rows of the wrong length).
-/

namespace Diffstar.Load

open Diffstar.Text Diffstar.Fit

noncomputable section

open Classical

/-- Cell of a structured array: an integer or a history. -/
inductive Cell'
  | int (n : ℤ)
  | hist (l : List ℝ)

/-- A structured array. -/
structure Table where
  names : List Str
  rows : List (Str → Cell')

/-- `halos[key]` with integer entries. -/
def Table.ints (t : Table) (key : Str) : Option (List ℤ) :=
  if key ∈ t.names then t.rows.mapM fun r => match r key with | .int n => some n | .hist _ => none else none

/-- `halos[key]` with one history per row. -/
def Table.hists (t : Table) (key : Str) : Option (List (List ℝ)) :=
  if key ∈ t.names then t.rows.mapM fun r => match r key with | .int _ => none | .hist l => some l else none

/-- `len(halos[key])`. -/
def Table.len (t : Table) (key : Str) : Option ℕ := if key ∈ t.names then some t.rows.length else none

/-- Files: structured arrays and arrays of times by path. -/
structure Disk where
  tables : Str → Option Table
  times : Str → Option (List ℝ)

/-- `os.path.join(drn, bn)` for a directory not ending in a slash. -/
def joinPath (drn bn : Str) : Str := drn ++ '/' :: bn

/-- `np.log10` of a float. -/
def npLog10 (x : ℝ) : F := if x < 0 then none else if x = 0 then some ⊥ else some ((Real.logb 10 x : ℝ) : EReal)

/-- `np.log10(cumulative_mstar_formed_galpop(t, sfrh))`, L228-229 and so on; the `vmap` raises unless every row has one
entry per time. -/
def logSmahs (t : List ℝ) (sfrh : List (List ℝ)) : Option (List (List F)) :=
  if ∀ s ∈ sfrh, s.length = t.length then some (sfrh.map fun s => (cumulativeMstarFormed t s).map npLog10) else none

/-- What the loaders without mass histories return. -/
structure Loaded where
  haloIds : List ℤ
  logSmahs : List (List F)
  sfrh : List (List ℝ)
  t : List ℝ

/-- The common text of `load_bolshoi_data` L220-231, `load_bolshoi_small_data` L270-281, `load_mdpl_data` L413-424,
`load_mdpl_small_data` L459-470. -/
def loadUm (disk : Disk) (fn tfn : Str) : Option Loaded := do
  let halos ← disk.tables fn
  let t ← disk.times tfn
  let haloIds ← halos.ints "halo_id".toList
  let sfrh ← halos.hists "sfr_history_main_prog".toList
  let smahs ← logSmahs t sfrh
  return ⟨haloIds, smahs, sfrh, t⟩

/-- `load_bolshoi_data`, L185-231. -/
def loadBolshoi (disk : Disk) (galType drn : Str) : Option Loaded :=
  loadUm disk (joinPath drn ("bpl_diffmah_".toList ++ galType ++ ".npy".toList)) (joinPath drn "bpl_cosmic_time.npy".toList)

/-- `load_bolshoi_small_data`, L234-281. -/
def loadBolshoiSmall (disk : Disk) (galType drn : Str) : Option Loaded :=
  loadUm disk (joinPath drn ("um_histories_subsample_dr1_bpl_".toList ++ galType ++ "_diffmah.npy".toList))
    (joinPath drn "bpl_cosmic_time.npy".toList)

/-- `load_mdpl_data`, L382-424. -/
def loadMdpl (disk : Disk) (galType drn : Str) : Option Loaded :=
  loadUm disk (joinPath drn ("mdpl2_diffmah_".toList ++ galType ++ ".npy".toList))
    (joinPath drn "mdpl2_cosmic_time.npy".toList)

/-- `load_mdpl_small_data`, L427-470. -/
def loadMdplSmall (disk : Disk) (galType drn : Str) : Option Loaded :=
  loadUm disk (joinPath drn ("um_histories_dr1_mdpl2_small_".toList ++ galType ++ ".npy".toList))
    (joinPath drn "mdpl2_cosmic_time.npy".toList)

/-- The common text of `load_tng_data` L316-327 and `load_tng_small_data` L368-379: the table and the result. -/
def loadTngFile (disk : Disk) (drn bn : Str) : Option (Table × Loaded) := do
  let halos ← disk.tables (joinPath drn bn)
  let t ← disk.times (joinPath drn "tng_cosmic_time.npy".toList)
  let n ← halos.len "mpeak".toList
  let haloIds := (List.range n).map fun i : ℕ => (i : ℤ)
  let sfrh ← halos.hists "sfh".toList
  let smahs ← logSmahs t sfrh
  return (halos, ⟨haloIds, smahs, sfrh, t⟩)

/-- `load_tng_small_data`, L337-379. -/
def loadTngSmall (disk : Disk) (_galType drn : Str) : Option Loaded := (loadTngFile disk drn "tng_small.npy".toList).map Prod.snd

/-- `H_TNG`, L42. -/
def H_TNG : ℝ := 0.6774

/-- `load_tng_data`, L284-334: also `log_mahs` and `logmp0`. -/
def loadTng (disk : Disk) (drn : Str) : Option (Loaded × List (List ℝ) × List ℝ) := do
  let (halos, l) ← loadTngFile disk drn "tng_diffmah.npy".toList
  let mahs ← halos.hists "mpeakh".toList
  let logMahs := mahs.map (tngLogMah H_TNG)
  let logmp0 ← logMahs.mapM List.getLast?
  return (l, logMahs, logmp0)

/-- The common text of `load_SMDPL_nomerging_data` L500-527 and `load_SMDPL_DR1_data` L557-584: `um` is
`load_mock_from_binaries` (library), called with the fields it should read. -/
def loadSmdpl (um : List Str → Str → List Str → Option Table) (disk : Disk) (subvols : List Str) (drn sfrKey : Str) :
    Option (Loaded × List (List ℝ) × List ℝ) := do
  let mock ← um subvols drn ["halo_id".toList, sfrKey, "mpeak_history_main_prog".toList]
  let t ← disk.times (joinPath drn "smdpl_cosmic_time.txt".toList)
  let haloIds ← mock.ints "halo_id".toList
  let sfrh ← mock.hists sfrKey
  let smahs ← logSmahs t sfrh
  let mahs ← mock.hists "mpeak_history_main_prog".toList
  let logMahs := mahs.map smdplLogMah
  let logmp0 ← mahs.mapM smdplLogmp0
  return (⟨haloIds, smahs, sfrh, t⟩, logMahs, logmp0)

/-- `load_SMDPL_nomerging_data`, L473-527. -/
def loadSmdplNomerging (um : List Str → Str → List Str → Option Table) (disk : Disk) (subvols : List Str) (drn : Str) :=
  loadSmdpl um disk subvols drn "sfr_history_main_prog".toList

/-- `load_SMDPL_DR1_data`, L530-584. -/
def loadSmdplDr1 (um : List Str → Str → List Str → Option Table) (disk : Disk) (subvols : List Str) (drn : Str) :=
  loadSmdpl um disk subvols drn "sfr_history_all_prog".toList

end

end Diffstar.Load
