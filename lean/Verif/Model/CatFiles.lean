import Verif.Model.RankFiles
import Verif.Model.SubvolFiles

/-!
Readers of the catalogues written by the fitting scripts: `load_galacticus_diffstar_data` of
`diffstar/data_loaders/load_galacticus_sfh.py`, `load_precomputed_diffmah_fits` of `diffstar/data_loaders/load_smah_data.py`,
`load_diffdata` of `scripts/diffstarpop_scripts/smhm_utils_tng_mgash.py` and `load_diffstar_subvolume` of
`scripts/diffstarpop_scripts/smhm_utils_smdpl_mgash.py`. File systems as in `Model/RankFiles.lean`.
-/

namespace Diffstar.CatFiles

open Diffstar.Text Diffstar.Output Diffstar.Galcus Diffstar.RankFiles Diffstar.SubvolFiles

noncomputable section

/-- `load_flat_hdf5(fn)` without further arguments, `data_loaders/utils.py` L6-21, and `_load_flat_hdf5(fn)`,
smhm_utils_tng_mgash.py L52-57 and smhm_utils_smdpl_mgash.py L54-59: all columns of the file; `none` is an exception
(no such file, or not hdf5). -/
def readH5 (fs : Fs) (fn : Str) : Option H5 :=
  match fs fn with
  | some (.h5 f) => some f
  | _ => none

/-- The namedtuple `DiffstarFitData`, load_galacticus_sfh.py L58-64. -/
structure FitData where
  diffmah : H5
  inSitu : H5
  inPlusExSitu : H5
  sfh : Target

/-- `load_galacticus_diffstar_data`, L27-71; `target` is `load_galacticus_sfh_target_data`, see
`Model/GalacticusBlock.lean`. -/
def loadGalacticusDiffstarData (fs : Fs) (target : Str → Option Target) (drn diffstarDrn diffmahDrn : Str) :
    Option FitData := do
  let diffmah ← readH5 fs (pathJoin diffmahDrn "diffmah_fits.h5".toList)
  let inSitu ← readH5 fs (pathJoin diffstarDrn "diffstar_fits_in_situ.hdf5".toList)
  let inPlusExSitu ← readH5 fs (pathJoin diffstarDrn "diffstar_fits_in_plus_ex_situ.hdf5".toList)
  let sfh ← target drn
  return ⟨diffmah, inSitu, inPlusExSitu, sfh⟩

/-- `load_diffdata`, smhm_utils_tng_mgash.py L60-72: (diffmah, diffstar). -/
def loadDiffdata (fs : Fs) (diffmahDrn diffstarDrn : Str) : Option (H5 × H5) := do
  let diffstarBn := "diffstar_tng_fits.hdf5".toList
  let diffstar ← readH5 fs (pathJoin diffstarDrn diffstarBn)
  let diffmah ← readH5 fs (pathJoin diffmahDrn (pyReplace "diffstar".toList "diffmah".toList diffstarBn))
  return (diffmah, diffstar)

/-- The name of the file of diffmah fits in history_fitting_script_TNG_mgash.py L93-94. -/
def tngMahFile (indirDiffmah : Str) : Str := pathJoin indirDiffmah "diffmah_tng_fits.hdf5".toList

/-- `os.path.dirname` on posix (library): trailing slashes of the head are dropped unless it is all slashes. -/
def dirname (p : Str) : Str :=
  let head := p.take (p.length - (basename p).length)
  if head ≠ [] ∧ ∃ c ∈ head, c ≠ '/' then (head.reverse.dropWhile (· = '/')).reverse else head

/-- The file opened by `load_precomputed_diffmah_fits(fn, …)`, load_smah_data.py L47-61 and L100: the name is taken apart
and put together again. -/
def precomputedFile (fn : Str) : Str := pathJoin (dirname fn) (basename fn)

/-- The files of a subvolume of the SMDPL catalogues, `load_diffstar_subvolume`, smhm_utils_smdpl_mgash.py L95-122 with the
names of `SubvolFiles.subvolFiles`: (diffmah, diffstar). -/
def loadSubvolume (fs : Fs) (sim : SimName) (starListing mahListing : List Str) (diffstarDrn diffmahDrn : Str) (subvol : ℕ) :
    Option (H5 × H5) := do
  let names ← subvolFiles subvol sim starListing mahListing
  let diffstar ← readH5 fs (pathJoin diffstarDrn names.1)
  let diffmah ← readH5 fs (pathJoin diffmahDrn names.2)
  return (diffmah, diffstar)

end

end Diffstar.CatFiles
