import Verif.Model.Targets

/-!
The files of a subvolume of SMDPL (`scripts/diffstarpop_scripts/smhm_utils_smdpl_mgash.py` and
`scripts/diffstarpop_scripts/measure_smhm_smdpl_script_mpi_mgash.py`).

A directory is the list of its file names (`os.listdir`). Simplifications: `\d` is an ASCII digit, and a file name
with a line break at its end (which `$` accepts) does not occur.
-/

namespace Diffstar.SubvolFiles

open Diffstar.Text Diffstar.Targets

/-- `LCRC_NOMERGING_diffstar_bnpat`, `LCRC_DR1_diffstar_bnpat`, smhm_utils_smdpl_mgash.py L32-33: the text before and
after `{}`. -/
def starPre : Str := "diffstar_fits_subvol_".toList

@[inherit_doc starPre]
def starPost : Str := ".hdf5".toList

/-- `LCRC_NOMERGING_diffmah_bnpat`, L34: the text before and after `{}`. -/
def mahPre : Str := "subvol_".toList

@[inherit_doc mahPre]
def mahPost : Str := "_diffmah_fits.h5".toList

/-- The regular expression `^pre(\d{1,3})post$`, L81-82 (`re`, library): one, two or three digits between the two parts
of the pattern. -/
def pyMatch (pre post f : Str) : Bool :=
  [1, 2, 3].any fun k =>
    f.take pre.length == pre && ((f.drop pre.length).take k).length == k &&
      ((f.drop pre.length).take k).all Char.isDigit && f.drop (pre.length + k) == post

/-- `[f for f in os.listdir(drn) if pattern.match(f)]`, L83. -/
def matchingFiles (pre post : Str) (listing : List Str) : List Str := listing.filter (pyMatch pre post)

/-- `x.split("_")[-1].split(".")[0]`, L84. -/
def lastField (x : Str) : Str := (((x.splitOn '_').getLastD []).splitOn '.').headD []

/-- `x.split("_")[1]`, L67; a name that matches the pattern has the field. -/
def secondField (x : Str) : Str := (x.splitOn '_').getD 1 []

/-- The scan of `str.replace` (python, library): `skip` characters belong to an occurrence already replaced. -/
def pyReplaceAux (old new : Str) : ℕ → Str → Str
  | _, [] => []
  | k + 1, _ :: cs => pyReplaceAux old new k cs
  | 0, c :: cs =>
    if old.isPrefixOf (c :: cs) then new ++ pyReplaceAux old new (old.length - 1) cs
    else c :: pyReplaceAux old new 0 cs

/-- `s.replace(old, new)` for a non-empty `old`. -/
def pyReplace (old new s : Str) : Str := pyReplaceAux old new 0 s

/-- The values of the option `-sim_name`, measure_smhm_smdpl_script_mpi_mgash.py L42-47. -/
inductive SimName
  | dr1
  | nomerging
  | other
  deriving DecidableEq

/-- `return_subvol_str`, smhm_utils_smdpl_mgash.py L80-92. -/
def subvolStr (subvol : ℕ) (starDrn : List Str) : Option Str :=
  returnSubvolStr subvol ((matchingFiles starPre starPost starDrn).map lastField)

/-- `return_subvol_str_diffmah`, L62-77; for `other` the name `subvols` is unbound. -/
def subvolStrDiffmah (subvol : ℕ) (sim : SimName) (mahDrn : List Str) : Option Str :=
  match sim with
  | .nomerging => returnSubvolStr subvol ((matchingFiles mahPre mahPost mahDrn).map secondField)
  | .dr1 => returnSubvolStr subvol ((matchingFiles mahPre mahPost mahDrn).map lastField)
  | .other => none

/-- `load_diffstar_subvolume`, L95-122: the names of the diffstar and of the diffmah file that are opened; `none` is an
unbound local name. -/
def subvolFiles (subvol : ℕ) (sim : SimName) (starDrn mahDrn : List Str) : Option (Str × Str) :=
  (subvolStr subvol starDrn).bind fun s =>
    let starBn := starPre ++ s ++ starPost
    match sim with
    | .nomerging => (subvolStrDiffmah subvol sim mahDrn).map fun s' =>
        (starBn, pyReplace "diffstar".toList "diffmah".toList (mahPre ++ s' ++ mahPost))
    | .dr1 => some (starBn, pyReplace "diffstar".toList "diffmah".toList starBn)
    | .other => none

/-- The subvolumes found in the directory, measure_smhm_smdpl_script_mpi_mgash.py L83-89; `none` is a failing
`astype(int)`. -/
def availableSubvols (starDrn : List Str) : Option (List ℕ) :=
  (((matchingFiles starPre starPost starDrn).map lastField).mapM parseNat).map fun l => l.mergeSort

/-- The array `subvol_used`, L94 and L199-208, after the loop of rank 0 over all subvolumes; `none` is an
`IndexError`. -/
def subvolUsed (nSubvolMax : ℕ) (subvols : List ℕ) : Option (List ℕ) :=
  subvols.foldlM (fun a i => if i < a.length then some (a.set i 1) else none) (List.replicate nSubvolMax 0)

end Diffstar.SubvolFiles
