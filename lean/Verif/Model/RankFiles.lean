import Verif.Model.FitScripts

/-!
The files of the fitting scripts `scripts/galacticus_diffstar_fitter_script_mgash.py`,
`scripts/diffstar_fitting_script_umachine_mgash.py` and `scripts/history_fitting_script_TNG_mgash.py`: the text files of
the ranks, the collated file, and the shell command that removes the text files.

A file system is the content of every path; two different strings are two different files, and the output directory exists.
`none` is an exception in one of the ranks, which ends the run. The option `-test` is not given. The ranks write different
files before the barrier, so that their order does not matter.
-/

namespace Diffstar.RankFiles

open Diffstar.Text Diffstar.Fit Diffstar.Output Diffstar.Load Diffstar.Galcus Diffstar.Scripts

noncomputable section

open Classical

/-- Content of a file. -/
inductive File
  | text (s : Str)
  | h5 (f : H5)

/-- A file system. -/
abbrev Fs := Str → Option File

/-- `open(p, "w")` and writing: an existing file is replaced. -/
def Fs.write (fs : Fs) (p : Str) (c : File) : Fs := fun q => if q = p then some c else fs q

/-- Writing several files. -/
def Fs.writeAll (fs : Fs) (l : List (Str × File)) : Fs := l.foldl (fun fs x => fs.write x.1 x.2) fs

/-- The text read by `np.genfromtxt`; `none` is the failing `assert os.path.isfile(fit_fn)`. -/
def Fs.readText (fs : Fs) (p : Str) : Option Str :=
  match fs p with
  | some (.text s) => some s
  | _ => none

/-- `os.path.join(a, b)` on posix (library). -/
def pathJoin (a b : Str) : Str :=
  if b.head? = some '/' then b
  else if a = [] ∨ a.getLast? = some '/' then a ++ b
  else a ++ '/' :: b

/-- `s.format(*args)` for replacement fields that are one digit (library); `none` is an exception. -/
def pyFormat (args : List Str) : Str → Option Str
  | [] => some []
  | '{' :: '{' :: cs => (pyFormat args cs).map ('{' :: ·)
  | '}' :: '}' :: cs => (pyFormat args cs).map ('}' :: ·)
  | '{' :: d :: '}' :: cs =>
    if d.isDigit then (args[d.toNat - 48]?).bind fun a => (pyFormat args cs).map (a ++ ·) else none
  | '{' :: _ => none
  | '}' :: _ => none
  | c :: cs => (pyFormat args cs).map (c :: ·)

/-- Matching of a path by a pattern of the shell in which only `*` is special: `*` is any text without `/`. -/
def globMatch : Str → Str → Bool
  | [], s => s.isEmpty
  | p :: ps, [] => if p = '*' then globMatch ps [] else false
  | p :: ps, c :: cs =>
    if p = '*' then globMatch ps (c :: cs) || (c != '/' && globMatch (p :: ps) cs)
    else p == c && globMatch ps cs
termination_by p s => p.length + s.length

/-- `subprocess.os.system("rm " + arg)`: the shell splits the command at blanks, expands every word, and `rm` removes the
files. Other characters special to the shell are not modelled, see `Spec.PlainPath`. -/
def Fs.rm (fs : Fs) (arg : Str) : Fs := fun q =>
  if (splitWs ("rm ".toList ++ arg)).tail.any (fun w => globMatch w q) then none else fs q

/-- What rank 0 makes of the text files, Galacticus L170-176, L182, SMDPL L221-226, L233, TNG L151-156, L163. -/
def collateFiles (fs : Fs) (names : List Str) : Option H5 :=
  (((names.mapM fs.readText).bind fun texts => texts.mapM genfromtxt).bind concatenate).bind fun data =>
    writeCollated data colnames

/-- The ranks write their files, L126-157, L179-207, L117-135. -/
def writeRanks (f4 : F → F) (fs : Fs) (names : List Str) (parts : List (List HaloOut)) : Fs :=
  fs.writeAll (names.zip (parts.map fun hs => File.text (rankFile f4 hs)))

/-- `TMP_OUTPAT` of the Galacticus script, L26. -/
def galTmp : Str := "tmp_sfh_fits_rank_{0}_{1}.dat".toList

/-- `TMP_OUTPAT` of the SMDPL script, L33, and of the TNG script, L17. -/
def tmp : Str := "tmp_sfh_fits_rank_{0}.dat".toList

/-- The Galacticus script, L75-76 and L126-187: every text file that was read is removed by its name. -/
def galRun (L : Libs) (o : Opts) (ty : SfhType) (block : Flat Cell) (mahRows : List MahRow) (nranks : ℕ)
    (indir outdir : Str) (fs : Fs) : Option Fs := do
  let outdir := if outdir = [] then indir else outdir
  let parts ← (List.range nranks).mapM (galRank L o ty block mahRows nranks)
  let names ← (List.range nranks).mapM fun i => pyFormat [natStr i, ty.text] (pathJoin outdir galTmp)
  let fs := writeRanks L.f4 fs names parts
  let data ← collateFiles fs names
  let fs := fs.write (pathJoin outdir (galOutName ty)) (.h5 data)
  return names.foldl (fun fs fn => fs.rm fn) fs

/-- What the SMDPL script loads for a subvolume, L133-159. -/
structure UmData where
  haloIds : List ℤ
  sfhs : List (List ℝ)
  t : List ℝ
  mahRows : List MahRow

/-- `subvol_str`, SMDPL L129-130: the number padded to the width of `num_subvols_tot`. -/
def subvolStr (numSubvolsTot isubvol : ℕ) : Str :=
  "subvol_".toList ++ zpad (natStr numSubvolsTot).length (natStr isubvol)

/-- One pass of the loop over the subvolumes, SMDPL L124-237. -/
def umPass (L : Libs) (o : Opts) (data : ℕ → UmData) (numSubvolsTot nranks : ℕ) (outdir : Str) (fs : Fs) (isubvol : ℕ) :
    Option Fs := do
  let d := data isubvol
  let rankBasepat := subvolStr numSubvolsTot isubvol ++ '_' :: tmp
  let parts ← (List.range nranks).mapM (umRank L o d.haloIds d.sfhs d.t d.mahRows nranks)
  let names ← (List.range nranks).mapM fun i => pyFormat [natStr i] (pathJoin outdir rankBasepat)
  let fs := writeRanks L.f4 fs names parts
  let h5 ← collateFiles fs names
  let outbn := "diffstar_fits_subvol_".toList ++ natStr isubvol ++ ".hdf5".toList
  let fs := fs.write (pathJoin outdir outbn) (.h5 h5)
  return fs.rm (pathJoin outdir (subvolStr numSubvolsTot isubvol ++ "*.dat".toList))

/-- The loop. -/
def umRun (L : Libs) (o : Opts) (data : ℕ → UmData) (numSubvolsTot nranks : ℕ) (outdir : Str) (subvols : List ℕ) (fs : Fs) :
    Option Fs :=
  subvols.foldlM (umPass L o data numSubvolsTot nranks outdir) fs

/-- `os.path.basename` on posix (library). -/
def basename (p : Str) : Str := (p.reverse.takeWhile (· ≠ '/')).reverse

/-- `sep.join(l)` for the separator `_` (library). -/
def joinUnderscore : List Str → Str
  | [] => []
  | [t] => t
  | t :: ts => t ++ '_' :: joinUnderscore ts

/-- The TNG script, L108-173; `none` also for the `IndexError` of `fit_data_bnames[0]`. -/
def tngRun (L : Libs) (o : Opts) (haloIds : List ℤ) (sfhs : List (List ℝ)) (t : List ℝ) (mahRows : List MahRow)
    (nranks : ℕ) (outdir : Str) (fs : Fs) : Option Fs := do
  let parts ← (List.range nranks).mapM (tngFitRank L o haloIds sfhs t mahRows nranks)
  let names ← (List.range nranks).mapM fun i => pyFormat [natStr i] (pathJoin outdir tmp)
  let fs := writeRanks L.f4 fs names parts
  let h5 ← collateFiles fs names
  let fs := fs.write (pathJoin outdir "diffstar_tng_fits.hdf5".toList) (.h5 h5)
  let bn ← (names.map basename).head?
  let bnpat := joinUnderscore (bn.splitOn '_').dropLast ++ "_*.dat".toList
  return fs.rm (pathJoin outdir bnpat)

end

end Diffstar.RankFiles
