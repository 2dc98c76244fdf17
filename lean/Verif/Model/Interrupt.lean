import Verif.Model.RankFiles

/-!
Schedules and crash points of `scripts/galacticus_diffstar_fitter_script_mgash.py`: the same run as
`RankFiles.galRun`, one write at a time.

Every rank creates its text file and appends to it in pieces (the flushes of python's buffer, of any size); the ranks run
concurrently, so their steps are interleaved in any order. After the barrier rank 0 reads the text files, creates the collated
file, adds its columns one by one and removes the text files. A run can be interrupted after any step.
Simplification: an interrupted hdf5 file has the columns written so far (in reality it may also be unreadable).
-/

namespace Diffstar.Interrupt

open Diffstar.Text Diffstar.Fit Diffstar.Output Diffstar.Load Diffstar.Galcus Diffstar.Scripts Diffstar.RankFiles

noncomputable section

open Classical

/-- One effect on the file system. -/
inductive Act
  /-- `open(p, "w")` -/
  | create (p : Str)
  /-- a flush of the buffer of the file opened -/
  | append (p s : Str)
  /-- `h5py.File(p, "w")` -/
  | createH5 (p : Str)
  /-- `hdf[name] = column` -/
  | addCol (p : Str) (c : Str × Col)
  /-- `os.system("rm " + p)` -/
  | rm (p : Str)

/-- The effect of a step. Appending to a file that another process has removed in the meantime would go to no name; within a
run it does not happen, and the step is modelled as having no effect. -/
def Act.apply (fs : Fs) : Act → Fs
  | .create p => fs.write p (.text [])
  | .append p s =>
    match fs p with
    | some (.text t) => fs.write p (.text (t ++ s))
    | _ => fs
  | .createH5 p => fs.write p (.h5 [])
  | .addCol p c =>
    match fs p with
    | some (.h5 f) => fs.write p (.h5 (f ++ [c]))
    | _ => fs
  | .rm p => fs.rm p

/-- The file system after some steps. -/
def after (fs : Fs) (acts : List Act) : Fs := acts.foldl Act.apply fs

/-- The steps of one rank, L126-157: `pieces` are the pieces in which its text is written. -/
def rankActs (name : Str) (pieces : List Str) : List Act := .create name :: pieces.map (Act.append name)

/-- `Interleaved ranks s`: `s` is an order of the steps of all ranks that keeps the order of each rank. -/
inductive Interleaved : List (List Act) → List Act → Prop
  | done (ranks : List (List Act)) (h : ∀ l ∈ ranks, l = []) : Interleaved ranks []
  | step (pre : List (List Act)) (a : Act) (l : List Act) (post : List (List Act)) (s : List Act)
      (h : Interleaved (pre ++ l :: post) s) : Interleaved (pre ++ (a :: l) :: post) (a :: s)

/-- The steps of rank 0 after the barrier, L168-187 and `write_collated_data`, fitting_helpers L278-288. -/
def collateActs (out : Str) (file : H5) (names : List Str) : List Act :=
  .createH5 out :: file.map (Act.addCol out) ++ names.map Act.rm

/-- The names of the text files, L124 and L170. -/
def galNames (ty : SfhType) (nranks : ℕ) (outdir : Str) : Option (List Str) :=
  (List.range nranks).mapM fun i => pyFormat [natStr i, ty.text] (pathJoin outdir galTmp)

/-- `IsRun … fs steps`: `steps` is a sequence of all the steps of a complete run of the script from the file system `fs`. -/
def IsRun (L : Libs) (o : Opts) (ty : SfhType) (block : Flat Cell) (mahRows : List MahRow) (nranks : ℕ)
    (indir outdir : Str) (fs : Fs) (steps : List Act) : Prop :=
  let outdir := if outdir = [] then indir else outdir
  ∃ parts names pieces file, ∃ sched : List Act,
    (List.range nranks).mapM (galRank L o ty block mahRows nranks) = some parts ∧
    galNames ty nranks outdir = some names ∧
    pieces.map List.flatten = parts.map (rankFile L.f4) ∧
    Interleaved (List.zipWith rankActs names pieces) sched ∧
    collateFiles (after fs sched) names = some file ∧
    steps = sched ++ collateActs (pathJoin outdir (galOutName ty)) file names

end

end Diffstar.Interrupt
