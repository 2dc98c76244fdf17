import Verif.Model.Targets

/-!
Model of the arrays (with their axes and transpositions) in which the sampled halos of the target scripts travel:
`sample_halos`, the end of `create_target_data`, `concatenate_samples_haloes`, the temporary and final files of the
`measure_smhm_*` scripts and the readers of `fit_get_loss_helpers_mgash.py`.

Line numbers refer to `scripts/diffstarpop_scripts/smhm_utils_smdpl_mgash.py` unless stated otherwise;
`concatenate_samples_haloes` has the same text in `smhm_utils_tng_mgash.py` L367-413 and
`smhm_utils_galacticus_mgash.py` L299-345. `none` is an exception. Writing an array to hdf5 and reading it back returns
it (library); a named tuple of equally long arrays is written as the array of its fields.
-/

namespace Diffstar.SampleArrays

open Diffstar.Targets

noncomputable section

/-- A two-dimensional array: length of the rows (also when there are none) and the rows. -/
structure Arr where
  ncol : ℕ
  rows : List (List ℝ)

/-- `a.T`. -/
def Arr.T (a : Arr) : Arr := ⟨a.rows.length, (List.range a.ncol).map fun j => a.rows.map fun r => r.getD j 0⟩

/-- `a[:, :k]`. -/
def Arr.colsTo (a : Arr) (k : ℕ) : Arr := ⟨min k a.ncol, a.rows.map fun r => r.take k⟩

/-- `a[:, k:]`. -/
def Arr.colsFrom (a : Arr) (k : ℕ) : Arr := ⟨a.ncol - k, a.rows.map fun r => r.drop k⟩

/-- `l[sel]` with an array of indices; `none` is `IndexError`. -/
def takeIdx {α : Type*} (l : List α) (sel : List ℕ) : Option (List α) := sel.mapM fun i => l[i]?

/-- `a[sel]`. -/
def Arr.takeRows (a : Arr) (sel : List ℕ) : Option Arr := (takeIdx a.rows sel).map (Arr.mk a.ncol)

/-- `a[:, sel]`. -/
def Arr.takeCols (a : Arr) (sel : List ℕ) : Option Arr := (a.rows.mapM fun r => takeIdx r sel).map (Arr.mk sel.length)

/-- `np.concatenate` of one-dimensional arrays; at least one is needed. -/
def concat1 {α : Type*} (ls : List (List α)) : Option (List α) := if ls = [] then none else some ls.flatten

open Classical in
/-- `np.concatenate` of two-dimensional arrays; at least one is needed and the rows must be equally long. -/
def concat2 : List Arr → Option Arr
  | [] => none
  | a :: l => if ∀ b ∈ l, b.ncol = a.ncol then some ⟨a.ncol, ((a :: l).map Arr.rows).flatten⟩ else none

/-- `DEFAULT_MAH_PARAMS._make(a)`: five fields. -/
def makeMah (a : Arr) : Option Arr := if a.rows.length = 5 then some a else none

/-- The nine arrays of a set of sampled halos. -/
structure Columns where
  logmhId : List ℕ
  logmhVal : List ℝ
  mah : Arr
  ms : Arr
  q : Arr
  upid : List ℤ
  tobsId : List ℕ
  tobsVal : List ℝ
  redshift : List ℝ

open Classical in
/-- `arange_arr[sel]` of bin `j`, L271 and L287. -/
def binIndices {nb : ℕ} (bins : Fin (nb + 1) → ℝ) (logMah : List ℝ) (j : Fin nb) : List ℕ :=
  (List.range logMah.length).filter fun i => (logMah[i]?).any fun m => decide (m ≥ bins j.castSucc ∧ m < bins j.succ)

/-- The bins over which the loop appends: Galacticus skips empty ones (`smhm_utils_galacticus_mgash.py` L162-163). -/
def loopBins {nb : ℕ} (skipEmpty : Bool) (bins : Fin (nb + 1) → ℝ) (logMah : List ℝ) : List (Fin nb) :=
  (List.finRange nb).filter fun j => !(skipEmpty && (binIndices bins logMah j).isEmpty)

/-- The rows chosen from bin `j`, L287-289. Calls of `np.random.choice` are numbered by bin (skipped bins leave their
number unused). -/
def chosenRows {nb : ℕ} (choice : Choice) (call per : ℕ) (bins : Fin (nb + 1) → ℝ) (logMah : List ℝ) (j : Fin nb) :
    List ℕ :=
  choice (call + j.val) (binIndices bins logMah j) (min per (binIndices bins logMah j).length) false

/-- `sample_halos`, L260-313, with the three time columns which `create_target_data` adds, L403-410. `mahParams` has
one row per MAH parameter, `sfhParams` one per Diffstar parameter. -/
def sampleHalos {nb : ℕ} (skipEmpty : Bool) (choice : Choice) (call per : ℕ) (bins : Fin (nb + 1) → ℝ) (logMah : List ℝ)
    (mahParams sfhParams : Arr) (upid : List ℤ) (i : ℕ) (tobs z : ℝ) : Option Columns := do
  let mahParams := mahParams.T
  let sfhParams := sfhParams.T
  let msParams := sfhParams.colsTo 4
  let qParams := sfhParams.colsFrom 4
  let js := loopBins skipEmpty bins logMah
  let sel := chosenRows choice call per bins logMah
  let logmhId ← concat1 (js.map fun j => (sel j).map fun _ => j.val)
  let logmhVal ← concat1 (js.map fun j => (sel j).map fun _ => (bins j.castSucc + bins j.succ) / 2)
  let mah ← (← js.mapM fun j => mahParams.takeRows (sel j)) |> concat2
  let ms ← (← js.mapM fun j => msParams.takeRows (sel j)) |> concat2
  let q ← (← js.mapM fun j => qParams.takeRows (sel j)) |> concat2
  let upid ← (← js.mapM fun j => takeIdx upid (sel j)) |> concat1
  let mah ← makeMah mah.T
  return ⟨logmhId, logmhVal, mah, ms, q, upid, logmhId.map fun _ => i, logmhId.map fun _ => tobs, logmhId.map fun _ => z⟩

/-- `concatenate_samples_haloes`, L428-474. -/
def concatenate (data : List Columns) : Option Columns := do
  let logmhId ← concat1 (data.map Columns.logmhId)
  let logmhVal ← concat1 (data.map Columns.logmhVal)
  let mah ← concat2 (data.map fun d => d.mah.T)
  let ms ← concat2 (data.map Columns.ms)
  let q ← concat2 (data.map Columns.q)
  let upid ← concat1 (data.map Columns.upid)
  let tobsId ← concat1 (data.map Columns.tobsId)
  let tobsVal ← concat1 (data.map Columns.tobsVal)
  let redshift ← concat1 (data.map Columns.redshift)
  let mah ← makeMah mah.T
  return ⟨logmhId, logmhVal, mah, ms, q, upid, tobsId, tobsVal, redshift⟩

/-- The arrays of one subvolume. -/
structure Tables where
  logMah : ℕ → List ℝ
  mahParams : Arr
  sfhParams : Arr
  upid : List ℤ

/-- One target of `create_target_data`: index into the time table, cosmic time, redshift. -/
structure Target where
  tid : ℕ
  tobs : ℝ
  z : ℝ

/-- The sampled halos of one subvolume, the loop of `create_target_data` L391-413. -/
def subvolumeSamples {nb : ℕ} (skipEmpty : Bool) (choice : Choice) (per : ℕ) (bins : Fin (nb + 1) → ℝ) (tab : Tables)
    (targets : List Target) : Option Columns := do
  let data ← targets.zipIdx.mapM fun x =>
    sampleHalos skipEmpty choice (x.2 * nb) per bins (tab.logMah x.1.tid) tab.mahParams tab.sfhParams tab.upid x.2
      x.1.tobs x.1.z
  concatenate data

/-- The file `*_smhm_samples_haloes.h5` from the temporary files of all subvolumes,
`measure_smhm_smdpl_script_mpi_mgash.py` L205-273 (TNG L146-213, Galacticus L149-216): `ms` and `q` are transposed. -/
def sampleFile (subvols : List Columns) : Option Columns :=
  (concatenate subvols).map fun c => { c with ms := c.ms.T, q := c.q.T }

/-- A whole run: every subvolume's samples are written to a temporary file (`measure_smhm_smdpl_script_mpi_mgash.py`
L146-169), rank 0 reads them in order. `choice v` are the draws of subvolume `v`. Subvolumes whose input files are missing
are not modelled here (C73). -/
def runFile {nb : ℕ} (skipEmpty : Bool) (choice : ℕ → Choice) (per : ℕ) (bins : Fin (nb + 1) → ℝ) (tabs : List Tables)
    (targets : List Target) : Option Columns := do
  let tmp ← tabs.zipIdx.mapM fun v => subvolumeSamples skipEmpty (choice v.2) per bins v.1 targets
  sampleFile tmp

/-- What the loss data readers take from the file for the rows `sel`: `mah_params_samp[:, sel]` and `upid_samp[sel]`,
`fit_get_loss_helpers_mgash.py` L75-77. -/
def readRows (file : Columns) (sel : List ℕ) : Option (Arr × List ℤ) := do
  let mah ← file.mah.takeCols sel
  let upid ← takeIdx file.upid sel
  return (mah, upid)

end

end Diffstar.SampleArrays
