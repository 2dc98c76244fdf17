import Verif.Model.Targets
import Verif.Model.Output

/-!
Model of the division of the TNG catalogue over MPI ranks: `scripts/diffstarpop_scripts/smhm_utils_tng_mgash.py` and
`scripts/diffstarpop_scripts/measure_smhm_tng_script_mpi_mgash.py`.

`none` is an exception; an exception in one rank ends the run (the others wait in `comm.Barrier()`, L122). The last
column of `cen1_sat0` holds 1 for centrals and 0 for satellites, in a signed integer type.
-/

namespace Diffstar.Targets

open Diffstar.Output

noncomputable section

/-- `NCHUNKS`, `smhm_utils_tng_mgash.py` L32. -/
def NCHUNKS : ℕ := 20

/-- `np.array_split(_a, NCHUNKS)[subvol]` and fancy indexing with it, L46-49 and L86-88. -/
def chunk {α : Type*} (l : List α) (subvol : ℕ) : Option (List α) := (arraySplit l NCHUNKS)[subvol]?

/-- `upid[:, -1]` with the centrals set to `-1`, L299 and L330-331. -/
def finalUpid (cen1Sat0 : ℤ) : ℤ := if cen1Sat0 = 1 then -1 else cen1Sat0

/-- The halos of one rank: `load_diffstar_sfh_tables`, L75-126, and `load_tng_chunk_data(subvol)[has_fit]`, L38-49 and
L283. A mask of another length than the array raises `IndexError`. -/
def rankHalos (logMah : MahParams ℝ → ℝ → ℝ → ℝ) (lgt0 : ℝ) (nTimes : ℕ) (cat : List CatRow) (cen1Sat0 : List ℤ)
    (rank : ℕ) : Option (List Halo) := do
  let c ← chunk cat rank
  let u ← chunk cen1Sat0 rank
  if c.length = u.length then
    loadTables .tng logMah lgt0 nTimes (List.zipWith (fun r x => { r with upid := finalUpid x }) c u)
  else none

/-- A run of the script with `nranks` processes, L59-178: every rank takes its own number as chunk number; rank 0 opens
the temporary files of chunks `0 … NCHUNKS - 1`. The option `-nchunks` is read (L35, L50) and not used. -/
def tngRun {nm na nb : ℕ} (logmhBins : Fin (nm + 1) → ℝ) (mstarBins : Fin (na + 1) → ℝ) (ssfrBins : Fin (nb + 1) → ℝ)
    (tid : ℕ) (logMah : MahParams ℝ → ℝ → ℝ → ℝ) (lgt0 : ℝ) (nTimes : ℕ) (cat : List CatRow) (cen1Sat0 : List ℤ)
    (nranks _nchunks : ℕ) : Option (SubvolAtz nm na nb) := do
  let pops ← (List.range nranks).mapM (rankHalos logMah lgt0 nTimes cat cen1Sat0)
  let files ← (List.range NCHUNKS).mapM fun i => pops[i]?
  collect (workerFiles logmhBins mstarBins ssfrBins tid (files.map some))

end

end Diffstar.Targets
