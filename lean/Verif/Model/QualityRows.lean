import Verif.Model.Quality
import Verif.Model.TngRanks

/-!
Model of the rows compared in `scripts/diffstarpop_scripts/calculate_quality_diffstar_fits_mgash.py` and of
`compute_weighted_histograms_z0` (`scripts/diffstarpop_scripts/smhm_utils_tng_mgash.py` L129-160,
`smhm_utils_smdpl_mgash.py` L177-214).

The catalogue of fits is the list of `CatRow` of `load_diffstar_sfh_tables`. `none` is an exception.
-/

namespace Diffstar.Quality

open Diffstar.Targets

noncomputable section

open Classical

/-- One galaxy of the simulation as `load_tng_data` returns it (L267-268): row of `log_smahs` and of `sfrh`, entry of
`logmp0`. -/
structure SimGal where
  logSmah : List ℝ
  sfr : List ℝ
  logmp0 : ℝ

/-- `a[mask]` with a boolean mask: a mask of another length raises (library). -/
def maskRows {α : Type*} (m : List Bool) (l : List α) : Option (List α) :=
  if m.length ≠ l.length then none
  else some ((m.zip l).filterMap fun x => if x.1 then some x.2 else none)

/-- The table `np.linspace(T_TABLE_MIN, 10**lgt0, n_times)` with the defaults `lgt0 = LGT0` and `n_times = 200`,
`smhm_utils_tng_mgash.py` L79-80, L104-105. -/
def tTable : List ℝ := linspace T_TABLE_MIN ((10 : ℝ) ^ LGT0) 200

/-- A row of a table, as an array of the length of `t_table`. -/
def tableArray (row : ℕ → ℝ) : List ℝ := (List.range tTable.length).map row

/-- A galaxy of the data with its row of the tables at time index `it`: L306 (`log_sfh_table`), L308-309, L311-312
(`jnp_interp_vmap`, L46-50) and L320. The array `tng_t` is `t`. -/
def compareRow (t : List ℝ) (it : ℕ) (g : SimGal) (h : Halo) : Gal :=
  let logSfh := tableArray fun i => h.logSsfr i + h.logSmh i
  let logSmh := tableArray h.logSmh
  { logSmah := g.logSmah.getD it 0
    sfr := g.sfr.getD it 0
    logSmhFit := (t.map fun x => npInterp x tTable logSmh).getD it 0
    logSfhFit := (t.map fun x => npInterp x tTable logSfh).getD it 0
    logmp0 := g.logmp0 }

/-- One pass of the loop of `calculate_plot_tng`, L286-320: the rows `[indx][has_fit]` of the data with the rows of the
tables. -/
def tngRows (logMah : MahParams ℝ → ℝ → ℝ → ℝ) (t : List ℝ) (it : ℕ) (data : List SimGal) (cat : List CatRow)
    (subvol : ℕ) : Option (List Gal) := do
  let d ← chunk data subvol
  let c ← chunk cat subvol
  let tables ← loadTables .tng logMah LGT0 200 c
  let has := c.map fun r => decide (hasFit .tng r)
  let rows ← maskRows has d
  return List.zipWith (compareRow t it) rows tables

/-- `calculate_plot_tng`, L261-357: one time and one mass bin of the four saved arrays; the inner `none` is NaN. -/
def calculatePlotTng (logMah : MahParams ℝ → ℝ → ℝ → ℝ) (t : List ℝ) (it : ℕ) (data : List SimGal) (cat : List CatRow)
    (lo hi : ℝ) : Option (Option (ℝ × ℝ × ℝ × ℝ)) := do
  let subvols ← (List.range 20).mapM (tngRows logMah t it data cat)
  return means lo hi subvols

/-- `calculate_plot_smdpl_nomerging` L53-153 and `calculate_plot_smdpl_dr1` L156-258: the same per subvolume, with all
rows of the files of the subvolume. `files` are the data and the fits of the subvolumes in the loop. -/
def calculatePlotSmdpl (logMah : MahParams ℝ → ℝ → ℝ → ℝ) (t : List ℝ) (it : ℕ) (files : List (List SimGal × List CatRow))
    (lo hi : ℝ) : Option (Option (ℝ × ℝ × ℝ × ℝ)) := do
  let subvols ← files.mapM fun f => do
    let tables ← loadTables .smdpl logMah LGT0 200 f.2
    let rows ← maskRows (f.2.map fun r => decide (hasFit .smdpl r)) f.1
    return List.zipWith (compareRow t it) rows tables
  return means lo hi subvols

/-- `calculate_plot_galcus_insitu` L360-460 and `calculate_plot_galcus_inplusexsitu` L463-563: one block. -/
def calculatePlotGalcus (logMah : MahParams ℝ → ℝ → ℝ → ℝ) (t : List ℝ) (it : ℕ) (data : List SimGal) (cat : List CatRow)
    (lo hi : ℝ) : Option (Option (ℝ × ℝ × ℝ × ℝ)) := do
  let tables ← loadTables .galacticus logMah LGT0 200 cat
  let rows ← maskRows (cat.map fun r => decide (hasFit .galacticus r)) data
  return means lo hi [List.zipWith (compareRow t it) rows tables]

/-- `compute_weighted_histograms_z0` of TNG, L129-160: `(wcounts, whist)` of one chunk; the last column of the tables. -/
def computeWeightedHistogramsZ0 {nb : ℕ} (logMah : MahParams ℝ → ℝ → ℝ → ℝ) (lgt0 : ℝ) (bins : Fin (nb + 1) → ℝ)
    (cat : List CatRow) (subvol : ℕ) : Option ((Fin nb → ℝ) × (Fin nb → ℝ)) := do
  let c ← chunk cat subvol
  let res ← loadTables .tng logMah lgt0 200 c
  let nHalos := res.length
  let nddata : Fin nHalos → Fin 1 → ℝ := fun i _ => res[i].logMah 199
  let sigma : Fin nHalos → ℝ := fun _ => PopLoss.meanDiff bins + 0
  let ndsig : Fin nHalos → Fin 1 → ℝ := fun i _ => sigma i
  let ydata : Fin nHalos → ℝ := fun i => res[i].logSmh 199
  let ndbinsLo : Fin nb → Fin 1 → ℝ := fun j _ => bins j.castSucc
  let ndbinsHi : Fin nb → Fin 1 → ℝ := fun j _ => bins j.succ
  let whist := NdHist.twNdhistWeighted nddata ndsig ydata ndbinsLo ndbinsHi
  let wcounts := NdHist.twNdhistWeighted nddata ndsig (fun _ => 1) ndbinsLo ndbinsHi
  return (wcounts, whist)

end

end Diffstar.Quality
