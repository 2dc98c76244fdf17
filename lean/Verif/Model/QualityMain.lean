import Verif.Model.QualityRows
import Verif.Model.SimLoaders

/-!
Model of the main part of `scripts/diffstarpop_scripts/calculate_quality_diffstar_fits_mgash.py` (L566-708): which files
the quality script writes, and their contents. An inner `none` is NaN, an outer one an exception.
-/

namespace Diffstar.Quality

open Diffstar.Targets Diffstar.Text Diffstar.Load

noncomputable section

/-- `np.arange(start, stop, step)` (library), `step > 0`. -/
def npArange (start stop step : ℝ) : List ℝ := (List.range ⌈(stop - start) / step⌉₊).map fun i : ℕ => start + i * step

/-- The tuple returned by the functions `calculate_plot_*`, L348-357. -/
structure PlotOut where
  mpeakBins : List ℝ
  mpeakBinsc : List ℝ
  tarr : List ℝ
  mstarDataMean : List (List (Option ℝ))
  mstarFitMean : List (List (Option ℝ))
  sfrDataMean : List (List (Option ℝ))
  sfrFitMean : List (List (Option ℝ))

/-- `0.5 * (mpeak_bins[1:] + mpeak_bins[:-1])`, L266. -/
def binCentres (bins : List ℝ) : List ℝ := List.zipWith (fun hi lo => 0.5 * (hi + lo)) bins.tail bins.dropLast

/-- The arrays of shape `(len(mpeak_binsc), nt)`, L277-280 and L342-357; `cell it lo hi` is the entry of one time and one
bin, in all four arrays. -/
def plotOut (bins t : List ℝ) (cell : ℕ → ℝ → ℝ → Option (Option (ℝ × ℝ × ℝ × ℝ))) : Option PlotOut := do
  let rows ← (List.range (bins.length - 1)).mapM fun i => (List.range t.length).mapM fun it =>
    cell it (bins.getD i 0) (bins.getD (i + 1) 0)
  let part := fun f : ℝ × ℝ × ℝ × ℝ → ℝ => rows.map fun r => r.map fun c => c.map f
  return ⟨bins, binCentres bins, t, part fun c => c.1, part fun c => c.2.1, part fun c => c.2.2.1, part fun c => c.2.2.2⟩

/-- What the script reads: the simulated galaxies and the catalogue of fits of TNG and of the two Galacticus samples, those
of each subvolume of the two SMDPL catalogues, and their times. -/
structure Inputs where
  logMah : MahParams ℝ → ℝ → ℝ → ℝ
  tngTimes : List ℝ
  tngData : List SimGal
  tngFits : List CatRow
  smdplTimes : List ℝ
  nomerging : List (List SimGal × List CatRow)
  dr1 : List (List SimGal × List CatRow)
  galTimes : List ℝ
  inSitu : List SimGal × List CatRow
  inPlusExSitu : List SimGal × List CatRow

/-- `calculate_plot_tng`, L261-357. -/
def calcTng (x : Inputs) (bins : List ℝ) : Option PlotOut :=
  plotOut bins x.tngTimes fun it lo hi => calculatePlotTng x.logMah x.tngTimes it x.tngData x.tngFits lo hi

/-- `calculate_plot_smdpl_nomerging` L53-153 and `calculate_plot_smdpl_dr1` L156-258: the tables of the first subvolume are
loaded before anything else, L76-83. -/
def calcSmdpl (x : Inputs) (files : List (List SimGal × List CatRow)) (bins : List ℝ) : Option PlotOut := do
  let first ← files.head?
  let _ ← loadTables .smdpl x.logMah LGT0 200 first.2
  plotOut bins x.smdplTimes fun it lo hi => calculatePlotSmdpl x.logMah x.smdplTimes it files lo hi

/-- `calculate_plot_galcus_insitu` L360-460 and `calculate_plot_galcus_inplusexsitu` L463-563. -/
def calcGalcus (x : Inputs) (gals : List SimGal × List CatRow) (bins : List ℝ) : Option PlotOut := do
  let _ ← loadTables .galacticus x.logMah LGT0 200 gals.2
  plotOut bins x.galTimes fun it lo hi => calculatePlotGalcus x.logMah x.galTimes it gals.1 gals.2 lo hi

/-- A dataset of the output file. -/
inductive Dataset
  | vec (v : List ℝ)
  | mat (m : List (List (Option ℝ)))

/-- `save_data_plot`, L587-607. -/
def saveDataPlot (o : PlotOut) : List (Str × Dataset) :=
  [("tarr".toList, .vec o.tarr), ("mpeak_bins".toList, .vec o.mpeakBins), ("mpeak_binsc".toList, .vec o.mpeakBinsc),
   ("mstar_data_mean".toList, .mat o.mstarDataMean), ("mstar_fit_mean".toList, .mat o.mstarFitMean),
   ("sfr_data_mean".toList, .mat o.sfrDataMean), ("sfr_fit_mean".toList, .mat o.sfrFitMean)]

/-- Consecutive calculations and the files they are saved in: the files written, and whether the script ended without an
exception. -/
def runSteps (outdir : Str) : List (Str × Option PlotOut) → List (Str × List (Str × Dataset)) × Bool
  | [] => ([], true)
  | (_, none) :: _ => ([], false)
  | (name, some o) :: rest =>
    ((joinPath outdir name, saveDataPlot o) :: (runSteps outdir rest).1, (runSteps outdir rest).2)

/-- The choices of `-sim_name`, L642-655. -/
inductive SimOpt
  | smdpl | smdplDr1 | tng | galcusInsitu | galcusInplusexsitu | all
  deriving DecidableEq

/-- `default="smdpl"`, L646. -/
def defaultSimOpt : SimOpt := .smdpl

/-- `mpeak_bins`, L667. -/
def mpeakBins : List ℝ := npArange 11.25 14.5 0.50

/-- L667-708. -/
def main (x : Inputs) (sim : SimOpt) (outdir : Str) : List (Str × List (Str × Dataset)) × Bool :=
  let smdpl := ("diffstar_quality_smdpl.h5".toList, calcSmdpl x x.nomerging mpeakBins)
  let dr1 := ("diffstar_quality_smdpl_dr1.h5".toList, calcSmdpl x x.dr1 mpeakBins)
  let tng := ("diffstar_quality_tng.h5".toList, calcTng x mpeakBins)
  let insitu := ("diffstar_quality_galcus_insitu.h5".toList, calcGalcus x x.inSitu mpeakBins)
  let inplusexsitu := ("diffstar_quality_galcus_inplusexsitu.h5".toList, calcGalcus x x.inPlusExSitu mpeakBins)
  match sim with
  | .all => runSteps outdir [smdpl, dr1, tng, insitu, inplusexsitu]
  | .smdpl => runSteps outdir [smdpl]
  | .smdplDr1 => runSteps outdir [dr1]
  | .tng => runSteps outdir [tng]
  | .galcusInsitu => runSteps outdir [insitu]
  | .galcusInplusexsitu => runSteps outdir [inplusexsitu]

end

end Diffstar.Quality
