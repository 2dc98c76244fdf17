import Mathlib.Analysis.SpecialFunctions.Log.Base
import Mathlib.Analysis.SpecialFunctions.Pow.Real

/-!
Model of `scripts/diffstarpop_scripts/calculate_quality_diffstar_fits_mgash.py`. Lines are those of `calculate_plot_tng`
(L261-357); the other four functions have the same body. `none` is NaN.
-/

namespace Diffstar.Quality

noncomputable section

open Classical

/-- One galaxy with a fit (`has_fit`), at one time: log stellar mass and SFR of the simulation, interpolated log stellar
mass and log SFR of the fit, final log halo mass. -/
structure Gal where
  logSmah : ℝ
  sfr : ℝ
  logSmhFit : ℝ
  logSfhFit : ℝ
  logmp0 : ℝ

/-- `np.where(x == 0.0, np.nan, 10**x)`, L315-318. -/
def unlog (x : ℝ) : Option ℝ := if x = 0 then none else some ((10 : ℝ) ^ x)

/-- `np.where(sfrh > 0.0, np.log10(sfrh), 0.0)`, L269. -/
def logSfr (sfr : ℝ) : ℝ := if sfr > 0 then Real.logb 10 sfr else 0

/-- `np.clip(a / b, 1e-12, np.inf)`, L322-325; NaN stays NaN. -/
def ssfr (a b : Option ℝ) : Option ℝ := a.bind fun a => b.map fun b => max (a / b) 1e-12

/-- `smahs_data`, L317. -/
def smahData (g : Gal) : Option ℝ := unlog g.logSmah

/-- `sfrh`, L318, L322-326: `np.where(smahs_data > 0, ssfrh * smahs_data, sfrh_data)`; comparisons with NaN are false. -/
def sfrData (g : Gal) : Option ℝ :=
  let sfrh := unlog (logSfr g.sfr)
  match smahData g with
  | none => sfrh
  | some m => if m > 0 then (ssfr sfrh (some m)).map (· * m) else sfrh

/-- `smahs_fits`, L315. -/
def smahFit (g : Gal) : Option ℝ := unlog g.logSmhFit

/-- `sfrh_fits`, L316, L323-327. -/
def sfrFit (g : Gal) : Option ℝ :=
  (ssfr (unlog g.logSfhFit) (smahFit g)).bind fun s => (smahFit g).map fun m => s * m

/-- `np.nansum` (library). -/
def nansum (l : List (Option ℝ)) : ℝ := (l.map fun x => x.getD 0).sum

/-- Sums of one mass bin: the four accumulators and `ngals`. -/
structure Acc where
  mstarData : ℝ
  mstarFit : ℝ
  sfrData : ℝ
  sfrFit : ℝ
  ngals : ℕ

/-- The bin loop for one subvolume, L329-340, for the bin with edges `lo`, `hi`. -/
def Acc.step (lo hi : ℝ) (acc : Acc) (gals : List Gal) : Acc :=
  let sel := gals.filter fun g => decide (g.logmp0 > lo ∧ g.logmp0 < hi)
  ⟨acc.mstarData + nansum (sel.map smahData), acc.mstarFit + nansum (sel.map Quality.smahFit),
   acc.sfrData + nansum (sel.map Quality.sfrData), acc.sfrFit + nansum (sel.map Quality.sfrFit), acc.ngals + sel.length⟩

/-- All subvolumes, L286-340. -/
def accumulate (lo hi : ℝ) (subvols : List (List Gal)) : Acc := subvols.foldl (Acc.step lo hi) ⟨0, 0, 0, 0, 0⟩

/-- Division by `ngals`, L342-345; `none` is `0/0`. -/
def means (lo hi : ℝ) (subvols : List (List Gal)) : Option (ℝ × ℝ × ℝ × ℝ) :=
  let a := accumulate lo hi subvols
  if a.ngals = 0 then none
  else some (a.mstarData / a.ngals, a.mstarFit / a.ngals, a.sfrData / a.ngals, a.sfrFit / a.ngals)

end

end Diffstar.Quality
