import Verif.Model.Sfh
import Mathlib.MeasureTheory.Integral.IntervalIntegral.Basic

/-!
Specifications used by the property theorems. They only mention the data types of the API (parameter
tuples, lists of numbers), never the functions of the model.
-/

namespace Diffstar.Spec

/-- The documented Diffstar parameter box (README / `MS_PARAM_BOUNDS_PDICT`, `Q_PARAM_BOUNDS_PDICT`),
with the rejuvenation level strictly between the drop and zero. -/
structure InBounds (p : DiffstarParams ℝ) : Prop where
  lgmcrit : 9 < p.lgmcrit ∧ p.lgmcrit < 13.5
  lgyAtMcrit : -12 < p.lgyAtMcrit ∧ p.lgyAtMcrit < -8
  indxLo : 0 < p.indxLo ∧ p.indxLo < 5
  indxHi : -5 < p.indxHi ∧ p.indxHi < 0
  lgQt : 0.1 < p.lgQt ∧ p.lgQt < 2
  qlglgdt : -3 < p.qlglgdt ∧ p.qlglgdt < -0.01
  lgDrop : -3 < p.lgDrop ∧ p.lgDrop < 0
  lgRejuv : p.lgDrop < p.lgRejuv ∧ p.lgRejuv < 0

/-- `f` is the linear interpolant of the points `(xs[j], ys[j])` on every segment. -/
def IsLinInterp (xs ys : List ℝ) (f : ℝ → ℝ) : Prop :=
  ∀ j (hx : j + 1 < xs.length) (hy : j + 1 < ys.length), ∀ s ∈ Set.Icc xs[j] xs[j + 1],
    f s = ys[j] + (ys[j + 1] - ys[j]) * ((s - xs[j]) / (xs[j + 1] - xs[j]))

/-- Strictly increasing table. -/
def Increasing (t : List ℝ) : Prop := t.Pairwise (· < ·)

end Diffstar.Spec

namespace Diffstar.Spec

/-- Main-sequence log-efficiency as documented: `lgy + slope(m) (m - mcrit)` with the slope rolling from
`indx_lo` to `indx_hi` with speed 9 around `mcrit`. -/
noncomputable def msLogEfficiency (p : DiffstarParams ℝ) (lgm : ℝ) : ℝ :=
  p.lgyAtMcrit +
    (p.indxLo + (p.indxHi - p.indxLo) / (1 + Real.exp (-(9 * (lgm - p.lgmcrit))))) *
      (lgm - p.lgmcrit)

/-- Main-sequence SFR of a halo of mass `10 ** lgm`: baryon fraction times mass times efficiency. -/
noncomputable def msSfr (p : DiffstarParams ℝ) (fb lgm : ℝ) : ℝ :=
  fb * (10 : ℝ) ^ lgm * (10 : ℝ) ^ msLogEfficiency p lgm

end Diffstar.Spec

namespace Diffstar.Spec

/-- Vector of eight numbers as a Diffstar parameter tuple (field order of the source). -/
def paramsOfVec (v : Fin 8 → ℝ) : DiffstarParams ℝ := ⟨v 0, v 1, v 2, v 3, v 4, v 5, v 6, v 7⟩

end Diffstar.Spec
