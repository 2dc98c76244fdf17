import Verif.Model.RoundFstar
import Verif.Model.RoundHist
import Verif.Model.FitLoss

/-!
Floating-point version of the loss that the fits of single galaxies minimise. Same conventions as `Model/Rounding.lean` and, for
sums, `Model/RoundHist.lean`.
-/

namespace Diffstar.Rounding

noncomputable section

variable (R : Rounding)

/-- `m` is a possible value of `jnp.mean` of an array. -/
def IsMean (l : List ℝ) (m : ℝ) : Prop := ∃ total, R.IsSum (l : Multiset ℝ) total ∧ m = R.fl (total / l.length)

/-- `x ** 2` in jax (library): an integer power, computed as a product. -/
def sq (x : ℝ) : ℝ := R.fl (x * x)

/-- `(x / weight) ** 2` for two arrays. -/
def weightedSquares (x weight : List ℝ) : List ℝ := List.zipWith (fun x w => R.sq (R.fl (x / w))) x weight

/-- `a - b` for two arrays. -/
def subArrays (a b : List ℝ) : List ℝ := List.zipWith (fun x y => R.fl (x - y)) a b

/-- `loss` is a possible value of `loss_default_clipssfrh`, `diffstar/fitting_helpers/diffstar_fitting_helpers.py` L187-235, in
floating-point numbers, from the bounded parameters `p` on (L210 is in C125 and C134). The two clips at `ssfrh_floor / 10` are the
same operation (L217 and L218). -/
def IsFitLoss {M : Type} (L : MathLib) (logMah : M → ℝ → ℝ → ℝ) (p : DiffstarParams ℝ) (d : Fit.LossData M) (loss : ℝ) : Prop :=
  let h := R.calcSfhSinglegalSmh L logMah p d.mah d.t d.lgt0 d.fb
  let fstar := R.clipFstar (R.computeFstar d.t h.smh d.fstarTdelay) h.smh d.ssfrhFloor
  let sfhTable := R.clipFstar h.sfh h.smh d.ssfrhFloor
  let logFstar := fstar.map L.log10
  let logsmTable := h.smh.map L.log10
  let sfrRes := List.zipWith (fun x m => R.fl (R.fl (R.fl (10 ^ 8) * x) / m)) (R.subArrays sfhTable d.sfhTarget) d.mstarTarget
  let sfrRes := sfrRes.map fun x => max (-1) (min 1 x)
  let resF := R.subArrays logFstar d.logFstarTarget
  ∃ m1 m2 m3, R.IsMean (R.weightedSquares (R.subArrays logsmTable d.logmstarTarget) d.weight) m1 ∧
    R.IsMean (R.weightedSquares resF d.weightFstar) m2 ∧ R.IsMean (R.weightedSquares sfrRes d.weight) m3 ∧
    loss = R.fl (R.fl (R.fl (R.fl (R.fl (30 * m1) + m2) + m3) + R.fl (0.5 * R.sq (resF.getLastD 0))) +
      R.sigmoid L.exp (R.fl (p.lgQt - d.lgtFstarMax)) 0 50 100 0)

end

end Diffstar.Rounding
