import Verif.Model.Rounding

/-!
Floating-point version of the time-averaged star formation rates, as the fitting loss computes them. Same conventions as
`Model/Rounding.lean`.
-/

namespace Diffstar.Rounding

noncomputable section

variable (R : Rounding)

/-- The chord formula of `jnp.interp` (library, `jax/_src/numpy/lax_numpy.py`): with `df`, `dx` and `delta` the differences,
`where(abs(dx) <= spacing(eps), fp[i - 1], fp[i - 1] + (delta / dx) * df)`. The spacing of the numbers around `eps = 2**-23` is
`2**-46`. -/
def interpChord (x x0 x1 y0 y1 : ℝ) : ℝ :=
  let df := R.fl (y1 - y0)
  let dx := R.fl (x1 - x0)
  let delta := R.fl (x - x0)
  if |dx| ≤ 2 ^ (-46 : ℤ) then y0 else R.fl (y0 + R.fl (R.fl (delta / dx) * df))

/-- `jnp.interp(x, xp, fp)` (library) for one abscissa, used at `diffstar/utils.py` L339. The interval is the one found by
`clip(searchsorted(xp, x, side='right'), 1, len(xp) - 1)`, scanned from the left; outside of the table the end values. -/
def interp (x : ℝ) : List ℝ → List ℝ → ℝ
  | x0 :: x1 :: xs, y0 :: y1 :: ys =>
      if x < x0 then y0
      else if x < x1 ∨ xs = [] then if x > x1 then y1 else R.interpChord x x0 x1 y0 y1
      else interp x (x1 :: xs) (y1 :: ys)
  | _, y0 :: _ => y0
  | _, [] => 0

/-- `compute_fstar`, `diffstar/utils.py` L310-342. -/
def computeFstar (tarr mstar : List ℝ) (fstarTdelay : ℝ) : List ℝ :=
  let mstarLow := tarr.map fun t => R.interp (R.fl (t - fstarTdelay)) tarr mstar
  let fstar := List.zipWith (fun m mlo => R.fl (R.fl (R.fl (m - mlo) / fstarTdelay) / R.fl (10 ^ 9))) mstar mstarLow
  fstar.map fun f => if f > 0 then f else 0

/-- The averaged rates in `loss_default_clipssfrh`, `diffstar/fitting_helpers/diffstar_fitting_helpers.py` L216-217:
`jnp.clip(fstar, mstar_table * (ssfrh_floor / 10.0), jnp.inf)`. -/
def clipFstar (fstar mstarTable : List ℝ) (ssfrhFloor : ℝ) : List ℝ :=
  List.zipWith (fun f m => max f (R.fl (m * R.fl (ssfrhFloor / 10)))) fstar mstarTable

/-- Their logarithms, L219. -/
def logFstar (L : MathLib) (fstar mstarTable : List ℝ) (ssfrhFloor : ℝ) : List ℝ :=
  (R.clipFstar fstar mstarTable ssfrhFloor).map L.log10

end

end Diffstar.Rounding
