import Mathlib.Analysis.SpecialFunctions.Pow.Real
import Mathlib.Analysis.SpecialFunctions.Log.Base
import Mathlib.Analysis.SpecialFunctions.Sqrt

/-!
Model of `/repo/diffstar/utils.py` and of the constants of `/repo/diffstar/defaults.py`.

Real arithmetic replaces floating point throughout; arrays are lists.
-/

namespace Diffstar

noncomputable section

/-- `TODAY = 13.8`, `diffstar/defaults.py` L10. -/
def TODAY : ℝ := 13.8

/-- `LGT0 = np.log10(TODAY)`, `diffstar/defaults.py` L11. -/
def LGT0 : ℝ := Real.logb 10 TODAY

/-- `FB = 0.156`, `diffstar/defaults.py` L12. -/
def FB : ℝ := 0.156

/-- `SFR_MIN = 1e-14`, `diffstar/defaults.py` L16. -/
def SFR_MIN : ℝ := 1 / 10 ^ 14

/-- `T_BIRTH_MIN = 0.001`, `diffstar/defaults.py` L18. -/
def T_BIRTH_MIN : ℝ := 0.001

/-- `YEAR_PER_GYR = 1e9`, `diffstar/utils.py` L12. -/
def YEAR_PER_GYR : ℝ := 10 ^ 9

/-- `jax.nn.sigmoid` (library function used at `diffstar/utils.py` L95): `1 / (1 + exp(-x))`. -/
def nnSigmoid (x : ℝ) : ℝ := 1 / (1 + Real.exp (-x))

/-- `_sigmoid`, `diffstar/utils.py` L72-95 (identical text in `diffstar/diffstarpop/utils.py` L12-35). -/
def sigmoid (x x0 k ymin ymax : ℝ) : ℝ :=
  let heightDiff := ymax - ymin
  ymin + heightDiff * nnSigmoid (k * (x - x0))

/-- `_inverse_sigmoid`, `diffstar/utils.py` L98-101 (identical in `diffstar/diffstarpop/utils.py` L38-41).
Outside `ymin < y < ymax` the code returns NaN or ±inf; Lean's total division and logarithm return
something else there, so theorems only use the function strictly inside. -/
def inverseSigmoid (y x0 k ymin ymax : ℝ) : ℝ :=
  let lnarg := (ymax - ymin) / (y - ymin) - 1
  x0 - Real.log lnarg / k

/-- `sigmoid_poly`, `diffstar/utils.py` L104-108. -/
def sigmoidPoly (x x0 k ymin ymax : ℝ) : ℝ :=
  let arg := k * (x - x0)
  let body := 0.5 * arg / Real.sqrt (1 + arg ^ 2) + 0.5
  ymin + (ymax - ymin) * body

/-- `tw_cuml_jax_kern`, `diffstar/utils.py` L111-147. The nested `lax.cond`s are `if`s. -/
def twCumlJaxKern (x m h : ℝ) : ℝ :=
  let y := (x - m) / h
  if y < -3 then 0
  else if y > 3 then 1
  else -5 * y ^ 7 / 69984 + 7 * y ^ 5 / 2592 - 35 * y ^ 3 / 864 + 35 * y / 96 + 1 / 2

/-- `tw_bin_jax_kern`, `diffstar/utils.py` L150-171. -/
def twBinJaxKern (m h L H : ℝ) : ℝ := twCumlJaxKern H m h - twCumlJaxKern L m h

/-- `lax.scan` restricted to the stacked outputs (`scan(...)[1]`), as used at `diffstar/utils.py` L233. -/
def scanOut {C E O : Type*} (f : C → E → C × O) : C → List E → List O
  | _, [] => []
  | c, e :: es => (f c e).2 :: scanOut f (f c e).1 es

/-- `_cumtrapz_scan_func`, `diffstar/utils.py` L206-213. -/
def cumtrapzScanFunc (carryover : ℝ × ℝ × ℝ) (el : ℝ × ℝ) : (ℝ × ℝ × ℝ) × ℝ :=
  let b := el.1
  let fb := el.2
  let a := carryover.1
  let fa := carryover.2.1
  let c := carryover.2.2 + (b - a) * (fb + fa) / 2
  ((b, fb, c), c)

/-- `cumtrapz`, `diffstar/utils.py` L216-234. Only called on non-empty arrays of equal length
(`lax.scan` raises on unequal lengths); the empty case is not reachable from the package. -/
def cumtrapz (xarr yarr : List ℝ) : List ℝ :=
  match xarr, yarr with
  | x0 :: xs, y0 :: ys =>
      scanOut cumtrapzScanFunc (x0, y0, 0) (List.zip (x0 :: xs) (y0 :: ys))
  | _, _ => []

/-- `cumulative_mstar_formed`, `diffstar/utils.py` L237-275. -/
def cumulativeMstarFormed (tTable sfhTable : List ℝ) : List ℝ :=
  let paddedT := T_BIRTH_MIN :: tTable
  let paddedSfh := SFR_MIN :: sfhTable
  ((cumtrapz paddedT paddedSfh).drop 1).map (fun m => m * YEAR_PER_GYR)

/-- `cumulative_mstar_formed_galpop`, `diffstar/utils.py` L281-307 (`vmap` over rows). -/
def cumulativeMstarFormedGalpop {n : ℕ} (tTable : List ℝ) (sfhTable : Fin n → List ℝ) :
    Fin n → List ℝ :=
  fun i => cumulativeMstarFormed tTable (sfhTable i)

/-- `_jax_get_dt_array`, `diffstar/utils.py` L15-28.
`none` stands for arrays with fewer than three entries, where `dtmids` is empty and the code indexes
`dtmids[-1]`: behaviour there is outside the model. -/
def jaxGetDtArray (t : List ℝ) : Option (List ℝ) :=
  if h : 3 ≤ t.length then
    let n := t.length
    let tmid : ℕ → ℝ := fun i => 0.5 * (t.getD i 0 + t.getD (i + 1) 0)
    let tLo := t[0] - (t[1] - t[0]) / 2
    let tHi := t[n - 1] + (tmid (n - 2) - tmid (n - 3)) / 2
    some ((List.range n).map fun i =>
      if i = n - 1 then tHi - tmid (n - 2)
      else if i = 0 then tmid 0 - tLo
      else tmid i - tmid (i - 1))
  else none

/-- The `for` loop of `_get_dt_array`, `diffstar/utils.py` L48-52: walks the entries after the current
one carrying `tlo`; returns the list of `dt[i]` together with the final `tlo`. -/
def getDtLoop : ℝ → ℝ → List ℝ → List ℝ × ℝ
  | _, tlo, [] => ([], tlo)
  | ti, tlo, tnext :: rest =>
      let thi := (tnext + ti) / 2
      let r := getDtLoop tnext thi rest
      ((thi - tlo) :: r.1, r.2)

/-- `_get_dt_array`, `diffstar/utils.py` L31-55. `none` = `IndexError` at `t[0]`/`t[1]`, L47. -/
def getDtArray (t : List ℝ) : Option (List ℝ) :=
  match t with
  | t0 :: t1 :: rest =>
      let tlo := t0 - (t1 - t0) / 2
      let r := getDtLoop t0 tlo (t1 :: rest)
      -- `dt[n - 2]` is the last entry written by the loop
      let thi := ((t1 :: rest).getLast (by simp)) + (r.1.getLastD 0) / 2
      some (r.1 ++ [thi - r.2])
  | _ => none

/-- `np.zeros(npts).astype(arr.dtype) + arr`, `diffstar/utils.py` L69: numpy broadcasting of an array of
size 1 or `npts` against `npts` zeros. -/
def addZeros (npts : ℕ) : List ℝ → List ℝ
  | [v] => List.replicate npts v
  | a => a

/-- `get_1d_arrays`, `diffstar/utils.py` L58-69, for arguments already passed through
`np.atleast_1d` (a scalar is a one-element list). `none` is the `AssertionError` (or the `ValueError`
of `max` on no arguments). Broadcasting a one-element array against `zeros(npts)` repeats it.
A zero-length argument together with longer ones fails the assertion; all-empty arguments are returned
as they are. -/
def get1dArrays (args : List (List ℝ)) : Option (List (List ℝ)) :=
  match args with
  | [] => none
  | _ =>
    let npts := (args.map List.length).foldr max 0
    if ∀ a ∈ args, a.length = 1 ∨ a.length = npts then
      some (args.map (addZeros npts))
    else none

/-- Index normalisation of a dynamic JAX gather `arr[i]` (library behaviour): negative indices wrap
once, out-of-range indices are clamped. -/
def jaxIndex (n : ℕ) (i : ℤ) : ℕ :=
  let j := if i < 0 then i + n else i
  if j < 0 then 0 else if (n : ℤ) ≤ j then n - 1 else j.toNat

/-- `jax_np_interp`, `diffstar/utils.py` L174-203, for one abscissa. `none` is the `0/0` or `c/0`
special value produced when the two table abscissae coincide. -/
def jaxNpInterp (x : ℝ) (xt yt : List ℝ) (indxHi : ℤ) : Option ℝ :=
  let indxLo := indxHi - 1
  let n := xt.length
  let xtLo := xt.getD (jaxIndex n indxLo) 0
  let xtHi := xt.getD (jaxIndex n indxHi) 0
  let dxTot := xtHi - xtLo
  let ytLo := yt.getD (jaxIndex n indxLo) 0
  let ytHi := yt.getD (jaxIndex n indxHi) 0
  let dyTot := ytHi - ytLo
  if dxTot = 0 then none
  else
    let m := dyTot / dxTot
    some (ytLo + m * (x - xtLo))

/-- `np.searchsorted(xt, x)` (side `left`), the precomputation the docstring of `jax_np_interp`
(`diffstar/utils.py` L176) asks for: number of leading entries smaller than `x`. -/
def searchsortedLeft (xt : List ℝ) (x : ℝ) : ℕ := (xt.takeWhile (· < x)).length

/-- `np.interp` / `jnp.interp` (library function, used at `diffstar/utils.py` L339 and documented at
L176): linear between table points, clamped to the end values outside the table. The table is scanned
from the left; equal to the numpy definition for increasing abscissae. -/
def npInterp (x : ℝ) : List ℝ → List ℝ → ℝ
  | x0 :: x1 :: xs, y0 :: y1 :: ys =>
      if x ≤ x0 then y0
      else if x ≤ x1 then y0 + (y1 - y0) / (x1 - x0) * (x - x0)
      else npInterp x (x1 :: xs) (y1 :: ys)
  | _, y0 :: _ => y0
  | _, [] => 0

/-- `compute_fstar`, `diffstar/utils.py` L310-342. -/
def computeFstar (tarr mstar : List ℝ) (fstarTdelay : ℝ) : List ℝ :=
  let mstarLow := tarr.map fun t => npInterp (t - fstarTdelay) tarr mstar
  let fstar := List.zipWith (fun m mlo => (m - mlo) / fstarTdelay / 10 ^ 9) mstar mstarLow
  fstar.map fun f => if f > 0 then f else 0

end

end Diffstar
