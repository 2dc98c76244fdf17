import Verif.Model.Utils
import Mathlib.LinearAlgebra.Matrix.Notation
import Mathlib.Data.Matrix.Diagonal

/-!
Model of `diffstar/diffstarpop/utils.py` (triweight kernels, covariance helpers, clipped line).
-/

namespace Diffstar

noncomputable section

/-- `_tw_cuml_lax_kern`, `diffstar/diffstarpop/utils.py` L86-95. The second `lax.cond` acts on the result
of the first. -/
def twCumlLaxKern (x m h : ℝ) : ℝ :=
  let z := (x - m) / h
  let val := -5 * z ^ 7 / 69984 + 7 * z ^ 5 / 2592 - 35 * z ^ 3 / 864 + 35 * z / 96 + 1 / 2
  let val := if z < -3 then 0 else val
  let val := if z > 3 then 1 else val
  val

/-- `_tw_bin_weight_lax_kern`, `diffstar/diffstarpop/utils.py` L98-105. -/
def twBinWeightLaxKern (x sig lo hi : ℝ) : ℝ :=
  let a := twCumlLaxKern x lo sig
  let b := twCumlLaxKern x hi sig
  a - b

/-- `correlation_from_covariance`, `diffstar/diffstarpop/utils.py` L111-129. For a vanishing or negative
diagonal entry the code divides by zero or takes the root of a negative number; the theorems assume a
positive diagonal. -/
def correlationFromCovariance {n : ℕ} (cov : Matrix (Fin n) (Fin n) ℝ) : Matrix (Fin n) (Fin n) ℝ :=
  let v : Fin n → ℝ := fun i => Real.sqrt (cov i i)
  let outerV : Matrix (Fin n) (Fin n) ℝ := fun i j => v i * v j
  let corr : Matrix (Fin n) (Fin n) ℝ := fun i j => cov i j / outerV i j
  fun i j => if cov i j = 0 then 0 else corr i j

/-- `covariance_from_correlation`, `diffstar/diffstarpop/utils.py` L132-151. -/
def covarianceFromCorrelation {n : ℕ} (corr : Matrix (Fin n) (Fin n) ℝ) (evals : Fin n → ℝ) :
    Matrix (Fin n) (Fin n) ℝ :=
  let D := Matrix.diagonal evals
  (D * corr) * D

/-- `smoothly_clipped_line`, `diffstar/diffstarpop/utils.py` L154-201. `none` is the NaN the code produces for slope
`m = 0` (`x_lo`, `x_hi` are infinite and `xc_lo = -inf + inf` is NaN). Simplification: `none` also stands for `y0 = y_lo`,
where `CLIPPING_K = 20/0` is infinite and the code returns a step function; bounded parameters never have this value, and
no theorem speaks of it. -/
def smoothlyClippedLine (x x0 y0 m yLo yHi : ℝ) : Option ℝ :=
  if m = 0 ∨ y0 = yLo then none
  else
    let xLo := (yLo - y0) / m + x0
    let xHi := (yHi - y0) / m + x0
    let dxLo := x0 - xLo
    let dxHi := xHi - x0
    let epsLo := dxLo / 100
    let epsHi := dxHi / 100
    let xcLo := xLo + epsLo
    let xcHi := xHi - epsHi
    let yLoBound := y0 + m * (xcLo - x0)
    let yHiBound := y0 + m * (xcHi - x0)
    let clippingK := 20 / epsLo
    let yUnclipped := y0 + m * (x - x0)
    let yClippedFromBelow := sigmoid x xcLo clippingK yLoBound yUnclipped
    let yClipped := sigmoid x xcHi clippingK yClippedFromBelow yHiBound
    some yClipped

end

end Diffstar
