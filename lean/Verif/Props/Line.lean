import Verif.Lemmas.Line
import Verif.Model.PopUtils
import Mathlib.LinearAlgebra.Matrix.PosDef

/-!
Properties of the clipped line and of the covariance/correlation helpers of `diffstarpop/utils.py`:
C36, C39.
-/

namespace Diffstar.Props

open Matrix

/-! ### C36 -/

/-- **C36** (lower bound, holds for every non-zero slope): the clipped line is defined and strictly above
`y_lo` for every `x`. -/
theorem C36_clipped_line_above_lower_partial (x x0 y0 m yLo yHi : ℝ) (hm : m ≠ 0) (hlo : yLo < y0)
    (hhi : y0 < yHi) :
    ∃ v, smoothlyClippedLine x x0 y0 m yLo yHi = some v ∧ yLo < v := by
  refine ⟨_, smoothlyClippedLine_eq hm hlo, ?_⟩
  have := clipOf_gt (D := y0 - yLo) (U := yHi - y0) (y0 := y0) (by linarith) (by linarith)
    (y0 + m * (x - x0))
  linarith

/-- **C36** (upper bound, the part that holds): the clipped line is strictly below `y_hi` for every `x`
provided `y0` is not too close to the upper bound: `y0 - y_lo < 71 (y_hi - y0)`.
Missing: zero slope and `y0` close to `y_hi`, where the claim is false (next theorems). -/
theorem C36_clipped_line_in_bounds_partial (x x0 y0 m yLo yHi : ℝ) (hm : m ≠ 0) (hlo : yLo < y0)
    (hhi : y0 < yHi) (hroom : y0 - yLo < 71 * (yHi - y0)) :
    ∃ v, smoothlyClippedLine x x0 y0 m yLo yHi = some v ∧ yLo < v ∧ v < yHi := by
  refine ⟨_, smoothlyClippedLine_eq hm hlo, ?_, ?_⟩
  · have := clipOf_gt (D := y0 - yLo) (U := yHi - y0) (y0 := y0) (by linarith) (by linarith)
      (y0 + m * (x - x0))
    linarith
  · have := clipOf_lt (D := y0 - yLo) (U := yHi - y0) (y0 := y0) (by linarith) (by linarith) hroom
      (y0 + m * (x - x0))
    linarith

example : (1 : ℝ) ≠ 0 ∧ (11 : ℝ) < 12 ∧ (12 : ℝ) < 13 ∧ (12 : ℝ) - 11 < 71 * (13 - 12) := by norm_num

/-- **C36** is false near the upper bound: whenever `y0` is at least 72 times closer to `y_hi` than to
`y_lo`, there is an `x` at which the "clipped" line exceeds `y_hi`, for every non-zero slope. -/
theorem C36_clipped_line_upper_violated (x0 y0 m yLo yHi : ℝ) (hm : m ≠ 0) (hlo : yLo < y0)
    (hhi : y0 < yHi) (hclose : 72 * (yHi - y0) ≤ y0 - yLo) :
    ∃ x v, smoothlyClippedLine x x0 y0 m yLo yHi = some v ∧ yHi < v := by
  refine ⟨x0 + (0.99 * (yHi - y0) + 1.28 * ((y0 - yLo) / 2000)) / m, _, smoothlyClippedLine_eq hm hlo, ?_⟩
  have e : y0 + m * (x0 + (0.99 * (yHi - y0) + 1.28 * ((y0 - yLo) / 2000)) / m - x0) =
      y0 + 0.99 * (yHi - y0) + 1.28 * ((y0 - yLo) / 2000) := by field_simp; ring
  rw [e]
  have := clipOf_overshoot (D := y0 - yLo) (U := yHi - y0) (y0 := y0) (by linarith) (by linarith) hclose
  linarith

/-- The shipped Galacticus calibration (`std_uqs_int = 0.999` with bounds `(0.01, 1)`) is in the violating
range. -/
example : (0.01 : ℝ) < 0.999 ∧ (0.999 : ℝ) < 1 ∧ 72 * ((1 : ℝ) - 0.999) ≤ 0.999 - 0.01 := by norm_num

/-- **C36** is false for slope zero: a horizontal line is not returned as such, the result is NaN. -/
theorem C36_clipped_line_flat_violated (x x0 y0 yLo yHi : ℝ) :
    smoothlyClippedLine x x0 y0 0 yLo yHi = none := by
  simp [smoothlyClippedLine]

/-! ### C39 -/

/-- **C39** (round trip from correlations): with a unit-diagonal matrix and positive standard deviations,
converting to a covariance and back returns the matrix; the covariance has diagonal `s ** 2`. -/
theorem C39_correlation_round_trip {n : ℕ} (corr : Matrix (Fin n) (Fin n) ℝ) (s : Fin n → ℝ)
    (h1 : ∀ i, corr i i = 1) (hs : ∀ i, 0 < s i) :
    correlationFromCovariance (covarianceFromCorrelation corr s) = corr ∧
    ∀ i, covarianceFromCorrelation corr s i i = s i ^ 2 := by
  have hd : ∀ i, covarianceFromCorrelation corr s i i = s i ^ 2 := by
    intro i; rw [cov_apply, h1]; ring
  refine ⟨?_, hd⟩
  ext i j
  simp only [correlationFromCovariance, hd, Real.sqrt_sq (hs _).le]
  rw [cov_apply]
  have hi := (hs i).ne'
  have hj := (hs j).ne'
  split_ifs with h
  · rcases mul_eq_zero.1 h with h | h
    · rcases mul_eq_zero.1 h with h | h
      · exact absurd h hi
      · exact h.symm
    · exact absurd h hj
  · field_simp

/-- **C39** (round trip from covariances): for a matrix with positive diagonal, converting to correlations
and back with the square roots of the diagonal recovers it; the correlation matrix has unit diagonal. -/
theorem C39_covariance_round_trip {n : ℕ} (cov : Matrix (Fin n) (Fin n) ℝ) (hd : ∀ i, 0 < cov i i) :
    covarianceFromCorrelation (correlationFromCovariance cov) (fun i => Real.sqrt (cov i i)) = cov ∧
    ∀ i, correlationFromCovariance cov i i = 1 := by
  constructor
  · ext i j
    rw [cov_apply]
    simp only [correlationFromCovariance]
    have hi := (Real.sqrt_pos.2 (hd i)).ne'
    have hj := (Real.sqrt_pos.2 (hd j)).ne'
    split_ifs with h
    · rw [h]; ring
    · field_simp
  · intro i
    simp only [correlationFromCovariance]
    rw [if_neg (hd i).ne', Real.mul_self_sqrt (hd i).le, div_self (hd i).ne']

/-- **C39** (validity): symmetry, positive semi-definiteness and (for positive deviations) positive
definiteness of the correlation matrix carry over to the covariance. -/
theorem C39_covariance_valid {n : ℕ} (corr : Matrix (Fin n) (Fin n) ℝ) (s : Fin n → ℝ) :
    (corr.IsSymm → (covarianceFromCorrelation corr s).IsSymm) ∧
    (corr.PosSemidef → (covarianceFromCorrelation corr s).PosSemidef) ∧
    (corr.PosDef → (∀ i, 0 < s i) → (covarianceFromCorrelation corr s).PosDef) := by
  have hD : (Matrix.diagonal s)ᴴ = Matrix.diagonal s := by
    simp
  refine ⟨?_, ?_, ?_⟩
  · intro h
    ext i j
    rw [Matrix.transpose_apply, cov_apply, cov_apply, h.apply]
    ring
  · intro h
    have := h.mul_mul_conjTranspose_same (Matrix.diagonal s)
    rwa [hD] at this
  · intro h hs
    have hinj : Function.Injective (Matrix.diagonal s).vecMul := by
      intro v w hvw
      ext i
      have := congrFun hvw i
      simp only [Matrix.vecMul_diagonal] at this
      exact mul_right_cancel₀ (hs i).ne' this
    have := h.mul_mul_conjTranspose_same hinj
    rwa [hD] at this

/-- **C39** (range): the correlations of a positive semi-definite covariance with positive diagonal lie in
`[-1, 1]`. -/
theorem C39_correlations_in_range {n : ℕ} (cov : Matrix (Fin n) (Fin n) ℝ) (hp : cov.PosSemidef)
    (hd : ∀ i, 0 < cov i i) (i j : Fin n) :
    -1 ≤ correlationFromCovariance cov i j ∧ correlationFromCovariance cov i j ≤ 1 := by
  have hsym : cov j i = cov i j := by simpa using congrFun (congrFun hp.isHermitian.eq i) j
  have hvi := Real.sqrt_pos.2 (hd i)
  have hvj := Real.sqrt_pos.2 (hd j)
  have hquad : ∀ ε : ℝ, ε ^ 2 = 1 → 0 ≤ 2 + 2 * ε * correlationFromCovariance cov i j := by
    intro ε hε
    have hcorr : correlationFromCovariance cov i j * (Real.sqrt (cov i i) * Real.sqrt (cov j j)) = cov i j := by
      have := congrFun (congrFun (C39_covariance_round_trip cov hd).1 i) j
      rw [cov_apply] at this
      linarith
    have q := hp.dotProduct_mulVec_nonneg (Pi.single i (1 / Real.sqrt (cov i i)) + Pi.single j (ε / Real.sqrt (cov j j)))
    have e1 : (1 / Real.sqrt (cov i i)) ^ 2 * cov i i = 1 := by
      rw [div_pow, Real.sq_sqrt (hd i).le]; field_simp [(hd i).ne']
    have e2 : (ε / Real.sqrt (cov j j)) ^ 2 * cov j j = 1 := by
      rw [div_pow, Real.sq_sqrt (hd j).le, hε]; field_simp [(hd j).ne']
    simp only [star_trivial, Matrix.mulVec_add, add_dotProduct, dotProduct_add,
      single_dotProduct, Matrix.mulVec_single, op_smul_eq_mul, Pi.smul_apply,
      Matrix.col_apply] at q
    rw [hsym, ← hcorr] at q
    have e3 : 1 / Real.sqrt (cov i i) * (ε / Real.sqrt (cov j j) *
        (correlationFromCovariance cov i j * (Real.sqrt (cov i i) * Real.sqrt (cov j j)))) =
        ε * correlationFromCovariance cov i j := by
      field_simp
    set c := correlationFromCovariance cov i j
    linarith [q, e1, e2, e3]
  have h1 := hquad 1 (by norm_num)
  have h2 := hquad (-1) (by norm_num)
  constructor <;> linarith

example : ∃ corr : Matrix (Fin 2) (Fin 2) ℝ, (∀ i, corr i i = 1) ∧ corr 0 1 = 0.5 :=
  ⟨!![1, 0.5; 0.5, 1], by intro i; fin_cases i <;> simp, by simp⟩

end Diffstar.Props
