import Verif.Lemmas.Sigmoid
import Verif.Model.PopUtils
import Mathlib.Analysis.Complex.ExponentialBounds

/-! Facts about the smoothly clipped line. -/

namespace Diffstar

/-- The clipped line expressed through the unclipped ordinate `Y` only. -/
noncomputable def clipOf (D U y0 Y : ℝ) : ℝ :=
  let L := y0 - 0.99 * D
  let H := y0 + 0.99 * U
  let B := L + (Y - L) * nnSigmoid (2000 / D * (Y - L))
  B + (H - B) * nnSigmoid (2000 / D * (Y - H))

theorem smoothlyClippedLine_eq {x x0 y0 m yLo yHi : ℝ} (hm : m ≠ 0) (hlo : yLo < y0) :
    smoothlyClippedLine x x0 y0 m yLo yHi =
      some (clipOf (y0 - yLo) (yHi - y0) y0 (y0 + m * (x - x0))) := by
  have hD : y0 - yLo ≠ 0 := (sub_pos.2 hlo).ne'
  have hne : ¬ (m = 0 ∨ y0 = yLo) := by
    rintro (h | h)
    · exact hm h
    · exact hlo.ne' h
  simp only [smoothlyClippedLine, if_neg hne, clipOf, sigmoid]
  have e1 : y0 + m * ((yLo - y0) / m + x0 + (x0 - ((yLo - y0) / m + x0)) / 100 - x0) =
      y0 - 0.99 * (y0 - yLo) := by field_simp; ring
  have e2 : y0 + m * ((yHi - y0) / m + x0 - ((yHi - y0) / m + x0 - x0) / 100 - x0) =
      y0 + 0.99 * (yHi - y0) := by field_simp; ring
  have e0 : (x0 - ((yLo - y0) / m + x0)) / 100 = (y0 - yLo) / (100 * m) := by field_simp; ring
  have e3 : 20 / ((x0 - ((yLo - y0) / m + x0)) / 100) *
      (x - ((yLo - y0) / m + x0 + (x0 - ((yLo - y0) / m + x0)) / 100)) =
      2000 / (y0 - yLo) * (y0 + m * (x - x0) - (y0 - 0.99 * (y0 - yLo))) := by
    rw [e0]; field_simp; ring
  have e4 : 20 / ((x0 - ((yLo - y0) / m + x0)) / 100) *
      (x - ((yHi - y0) / m + x0 - ((yHi - y0) / m + x0 - x0) / 100)) =
      2000 / (y0 - yLo) * (y0 + m * (x - x0) - (y0 + 0.99 * (yHi - y0))) := by
    rw [e0]; field_simp; ring
  rw [e1, e2, e3, e4]

theorem clipOf_gt {D U y0 : ℝ} (hD : 0 < D) (hU : 0 < U) (Y : ℝ) : y0 - D < clipOf D U y0 Y := by
  simp only [clipOf]
  set L := y0 - 0.99 * D with hL
  set H := y0 + 0.99 * U with hH
  have hB : L - D / 6000 ≤ L + (Y - L) * nnSigmoid (2000 / D * (Y - L)) := by
    have := mul_nnSigmoid_ge (2000 / D * (Y - L))
    have e : (Y - L) * nnSigmoid (2000 / D * (Y - L)) =
        D / 2000 * (2000 / D * (Y - L) * nnSigmoid (2000 / D * (Y - L))) := by field_simp
    rw [e]
    nlinarith
  set B := L + (Y - L) * nnSigmoid (2000 / D * (Y - L))
  have s0 := nnSigmoid_pos (2000 / D * (Y - H))
  have s1 := nnSigmoid_lt_one (2000 / D * (Y - H))
  have b1 : y0 - D < B := by linarith
  have b2 : y0 - D < H := by linarith
  nlinarith [mul_pos s0 (sub_pos.2 b2), mul_pos (sub_pos.2 s1) (sub_pos.2 b1)]

/-- `z σ(-z) ≤ 0.2816` for every real `z` (the maximum is 0.27846...). -/
theorem mul_nnSigmoid_neg_le_sharp (z : ℝ) : z * nnSigmoid (-z) ≤ 0.2816 := by
  have e1 : 3.59 < Real.exp 1.2816 := by
    have a := Real.exp_one_gt_d9
    have b : (1.3247 : ℝ) ≤ Real.exp 0.2816 := by
      have := Real.sum_le_exp_of_nonneg (x := 0.2816) (by norm_num) 4
      norm_num [Finset.sum_range_succ, Nat.factorial] at this
      linarith
    have c : Real.exp 1.2816 = Real.exp 1 * Real.exp 0.2816 := by rw [← Real.exp_add]; norm_num
    rw [c]
    nlinarith
  have e2 : Real.exp 1.2816 * (z - 0.2816) ≤ Real.exp z := by
    have a := Real.add_one_le_exp (z - 1.2816)
    have c : Real.exp z = Real.exp 1.2816 * Real.exp (z - 1.2816) := by rw [← Real.exp_add]; congr 1; ring
    rw [c]
    exact mul_le_mul_of_nonneg_left (by linarith) (Real.exp_pos _).le
  unfold nnSigmoid
  rw [neg_neg, mul_one_div, div_le_iff₀ (by positivity)]
  rcases le_total z 0.2816 with h | h
  · nlinarith [Real.exp_pos z]
  · nlinarith

theorem clipOf_lt {D U y0 : ℝ} (hD : 0 < D) (hU : 0 < U) (h : D < 71 * U) (Y : ℝ) :
    clipOf D U y0 Y < y0 + U := by
  simp only [clipOf]
  set L := y0 - 0.99 * D with hL
  set H := y0 + 0.99 * U with hH
  have s0 := nnSigmoid_pos (2000 / D * (Y - H))
  have s1 := nnSigmoid_lt_one (2000 / D * (Y - H))
  have t0 := nnSigmoid_pos (2000 / D * (Y - L))
  have t1 := nnSigmoid_lt_one (2000 / D * (Y - L))
  set B := L + (Y - L) * nnSigmoid (2000 / D * (Y - L)) with hBdef
  have e : B + (H - B) * nnSigmoid (2000 / D * (Y - H)) =
      H + (B - H) * nnSigmoid (-(2000 / D * (Y - H))) := by
    rw [nnSigmoid_neg]; ring
  rw [e]
  have p0 := nnSigmoid_pos (-(2000 / D * (Y - H)))
  rcases le_total L Y with hY | hY
  · have hB : B ≤ Y := by
      rw [hBdef]; nlinarith
    have k1 : (B - H) * nnSigmoid (-(2000 / D * (Y - H))) ≤ (Y - H) * nnSigmoid (-(2000 / D * (Y - H))) :=
      mul_le_mul_of_nonneg_right (by linarith) p0.le
    have k2 : (Y - H) * nnSigmoid (-(2000 / D * (Y - H))) =
        D / 2000 * (2000 / D * (Y - H) * nnSigmoid (-(2000 / D * (Y - H)))) := by field_simp
    have k3 := mul_nnSigmoid_neg_le_sharp (2000 / D * (Y - H))
    have k4 : D / 2000 * (2000 / D * (Y - H) * nnSigmoid (-(2000 / D * (Y - H)))) ≤ D / 2000 * 0.2816 :=
      mul_le_mul_of_nonneg_left k3 (by positivity)
    linarith
  · have hB : B ≤ L := by
      rw [hBdef]; nlinarith
    have : (B - H) * nnSigmoid (-(2000 / D * (Y - H))) ≤ 0 :=
      mul_nonpos_of_nonpos_of_nonneg (by linarith) p0.le
    linarith

/-- 1.28 / 20 of a clipping step above the upper knee the clipped line exceeds the upper bound when the
lower interval is at least 72 times wider than the upper one. -/
theorem clipOf_overshoot {D U y0 : ℝ} (hD : 0 < D) (hU : 0 < U) (h : 72 * U ≤ D) :
    y0 + U < clipOf D U y0 (y0 + 0.99 * U + 1.28 * (D / 2000)) := by
  simp only [clipOf]
  set L := y0 - 0.99 * D with hL
  set H := y0 + 0.99 * U with hH
  have w : 2000 / D * (H + 1.28 * (D / 2000) - H) = 1.28 := by field_simp; ring
  rw [w]
  have hz : 2000 / D * (H + 1.28 * (D / 2000) - L) = 1981.28 + 1980 * (U / D) := by
    rw [hL, hH]; field_simp; ring
  set z := 2000 / D * (H + 1.28 * (D / 2000) - L) with hzdef
  have hz1 : 1981 ≤ z := by
    have : 0 < U / D := by positivity
    linarith
  have e : L + (H + 1.28 * (D / 2000) - L) * nnSigmoid z =
      H + 1.28 * (D / 2000) - D / 2000 * (z * nnSigmoid (-z)) := by
    rw [nnSigmoid_neg, hzdef]; field_simp; ring
  have hsmall : z * nnSigmoid (-z) ≤ 0.002 := by
    have hq := exp_ge_quad (z := z) (by linarith)
    unfold nnSigmoid
    rw [neg_neg, mul_one_div, div_le_iff₀ (by positivity)]
    nlinarith
  rw [e]
  set q := z * nnSigmoid (-z)
  have hs : 0.2175 < nnSigmoid (-1.28) := by
    have a := Real.exp_one_lt_d9
    have b : Real.exp 0.28 ≤ 1.3232 := by
      have := Real.exp_bound' (x := 0.28) (by norm_num) (by norm_num) (n := 5) (by norm_num)
      norm_num [Finset.sum_range_succ, Nat.factorial] at this
      linarith
    have c : Real.exp 1.28 = Real.exp 1 * Real.exp 0.28 := by rw [← Real.exp_add]; norm_num
    have d : Real.exp 1.28 < 3.597 := by rw [c]; nlinarith [Real.exp_pos 1]
    unfold nnSigmoid
    rw [neg_neg, lt_div_iff₀ (by positivity)]
    linarith
  have e2 : H + 1.28 * (D / 2000) - D / 2000 * q + (H - (H + 1.28 * (D / 2000) - D / 2000 * q)) * nnSigmoid 1.28 =
      H + D / 2000 * ((1.28 - q) * nnSigmoid (-1.28)) := by rw [nnSigmoid_neg]; ring
  rw [e2]
  have k : 0.2779 ≤ (1.28 - q) * nnSigmoid (-1.28) := by nlinarith [hs]
  have : D / 2000 * 0.2779 ≤ D / 2000 * ((1.28 - q) * nnSigmoid (-1.28)) :=
    mul_le_mul_of_nonneg_left k (by positivity)
  linarith

theorem cov_apply {n : ℕ} (corr : Matrix (Fin n) (Fin n) ℝ) (s : Fin n → ℝ) (i j : Fin n) :
    covarianceFromCorrelation corr s i j = s i * corr i j * s j := by
  simp [covarianceFromCorrelation, Matrix.mul_diagonal, Matrix.diagonal_mul]

end Diffstar
