import Verif.Props.RoundDrawSfr

/-! Sharper rounding errors of the bounding transform, for C158. -/

namespace Diffstar.Props

open Diffstar Diffstar.Spec

/-- A relative error of the argument hardly changes a sigmoid. -/
theorem sigma_arg_sharp {z z' : ℝ} (h : |z' - z| ≤ 2 / 10 ^ 7 * |z|) : |1 / (1 + Real.exp (-z')) - 1 / (1 + Real.exp (-z))| ≤ 7.4 / 10 ^ 8 := by
  have hd : ∀ x, 0.99 * |z| ≤ |x| → Real.sigmoid x * (1 - Real.sigmoid x) ≤ 1 / (4 + 0.49 * z ^ 2) := by
    intro x hx
    have hx2 : 0.98 * z ^ 2 ≤ x ^ 2 := by
      have := mul_self_le_mul_self (by positivity) hx
      rw [abs_mul_abs_self] at this
      have e := abs_mul_abs_self z
      nlinarith
    have hc : 2 + x ^ 2 / 2 ≤ Real.exp x + Real.exp (-x) := by
      rcases le_total 0 x with h0 | h0
      · have h1 := Real.quadratic_le_exp_of_nonneg h0
        have h2 := Real.add_one_le_exp (-x)
        linarith
      · have h1 := Real.quadratic_le_exp_of_nonneg (neg_nonneg.2 h0)
        have h2 := Real.add_one_le_exp x
        nlinarith
    have e : Real.sigmoid x * (1 - Real.sigmoid x) = 1 / (2 + (Real.exp x + Real.exp (-x))) := by
      rw [Real.sigmoid_def, Real.exp_neg]
      have := Real.exp_pos x
      field_simp
      ring
    rw [e]
    exact one_div_le_one_div_of_le (by positivity) (by linarith)
  have key := Convex.norm_image_sub_le_of_norm_deriv_le (f := Real.sigmoid) (C := 1 / (4 + 0.49 * z ^ 2)) (s := Set.uIcc z z') (x := z) (y := z')
    (fun x _ => differentiableAt_sigmoid) (fun x hx => by
      rw [Real.deriv_sigmoid, Real.norm_eq_abs, abs_of_nonneg (mul_nonneg (Real.sigmoid_nonneg x) (by linarith [Real.sigmoid_le_one x]))]
      refine hd x ?_
      have h1 := Set.abs_sub_left_of_mem_uIcc hx
      have h2 := abs_sub_abs_le_abs_sub z x
      rw [abs_sub_comm] at h2
      norm_num at h
      linarith [abs_nonneg z]) (convex_uIcc _ _) Set.left_mem_uIcc Set.right_mem_uIcc
  simp only [Real.norm_eq_abs, Real.sigmoid_def, ← one_div] at key
  refine key.trans ((mul_le_mul_of_nonneg_left h (by positivity)).trans ?_)
  rw [one_div, inv_mul_le_iff₀ (by positivity), ← sq_abs z]
  generalize |z| = y
  norm_num
  nlinarith [sq_nonneg (y - 2.857)]

/-- Error of the rounded logistic function. -/
theorem nnSigmoidFl_sharp {exp : ℝ → ℝ} (hexp : ∀ x, |exp x - Real.exp x| ≤ 5 / 10 ^ 7 * Real.exp x) (x : ℝ) :
    |float32.nnSigmoid exp x - 1 / (1 + Real.exp (-x))| ≤ 2.6 / 10 ^ 7 := by
  have hE := Real.exp_pos (-x)
  have h1 := abs_le.1 (hexp (-x))
  unfold Rounding.nnSigmoid
  generalize exp (-x) = E' at *
  generalize Real.exp (-x) = E at *
  have hE' : 0 < E' := by norm_num at h1; linarith
  have hu : float32.u = 2 ^ (-24 : ℤ) := rfl
  have r1 := float32.err (1 + E')
  generalize float32.fl (1 + E') = d at *
  rw [hu, abs_of_pos (by positivity : 0 < 1 + E'), abs_le] at r1
  have d0 : 0 < d := by norm_num at r1; linarith
  have r2 := float32.err (1 / d)
  rw [hu, abs_of_pos (by positivity : 0 < 1 / d)] at r2
  have a1 : |1 / (1 + E') - 1 / (1 + E)| ≤ 1.251 / 10 ^ 7 := by
    rw [div_sub_div _ _ (by positivity) (by positivity), abs_div, abs_of_pos (by positivity : 0 < (1 + E') * (1 + E)), div_le_iff₀ (by positivity),
      one_mul, mul_one, add_sub_add_left_eq_sub, abs_sub_comm]
    have : |E' - E| ≤ 5 / 10 ^ 7 * E := abs_le.2 h1
    refine this.trans ?_
    norm_num at h1 ⊢
    nlinarith [sq_nonneg (E - 1)]
  have rr : 1 / (1 + E') ≤ 1 := by rw [div_le_one (by positivity)]; linarith
  have a2 : |1 / d - 1 / (1 + E')| ≤ 6 / 10 ^ 8 := by
    rw [div_sub_div _ _ (by positivity) (by positivity), abs_div, abs_of_pos (by positivity : 0 < d * (1 + E')), div_le_iff₀ (by positivity), abs_le]
    norm_num at r1 ⊢
    constructor <;> nlinarith
  have a3 : 1 / d ≤ 1.001 := by rw [div_le_iff₀ d0]; norm_num at r1 ⊢; linarith
  have e1 := abs_sub_le (float32.fl (1 / d)) (1 / d) (1 / (1 + E))
  have e2 := abs_sub_le (1 / d) (1 / (1 + E')) (1 / (1 + E))
  have a4 : |float32.fl (1 / d) - 1 / d| ≤ 6 / 10 ^ 8 := r2.trans (by norm_num at a3 ⊢; linarith)
  norm_num at a1 a2 a4 e1 e2 ⊢
  linarith

/-- Error of a bounding sigmoid whose constants are rounded and whose limits have errors. -/
theorem boundFl_sharp {exp : ℝ → ℝ} (hexp : ∀ x, |exp x - Real.exp x| ≤ 5 / 10 ^ 7 * Real.exp x) {x x0 k lo hi lo' hi' b D B X : ℝ} (hx0 : |x0| ≤ X)
    (hk : 0 < k) (hlo : |lo' - lo| ≤ b) (hhi : |hi' - hi| ≤ b) (hB : |lo'| ≤ B) (hB' : |hi'| ≤ B) (hD : |hi' - lo'| ≤ D) :
    |float32.sigmoid exp x (float32.fl x0) (float32.fl k) lo' hi' - sigmoid x x0 k lo hi| ≤
      b + D * (5.4 / 10 ^ 7 + k * X * (1.51 / 10 ^ 8)) + 6 / 10 ^ 8 * B := by
  have hu : float32.u = 2 ^ (-24 : ℤ) := rfl
  have er : ∀ y, |float32.fl y - y| ≤ 5.97 / 10 ^ 8 * |y| := fun y => (float32.err y).trans (mul_le_mul_of_nonneg_right (by rw [hu]; norm_num) (abs_nonneg y))
  have r0 : |float32.fl x0 - x0| ≤ 5.97 / 10 ^ 8 * X := (er x0).trans (mul_le_mul_of_nonneg_left hx0 (by norm_num))
  have rk := er k
  rw [abs_of_pos hk] at rk
  unfold Rounding.sigmoid
  dsimp only
  generalize float32.fl x0 = x0' at *
  generalize float32.fl k = k' at *
  have hk' : 0 < k' := by have := (abs_le.1 rk).1; norm_num at this; linarith
  have hz : |float32.fl (k' * float32.fl (x - x0')) - k * (x - x0')| ≤ 2 / 10 ^ 7 * |k * (x - x0')| := by
    have h1 := er (k' * float32.fl (x - x0'))
    have h2 := er (x - x0')
    generalize float32.fl (x - x0') = y at *
    generalize x - x0' = w at *
    have h3 : |k' * y - k * w| ≤ 1.195 / 10 ^ 7 * |k * w| := by
      have e : k' * y - k * w = (k' - k) * y + k * (y - w) := by ring
      rw [e]
      have f1 := abs_add_le ((k' - k) * y) (k * (y - w))
      have f2 : |y| ≤ 1.0001 * |w| := by
        have := abs_sub_abs_le_abs_sub y w
        norm_num at h2 ⊢
        linarith [abs_nonneg w]
      rw [abs_mul, abs_mul, abs_of_pos hk] at f1
      have f3 := mul_le_mul rk f2 (abs_nonneg y) (by positivity)
      have f4 := mul_le_mul_of_nonneg_left h2 hk.le
      rw [abs_mul, abs_of_pos hk]
      have := mul_nonneg hk.le (abs_nonneg w)
      norm_num at *
      linarith
    have h4 := abs_sub_le (float32.fl (k' * y)) (k' * y) (k * w)
    have h5 := abs_sub_abs_le_abs_sub (k' * y) (k * w)
    have := abs_nonneg (k * w)
    norm_num at *
    linarith
  have hs := nnSigmoidFl_sharp hexp (float32.fl (k' * float32.fl (x - x0')))
  have hs1 := nnSigmoidFl_unit float32 exp (fun x => accurate_nonneg hexp x) (float32.fl (k' * float32.fl (x - x0')))
  have hs2 := sigma_arg_sharp hz
  have hs3 := sigma_quarter (k * (x - x0')) (k * (x - x0))
  have hs4 : |k * (x - x0') - k * (x - x0)| ≤ k * (5.97 / 10 ^ 8 * X) := by
    rw [← mul_sub, abs_mul, abs_of_pos hk, sub_sub_sub_cancel_left, abs_sub_comm]
    exact mul_le_mul_of_nonneg_left r0 hk.le
  have hs5 : 0 ≤ 1 / (1 + Real.exp (-(k * (x - x0)))) ∧ 1 / (1 + Real.exp (-(k * (x - x0)))) ≤ 1 := by
    have := Real.exp_pos (-(k * (x - x0)))
    exact ⟨by positivity, by rw [div_le_one (by positivity)]; linarith⟩
  have e2 : sigmoid x x0 k lo hi = lo + (hi - lo) * (1 / (1 + Real.exp (-(k * (x - x0))))) := by
    simp only [sigmoid, nnSigmoid]
  rw [e2]
  generalize float32.fl (k' * float32.fl (x - x0')) = z' at *
  generalize float32.nnSigmoid exp z' = s at *
  generalize 1 / (1 + Real.exp (-z')) = s1 at *
  generalize 1 / (1 + Real.exp (-(k * (x - x0')))) = s2 at *
  generalize 1 / (1 + Real.exp (-(k * (x - x0)))) = s3 at *
  have hD0 : 0 ≤ D := (abs_nonneg _).trans hD
  have hB0 : 0 ≤ B := (abs_nonneg _).trans hB
  have hX0 : 0 ≤ k * X := mul_nonneg hk.le ((abs_nonneg _).trans hx0)
  have g : |s - s3| ≤ 3.34 / 10 ^ 7 + k * X * (1.5 / 10 ^ 8) := by
    have := abs_sub_le s s1 s3
    have := abs_sub_le s1 s2 s3
    norm_num at *
    nlinarith
  have a1 := (er (hi' - lo')).trans (mul_le_mul_of_nonneg_left hD (by norm_num))
  generalize float32.fl (hi' - lo') = h at *
  have hh : |h| ≤ 1.0000001 * D := by
    have := abs_sub_abs_le_abs_sub h (hi' - lo')
    norm_num at *
    linarith
  have a2' : |h * s| ≤ 1.0000001 * D := by
    rw [abs_mul, abs_of_nonneg hs1.1]
    exact (mul_le_of_le_one_right (abs_nonneg _) hs1.2).trans hh
  have a2 := (er (h * s)).trans (mul_le_mul_of_nonneg_left a2' (by norm_num))
  generalize float32.fl (h * s) = w at *
  have a4 : |h * s - (hi' - lo') * s| ≤ 5.97 / 10 ^ 8 * D := by
    rw [← sub_mul, abs_mul, abs_of_nonneg hs1.1]
    exact (mul_le_of_le_one_right (abs_nonneg _) hs1.2).trans a1
  have a5 : |lo' + (hi' - lo') * s| ≤ B := mix_abs hB hB' hs1.1 hs1.2
  have a6 : |lo' + w - (lo' + (hi' - lo') * s)| ≤ 1.2 / 10 ^ 7 * D := by
    rw [add_sub_add_left_eq_sub]
    have := abs_sub_le w (h * s) ((hi' - lo') * s)
    norm_num at *
    linarith
  have a7 : |lo' + w| ≤ B + 1.2 / 10 ^ 7 * D := by
    have := abs_sub_abs_le_abs_sub (lo' + w) (lo' + (hi' - lo') * s)
    linarith
  have a8 := (er (lo' + w)).trans (mul_le_mul_of_nonneg_left a7 (by norm_num))
  have a9 : |lo' + (hi' - lo') * s - (lo' + (hi' - lo') * s3)| ≤ D * (3.34 / 10 ^ 7 + k * X * (1.5 / 10 ^ 8)) := by
    rw [add_sub_add_left_eq_sub, ← mul_sub, abs_mul]
    exact mul_le_mul hD g (abs_nonneg _) hD0
  have a10 : |lo' + (hi' - lo') * s3 - (lo + (hi - lo) * s3)| ≤ b := by
    have e : lo' + (hi' - lo') * s3 - (lo + (hi - lo) * s3) = (lo' - lo) + ((hi' - hi) - (lo' - lo)) * s3 := by ring
    rw [e]
    exact mix_abs hlo hhi hs5.1 hs5.2
  have b1 := abs_sub_le (float32.fl (lo' + w)) (lo' + w) (lo + (hi - lo) * s3)
  have b2 := abs_sub_le (lo' + w) (lo' + (hi' - lo') * s) (lo + (hi - lo) * s3)
  have b3 := abs_sub_le (lo' + (hi' - lo') * s) (lo' + (hi' - lo') * s3) (lo + (hi - lo) * s3)
  have hDX := mul_nonneg hD0 hX0
  rw [mul_add] at a9 ⊢
  norm_num at *
  linarith

/-- Rounding errors of the bounded parameters, for all unbounded parameters. -/
theorem boundedFl_sharp {exp : ℝ → ℝ} (hexp : ∀ x, |exp x - Real.exp x| ≤ 5 / 10 ^ 7 * Real.exp x) (v : DiffstarParams ℝ) :
    let q' := float32.getBoundedDiffstarParams exp v
    let q := getBoundedDiffstarParams v
    |q'.lgmcrit - q.lgmcrit| ≤ 6 / 10 ^ 6 ∧ |q'.lgyAtMcrit - q.lgyAtMcrit| ≤ 6 / 10 ^ 6 ∧ |q'.indxLo - q.indxLo| ≤ 6 / 10 ^ 6 ∧
    |q'.indxHi - q.indxHi| ≤ 6 / 10 ^ 6 ∧ |q'.lgQt - q.lgQt| ≤ 1.5 / 10 ^ 6 ∧ |q'.qlglgdt - q.qlglgdt| ≤ 6 / 10 ^ 6 ∧
    |q'.lgDrop - q.lgDrop| ≤ 6 / 10 ^ 6 ∧ |q'.lgRejuv - q.lgRejuv| ≤ 12 / 10 ^ 6 := by
  intro q' q
  have hu : float32.u = 2 ^ (-24 : ℤ) := rfl
  have er : ∀ {y B : ℝ}, |y| ≤ B → |float32.fl y - y| ≤ 6 / 10 ^ 8 * B := fun {y B} h =>
    (float32.err y).trans (mul_le_mul (by rw [hu]; norm_num) h (abs_nonneg y) (by norm_num))
  have go : ∀ {x x0 k lo hi X B D : ℝ}, |x0| ≤ X → 0 < k → |lo| ≤ B → |hi| ≤ B → |hi - lo| ≤ D →
      |float32.sigmoidB exp x (x0, k, lo, hi) - sigmoid x x0 k lo hi| ≤
        6 / 10 ^ 8 * B + (D + 1.2 / 10 ^ 7 * B) * (5.4 / 10 ^ 7 + k * X * (1.51 / 10 ^ 8)) + 6 / 10 ^ 8 * (1.001 * B) := by
    intro x x0 k lo hi X B D h1 h2 h3 h4 h5
    have e1 := er h3
    have e2 := er h4
    have B0 := (abs_nonneg _).trans h3
    have f1 := abs_sub_abs_le_abs_sub (float32.fl lo) lo
    have f2 := abs_sub_abs_le_abs_sub (float32.fl hi) hi
    refine boundFl_sharp hexp h1 h2 e1 e2 (B := 1.001 * B) (D := D + 1.2 / 10 ^ 7 * B) (by norm_num at *; linarith) (by norm_num at *; linarith) ?_
    have g := abs_add_three (float32.fl hi - hi) (hi - lo) (lo - float32.fl lo)
    rw [abs_sub_comm lo, show float32.fl hi - hi + (hi - lo) + (lo - float32.fl lo) = float32.fl hi - float32.fl lo by ring] at g
    norm_num at *
    linarith
  have m0 : MS_BOUNDING_SIGMOID.lgmcrit = (11.25, 4 / 4.5, 9, 13.5) := by
    simp only [MS_BOUNDING_SIGMOID, calculateSigmoidBounds, MS_PARAM_BOUNDS]; norm_num [abs_of_pos]
  have m1 : MS_BOUNDING_SIGMOID.lgyAtMcrit = (-10, 1, -12, -8) := by
    simp only [MS_BOUNDING_SIGMOID, calculateSigmoidBounds, MS_PARAM_BOUNDS]; norm_num [abs_of_pos]
  have m2 : MS_BOUNDING_SIGMOID.indxLo = (2.5, 0.8, 0, 5) := by
    simp only [MS_BOUNDING_SIGMOID, calculateSigmoidBounds, MS_PARAM_BOUNDS]; norm_num [abs_of_pos]
  have m3 : MS_BOUNDING_SIGMOID.indxHi = (-2.5, 0.8, -5, 0) := by
    simp only [MS_BOUNDING_SIGMOID, calculateSigmoidBounds, MS_PARAM_BOUNDS]; norm_num [abs_of_pos]
  have m4 : Q_BOUNDING_SIGMOID.lgQt = (1.05, 4 / 1.9, 0.1, 2) := by
    simp only [Q_BOUNDING_SIGMOID, calculateSigmoidBounds, Q_PARAM_BOUNDS]; norm_num [abs_of_pos]
  have m5 : Q_BOUNDING_SIGMOID.qlglgdt = (-1.505, 4 / 2.99, -3, -0.01) := by
    simp only [Q_BOUNDING_SIGMOID, calculateSigmoidBounds, Q_PARAM_BOUNDS]; norm_num [abs_of_pos]
  have m6 : Q_BOUNDING_SIGMOID.lgDrop = (-1.5, 4 / 3, -3, 0) := by
    simp only [Q_BOUNDING_SIGMOID, calculateSigmoidBounds, Q_PARAM_BOUNDS]; norm_num [abs_of_pos]
  have m7 : Q_BOUNDING_SIGMOID.lgRejuv.1 = -1.5 ∧ Q_BOUNDING_SIGMOID.lgRejuv.2.1 = 4 / 3 ∧ Q_BOUNDING_SIGMOID.lgRejuv.2.2.2 = 0 := by
    simp only [Q_BOUNDING_SIGMOID, calculateSigmoidBounds, Q_PARAM_BOUNDS]; norm_num [abs_of_pos]
  have hd : |q'.lgDrop - q.lgDrop| ≤ 6 / 10 ^ 6 := by
    simp only [q, bounded_eq]
    show |float32.sigmoidB exp v.lgDrop Q_BOUNDING_SIGMOID.lgDrop - _| ≤ _
    rw [m6]
    exact (go (X := 1.5) (B := 3) (D := 3) (by norm_num [abs_le]) (by norm_num) (by norm_num) (by norm_num) (by norm_num)).trans (by norm_num)
  have hdr := (C01_bounded_params_in_bounds v).lgDrop
  refine ⟨?_, ?_, ?_, ?_, ?_, ?_, hd, ?_⟩
  · simp only [q, bounded_eq]
    show |float32.sigmoidB exp v.lgmcrit MS_BOUNDING_SIGMOID.lgmcrit - _| ≤ _
    rw [m0]
    exact (go (X := 11.25) (B := 13.5) (D := 4.5) (by norm_num) (by norm_num) (by norm_num) (by norm_num) (by norm_num)).trans (by norm_num)
  · simp only [q, bounded_eq]
    show |float32.sigmoidB exp v.lgyAtMcrit MS_BOUNDING_SIGMOID.lgyAtMcrit - _| ≤ _
    rw [m1]
    exact (go (X := 10) (B := 12) (D := 4) (by norm_num) (by norm_num) (by norm_num) (by norm_num) (by norm_num)).trans (by norm_num)
  · simp only [q, bounded_eq]
    show |float32.sigmoidB exp v.indxLo MS_BOUNDING_SIGMOID.indxLo - _| ≤ _
    rw [m2]
    exact (go (X := 2.5) (B := 5) (D := 5) (by norm_num) (by norm_num) (by norm_num) (by norm_num) (by norm_num)).trans (by norm_num)
  · simp only [q, bounded_eq]
    show |float32.sigmoidB exp v.indxHi MS_BOUNDING_SIGMOID.indxHi - _| ≤ _
    rw [m3]
    exact (go (X := 2.5) (B := 5) (D := 5) (by norm_num [abs_le]) (by norm_num) (by norm_num) (by norm_num) (by norm_num)).trans (by norm_num)
  · simp only [q, bounded_eq]
    show |float32.sigmoidB exp v.lgQt Q_BOUNDING_SIGMOID.lgQt - _| ≤ _
    rw [m4]
    exact (go (X := 1.05) (B := 2) (D := 1.9) (by norm_num [abs_le]) (by norm_num) (by norm_num [abs_le]) (by norm_num) (by norm_num [abs_le])).trans (by norm_num)
  · simp only [q, bounded_eq]
    show |float32.sigmoidB exp v.qlglgdt Q_BOUNDING_SIGMOID.qlglgdt - _| ≤ _
    rw [m5]
    exact (go (X := 1.505) (B := 3) (D := 2.99) (by norm_num [abs_le]) (by norm_num) (by norm_num [abs_le]) (by norm_num [abs_le])
      (by norm_num [abs_le])).trans (by norm_num)
  · have e : q.lgRejuv = sigmoid v.lgRejuv (-1.5) (4 / 3) q.lgDrop 0 := by
      simp only [q, bounded_eq]
    rw [e]
    show |float32.sigmoid exp v.lgRejuv (float32.fl Q_BOUNDING_SIGMOID.lgRejuv.1) (float32.fl Q_BOUNDING_SIGMOID.lgRejuv.2.1) q'.lgDrop
      (float32.fl Q_BOUNDING_SIGMOID.lgRejuv.2.2.2) - _| ≤ _
    rw [m7.1, m7.2.1, m7.2.2, float32.fl_zero]
    have l := abs_le.1 hd
    have l1 : -3 < q.lgDrop ∧ q.lgDrop < 0 := hdr
    refine (boundFl_sharp hexp (X := 1.5) (b := 6 / 10 ^ 6) (B := 3.1) (D := 3.1) (by norm_num [abs_le]) (by norm_num) hd (by norm_num) ?_ (by norm_num)
      ?_).trans (by norm_num)
    · rw [abs_le]; norm_num at l ⊢; constructor <;> linarith [l.1, l.2, l1.1, l1.2]
    · rw [abs_le]; norm_num at l ⊢; constructor <;> linarith [l.1, l.2, l1.1, l1.2]

end Diffstar.Props
