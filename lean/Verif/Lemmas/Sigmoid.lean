import Verif.Model.Utils
import Mathlib.Analysis.SpecialFunctions.Exp

/-! Facts about the logistic function and the package's `_sigmoid`/`_inverse_sigmoid`. -/

namespace Diffstar

theorem one_add_exp_pos (x : ℝ) : 0 < 1 + Real.exp x := by positivity

theorem nnSigmoid_pos (x : ℝ) : 0 < nnSigmoid x := by
  unfold nnSigmoid; positivity

theorem nnSigmoid_lt_one (x : ℝ) : nnSigmoid x < 1 := by
  unfold nnSigmoid
  rw [div_lt_one (one_add_exp_pos _)]
  linarith [Real.exp_pos (-x)]

theorem nnSigmoid_zero : nnSigmoid 0 = 1 / 2 := by
  unfold nnSigmoid; norm_num

theorem nnSigmoid_strictMono : StrictMono nnSigmoid := by
  intro a b hab
  unfold nnSigmoid
  apply one_div_lt_one_div_of_lt (one_add_exp_pos _)
  have : Real.exp (-b) < Real.exp (-a) := Real.exp_lt_exp.2 (by linarith)
  linarith

theorem nnSigmoid_neg (x : ℝ) : nnSigmoid (-x) = 1 - nnSigmoid x := by
  unfold nnSigmoid
  have h : Real.exp (-x) * Real.exp x = 1 := by rw [← Real.exp_add]; simp
  have h1 := one_add_exp_pos x
  have h2 := one_add_exp_pos (-x)
  rw [neg_neg]
  field_simp
  nlinarith

theorem nnSigmoid_continuous : Continuous nnSigmoid := by
  unfold nnSigmoid
  apply Continuous.div continuous_const
  · fun_prop
  · intro x; exact (one_add_exp_pos _).ne'

theorem one_div_nnSigmoid_sub_one (x : ℝ) : 1 / nnSigmoid x - 1 = Real.exp (-x) := by
  unfold nnSigmoid; rw [one_div_one_div]; ring

theorem exp_ge_quad {z : ℝ} (hz : 0 ≤ z) : 1 + z + z ^ 2 / 2 ≤ Real.exp z :=
  Real.quadratic_le_exp_of_nonneg hz

/-- `z σ(-z) ≤ 1/3` for every real `z`. -/
theorem mul_nnSigmoid_neg_le (z : ℝ) : z * nnSigmoid (-z) ≤ 1 / 3 := by
  rcases le_total z 0 with hz | hz
  · have := nnSigmoid_pos (-z)
    nlinarith [mul_nonneg (neg_nonneg.2 hz) this.le]
  · unfold nnSigmoid
    rw [neg_neg, mul_one_div, div_le_div_iff₀ (one_add_exp_pos _) (by norm_num)]
    have := exp_ge_quad hz
    nlinarith [sq_nonneg (z - 2)]

/-- `z σ(z) ≥ -1/3` for every real `z`. -/
theorem mul_nnSigmoid_ge (z : ℝ) : -(1 / 3) ≤ z * nnSigmoid z := by
  have := mul_nnSigmoid_neg_le (-z)
  rw [neg_neg] at this
  linarith

theorem sigmoid_gt {x x0 k ymin ymax : ℝ} (h : ymin < ymax) : ymin < sigmoid x x0 k ymin ymax := by
  unfold sigmoid
  have := mul_pos (sub_pos.2 h) (nnSigmoid_pos (k * (x - x0)))
  simp only
  linarith

theorem sigmoid_lt {x x0 k ymin ymax : ℝ} (h : ymin < ymax) : sigmoid x x0 k ymin ymax < ymax := by
  unfold sigmoid
  have := mul_lt_mul_of_pos_left (nnSigmoid_lt_one (k * (x - x0))) (sub_pos.2 h)
  simp only
  linarith

theorem sigmoid_gt' {x x0 k ymin ymax : ℝ} (h : ymax < ymin) : ymax < sigmoid x x0 k ymin ymax := by
  unfold sigmoid
  have := mul_lt_mul_of_pos_left (nnSigmoid_lt_one (k * (x - x0))) (sub_pos.2 h)
  simp only
  linarith

theorem sigmoid_lt' {x x0 k ymin ymax : ℝ} (h : ymax < ymin) : sigmoid x x0 k ymin ymax < ymin := by
  unfold sigmoid
  have := mul_pos (sub_pos.2 h) (nnSigmoid_pos (k * (x - x0)))
  simp only
  linarith

theorem sigmoid_strictMono {x0 k ymin ymax : ℝ} (hk : 0 < k) (h : ymin < ymax) :
    StrictMono fun x => sigmoid x x0 k ymin ymax := by
  intro a b hab
  have h1 : k * (a - x0) < k * (b - x0) := mul_lt_mul_of_pos_left (by linarith) hk
  have h2 := mul_lt_mul_of_pos_left (nnSigmoid_strictMono h1) (sub_pos.2 h)
  simp only [sigmoid]
  linarith

theorem sigmoid_mono {x0 k ymin ymax : ℝ} (hk : 0 ≤ k) (h : ymin ≤ ymax) :
    Monotone fun x => sigmoid x x0 k ymin ymax := by
  intro a b hab
  have h1 : k * (a - x0) ≤ k * (b - x0) := mul_le_mul_of_nonneg_left (by linarith) hk
  have h2 := mul_le_mul_of_nonneg_left (nnSigmoid_strictMono.monotone h1) (sub_nonneg.2 h)
  simp only [sigmoid]
  linarith

/-- The sigmoid is increasing in its lower asymptote. -/
theorem sigmoid_strictMono_ymin {x x0 k ymin ymin' ymax : ℝ} (h : ymin < ymin') :
    sigmoid x x0 k ymin ymax < sigmoid x x0 k ymin' ymax := by
  have h1 := nnSigmoid_lt_one (k * (x - x0))
  simp only [sigmoid]
  nlinarith [mul_pos (sub_pos.2 h) (sub_pos.2 h1)]

theorem sigmoid_continuous {x0 k ymin ymax : ℝ} :
    Continuous fun x => sigmoid x x0 k ymin ymax := by
  simp only [sigmoid]
  have := nnSigmoid_continuous
  fun_prop

theorem inverseSigmoid_sigmoid {x x0 k ymin ymax : ℝ} (hk : k ≠ 0) (h : ymin ≠ ymax) :
    inverseSigmoid (sigmoid x x0 k ymin ymax) x0 k ymin ymax = x := by
  have h0 : ymax - ymin ≠ 0 := sub_ne_zero.2 (Ne.symm h)
  have hs := (nnSigmoid_pos (k * (x - x0))).ne'
  have e : (ymax - ymin) / (sigmoid x x0 k ymin ymax - ymin) - 1 = Real.exp (-(k * (x - x0))) := by
    rw [← one_div_nnSigmoid_sub_one]
    simp only [sigmoid]
    field_simp
    ring
  simp only [inverseSigmoid, e, Real.log_exp]
  field_simp
  ring

theorem sigmoid_inverseSigmoid {y x0 k ymin ymax : ℝ} (hk : k ≠ 0) (h1 : ymin < y) (h2 : y < ymax) :
    sigmoid (inverseSigmoid y x0 k ymin ymax) x0 k ymin ymax = y := by
  have hpos : 0 < (ymax - ymin) / (y - ymin) - 1 := by
    have : 1 < (ymax - ymin) / (y - ymin) := by
      rw [one_lt_div (by linarith)]; linarith
    linarith
  have e : k * (inverseSigmoid y x0 k ymin ymax - x0)
      = -Real.log ((ymax - ymin) / (y - ymin) - 1) := by
    simp only [inverseSigmoid]; field_simp; ring
  simp only [sigmoid, e, nnSigmoid, neg_neg, Real.exp_log hpos]
  have hA : ymax - ymin ≠ 0 := by
    have : 0 < ymax - ymin := by linarith
    exact this.ne'
  rw [show 1 + ((ymax - ymin) / (y - ymin) - 1) = (ymax - ymin) / (y - ymin) by ring, one_div_div,
    mul_div_cancel₀ _ hA]
  ring

end Diffstar
