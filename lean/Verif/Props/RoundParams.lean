import Verif.Lemmas.Rounding
import Verif.Spec
import Mathlib.Analysis.Complex.ExponentialBounds

/-!
C125: parameter transforms in floating-point arithmetic.
-/

namespace Diffstar.Props

open Diffstar.Spec

theorem nnSigmoidFl_unit (R : Rounding) (exp : ℝ → ℝ) (hexp : ∀ x, 0 ≤ exp x) (x : ℝ) :
    0 ≤ R.nnSigmoid exp x ∧ R.nnSigmoid exp x ≤ 1 := by
  have h1 : 1 ≤ R.fl (1 + exp (-x)) := by
    have := R.mono (show (1 : ℝ) ≤ 1 + exp (-x) by linarith [hexp (-x)])
    rwa [R.one] at this
  constructor
  · exact R.fl_nonneg (by positivity)
  · have := R.mono (show 1 / R.fl (1 + exp (-x)) ≤ 1 by rw [div_le_one (by linarith)]; exact h1)
    rwa [R.one] at this

theorem sigmoidFl_range (R : Rounding) (exp : ℝ → ℝ) (hexp : ∀ x, 0 ≤ exp x) (x x0 k lo hi : ℝ) (hlo : R.fl lo = lo)
    (hle : lo ≤ hi) : lo ≤ R.sigmoid exp x x0 k lo hi ∧ R.sigmoid exp x x0 k lo hi ≤ R.fl (lo + R.fl (hi - lo)) := by
  obtain ⟨h0, h1⟩ := nnSigmoidFl_unit R exp hexp (R.fl (k * R.fl (x - x0)))
  have hd : 0 ≤ R.fl (hi - lo) := R.fl_nonneg (by linarith)
  unfold Rounding.sigmoid
  generalize R.nnSigmoid exp (R.fl (k * R.fl (x - x0))) = s at h0 h1
  have ha : 0 ≤ R.fl (R.fl (hi - lo) * s) := R.fl_nonneg (mul_nonneg hd h0)
  have hb : R.fl (R.fl (hi - lo) * s) ≤ R.fl (hi - lo) := by
    have := R.mono (show R.fl (hi - lo) * s ≤ R.fl (hi - lo) from mul_le_of_le_one_right hd h1)
    rwa [R.idem] at this
  constructor
  · have := R.mono (show lo ≤ lo + R.fl (R.fl (hi - lo) * s) by linarith)
    rwa [hlo] at this
  · exact R.mono (by linarith)

theorem sigmoidBFl_range (R : Rounding) (exp : ℝ → ℝ) (hexp : ∀ x, 0 ≤ exp x) (x : ℝ) (b : ℝ × ℝ) {lo hi top : ℝ}
    (hlo : R.fl b.1 = lo) (hhi : R.fl b.2 = hi) (hle : lo ≤ hi) (htop : R.fl (lo + R.fl (hi - lo)) = top) :
    lo ≤ R.sigmoidB exp x (calculateSigmoidBounds b) ∧ R.sigmoidB exp x (calculateSigmoidBounds b) ≤ top := by
  have := sigmoidFl_range R exp hexp x (R.fl (calculateSigmoidBounds b).1) (R.fl (calculateSigmoidBounds b).2.1) lo hi
    (by rw [← hlo, R.idem]) hle
  rw [htop] at this
  unfold Rounding.sigmoidB
  rw [show R.fl (calculateSigmoidBounds b).2.2.1 = lo from hlo, show R.fl (calculateSigmoidBounds b).2.2.2 = hi from hhi]
  exact this

theorem f32_exact' (m : ℕ) (k : ℤ) (x : ℝ) (hx : x = m * 2 ^ k) (hm : m < 2 ^ 24) : float32.fl x = x := by
  rw [hx]
  exact float32_exact m hm k

theorem f32_exact_neg (m : ℕ) (k : ℤ) (x : ℝ) (hx : x = -(m * 2 ^ k)) (hm : m < 2 ^ 24) : float32.fl x = x := by
  rw [hx, float32.neg, float32_exact m hm k]

theorem f32_tenth : float32.fl 0.1 = 13421773 * 2 ^ (-27 : ℤ) := by
  have := float32_eq (x := 0.1) 13421773 (-27) (by norm_num) (by norm_num) (by rw [abs_lt]; norm_num)
  simpa using this

theorem f32_hundredth : float32.fl (-0.01) = -(10737418 * 2 ^ (-30 : ℤ)) := by
  have := float32_eq (x := 0.01) 10737418 (-30) (by norm_num) (by norm_num) (by rw [abs_lt]; norm_num)
  rw [float32.neg, this]
  norm_num

/-- Largest duration in single precision. -/
theorem f32_duration : float32.fl (-3 + float32.fl (float32.fl (-0.01) - -3)) = -(10737408 * 2 ^ (-30 : ℤ)) := by
  have h : float32.fl (float32.fl (-0.01) - -3) = 12540969 * 2 ^ (-22 : ℤ) := by
    rw [f32_hundredth]
    have := float32_eq (x := -(10737418 * 2 ^ (-30 : ℤ)) - -3) 12540969 (-22) (by norm_num) (by norm_num)
      (by rw [abs_lt]; norm_num)
    simpa using this
  rw [h]
  have e : (-3 : ℝ) + 12540969 * 2 ^ (-22 : ℤ) = -(10737408 * 2 ^ (-30 : ℤ)) := by norm_num
  rw [e]
  exact f32_exact_neg 10737408 (-30) _ (by norm_num) (by norm_num)

/-- **C125**: in single precision bounded parameters lie in the closed intervals, but `qlglgdt`, which can exceed its upper
bound by `1e-8`. -/
theorem C125_bounds_single_precision_partial (exp : ℝ → ℝ) (hexp : ∀ x, 0 ≤ exp x) (u : DiffstarParams ℝ) :
    let p := float32.getBoundedDiffstarParams exp u
    (9 ≤ p.lgmcrit ∧ p.lgmcrit ≤ 13.5) ∧ (-12 ≤ p.lgyAtMcrit ∧ p.lgyAtMcrit ≤ -8) ∧ (0 ≤ p.indxLo ∧ p.indxLo ≤ 5) ∧
    (-5 ≤ p.indxHi ∧ p.indxHi ≤ 0) ∧ (0.1 ≤ p.lgQt ∧ p.lgQt ≤ 2) ∧ (-3 ≤ p.qlglgdt ∧ p.qlglgdt < -0.01 + 1e-8) ∧
    (-3 ≤ p.lgDrop ∧ p.lgDrop ≤ 0) ∧ (p.lgDrop ≤ p.lgRejuv ∧ p.lgRejuv ≤ 0) := by
  intro p
  have z : float32.fl 0 = 0 := float32.fl_zero
  have f9 : float32.fl 9 = 9 := f32_exact' 9 0 _ (by norm_num) (by norm_num)
  have f135 : float32.fl 13.5 = 13.5 := f32_exact' 27 (-1) _ (by norm_num) (by norm_num)
  have f45 : float32.fl 4.5 = 4.5 := f32_exact' 9 (-1) _ (by norm_num) (by norm_num)
  have f12 : float32.fl (-12) = -12 := f32_exact_neg 12 0 _ (by norm_num) (by norm_num)
  have f8 : float32.fl (-8) = -8 := f32_exact_neg 8 0 _ (by norm_num) (by norm_num)
  have f4 : float32.fl 4 = 4 := f32_exact' 4 0 _ (by norm_num) (by norm_num)
  have f5 : float32.fl 5 = 5 := f32_exact' 5 0 _ (by norm_num) (by norm_num)
  have f5' : float32.fl (-5) = -5 := f32_exact_neg 5 0 _ (by norm_num) (by norm_num)
  have f2 : float32.fl 2 = 2 := f32_exact' 2 0 _ (by norm_num) (by norm_num)
  have f3 : float32.fl 3 = 3 := f32_exact' 3 0 _ (by norm_num) (by norm_num)
  have f3' : float32.fl (-3) = -3 := f32_exact_neg 3 0 _ (by norm_num) (by norm_num)
  have fq : float32.fl (float32.fl 0.1 + float32.fl (2 - float32.fl 0.1)) = 2 := by
    have h : float32.fl (2 - float32.fl 0.1) = 15938355 * 2 ^ (-23 : ℤ) := by
      rw [f32_tenth]
      have := float32_eq (x := 2 - 13421773 * 2 ^ (-27 : ℤ)) 15938355 (-23) (by norm_num) (by norm_num)
        (by rw [abs_lt]; norm_num)
      simpa using this
    rw [h, f32_tenth]
    have := float32_eq (x := 13421773 * 2 ^ (-27 : ℤ) + 15938355 * 2 ^ (-23 : ℤ)) 16777216 (-23) (by norm_num) (by norm_num)
      (by rw [abs_lt]; norm_num)
    rw [this]
    norm_num
  have hdrop := sigmoidBFl_range float32 exp hexp u.lgDrop (-3, 0) f3' z (by norm_num) (top := 0)
    (by rw [show (0 : ℝ) - -3 = 3 by norm_num, f3, show (-3 : ℝ) + 3 = 0 by norm_num, z])
  refine ⟨sigmoidBFl_range float32 exp hexp u.lgmcrit (9, 13.5) f9 f135 (by norm_num) ?_,
    sigmoidBFl_range float32 exp hexp u.lgyAtMcrit (-12, -8) f12 f8 (by norm_num) ?_,
    sigmoidBFl_range float32 exp hexp u.indxLo (0, 5) z f5 (by norm_num) ?_,
    sigmoidBFl_range float32 exp hexp u.indxHi (-5, 0) f5' z (by norm_num) ?_, ?_, ?_, hdrop, ?_⟩
  · rw [show (13.5 : ℝ) - 9 = 4.5 by norm_num, f45, show (9 : ℝ) + 4.5 = 13.5 by norm_num, f135]
  · rw [show (-8 : ℝ) - -12 = 4 by norm_num, f4, show (-12 : ℝ) + 4 = -8 by norm_num, f8]
  · rw [show (5 : ℝ) - 0 = 5 by norm_num, f5, zero_add, f5]
  · rw [show (0 : ℝ) - -5 = 5 by norm_num, f5, show (-5 : ℝ) + 5 = 0 by norm_num, z]
  · have := sigmoidBFl_range float32 exp hexp u.lgQt (0.1, 2) rfl f2 (by rw [f32_tenth]; norm_num) fq
    exact ⟨le_trans (by rw [f32_tenth]; norm_num) this.1, this.2⟩
  · have := sigmoidBFl_range float32 exp hexp u.qlglgdt (-3, -0.01) f3' rfl (by rw [f32_hundredth]; norm_num) f32_duration
    exact ⟨this.1, this.2.trans_lt (by norm_num)⟩
  · have hrep : float32.fl p.lgDrop = p.lgDrop := float32.idem _
    have := sigmoidFl_range float32 exp hexp u.lgRejuv (float32.fl Q_BOUNDING_SIGMOID.lgRejuv.1)
      (float32.fl Q_BOUNDING_SIGMOID.lgRejuv.2.1) p.lgDrop 0 hrep hdrop.2
    rw [zero_sub, float32.neg, hrep, add_neg_cancel, z] at this
    have e : p.lgRejuv = float32.sigmoid exp u.lgRejuv (float32.fl Q_BOUNDING_SIGMOID.lgRejuv.1)
        (float32.fl Q_BOUNDING_SIGMOID.lgRejuv.2.1) p.lgDrop 0 :=
      congrArg (fun h => float32.sigmoid exp u.lgRejuv (float32.fl Q_BOUNDING_SIGMOID.lgRejuv.1)
        (float32.fl Q_BOUNDING_SIGMOID.lgRejuv.2.1) p.lgDrop h) z
    rw [e]
    exact this

/-- A sigmoid far above its centre is one. -/
theorem nnSigmoidFl_saturates (exp : ℝ → ℝ) (hexp : ∀ x, |exp x - Real.exp x| ≤ Real.exp x / 2) (hpos : ∀ x, 0 ≤ exp x) {x : ℝ}
    (hx : 27 ≤ x) : float32.nnSigmoid exp x = 1 := by
  have h1 : Real.exp (-x) ≤ 2 ^ (-31 : ℤ) := by
    have h2 : (2.7 : ℝ) ^ 27 ≤ Real.exp 1 ^ 27 := pow_le_pow_left₀ (by norm_num) (by linarith [Real.exp_one_gt_d9]) _
    rw [← Real.exp_nat_mul, mul_one] at h2
    have h3 : Real.exp ((27 : ℕ) : ℝ) ≤ Real.exp x := Real.exp_le_exp.2 (by norm_num; exact hx)
    have h4 : (2 : ℝ) ^ 31 ≤ Real.exp x := le_trans (by norm_num) (h2.trans h3)
    rw [Real.exp_neg, show (2 : ℝ) ^ (-31 : ℤ) = (2 ^ 31)⁻¹ by norm_num]
    exact inv_anti₀ (by norm_num) h4
  have h5 : exp (-x) ≤ 2 ^ (-30 : ℤ) := by
    have := (abs_le.1 (hexp (-x))).2
    have h6 : (2 : ℝ) ^ (-30 : ℤ) = 2 * 2 ^ (-31 : ℤ) := by norm_num
    rw [h6]
    linarith [Real.exp_pos (-x)]
  unfold Rounding.nnSigmoid
  rw [float32_absorb float32.one le_rfl (hpos _) h5, div_one, float32.one]

/-- Products of rounded numbers that are large enough. -/
theorem f32_arg {k d : ℝ} (hk : 0.8 ≤ k) (hd : 40 ≤ d) : 27 ≤ float32.fl (float32.fl k * float32.fl d) := by
  have f27 : float32.fl 27 = 27 := f32_exact' 27 0 _ (by norm_num) (by norm_num)
  have f40 : float32.fl 40 = 40 := f32_exact' 40 0 _ (by norm_num) (by norm_num)
  have f34 : float32.fl 0.75 = 0.75 := f32_exact' 3 (-2) _ (by norm_num) (by norm_num)
  have h1 := float32.mono (show (0.75 : ℝ) ≤ k by linarith)
  have h2 := float32.mono hd
  rw [f34] at h1
  rw [f40] at h2
  have := float32.mono (show (27 : ℝ) ≤ float32.fl k * float32.fl d by nlinarith)
  rwa [f27] at this

theorem f32_saturated (exp : ℝ → ℝ) (hexp : ∀ x, |exp x - Real.exp x| ≤ Real.exp x / 2) (hpos : ∀ x, 0 ≤ exp x) (x : ℝ)
    (b : ℝ × ℝ) (hw : 0 < b.2 - b.1 ∧ b.2 - b.1 ≤ 5) (hx : 40 ≤ x - float32.fl ((b.1 + b.2) / 2)) :
    float32.sigmoidB exp x (calculateSigmoidBounds b) =
      float32.fl (float32.fl b.1 + float32.fl (float32.fl b.2 - float32.fl b.1)) := by
  have hk : (0.8 : ℝ) ≤ |4 / (b.2 - b.1)| := by
    rw [abs_of_pos (div_pos (by norm_num) hw.1), le_div_iff₀ hw.1]
    linarith [hw.2]
  have := nnSigmoidFl_saturates exp hexp hpos (f32_arg hk hx)
  unfold Rounding.sigmoidB Rounding.sigmoid calculateSigmoidBounds
  dsimp only
  rw [this, mul_one, float32.idem]

/-- **C125**: in single precision the duration parameter can leave its bounds. -/
theorem C125_duration_bound_violated (exp : ℝ → ℝ) (hexp : ∀ x, |exp x - Real.exp x| ≤ Real.exp x / 2) (hpos : ∀ x, 0 ≤ exp x) :
    ∃ u : DiffstarParams ℝ, -0.01 < (float32.getBoundedDiffstarParams exp u).qlglgdt := by
  refine ⟨⟨12, -10, 1, -1, 1, 40, -1, -1⟩, ?_⟩
  have h : float32.fl ((-3 + -0.01) / 2) ≤ 0 := by
    have := float32.mono (show ((-3 : ℝ) + -0.01) / 2 ≤ 0 by norm_num)
    rwa [float32.fl_zero] at this
  have := f32_saturated exp hexp hpos 40 (-3, -0.01) (by norm_num) (by dsimp only; linarith)
  dsimp only at this
  rw [f32_exact_neg 3 0 (-3) (by norm_num) (by norm_num), f32_duration] at this
  show -0.01 < float32.sigmoidB exp 40 (calculateSigmoidBounds (-3, -0.01))
  rw [this]
  norm_num

/-- **C125**: in single precision there are finite unbounded parameters whose bounded values sit on the bound, so that going back
does not give a finite number. -/
theorem C125_round_trip_violated (exp log : ℝ → ℝ) (hexp : ∀ x, |exp x - Real.exp x| ≤ Real.exp x / 2) (hpos : ∀ x, 0 ≤ exp x) :
    ∃ u : DiffstarParams ℝ, (float32.getBoundedDiffstarParams exp u).lgmcrit = 13.5 ∧
      float32.inverseSigmoidB log (float32.getBoundedDiffstarParams exp u).lgmcrit MS_BOUNDING_SIGMOID.lgmcrit = none := by
  have f9 : float32.fl 9 = 9 := f32_exact' 9 0 _ (by norm_num) (by norm_num)
  have f135 : float32.fl 13.5 = 13.5 := f32_exact' 27 (-1) _ (by norm_num) (by norm_num)
  have f45 : float32.fl 4.5 = 4.5 := f32_exact' 9 (-1) _ (by norm_num) (by norm_num)
  refine ⟨⟨60, -10, 1, -1, 1, -1, -1, -1⟩, ?_⟩
  have h : float32.fl ((9 + 13.5) / 2) ≤ 16 := by
    have := float32.mono (show ((9 : ℝ) + 13.5) / 2 ≤ 16 by norm_num)
    rwa [f32_exact' 1 4 16 (by norm_num) (by norm_num)] at this
  have := f32_saturated exp hexp hpos 60 (9, 13.5) (by norm_num) (by dsimp only; linarith)
  dsimp only at this
  rw [f9, f135, show (13.5 : ℝ) - 9 = 4.5 by norm_num, f45, show (9 : ℝ) + 4.5 = 13.5 by norm_num, f135] at this
  have e : (float32.getBoundedDiffstarParams exp ⟨60, -10, 1, -1, 1, -1, -1, -1⟩).lgmcrit = 13.5 := this
  refine ⟨e, ?_⟩
  rw [e]
  unfold Rounding.inverseSigmoidB Rounding.inverseSigmoid
  rw [show MS_BOUNDING_SIGMOID.lgmcrit = ((9 + 13.5) / 2, |4 / (13.5 - 9)|, 9, 13.5) from rfl]
  dsimp only
  rw [f9, f135, show (13.5 : ℝ) - 9 = 4.5 by norm_num, f45, if_neg (by norm_num), div_self (by norm_num), float32.one, sub_self,
    float32.fl_zero, if_pos le_rfl]

/-- The correctly rounded exponential function is accurate enough. -/
example : (∀ x, |float32.fl (Real.exp x) - Real.exp x| ≤ Real.exp x / 2) ∧ ∀ x, 0 ≤ float32.fl (Real.exp x) := by
  refine ⟨fun x => ?_, fun x => float32.fl_nonneg (Real.exp_pos x).le⟩
  have := float32.err (Real.exp x)
  rw [abs_of_pos (Real.exp_pos x), show float32.u = 2 ^ (-24 : ℤ) from rfl] at this
  refine this.trans ?_
  norm_num
  linarith [Real.exp_pos x]

end Diffstar.Props
