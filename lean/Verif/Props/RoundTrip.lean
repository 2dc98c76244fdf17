import Verif.Props.RoundParams

/-!
C134: accuracy of the parameter transforms and back in single precision.
-/

namespace Diffstar.Spec

/-- An unbounded parameter within two ranges of the middle of its range. -/
def NearMiddle (lo hi u : ℝ) : Prop := |u - (lo + hi) / 2| ≤ 2 * (hi - lo)

/-- The result `v` is a finite number close to `u`. The error grows exponentially with the distance to the middle. -/
def Recovered (lo hi : ℝ) (v : Option ℝ) (u : ℝ) : Prop :=
  ∃ x, v = some x ∧ |x - u| ≤ 1e-6 * (hi - lo) * (3 + Real.exp (4 * |u - (lo + hi) / 2| / (hi - lo)))

/-- A bounded parameter that keeps a small distance to its bounds. -/
def Inside (lo hi p : ℝ) : Prop := lo + 1e-5 * (hi - lo) ≤ p ∧ p ≤ hi - 1e-5 * (hi - lo)

end Diffstar.Spec

namespace Diffstar.Props

open Diffstar.Spec

/-- Rounding as a relative error. -/
theorem fl_rel (R : Rounding) {e : ℝ} (hu : R.u ≤ e) (x : ℝ) : ∃ t, |t| ≤ e ∧ R.fl x = x * (1 + t) := by
  have h := R.err x
  rcases eq_or_ne x 0 with rfl | hx
  · exact ⟨0, by rw [abs_zero]; exact R.u_nonneg.trans hu, by rw [R.fl_zero, zero_mul]⟩
  · refine ⟨(R.fl x - x) / x, ?_, by field_simp; ring⟩
    rw [abs_div, div_le_iff₀ (abs_pos.2 hx)]
    exact h.trans (mul_le_mul_of_nonneg_right hu (abs_nonneg x))

/-- Logarithms of close numbers. -/
theorem log_close {a b t : ℝ} (hb : 0 < b) (ht : t ≤ 1 / 2) (h : |a - b| ≤ t * b) : |Real.log a - Real.log b| ≤ 2 * t := by
  obtain ⟨h1, h2⟩ := abs_le.1 h
  have ha : 0 < a := by nlinarith
  have t0 : 0 ≤ t := by
    by_contra hc
    have := (abs_nonneg _).trans h
    nlinarith
  have l1 := Real.log_le_sub_one_of_pos (show 0 < a / b by positivity)
  have l2 := Real.log_le_sub_one_of_pos (show 0 < b / a by positivity)
  rw [Real.log_div ha.ne' hb.ne'] at l1
  rw [Real.log_div hb.ne' ha.ne'] at l2
  have m1 : a / b ≤ 1 + t := by rw [div_le_iff₀ hb]; linarith
  have m2 : b / a ≤ 1 + 2 * t := by
    rw [div_le_iff₀ ha]
    nlinarith [mul_nonneg t0 hb.le]
  rw [abs_le]
  constructor <;> linarith

/-- The height above the lower bound, computed back from a bounded value. -/
theorem height_close (R : Rounding) (hu : R.u ≤ 6e-8) {lo H s : ℝ} (hH : 0 < H) (hlo : |lo| ≤ 3.2 * H) (s0 : 0 ≤ s) (s1 : s ≤ 1) :
    |R.fl (R.fl (lo + R.fl (H * s)) - lo) - H * s| ≤ 3.9e-7 * H := by
  obtain ⟨a, ha, ea⟩ := fl_rel R hu (H * s)
  obtain ⟨b, hb, eb⟩ := fl_rel R hu (lo + R.fl (H * s))
  obtain ⟨c, hc, ec⟩ := fl_rel R hu (R.fl (lo + R.fl (H * s)) - lo)
  rw [ec, eb, ea]
  have k0 : 0 ≤ H * s := mul_nonneg hH.le s0
  have k1 : H * s ≤ H := mul_le_of_le_one_right hH.le s1
  have e1 : |H * s * a| ≤ 6e-8 * H := by
    rw [abs_mul, abs_of_nonneg k0]
    nlinarith [abs_nonneg a]
  have e2 : |(lo + H * s * (1 + a)) * b| ≤ 2.6e-7 * H := by
    rw [abs_mul]
    have : |lo + H * s * (1 + a)| ≤ 4.3 * H := by
      obtain ⟨q1, q2⟩ := abs_le.1 e1
      obtain ⟨q3, q4⟩ := abs_le.1 hlo
      rw [abs_le]
      constructor <;> nlinarith
    calc |lo + H * s * (1 + a)| * |b| ≤ (4.3 * H) * 6e-8 := mul_le_mul this hb (abs_nonneg _) (by positivity)
      _ ≤ 2.6e-7 * H := by nlinarith
  have e3 : |((lo + H * s * (1 + a)) * (1 + b) - lo) * c| ≤ 6e-8 * H * 0.999 + 1e-9 * H := by
    rw [abs_mul]
    have : |(lo + H * s * (1 + a)) * (1 + b) - lo| ≤ 1.000001 * H := by
      have : (lo + H * s * (1 + a)) * (1 + b) - lo = H * s + H * s * a + (lo + H * s * (1 + a)) * b := by ring
      rw [this]
      obtain ⟨q1, q2⟩ := abs_le.1 e1
      obtain ⟨q3, q4⟩ := abs_le.1 e2
      rw [abs_le]
      constructor <;> nlinarith
    calc _ ≤ (1.000001 * H) * 6e-8 := mul_le_mul this hc (abs_nonneg _) (by positivity)
      _ ≤ _ := by nlinarith
  have : ((lo + H * s * (1 + a)) * (1 + b) - lo) * (1 + c) - H * s =
      H * s * a + (lo + H * s * (1 + a)) * b + ((lo + H * s * (1 + a)) * (1 + b) - lo) * c := by ring
  rw [this]
  refine (abs_add_three _ _ _).trans ?_
  linarith

/-- The argument of the logarithm, computed back from a bounded value. -/
theorem lnarg_close (R : Rounding) (hu : R.u ≤ 6e-8) {H d s e : ℝ} (hH : 0 < H) (e0 : 0 < e) (e1 : e ≤ 3100)
    (hs : |s * (1 + e) - 1| ≤ 1.3e-7) (hd : |d - H * s| ≤ 3.9e-7 * H) :
    0 < d ∧ |R.fl (R.fl (H / d) - 1) - e| ≤ 7e-7 * (1 + e) ^ 2 := by
  obtain ⟨hs1, hs2⟩ := abs_le.1 hs
  obtain ⟨hd1, hd2⟩ := abs_le.1 hd
  set D := d * (1 + e) / H with hD
  have hDd : d = H * D / (1 + e) := by rw [hD]; field_simp
  have hD' : |D - 1| ≤ 3.9e-7 * (1 + e) + 1.3e-7 := by
    have : D - 1 = (d - H * s) / H * (1 + e) + (s * (1 + e) - 1) := by rw [hD]; field_simp; ring
    rw [this]
    refine (abs_add_le _ _).trans (add_le_add ?_ hs)
    rw [abs_mul, abs_of_pos (by linarith : 0 < 1 + e), abs_div, abs_of_pos hH]
    refine mul_le_mul_of_nonneg_right ?_ (by linarith)
    rw [div_le_iff₀ hH]; exact hd
  have hDs : |D - 1| ≤ 1.22e-3 := hD'.trans (by nlinarith)
  obtain ⟨D1, D2⟩ := abs_le.1 hDs
  have Dpos : 0 < D := by linarith
  refine ⟨by rw [hDd]; positivity, ?_⟩
  have hq : H / d = (1 + e) / D := by rw [hDd]; field_simp
  obtain ⟨a, ha, ea⟩ := fl_rel R hu (H / d)
  obtain ⟨b, hb, eb⟩ := fl_rel R hu (R.fl (H / d) - 1)
  rw [eb, ea, hq]
  have hinv : |1 / D - 1| ≤ 1.002 * (3.9e-7 * (1 + e) + 1.3e-7) := by
    have : 1 / D - 1 = -(D - 1) * (1 / D) := by field_simp; ring
    rw [this, abs_mul, abs_neg, abs_of_pos (by positivity : 0 < 1 / D), mul_comm]
    refine mul_le_mul ?_ hD' (abs_nonneg _) (by norm_num)
    rw [div_le_iff₀ Dpos]; linarith
  have r1 : |(1 + e) / D - (1 + e)| ≤ 5.3e-7 * (1 + e) ^ 2 := by
    have : (1 + e) / D - (1 + e) = (1 / D - 1) * (1 + e) := by field_simp
    rw [this, abs_mul, abs_of_pos (by linarith : 0 < 1 + e), pow_two, ← mul_assoc]
    refine mul_le_mul_of_nonneg_right (hinv.trans ?_) (by linarith)
    nlinarith
  have r2 : |(1 + e) / D * a| ≤ 6.1e-8 * (1 + e) ^ 2 := by
    rw [abs_mul]
    have : |(1 + e) / D| ≤ 1.01 * (1 + e) := by
      rw [abs_of_pos (by positivity), div_le_iff₀ Dpos]
      nlinarith
    calc _ ≤ 1.01 * (1 + e) * 6e-8 := mul_le_mul this ha (abs_nonneg _) (by positivity)
      _ ≤ _ := by nlinarith
  have r3 : |(1 + e) / D * (1 + a) - 1 - e| ≤ 5.92e-7 * (1 + e) ^ 2 := by
    have : (1 + e) / D * (1 + a) - 1 - e = ((1 + e) / D - (1 + e)) + (1 + e) / D * a := by ring
    rw [this]
    refine (abs_add_le _ _).trans ?_
    linarith [sq_nonneg (1 + e)]
  have : ((1 + e) / D * (1 + a) - 1) * (1 + b) - e =
      ((1 + e) / D * (1 + a) - 1 - e) * (1 + b) + e * b := by ring
  rw [this]
  refine (abs_add_le _ _).trans ?_
  rw [abs_mul, abs_mul, abs_of_pos e0]
  have b1 : |1 + b| ≤ 1.01 := by
    rw [abs_le] at hb ⊢
    constructor <;> linarith
  have t1 : |(1 + e) / D * (1 + a) - 1 - e| * |1 + b| ≤ 5.92e-7 * (1 + e) ^ 2 * 1.01 :=
    mul_le_mul r3 b1 (abs_nonneg _) (by positivity)
  have t2 : e * |b| ≤ (1 + e) ^ 2 / 4 * 6e-8 :=
    mul_le_mul (by nlinarith [sq_nonneg (1 - e)]) hb (abs_nonneg _) (by positivity)
  linarith [sq_nonneg (1 + e)]

theorem nnSigmoidFl_rel (R : Rounding) (hu : R.u ≤ 6e-8) (exp : ℝ → ℝ) (hexp : ∀ x, 0 ≤ exp x) (x : ℝ) :
    |R.nnSigmoid exp x * (1 + exp (-x)) - 1| ≤ 1.3e-7 := by
  unfold Rounding.nnSigmoid
  obtain ⟨a, ha, ea⟩ := fl_rel R hu (1 + exp (-x))
  obtain ⟨b, hb, eb⟩ := fl_rel R hu (1 / R.fl (1 + exp (-x)))
  have h0 : 0 < 1 + exp (-x) := by linarith [hexp (-x)]
  obtain ⟨a1, a2⟩ := abs_le.1 ha
  obtain ⟨b1, b2⟩ := abs_le.1 hb
  have ha0 : 0 < 1 + a := by linarith
  rw [eb, ea]
  have : 1 / ((1 + exp (-x)) * (1 + a)) * (1 + b) * (1 + exp (-x)) - 1 = (b - a) / (1 + a) := by field_simp; ring
  rw [this, abs_div, abs_of_pos ha0, div_le_iff₀ ha0, abs_le]
  constructor <;> nlinarith

theorem exp_eight : Real.exp 8.02 ≤ 3060 := by
  have h1 : Real.exp 1 ^ 8 ≤ (2.7182818286 : ℝ) ^ 8 := pow_le_pow_left₀ (Real.exp_pos 1).le Real.exp_one_lt_d9.le _
  rw [← Real.exp_nat_mul, mul_one] at h1
  have h2 := Real.add_one_le_exp (-0.02 : ℝ)
  have h3 : Real.exp 0.02 ≤ 1.021 := by
    have : Real.exp 0.02 * Real.exp (-0.02) = 1 := by rw [← Real.exp_add]; norm_num
    nlinarith [Real.exp_pos 0.02]
  rw [show (8.02 : ℝ) = ((8 : ℕ) : ℝ) + 0.02 by norm_num, Real.exp_add]
  calc _ ≤ (2.7182818286 : ℝ) ^ 8 * 1.021 := mul_le_mul h1 h3 (Real.exp_pos _).le (by norm_num)
    _ ≤ 3060 := by norm_num

/-- Logarithm that `_inverse_sigmoid` takes of what `_sigmoid` returned. -/
theorem log_lnarg_close (R : Rounding) (hu : R.u ≤ 6e-8) (exp log : ℝ → ℝ) (hexp : ∀ x, |exp x - Real.exp x| ≤ 5e-7 * Real.exp x)
    (hlog : ∀ y, 0 < y → |log y - Real.log y| ≤ 5e-7 * |Real.log y|) {lo H z : ℝ} (hH : 0 < H) (hlo : |lo| ≤ 3.2 * H)
    (hz : |z| ≤ 8.02) :
    let d := R.fl (R.fl (lo + R.fl (H * R.nnSigmoid exp z)) - lo)
    0 < d ∧ 0 < R.fl (R.fl (H / d) - 1) ∧ |log (R.fl (R.fl (H / d) - 1)) + z| ≤ 2.2e-6 * (3 + Real.exp |z|) := by
  intro d
  have hpos : ∀ x, 0 ≤ exp x := fun x => by
    have := (abs_le.1 (hexp x)).1
    nlinarith [Real.exp_pos x]
  obtain ⟨s0, s1⟩ := nnSigmoidFl_unit R exp hpos z
  have hd := height_close R hu hH hlo s0 s1
  have hs := nnSigmoidFl_rel R hu exp hpos z
  set e := exp (-z)
  set E := Real.exp (-z) with hE
  have E0 : 0 < E := Real.exp_pos _
  obtain ⟨x1, x2⟩ := abs_le.1 (show |e - E| ≤ 5e-7 * E from hexp (-z))
  have hExp : ∀ w, |w| ≤ 8.02 → Real.exp w ≤ 3060 := fun w hw =>
    (Real.exp_le_exp.2 ((le_abs_self w).trans hw)).trans exp_eight
  have E1 : E ≤ 3060 := hExp (-z) (by rwa [abs_neg])
  have e0 : 0 < e := by nlinarith
  obtain ⟨d0, hA⟩ := lnarg_close R hu hH e0 (by nlinarith) hs hd
  set A := R.fl (R.fl (H / d) - 1) with hAdef
  set W := 3 + Real.exp |z| with hW
  have W4 : 4 ≤ W := by
    have := Real.add_one_le_exp |z|
    linarith [abs_nonneg z]
  have Wz : |z| + 4 ≤ W := by
    have := Real.add_one_le_exp |z|
    linarith
  have W2 : W ≤ 3063 := by linarith [hExp |z| (by rwa [abs_abs])]
  have hEW : (1 + E) ^ 2 ≤ E * W := by
    have h1 : E * Real.exp z = 1 := by rw [hE, ← Real.exp_add]; simp
    have h2 : E + Real.exp z ≤ 1 + Real.exp |z| := by
      rcases le_total 0 z with h | h
      · rw [abs_of_nonneg h]
        have : E ≤ 1 := Real.exp_le_one_iff.2 (by linarith)
        linarith
      · rw [abs_of_nonpos h]
        have : Real.exp z ≤ 1 := Real.exp_le_one_iff.2 h
        linarith
    nlinarith
  have heE : (1 + e) ^ 2 ≤ 1.00001 * (E * W) := by
    have : 1 + e ≤ (1 + E) * 1.000001 := by nlinarith
    have h2 : (1 + e) ^ 2 ≤ ((1 + E) * 1.000001) ^ 2 := pow_le_pow_left₀ (by linarith) this 2
    nlinarith
  have hAE : |A - E| ≤ 8.3e-7 * W * E := by
    have : A - E = (A - e) + (e - E) := by ring
    rw [this]
    refine (abs_add_le _ _).trans ?_
    have := hexp (-z)
    have h3 : E * 4 ≤ E * W := mul_le_mul_of_nonneg_left W4 E0.le
    have h4 : |e - E| ≤ 5e-7 * E := this
    linarith
  have hl := log_close E0 (by linarith) hAE
  have hA0 : 0 < A := by
    have := (abs_le.1 hAE).1
    nlinarith
  rw [hE, Real.log_exp, sub_neg_eq_add] at hl
  refine ⟨d0, hA0, ?_⟩
  have hg := hlog A hA0
  have hl2 : |Real.log A| ≤ |z| + 2 * (8.3e-7 * W) := by
    have : Real.log A = (Real.log A + z) + -z := by ring
    rw [this]
    refine (abs_add_le _ _).trans ?_
    rw [abs_neg]
    linarith
  have : log A + z = (log A - Real.log A) + (Real.log A + z) := by ring
  rw [this]
  refine (abs_add_le _ _).trans ?_
  linarith

/-- `_inverse_sigmoid` after `_sigmoid`. -/
theorem sigmoid_round_trip (R : Rounding) (hu : R.u ≤ 6e-8) (exp log : ℝ → ℝ)
    (hexp : ∀ x, |exp x - Real.exp x| ≤ 5e-7 * Real.exp x)
    (hlog : ∀ y, 0 < y → |log y - Real.log y| ≤ 5e-7 * |Real.log y|) {x x0 k lo hi : ℝ} (hk : 0 < k)
    (hH : 0 < R.fl (hi - lo)) (hlo : |lo| ≤ 3.2 * R.fl (hi - lo)) (hz : |k * (x - x0)| ≤ 8.01) :
    ∃ x', R.inverseSigmoid log (R.sigmoid exp x x0 k lo hi) x0 k lo hi = some x' ∧
      |x' - x| ≤ 2.6e-6 * (3 + Real.exp |k * (x - x0)|) / k + 6e-8 * |x0| := by
  obtain ⟨a, ha, ea⟩ := fl_rel R hu (x - x0)
  obtain ⟨b, hb, eb⟩ := fl_rel R hu (k * R.fl (x - x0))
  set z := R.fl (k * R.fl (x - x0)) with hzdef
  set y := k * (x - x0) with hy
  have ez : z = y * ((1 + a) * (1 + b)) := by rw [eb, ea, hy]; ring
  obtain ⟨a1, a2⟩ := abs_le.1 ha
  obtain ⟨b1, b2⟩ := abs_le.1 hb
  have hc : |(1 + a) * (1 + b) - 1| ≤ 1.3e-7 := by
    rw [abs_le]
    constructor <;> nlinarith
  have hzy : |z - y| ≤ 1.3e-7 * |y| := by
    have : z - y = ((1 + a) * (1 + b) - 1) * y := by rw [ez]; ring
    rw [this, abs_mul]
    exact mul_le_mul_of_nonneg_right hc (abs_nonneg y)
  have hzabs : |z| ≤ |y| + 1.3e-7 * |y| := by
    have : z = (z - y) + y := by ring
    rw [this]
    refine (abs_add_le _ _).trans ?_
    linarith
  obtain ⟨d0, A0, hL⟩ := log_lnarg_close R hu exp log hexp hlog hH hlo (z := z) (by linarith)
  set d := R.fl (R.fl (lo + R.fl (R.fl (hi - lo) * R.nnSigmoid exp z)) - lo) with hd
  set A := R.fl (R.fl (R.fl (hi - lo) / d) - 1) with hA
  refine ⟨R.fl (x0 - R.fl (log A / k)), ?_, ?_⟩
  · unfold Rounding.inverseSigmoid Rounding.sigmoid
    dsimp only
    rw [← hzdef, ← hd, if_neg d0.ne', ← hA, if_neg (not_le.2 A0)]
  set L := log A with hLdef
  obtain ⟨c, hc', ec⟩ := fl_rel R hu (L / k)
  obtain ⟨f, hf, ef⟩ := fl_rel R hu (x0 - R.fl (L / k))
  have hW : 3 + Real.exp |z| ≤ 1.0001 * (3 + Real.exp |y|) := by
    have h1 : Real.exp |z| ≤ Real.exp |y| * Real.exp 0.00001 := by
      rw [← Real.exp_add, Real.exp_le_exp]
      linarith
    have h2 : Real.exp 0.00001 ≤ 1.0001 := by
      have h3 := Real.add_one_le_exp (-0.00001 : ℝ)
      have : Real.exp 0.00001 * Real.exp (-0.00001) = 1 := by rw [← Real.exp_add]; norm_num
      nlinarith [Real.exp_pos 0.00001]
    nlinarith [Real.exp_pos |y|]
  set W := 3 + Real.exp |y|
  have Wy : |y| + 4 ≤ W := by
    have := Real.add_one_le_exp |y|
    linarith
  have y0 := abs_nonneg y
  have hL' : |L + z| ≤ 2.21e-6 * W := hL.trans (by linarith)
  have hLabs : |L| ≤ 1.01 * W := by
    have : L = (L + z) + -z := by ring
    rw [this]
    refine (abs_add_le _ _).trans ?_
    rw [abs_neg]
    linarith
  have hxy : x = x0 + y / k := by rw [hy]; field_simp; ring
  have key : R.fl (x0 - R.fl (L / k)) - x =
      (-(L + z) + (z - y) - L * c - L * (1 + c) * f) / k + f * x0 := by
    rw [ef, ec, hxy]
    field_simp
    ring
  rw [key]
  refine (abs_add_le _ _).trans (add_le_add ?_ ?_)
  · rw [abs_div, abs_of_pos hk]
    refine div_le_div_of_nonneg_right ?_ hk.le
    have t1 : |L * c| ≤ 1.01 * W * 6e-8 := by
      rw [abs_mul]; exact mul_le_mul hLabs hc' (abs_nonneg _) (by linarith)
    have t2 : |L * (1 + c) * f| ≤ 1.01 * W * 1.01 * 6e-8 := by
      rw [abs_mul, abs_mul]
      refine mul_le_mul (mul_le_mul hLabs ?_ (abs_nonneg _) (by linarith)) hf (abs_nonneg _) (by linarith)
      rw [abs_le] at hc' ⊢
      constructor <;> linarith
    have := abs_le.1 t1
    have := abs_le.1 t2
    have := abs_le.1 hL'
    have := abs_le.1 hzy
    rw [abs_le]
    constructor <;> linarith
  · rw [abs_mul]
    exact mul_le_mul_of_nonneg_right hf (abs_nonneg _)

/-- Middle and steepness as floating-point numbers. -/
theorem centre_close (R : Rounding) (hu : R.u ≤ 6e-8) {x m h : ℝ} (hh : 0 < h) (hm : |m| ≤ 3.05 * h) :
    (0 < R.fl (4 / h) ∧ 1 / R.fl (4 / h) ≤ 1.000001 * h / 4) ∧ |R.fl m| ≤ 3.06 * h ∧
      |R.fl (4 / h) * (x - R.fl m)| ≤ 1.000001 * (4 * |x - m| / h + 1e-6) := by
  obtain ⟨a, ha, ea⟩ := fl_rel R hu (4 / h)
  obtain ⟨b, hb, eb⟩ := fl_rel R hu m
  obtain ⟨a1, a2⟩ := abs_le.1 ha
  obtain ⟨b1, b2⟩ := abs_le.1 hb
  have hmb : |m * b| ≤ 3.05 * h * 6e-8 := by
    rw [abs_mul]
    exact mul_le_mul hm hb (abs_nonneg _) (by positivity)
  rw [ea, eb]
  refine ⟨⟨by apply mul_pos (by positivity); linarith, ?_⟩, ?_, ?_⟩
  · rw [div_le_iff₀ (by apply mul_pos (by positivity); linarith)]
    have : 1.000001 * h / 4 * (4 / h * (1 + a)) = 1.000001 * (1 + a) := by field_simp
    rw [this]
    linarith
  · have : m * (1 + b) = m + m * b := by ring
    rw [this]
    refine (abs_add_le _ _).trans ?_
    linarith
  · rw [abs_mul, abs_mul, abs_of_pos (by positivity : 0 < 4 / h), abs_of_pos (by linarith : 0 < 1 + a)]
    have h1 : |x - m * (1 + b)| ≤ |x - m| + 3.05 * h * 6e-8 := by
      have : x - m * (1 + b) = (x - m) + -(m * b) := by ring
      rw [this]
      refine (abs_add_le _ _).trans ?_
      rw [abs_neg]
      linarith
    calc 4 / h * (1 + a) * |x - m * (1 + b)| ≤ 4 / h * 1.000001 * (|x - m| + 3.05 * h * 6e-8) := by
          refine mul_le_mul (mul_le_mul_of_nonneg_left (by linarith) (by positivity)) h1 (abs_nonneg _) (by positivity)
      _ = 1.000001 * (4 * |x - m| / h + 4 * 3.05 * 6e-8) := by field_simp
      _ ≤ _ := by
          refine mul_le_mul_of_nonneg_left ?_ (by norm_num)
          linarith

/-- One parameter to its bounded value and back. -/
theorem param_round_trip (R : Rounding) (hu : R.u ≤ 6e-8) (exp log : ℝ → ℝ)
    (hexp : ∀ x, |exp x - Real.exp x| ≤ 5e-7 * Real.exp x)
    (hlog : ∀ y, 0 < y → |log y - Real.log y| ≤ 5e-7 * |Real.log y|) {x m h lo hi : ℝ} (hh : 0 < h) (hm : |m| ≤ 3.05 * h)
    (hx : |x - m| ≤ 2 * h) (hH : 0 < R.fl (hi - lo)) (hlo : |lo| ≤ 3.2 * R.fl (hi - lo)) :
    ∃ x', R.inverseSigmoid log (R.sigmoid exp x (R.fl m) (R.fl (4 / h)) lo hi) (R.fl m) (R.fl (4 / h)) lo hi = some x' ∧
      |x' - x| ≤ 1e-6 * h * (3 + Real.exp (4 * |x - m| / h)) := by
  obtain ⟨⟨hk, hk'⟩, hm', hy⟩ := centre_close R hu (x := x) hh hm
  have hq : 4 * |x - m| / h ≤ 8 := by rw [div_le_iff₀ hh]; linarith
  obtain ⟨x', e, hx'⟩ := sigmoid_round_trip R hu exp log hexp hlog hk hH hlo (hy.trans (by linarith))
  refine ⟨x', e, hx'.trans ?_⟩
  set q := 4 * |x - m| / h
  have q0 : 0 ≤ q := by positivity
  have hE : Real.exp |R.fl (4 / h) * (x - R.fl m)| ≤ 1.001 * Real.exp q := by
    have h1 : Real.exp |R.fl (4 / h) * (x - R.fl m)| ≤ Real.exp q * Real.exp 0.0001 := by
      rw [← Real.exp_add, Real.exp_le_exp]
      linarith
    have h2 : Real.exp 0.0001 ≤ 1.001 := by
      have h3 := Real.add_one_le_exp (-0.0001 : ℝ)
      have : Real.exp 0.0001 * Real.exp (-0.0001) = 1 := by rw [← Real.exp_add]; norm_num
      nlinarith [Real.exp_pos 0.0001]
    nlinarith [Real.exp_pos q]
  set W := 3 + Real.exp q
  have W4 : 4 ≤ W := by
    have := Real.add_one_le_exp q
    linarith
  have h1 : 2.6e-6 * (3 + Real.exp |R.fl (4 / h) * (x - R.fl m)|) / R.fl (4 / h) ≤ 2.6e-6 * (1.001 * W) * (1.000001 * h / 4) := by
    rw [div_eq_mul_one_div]
    refine mul_le_mul (by linarith) hk' (by positivity) (by linarith)
  have h2 : 4 * h ≤ W * h := mul_le_mul_of_nonneg_right W4 hh.le
  have h3 : 6e-8 * |R.fl m| ≤ 6e-8 * (3.06 * h) := mul_le_mul_of_nonneg_left hm' (by norm_num)
  have h4 : 2.6e-6 * (1.001 * W) * (1.000001 * h / 4) = (2.6e-6 * 1.001 * 1.000001 / 4) * (W * h) := by ring
  have h5 : 1e-6 * h * W = 1e-6 * (W * h) := by ring
  rw [h5]
  rw [h4] at h1
  linarith

/-- Range of a parameter in floating-point numbers. -/
theorem range_close (R : Rounding) (hu : R.u ≤ 6e-8) {lo hi : ℝ} (hh : 0 < hi - lo) (hlo : |lo| ≤ 3.05 * (hi - lo))
    (hhi : |hi| ≤ 3.05 * (hi - lo)) :
    |R.fl lo - lo| ≤ 1.9e-7 * (hi - lo) ∧ |R.fl (R.fl hi - R.fl lo) - (hi - lo)| ≤ 5e-7 * (hi - lo) := by
  have h1 : |R.fl lo - lo| ≤ 1.9e-7 * (hi - lo) := by
    refine (R.err lo).trans ((mul_le_mul hu hlo (abs_nonneg _) (by norm_num)).trans ?_)
    nlinarith
  have h2 : |R.fl hi - hi| ≤ 1.9e-7 * (hi - lo) := by
    refine (R.err hi).trans ((mul_le_mul hu hhi (abs_nonneg _) (by norm_num)).trans ?_)
    nlinarith
  refine ⟨h1, ?_⟩
  obtain ⟨a1, a2⟩ := abs_le.1 h1
  obtain ⟨b1, b2⟩ := abs_le.1 h2
  have h3 : |R.fl hi - R.fl lo| ≤ 1.01 * (hi - lo) := by
    rw [abs_le]
    constructor <;> linarith
  have h4 := (R.err (R.fl hi - R.fl lo)).trans (mul_le_mul hu h3 (abs_nonneg _) (by norm_num))
  obtain ⟨c1, c2⟩ := abs_le.1 h4
  rw [abs_le]
  constructor <;> linarith

/-- One of the parameters with fixed bounds. -/
theorem recovered_of (R : Rounding) (hu : R.u ≤ 6e-8) (exp log : ℝ → ℝ)
    (hexp : ∀ x, |exp x - Real.exp x| ≤ 5e-7 * Real.exp x)
    (hlog : ∀ y, 0 < y → |log y - Real.log y| ≤ 5e-7 * |Real.log y|) {x lo hi : ℝ} (hh : 0 < hi - lo)
    (hlo : |lo| ≤ 3.05 * (hi - lo)) (hhi : |hi| ≤ 3.05 * (hi - lo)) (hx : NearMiddle lo hi x) :
    Recovered lo hi (R.inverseSigmoidB log (R.sigmoidB exp x (calculateSigmoidBounds (lo, hi))) (calculateSigmoidBounds (lo, hi))) x := by
  obtain ⟨h1, h2⟩ := range_close R hu hh hlo hhi
  obtain ⟨a1, a2⟩ := abs_le.1 h1
  obtain ⟨b1, b2⟩ := abs_le.1 h2
  obtain ⟨c1, c2⟩ := abs_le.1 hlo
  obtain ⟨d1, d2⟩ := abs_le.1 hhi
  have hm : |(lo + hi) / 2| ≤ 3.05 * (hi - lo) := by
    rw [abs_le]
    constructor <;> linarith
  have := param_round_trip R hu exp log hexp hlog hh hm hx (lo := R.fl lo) (hi := R.fl hi) (by linarith)
    (by rw [abs_le]; constructor <;> linarith)
  unfold Rounding.inverseSigmoidB Rounding.sigmoidB calculateSigmoidBounds
  dsimp only
  rw [abs_of_pos (by positivity : 0 < 4 / (hi - lo))]
  exact this

theorem f32_u : float32.u ≤ 6e-8 := by
  rw [show float32.u = 2 ^ (-24 : ℤ) from rfl]
  norm_num

/-- Quenching drops in single precision are below zero. -/
theorem drop_neg (exp log : ℝ → ℝ) (hexp : ∀ x, |exp x - Real.exp x| ≤ 5e-7 * Real.exp x)
    (hlog : ∀ y, 0 < y → |log y - Real.log y| ≤ 5e-7 * |Real.log y|) {x : ℝ} (hx : NearMiddle (-3) 0 x) :
    float32.sigmoidB exp x (calculateSigmoidBounds (-3, 0)) < 0 := by
  obtain ⟨x', e, -⟩ := recovered_of float32 f32_u exp log hexp hlog (lo := -3) (hi := 0) (by norm_num) (by norm_num) (by norm_num) hx
  by_contra hc
  push Not at hc
  unfold Rounding.inverseSigmoidB Rounding.inverseSigmoid at e
  dsimp only at e
  have f3' : float32.fl (-3) = -3 := f32_exact_neg 3 0 _ (by norm_num) (by norm_num)
  have f3 : float32.fl 3 = 3 := f32_exact' 3 0 _ (by norm_num) (by norm_num)
  rw [show (calculateSigmoidBounds (-3, 0)).2.2.1 = -3 from rfl, show (calculateSigmoidBounds (-3, 0)).2.2.2 = 0 from rfl, f3',
    float32.fl_zero, show (0 : ℝ) - -3 = 3 by norm_num, f3] at e
  set y := float32.sigmoidB exp x (calculateSigmoidBounds (-3, 0))
  have hd : 3 ≤ float32.fl (y - -3) := by
    have := float32.mono (show (3 : ℝ) ≤ y - -3 by linarith)
    rwa [f3] at this
  have hq : float32.fl (3 / float32.fl (y - -3)) ≤ 1 := by
    have := float32.mono (show 3 / float32.fl (y - -3) ≤ 1 by rw [div_le_one (by linarith)]; exact hd)
    rwa [float32.one] at this
  have hA : float32.fl (float32.fl (3 / float32.fl (y - -3)) - 1) ≤ 0 := by
    have := float32.mono (show float32.fl (3 / float32.fl (y - -3)) - 1 ≤ 0 by linarith)
    rwa [float32.fl_zero] at this
  rw [if_neg (by linarith), if_pos hA] at e
  exact absurd e (by simp)

/-- **C134**: in single precision unbounded parameters within two ranges of the middle of their range come back. -/
theorem C134_unbounded_round_trip (exp log : ℝ → ℝ) (hexp : ∀ x, |exp x - Real.exp x| ≤ 5e-7 * Real.exp x)
    (hlog : ∀ y, 0 < y → |log y - Real.log y| ≤ 5e-7 * |Real.log y|) (u : DiffstarParams ℝ)
    (h1 : NearMiddle 9 13.5 u.lgmcrit) (h2 : NearMiddle (-12) (-8) u.lgyAtMcrit) (h3 : NearMiddle 0 5 u.indxLo)
    (h4 : NearMiddle (-5) 0 u.indxHi) (h5 : NearMiddle 0.1 2 u.lgQt) (h6 : NearMiddle (-3) (-0.01) u.qlglgdt)
    (h7 : NearMiddle (-3) 0 u.lgDrop) (h8 : NearMiddle (-3) 0 u.lgRejuv) :
    let v := float32.getUnboundedDiffstarParams log (float32.getBoundedDiffstarParams exp u)
    Recovered 9 13.5 v.lgmcrit u.lgmcrit ∧ Recovered (-12) (-8) v.lgyAtMcrit u.lgyAtMcrit ∧ Recovered 0 5 v.indxLo u.indxLo ∧
    Recovered (-5) 0 v.indxHi u.indxHi ∧ Recovered 0.1 2 v.lgQt u.lgQt ∧ Recovered (-3) (-0.01) v.qlglgdt u.qlglgdt ∧
    Recovered (-3) 0 v.lgDrop u.lgDrop ∧ Recovered (-3) 0 v.lgRejuv u.lgRejuv := by
  intro v
  refine ⟨recovered_of float32 f32_u exp log hexp hlog ?_ ?_ ?_ h1, recovered_of float32 f32_u exp log hexp hlog ?_ ?_ ?_ h2,
    recovered_of float32 f32_u exp log hexp hlog ?_ ?_ ?_ h3, recovered_of float32 f32_u exp log hexp hlog ?_ ?_ ?_ h4,
    recovered_of float32 f32_u exp log hexp hlog ?_ ?_ ?_ h5, recovered_of float32 f32_u exp log hexp hlog ?_ ?_ ?_ h6,
    recovered_of float32 f32_u exp log hexp hlog ?_ ?_ ?_ h7, ?_⟩
  case refine_22 =>
    have hd := drop_neg exp log hexp hlog h7
    set y := float32.sigmoidB exp u.lgDrop (calculateSigmoidBounds (-3, 0)) with hy
    have hrep : float32.fl y = y := float32.idem _
    have z : float32.fl 0 = 0 := float32.fl_zero
    have hH : float32.fl (0 - y) = -y := by rw [zero_sub, float32.neg, hrep]
    have := param_round_trip float32 f32_u exp log hexp hlog (x := u.lgRejuv) (m := (-3 + 0) / 2) (h := 0 - -3) (lo := y) (hi := 0)
      (by norm_num) (by norm_num [abs_le]) h8 (by rw [hH]; linarith) (by rw [hH, abs_of_neg hd]; linarith)
    have e : v.lgRejuv = float32.inverseSigmoid log (float32.sigmoid exp u.lgRejuv (float32.fl ((-3 + 0) / 2))
        (float32.fl |4 / (0 - -3)|) y (float32.fl 0)) (float32.fl ((-3 + 0) / 2)) (float32.fl |4 / (0 - -3)|) y (float32.fl 0) := rfl
    rw [z, abs_of_pos (by norm_num : (0 : ℝ) < 4 / (0 - -3))] at e
    rw [e]
    exact this
  all_goals norm_num [abs_le]

/-- The logarithm that `_inverse_sigmoid` takes of a bounded value at height `r`. -/
theorem log_height_close (R : Rounding) (hu : R.u ≤ 6e-8) (log : ℝ → ℝ)
    (hlog : ∀ y, 0 < y → |log y - Real.log y| ≤ 5e-7 * |Real.log y|) {H r : ℝ} (hH : 0 < H) (r0 : 0.9e-5 ≤ r) (r1 : r ≤ 1 - 0.9e-5) :
    let d := R.fl (H * r)
    0 < d ∧ 0 < R.fl (R.fl (H / d) - 1) ∧
      |log (R.fl (R.fl (H / d) - 1)) - Real.log ((1 - r) / r)| ≤ 4.4e-7 / (1 - r) + 5e-7 * (|Real.log ((1 - r) / r)| + 0.1) := by
  intro d
  obtain ⟨a, ha, ea⟩ := fl_rel R hu (H * r)
  obtain ⟨b, hb, eb⟩ := fl_rel R hu (H / d)
  obtain ⟨c, hc, ec⟩ := fl_rel R hu (R.fl (H / d) - 1)
  obtain ⟨a1, a2⟩ := abs_le.1 ha
  obtain ⟨b1, b2⟩ := abs_le.1 hb
  obtain ⟨c1, c2⟩ := abs_le.1 hc
  have hr : 0 < r := by linarith
  have hr' : 0 < 1 - r := by linarith
  have ha0 : 0 < 1 + a := by linarith
  have d0 : 0 < d := by
    show 0 < R.fl (H * r)
    rw [ea]; positivity
  set A := R.fl (R.fl (H / d) - 1) with hA
  set B := (1 - r) / r with hB
  have B0 : 0 < B := div_pos hr' hr
  have hBr : B * r = 1 - r := by rw [hB]; field_simp
  have hAr : A * r = ((1 + b) / (1 + a) - r) * (1 + c) := by
    rw [ec, eb, show d = H * r * (1 + a) from ea]
    field_simp
  have hba : |(1 + b) / (1 + a) - 1| ≤ 1.3e-7 := by
    have : (1 + b) / (1 + a) - 1 = (b - a) / (1 + a) := by field_simp; ring
    rw [this, abs_div, abs_of_pos ha0, div_le_iff₀ ha0, abs_le]
    constructor <;> nlinarith
  have hAB : |A - B| ≤ 2.2e-7 / (1 - r) * B := by
    have e1 : (A - B) * r = ((1 + b) / (1 + a) - 1) * (1 + c) + (1 - r) * c := by
      rw [sub_mul, hBr, hAr]; ring
    have e2 : |(A - B) * r| ≤ 2e-7 := by
      rw [e1]
      refine (abs_add_le _ _).trans ?_
      rw [abs_mul, abs_mul, abs_of_pos hr']
      have : |1 + c| ≤ 1.01 := by rw [abs_le]; constructor <;> linarith
      have t1 : |(1 + b) / (1 + a) - 1| * |1 + c| ≤ 1.3e-7 * 1.01 := mul_le_mul hba this (abs_nonneg _) (by norm_num)
      have t2 : (1 - r) * |c| ≤ 1 * 6e-8 := mul_le_mul (by linarith) hc (abs_nonneg _) (by norm_num)
      linarith
    rw [abs_mul, abs_of_pos hr, ← le_div_iff₀ hr] at e2
    refine e2.trans ?_
    rw [hB]
    have : 2.2e-7 / (1 - r) * ((1 - r) / r) = 2.2e-7 / r := by field_simp
    rw [this]
    exact div_le_div_of_nonneg_right (by norm_num) hr.le
  have ht : 2.2e-7 / (1 - r) ≤ 0.025 := by rw [div_le_iff₀ hr']; linarith
  have hl := log_close B0 (by linarith) hAB
  have hA0 : 0 < A := by
    have := (abs_le.1 hAB).1
    nlinarith
  refine ⟨d0, hA0, ?_⟩
  have hg := hlog A hA0
  have hl2 : |Real.log A| ≤ |Real.log B| + 0.1 := by
    have : Real.log A = (Real.log A - Real.log B) + Real.log B := by ring
    rw [this]
    refine (abs_add_le _ _).trans ?_
    linarith
  have : log A - Real.log B = (log A - Real.log A) + (Real.log A - Real.log B) := by ring
  rw [this]
  refine (abs_add_le _ _).trans ?_
  have e : (4.4e-7 : ℝ) / (1 - r) = 2 * (2.2e-7 / (1 - r)) := by ring
  rw [e]
  linarith

/-- Bound on the logarithmic term. -/
theorem log_height_bound {r : ℝ} (r0 : 0 < r) (r1 : r < 1) : |Real.log ((1 - r) / r)| * (r * (1 - r)) ≤ 1 := by
  have h1 := Real.log_le_sub_one_of_pos (show 0 < (1 - r) / r from div_pos (by linarith) r0)
  have h2 := Real.log_le_sub_one_of_pos (show 0 < r / (1 - r) from div_pos r0 (by linarith))
  have e : Real.log (r / (1 - r)) = -Real.log ((1 - r) / r) := by rw [← Real.log_inv, inv_div]
  rw [e] at h2
  have hr' : 0 < 1 - r := by linarith
  have k1 : (1 - r) / r * (r * (1 - r)) ≤ 1 := by
    have : (1 - r) / r * (r * (1 - r)) = (1 - r) * (1 - r) := by field_simp
    rw [this]; nlinarith
  have k2 : r / (1 - r) * (r * (1 - r)) ≤ 1 := by
    have : r / (1 - r) * (r * (1 - r)) = r * r := by field_simp
    rw [this]; nlinarith
  have k0 : 0 < r * (1 - r) := mul_pos r0 hr'
  rcases abs_cases (Real.log ((1 - r) / r)) with ⟨h, -⟩ | ⟨h, -⟩ <;> rw [h] <;> nlinarith

/-- A sigmoid of a number close to the logarithm. -/
theorem nnSigmoid_height (R : Rounding) (hu : R.u ≤ 6e-8) (exp : ℝ → ℝ) (hexp : ∀ x, |exp x - Real.exp x| ≤ 5e-7 * Real.exp x)
    {z r t : ℝ} (r0 : 0 < r) (r1 : r < 1) (ht : t ≤ 0.1) (hz : |z + Real.log ((1 - r) / r)| ≤ t) :
    |R.nnSigmoid exp z - r| ≤ 1.4 * (t * (r * (1 - r))) + 4e-7 := by
  have hpos : ∀ x, 0 ≤ exp x := fun x => by
    have := (abs_le.1 (hexp x)).1
    nlinarith [Real.exp_pos x]
  have t0 : 0 ≤ t := (abs_nonneg _).trans hz
  have hs := nnSigmoidFl_rel R hu exp hpos z
  set s := R.nnSigmoid exp z
  set e := exp (-z)
  set B := (1 - r) / r with hB
  have hr' : 0 < 1 - r := by linarith
  have B0 : 0 < B := div_pos hr' r0
  have hBr : r * (1 + B) = 1 := by rw [hB]; field_simp; ring
  have hE : |Real.exp (-z) - B| ≤ 1.12 * t * B := by
    have e1 : Real.exp (-z) = B * Real.exp (-(z + Real.log B)) := by
      rw [show -(z + Real.log B) = -z - Real.log B by ring, Real.exp_sub, Real.exp_log B0]
      field_simp
    have e2 : Real.exp (-z) - B = (Real.exp (-(z + Real.log B)) - 1) * B := by rw [e1]; ring
    rw [e2, abs_mul, abs_of_pos B0]
    refine mul_le_mul_of_nonneg_right ?_ B0.le
    set w := -(z + Real.log B) with hw
    have hw' : |w| ≤ t := by rw [hw, abs_neg]; exact hz
    obtain ⟨w1, w2⟩ := abs_le.1 hw'
    have l1 := Real.add_one_le_exp w
    have l2 := Real.add_one_le_exp (-w)
    have l3 : Real.exp w * Real.exp (-w) = 1 := by rw [← Real.exp_add]; simp
    have p1 := Real.exp_pos w
    have l4 : Real.exp w * (1 - t) ≤ 1 := by nlinarith
    rw [abs_le]
    constructor <;> nlinarith
  have heB : |e - B| ≤ (1.13 * t + 6e-7) * B := by
    obtain ⟨q1, q2⟩ := abs_le.1 (show |e - Real.exp (-z)| ≤ 5e-7 * Real.exp (-z) from hexp (-z))
    obtain ⟨q3, q4⟩ := abs_le.1 hE
    have tB : 0 ≤ t * B := mul_nonneg t0 B0.le
    have : t * B ≤ 0.1 * B := mul_le_mul_of_nonneg_right ht B0.le
    rw [abs_le]
    constructor <;> linarith
  have e0 : 0 ≤ e := hpos _
  have he1 : 1 + B ≤ 1.14 * (1 + e) := by
    have := (abs_le.1 heB).1
    have : t * B ≤ 0.1 * B := mul_le_mul_of_nonneg_right ht B0.le
    nlinarith
  have key : (s - r) * (1 + e) = (s * (1 + e) - 1) + r * (B - e) := by linear_combination (-1) * hBr
  have hk : |s - r| * (1 + e) ≤ 1.3e-7 + r * ((1.13 * t + 6e-7) * B) := by
    have : |(s - r) * (1 + e)| ≤ 1.3e-7 + r * ((1.13 * t + 6e-7) * B) := by
      rw [key]
      refine (abs_add_le _ _).trans (add_le_add hs ?_)
      rw [abs_mul, abs_of_pos r0, abs_sub_comm]
      exact mul_le_mul_of_nonneg_left heB r0.le
    rwa [abs_mul, abs_of_pos (by linarith : 0 < 1 + e)] at this
  have hrB : r * B = 1 - r := by rw [hB]; field_simp
  have h1 : |s - r| * (1 + B) ≤ 1.14 * (1.3e-7 + (1.13 * t + 6e-7) * (1 - r)) := by
    calc |s - r| * (1 + B) ≤ |s - r| * (1.14 * (1 + e)) := mul_le_mul_of_nonneg_left he1 (abs_nonneg _)
      _ = 1.14 * (|s - r| * (1 + e)) := by ring
      _ ≤ 1.14 * (1.3e-7 + r * ((1.13 * t + 6e-7) * B)) := by linarith
      _ = 1.14 * (1.3e-7 + (1.13 * t + 6e-7) * (r * B)) := by ring
      _ = _ := by rw [hrB]
  have h2 : |s - r| = |s - r| * (1 + B) * r := by rw [mul_assoc, mul_comm (1 + B), hBr, mul_one]
  rw [h2]
  refine (mul_le_mul_of_nonneg_right h1 r0.le).trans ?_
  have h3 : r * (1 - r) ≤ 1 / 4 := by nlinarith [sq_nonneg (2 * r - 1)]
  have h4 : 0 ≤ t * (r * (1 - r)) := by positivity
  nlinarith

theorem log_height_abs {r : ℝ} (r0 : 0.9e-5 ≤ r) (r1 : r ≤ 1 - 0.9e-5) : |Real.log ((1 - r) / r)| ≤ 15 := by
  have hr0 : 0 < r := by linarith
  have hr' : 0 < 1 - r := by linarith
  have q1 : Real.exp 15 ≥ 200000 := by
    have h1 : (2.7 : ℝ) ^ 15 ≤ Real.exp 1 ^ 15 := pow_le_pow_left₀ (by norm_num) (by linarith [Real.exp_one_gt_d9]) _
    rw [← Real.exp_nat_mul, mul_one] at h1
    exact le_trans (by norm_num) (h1.trans_eq (by norm_num))
  have hup : ∀ w : ℝ, 0 < w → w ≤ 200000 → Real.log w ≤ 15 := fun w h0 h1 =>
    (Real.log_le_iff_le_exp h0).2 (h1.trans q1)
  rw [abs_le]
  constructor
  · have := hup (r / (1 - r)) (div_pos hr0 hr') (by rw [div_le_iff₀ hr']; nlinarith)
    have e : Real.log (r / (1 - r)) = -Real.log ((1 - r) / r) := by rw [← Real.log_inv, inv_div]
    linarith
  · exact hup _ (div_pos hr' hr0) (by rw [div_le_iff₀ hr0]; nlinarith)

/-- The argument of the sigmoid, computed from the unbounded value of a logarithm. -/
theorem arg_close (R : Rounding) (hu : R.u ≤ 6e-8) {L l g x0 k : ℝ} (hk : 0 < k) (hx0 : k * |x0| ≤ 12.5) (hlabs : |l| ≤ 15)
    (hg : g ≤ 0.05) (hL : |L - l| ≤ g + 5e-7 * (|l| + 0.1)) :
    |R.fl (k * R.fl (R.fl (x0 - R.fl (L / k)) - x0)) + l| ≤ g + 8e-7 * |l| + 1e-6 := by
  obtain ⟨a, ha, ea⟩ := fl_rel R hu (L / k)
  obtain ⟨b, hb, eb⟩ := fl_rel R hu (x0 - R.fl (L / k))
  obtain ⟨c, hc, ec⟩ := fl_rel R hu (R.fl (x0 - R.fl (L / k)) - x0)
  obtain ⟨d, hd, ed⟩ := fl_rel R hu (k * R.fl (R.fl (x0 - R.fl (L / k)) - x0))
  obtain ⟨a1, a2⟩ := abs_le.1 ha
  obtain ⟨c1, c2⟩ := abs_le.1 hc
  obtain ⟨d1, d2⟩ := abs_le.1 hd
  have hL' : |L| ≤ |l| + 0.06 := by
    have : L = (L - l) + l := by ring
    rw [this]
    refine (abs_add_le _ _).trans ?_
    linarith
  have hkx : k * (R.fl (x0 - R.fl (L / k)) - x0) = -L - L * a + (k * x0 - L * (1 + a)) * b := by
    rw [eb, ea]
    field_simp
    ring
  rw [ed, ec]
  generalize R.fl (x0 - R.fl (L / k)) - x0 = y at hkx
  have t1 : |L * a| ≤ (|l| + 0.06) * 6e-8 := by rw [abs_mul]; exact mul_le_mul hL' ha (abs_nonneg _) (by positivity)
  have t2 : |(k * x0 - L * (1 + a)) * b| ≤ (12.5 + 1.01 * (|l| + 0.06)) * 6e-8 := by
    rw [abs_mul]
    refine mul_le_mul ?_ hb (abs_nonneg _) (by positivity)
    refine (abs_sub _ _).trans (add_le_add ?_ ?_)
    · rwa [abs_mul, abs_of_pos hk]
    · rw [abs_mul, mul_comm]
      refine mul_le_mul ?_ hL' (abs_nonneg _) (by norm_num)
      rw [abs_le]; constructor <;> linarith
  have hl0 := abs_nonneg l
  have hkx' : |k * y + L| ≤ 1.21e-7 * (|l| + 0.06) + 7.51e-7 := by
    rw [hkx]
    have := abs_le.1 t1
    have := abs_le.1 t2
    rw [abs_le]
    constructor <;> linarith
  have hcd : |(1 + c) * (1 + d) - 1| ≤ 1.3e-7 := by
    rw [abs_le]
    constructor <;> nlinarith
  have t3 : |k * y| ≤ |l| + 0.1 := by
    have : k * y = (k * y + L) + -L := by ring
    rw [this]
    refine (abs_add_le _ _).trans ?_
    rw [abs_neg]
    linarith
  have t4 : |((1 + c) * (1 + d) - 1) * (k * y)| ≤ 1.3e-7 * (|l| + 0.1) := by
    rw [abs_mul]
    exact mul_le_mul hcd t3 (abs_nonneg _) (by norm_num)
  have e : k * (y * (1 + c)) * (1 + d) + l = ((1 + c) * (1 + d) - 1) * (k * y) + (k * y + L) + -(L - l) := by ring
  rw [e]
  refine (abs_add_three _ _ _).trans ?_
  rw [abs_neg]
  linarith

/-- `_inverse_sigmoid`, then the sigmoid inside `_sigmoid`. -/
theorem height_round_trip (R : Rounding) (hu : R.u ≤ 6e-8) (exp log : ℝ → ℝ)
    (hexp : ∀ x, |exp x - Real.exp x| ≤ 5e-7 * Real.exp x)
    (hlog : ∀ y, 0 < y → |log y - Real.log y| ≤ 5e-7 * |Real.log y|) {p x0 k lo hi : ℝ} (hk : 0 < k) (hx0 : k * |x0| ≤ 12.5)
    (hH : 0 < R.fl (hi - lo)) (r0 : 0.9e-5 * R.fl (hi - lo) ≤ p - lo) (r1 : p - lo ≤ (1 - 0.9e-5) * R.fl (hi - lo)) :
    ∃ x, R.inverseSigmoid log p x0 k lo hi = some x ∧
      |R.nnSigmoid exp (R.fl (k * R.fl (x - x0))) - (p - lo) / R.fl (hi - lo)| ≤ 2.9e-6 := by
  set H := R.fl (hi - lo) with hHdef
  set r := (p - lo) / H with hr
  have r0' : 0.9e-5 ≤ r := by rw [hr, le_div_iff₀ hH]; exact r0
  have r1' : r ≤ 1 - 0.9e-5 := by rw [hr, div_le_iff₀ hH]; exact r1
  have hHr : H * r = p - lo := by rw [hr]; field_simp
  obtain ⟨d0, A0, hL⟩ := log_height_close R hu log hlog hH r0' r1'
  rw [hHr] at d0 A0 hL
  set A := R.fl (R.fl (H / R.fl (p - lo)) - 1) with hA
  refine ⟨R.fl (x0 - R.fl (log A / k)), ?_, ?_⟩
  · unfold Rounding.inverseSigmoid
    dsimp only
    rw [if_neg d0.ne', ← hHdef, ← hA, if_neg (not_le.2 A0)]
  have hr0 : 0 < r := by linarith
  have hr1 : r < 1 := by linarith
  have hr' : 0 < 1 - r := by linarith
  have hlabs := log_height_abs r0' r1'
  set l := Real.log ((1 - r) / r)
  have hg' : 4.4e-7 / (1 - r) ≤ 0.05 := by rw [div_le_iff₀ hr']; linarith
  have hzl := arg_close R hu hk hx0 hlabs hg' hL
  have k1 : 4.4e-7 / (1 - r) * (r * (1 - r)) ≤ 4.4e-7 := by
    have : 4.4e-7 / (1 - r) * (r * (1 - r)) = 4.4e-7 * r := by field_simp
    rw [this]; linarith
  generalize 4.4e-7 / (1 - r) = g at *
  have hfin := nnSigmoid_height R hu exp hexp hr0 hr1 (by linarith) hzl
  refine hfin.trans ?_
  have k2 := log_height_bound hr0 hr1
  have k3 : r * (1 - r) ≤ 1 / 4 := by nlinarith [sq_nonneg (2 * r - 1)]
  have k4 : (g + 8e-7 * |l| + 1e-6) * (r * (1 - r)) = g * (r * (1 - r)) + 8e-7 * (|l| * (r * (1 - r))) + 1e-6 * (r * (1 - r)) := by ring
  rw [k4]
  linarith

/-- The last two roundings of `_sigmoid`. -/
theorem forward_close (R : Rounding) (hu : R.u ≤ 6e-8) {lo H s : ℝ} (hH : 0 < H) (hlo : |lo| ≤ 3.2 * H) (s0 : 0 ≤ s) (s1 : s ≤ 1) :
    |R.fl (lo + R.fl (H * s)) - (lo + H * s)| ≤ 3.2e-7 * H := by
  have k0 : 0 ≤ H * s := mul_nonneg hH.le s0
  have k1 : H * s ≤ H := mul_le_of_le_one_right hH.le s1
  have e1 := R.err (H * s)
  rw [abs_of_nonneg k0] at e1
  have e1' : |R.fl (H * s) - H * s| ≤ 6e-8 * H := e1.trans (mul_le_mul hu k1 k0 (by norm_num))
  obtain ⟨q1, q2⟩ := abs_le.1 e1'
  obtain ⟨q3, q4⟩ := abs_le.1 hlo
  have e2 : |lo + R.fl (H * s)| ≤ 4.3 * H := by
    rw [abs_le]
    constructor <;> linarith
  have e3 := (R.err (lo + R.fl (H * s))).trans (mul_le_mul hu e2 (abs_nonneg _) (by norm_num))
  obtain ⟨q5, q6⟩ := abs_le.1 e3
  rw [abs_le]
  constructor <;> linarith

/-- One of the parameters with fixed bounds, to its unbounded value and back. -/
theorem bounded_recovered (R : Rounding) (hu : R.u ≤ 6e-8) (exp log : ℝ → ℝ)
    (hexp : ∀ x, |exp x - Real.exp x| ≤ 5e-7 * Real.exp x)
    (hlog : ∀ y, 0 < y → |log y - Real.log y| ≤ 5e-7 * |Real.log y|) {p lo hi : ℝ} (hh : 0 < hi - lo)
    (hlo : |lo| ≤ 3.05 * (hi - lo)) (hhi : |hi| ≤ 3.05 * (hi - lo)) (hp : Inside lo hi p) :
    ∃ x, R.inverseSigmoidB log p (calculateSigmoidBounds (lo, hi)) = some x ∧
      |R.sigmoidB exp x (calculateSigmoidBounds (lo, hi)) - p| ≤ 4e-6 * (hi - lo) := by
  have hpos : ∀ x, 0 ≤ exp x := fun x => by
    have := (abs_le.1 (hexp x)).1
    nlinarith [Real.exp_pos x]
  obtain ⟨h1, h2⟩ := range_close R hu hh hlo hhi
  obtain ⟨a1, a2⟩ := abs_le.1 h1
  obtain ⟨b1, b2⟩ := abs_le.1 h2
  obtain ⟨c1, c2⟩ := abs_le.1 hlo
  obtain ⟨d1, d2⟩ := abs_le.1 hhi
  obtain ⟨p1, p2⟩ := hp
  have hm : |(lo + hi) / 2| ≤ 3.05 * (hi - lo) := by
    rw [abs_le]
    constructor <;> linarith
  obtain ⟨⟨hk, -⟩, hm', -⟩ := centre_close R hu (x := 0) hh hm
  have hk4 : R.fl (4 / (hi - lo)) ≤ 4.01 / (hi - lo) := by
    obtain ⟨a, ha, ea⟩ := fl_rel R hu (4 / (hi - lo))
    have := (abs_le.1 ha).2
    rw [ea, div_mul_eq_mul_div]
    exact div_le_div_of_nonneg_right (by linarith) hh.le
  have hkm : R.fl (4 / (hi - lo)) * |R.fl ((lo + hi) / 2)| ≤ 12.5 := by
    calc _ ≤ 4.01 / (hi - lo) * (3.06 * (hi - lo)) := mul_le_mul hk4 hm' (abs_nonneg _) (by positivity)
      _ = 4.01 * 3.06 := by field_simp
      _ ≤ 12.5 := by norm_num
  set H := R.fl (R.fl hi - R.fl lo) with hH
  have H0 : 0 < H := by linarith
  obtain ⟨x, e, hx⟩ := height_round_trip R hu exp log hexp hlog (p := p) (lo := R.fl lo) (hi := R.fl hi) hk hkm H0
    (by rw [← hH]; linarith) (by rw [← hH]; linarith)
  rw [← hH] at hx
  unfold Rounding.inverseSigmoidB Rounding.sigmoidB calculateSigmoidBounds
  dsimp only
  rw [abs_of_pos (by positivity : 0 < 4 / (hi - lo))]
  refine ⟨x, e, ?_⟩
  obtain ⟨s0, s1⟩ := nnSigmoidFl_unit R exp hpos (R.fl (R.fl (4 / (hi - lo)) * R.fl (x - R.fl ((lo + hi) / 2))))
  have hf := forward_close R hu H0 (lo := R.fl lo) (by rw [abs_le]; constructor <;> linarith) s0 s1
  unfold Rounding.sigmoid
  rw [← hH]
  set s := R.nnSigmoid exp (R.fl (R.fl (4 / (hi - lo)) * R.fl (x - R.fl ((lo + hi) / 2))))
  have hs : |H * s - (p - R.fl lo)| ≤ 2.9e-6 * H := by
    have : H * s - (p - R.fl lo) = (s - (p - R.fl lo) / H) * H := by field_simp
    rw [this, abs_mul, abs_of_pos H0]
    exact mul_le_mul_of_nonneg_right hx H0.le
  obtain ⟨q1, q2⟩ := abs_le.1 hf
  obtain ⟨q3, q4⟩ := abs_le.1 hs
  rw [abs_le]
  constructor <;> linarith

/-- Arithmetic of the rejuvenation level, whose lower bound is the drop. -/
theorem rejuv_arith {D D' s r a y p : ℝ} (hD : |D' - D| ≤ 1.2e-5) (D3 : |D| ≤ 3) (s0 : 0 ≤ s) (s1 : s ≤ 1) (r1 : |r| ≤ 1)
    (hs : |s - r| ≤ 2.9e-6) (ha : |a| ≤ 6e-8) (hp : p = D - D * (1 + a) * r) (hy : |y - (D' + -D' * s)| ≤ 3.2e-7 * 3.1) :
    |y - p| ≤ 2.5e-5 := by
  have e : y - p = (y - (D' + -D' * s)) + ((D' - D) * (1 - s) + (-D) * (s - r)) + D * a * r := by rw [hp]; ring
  rw [e]
  have t1 : |(D' - D) * (1 - s)| ≤ 1.2e-5 * 1 := by
    rw [abs_mul]
    exact mul_le_mul hD (by rw [abs_le]; constructor <;> linarith) (abs_nonneg _) (by norm_num)
  have t2 : |(-D) * (s - r)| ≤ 3 * 2.9e-6 := by
    rw [abs_mul, abs_neg]
    exact mul_le_mul D3 hs (abs_nonneg _) (by norm_num)
  have t3 : |D * a * r| ≤ 3 * 6e-8 * 1 := by
    rw [abs_mul, abs_mul]
    exact mul_le_mul (mul_le_mul D3 ha (abs_nonneg _) (by norm_num)) r1 (abs_nonneg _) (by norm_num)
  refine (abs_add_three _ _ _).trans ?_
  have := abs_add_le ((D' - D) * (1 - s)) ((-D) * (s - r))
  linarith

/-- **C134**: in single precision bounded parameters that keep a small distance to their bounds come back from their unbounded
values. -/
theorem C134_bounded_round_trip (exp log : ℝ → ℝ) (hexp : ∀ x, |exp x - Real.exp x| ≤ 5e-7 * Real.exp x)
    (hlog : ∀ y, 0 < y → |log y - Real.log y| ≤ 5e-7 * |Real.log y|) (p : DiffstarParams ℝ)
    (h1 : Inside 9 13.5 p.lgmcrit) (h2 : Inside (-12) (-8) p.lgyAtMcrit) (h3 : Inside 0 5 p.indxLo)
    (h4 : Inside (-5) 0 p.indxHi) (h5 : Inside 0.1 2 p.lgQt) (h6 : Inside (-3) (-0.01) p.qlglgdt)
    (h7 : Inside (-3) 0 p.lgDrop) (h8 : Inside p.lgDrop 0 p.lgRejuv) :
    ∃ u : DiffstarParams ℝ, float32.getUnboundedDiffstarParams log p = ⟨some u.lgmcrit, some u.lgyAtMcrit, some u.indxLo,
        some u.indxHi, some u.lgQt, some u.qlglgdt, some u.lgDrop, some u.lgRejuv⟩ ∧
      let p' := float32.getBoundedDiffstarParams exp u
      |p'.lgmcrit - p.lgmcrit| ≤ 2.5e-5 ∧ |p'.lgyAtMcrit - p.lgyAtMcrit| ≤ 2.5e-5 ∧ |p'.indxLo - p.indxLo| ≤ 2.5e-5 ∧
      |p'.indxHi - p.indxHi| ≤ 2.5e-5 ∧ |p'.lgQt - p.lgQt| ≤ 2.5e-5 ∧ |p'.qlglgdt - p.qlglgdt| ≤ 2.5e-5 ∧
      |p'.lgDrop - p.lgDrop| ≤ 2.5e-5 ∧ |p'.lgRejuv - p.lgRejuv| ≤ 2.5e-5 := by
  obtain ⟨x1, e1, g1⟩ := bounded_recovered float32 f32_u exp log hexp hlog (by norm_num) (by norm_num [abs_le]) (by norm_num [abs_le]) h1
  obtain ⟨x2, e2, g2⟩ := bounded_recovered float32 f32_u exp log hexp hlog (by norm_num) (by norm_num [abs_le]) (by norm_num [abs_le]) h2
  obtain ⟨x3, e3, g3⟩ := bounded_recovered float32 f32_u exp log hexp hlog (by norm_num) (by norm_num [abs_le]) (by norm_num [abs_le]) h3
  obtain ⟨x4, e4, g4⟩ := bounded_recovered float32 f32_u exp log hexp hlog (by norm_num) (by norm_num [abs_le]) (by norm_num [abs_le]) h4
  obtain ⟨x5, e5, g5⟩ := bounded_recovered float32 f32_u exp log hexp hlog (by norm_num) (by norm_num [abs_le]) (by norm_num [abs_le]) h5
  obtain ⟨x6, e6, g6⟩ := bounded_recovered float32 f32_u exp log hexp hlog (by norm_num) (by norm_num [abs_le]) (by norm_num [abs_le]) h6
  obtain ⟨x7, e7, g7⟩ := bounded_recovered float32 f32_u exp log hexp hlog (by norm_num) (by norm_num [abs_le]) (by norm_num [abs_le]) h7
  have hpos : ∀ x, 0 ≤ exp x := fun x => by
    have := (abs_le.1 (hexp x)).1
    nlinarith [Real.exp_pos x]
  obtain ⟨D1, D2⟩ := h7
  obtain ⟨R1, R2⟩ := h8
  set D := p.lgDrop with hD
  set D' := float32.sigmoidB exp x7 (calculateSigmoidBounds (-3, 0)) with hD'
  obtain ⟨g71, g72⟩ := abs_le.1 g7
  obtain ⟨a, ha, ea⟩ := fl_rel float32 f32_u (0 - D)
  obtain ⟨a1, a2⟩ := abs_le.1 ha
  have z : float32.fl 0 = 0 := float32.fl_zero
  have hH0 : 0 < float32.fl (0 - D) := by
    rw [ea]; apply mul_pos <;> linarith
  have hH1 : float32.fl (0 - D) ≤ -D * (1 + 6e-8) := by
    rw [ea]; nlinarith
  have hH2 : -D * (1 - 6e-8) ≤ float32.fl (0 - D) := by
    rw [ea]; nlinarith
  obtain ⟨⟨hk, -⟩, hm', -⟩ := centre_close float32 f32_u (x := 0) (m := (-3 + 0) / 2) (h := 0 - -3) (by norm_num) (by norm_num [abs_le])
  have hk4 : float32.fl (4 / (0 - -3)) ≤ 1.34 := by
    obtain ⟨b, hb, eb⟩ := fl_rel float32 f32_u (4 / (0 - -3))
    have := (abs_le.1 hb).2
    rw [eb]; linarith
  have hkm : float32.fl (4 / (0 - -3)) * |float32.fl ((-3 + 0) / 2)| ≤ 12.5 := by
    calc _ ≤ 1.34 * (3.06 * (0 - -3)) := mul_le_mul hk4 hm' (abs_nonneg _) (by norm_num)
      _ ≤ 12.5 := by norm_num
  obtain ⟨x8, e8, g8⟩ := height_round_trip float32 f32_u exp log hexp hlog (p := p.lgRejuv) (lo := D) (hi := 0) hk hkm hH0
    (by linarith) (by linarith)
  refine ⟨⟨x1, x2, x3, x4, x5, x6, x7, x8⟩, ?_, ?_⟩
  · have e : float32.getUnboundedDiffstarParams log p = ⟨float32.inverseSigmoidB log p.lgmcrit (calculateSigmoidBounds (9, 13.5)),
        float32.inverseSigmoidB log p.lgyAtMcrit (calculateSigmoidBounds (-12, -8)),
        float32.inverseSigmoidB log p.indxLo (calculateSigmoidBounds (0, 5)),
        float32.inverseSigmoidB log p.indxHi (calculateSigmoidBounds (-5, 0)),
        float32.inverseSigmoidB log p.lgQt (calculateSigmoidBounds (0.1, 2)),
        float32.inverseSigmoidB log p.qlglgdt (calculateSigmoidBounds (-3, -0.01)),
        float32.inverseSigmoidB log p.lgDrop (calculateSigmoidBounds (-3, 0)),
        float32.inverseSigmoid log p.lgRejuv (float32.fl ((-3 + 0) / 2)) (float32.fl |4 / (0 - -3)|) D (float32.fl 0)⟩ := rfl
    rw [e, z, abs_of_pos (by norm_num : (0 : ℝ) < 4 / (0 - -3)), e8, e1, e2, e3, e4, e5, e6, e7]
  · intro p'
    refine ⟨g1.trans (by norm_num), g2.trans (by norm_num), g3.trans (by norm_num), g4.trans (by norm_num), g5.trans (by norm_num),
      g6.trans (by norm_num), g7.trans (by norm_num), ?_⟩
    have hrep : float32.fl D' = D' := float32.idem _
    have hH : float32.fl (0 - D') = -D' := by rw [zero_sub, float32.neg, hrep]
    have e : p'.lgRejuv = float32.sigmoid exp x8 (float32.fl ((-3 + 0) / 2)) (float32.fl |4 / (0 - -3)|) D' (float32.fl 0) := rfl
    rw [z, abs_of_pos (by norm_num : (0 : ℝ) < 4 / (0 - -3))] at e
    unfold Rounding.sigmoid at e
    dsimp only at e
    rw [hH] at e
    obtain ⟨s0, s1⟩ := nnSigmoidFl_unit float32 exp hpos (float32.fl (float32.fl (4 / (0 - -3)) * float32.fl (x8 - float32.fl ((-3 + 0) / 2))))
    set s := float32.nnSigmoid exp (float32.fl (float32.fl (4 / (0 - -3)) * float32.fl (x8 - float32.fl ((-3 + 0) / 2))))
    have hD0 : D' < 0 := by linarith
    have hf := forward_close float32 f32_u (H := -D') (lo := D') (by linarith) (by rw [abs_of_neg hD0]; linarith) s0 s1
    rw [← e] at hf
    refine rejuv_arith (D := D) (D' := D') (s := s) (r := (p.lgRejuv - D) / float32.fl (0 - D)) (a := a) (by rw [abs_le]; constructor <;> linarith)
      (by rw [abs_le]; constructor <;> linarith) s0 s1 ?_ g8 ha ?_ (hf.trans (by linarith))
    · rw [abs_div, abs_of_pos hH0, div_le_one hH0, abs_le]
      constructor <;> linarith
    · rw [ea]
      have : (0 - D) * (1 + a) ≠ 0 := by rw [← ea]; exact hH0.ne'
      have h2 : -(D * (1 + a)) * ((p.lgRejuv - D) / ((0 - D) * (1 + a))) = p.lgRejuv - D := by
        rw [show -(D * (1 + a)) = (0 - D) * (1 + a) by ring, mul_div_assoc', mul_div_cancel_left₀ _ this]
      linarith

/-- Correctly rounded functions of the library are accurate enough. -/
example : (∀ x, |float32.fl (Real.exp x) - Real.exp x| ≤ 5e-7 * Real.exp x) ∧
    ∀ y, 0 < y → |float32.fl (Real.log y) - Real.log y| ≤ 5e-7 * |Real.log y| := by
  have h : ∀ x, |float32.fl x - x| ≤ 5e-7 * |x| := fun x =>
    (float32.err x).trans (mul_le_mul_of_nonneg_right (f32_u.trans (by norm_num)) (abs_nonneg x))
  refine ⟨fun x => ?_, fun y _ => h _⟩
  have := h (Real.exp x)
  rwa [abs_of_pos (Real.exp_pos x)] at this

/-- Unbounded parameters within two ranges of the middle. -/
example : NearMiddle 9 13.5 12 ∧ NearMiddle (-12) (-8) (-10) ∧ NearMiddle 0 5 1 ∧ NearMiddle (-5) 0 (-1) ∧ NearMiddle 0.1 2 1 ∧
    NearMiddle (-3) (-0.01) (-0.5) ∧ NearMiddle (-3) 0 (-1) ∧ NearMiddle (-3) 0 4 := by
  norm_num [NearMiddle, abs_le]

/-- The default parameters keep their distance to the bounds. -/
example : Inside 9 13.5 DEFAULT_DIFFSTAR_PARAMS.lgmcrit ∧ Inside (-12) (-8) DEFAULT_DIFFSTAR_PARAMS.lgyAtMcrit ∧
    Inside 0 5 DEFAULT_DIFFSTAR_PARAMS.indxLo ∧ Inside (-5) 0 DEFAULT_DIFFSTAR_PARAMS.indxHi ∧
    Inside 0.1 2 DEFAULT_DIFFSTAR_PARAMS.lgQt ∧ Inside (-3) (-0.01) DEFAULT_DIFFSTAR_PARAMS.qlglgdt ∧
    Inside (-3) 0 DEFAULT_DIFFSTAR_PARAMS.lgDrop ∧ Inside DEFAULT_DIFFSTAR_PARAMS.lgDrop 0 DEFAULT_DIFFSTAR_PARAMS.lgRejuv := by
  norm_num [Inside, DEFAULT_DIFFSTAR_PARAMS, DiffstarParams.join, DEFAULT_MS_PARAMS, DEFAULT_Q_PARAMS]

end Diffstar.Props
