import Verif.Model.RoundDraw
import Verif.Props.RoundPopErr
import Verif.Lemmas.Line

/-! C148: the clipped lines of the population model in single precision. -/

namespace Diffstar.Props

open Diffstar Diffstar.Spec Diffstar.Pop

/-! ### The transition function under errors of its argument -/

theorem mul_exp_le (t : ℝ) : t * Real.exp (-t) ≤ 0.368 := by
  have h := Real.add_one_le_exp (t - 1)
  rw [sub_add_cancel, Real.exp_sub] at h
  have e1 := Real.exp_one_gt_d9
  rw [Real.exp_neg, ← div_eq_mul_inv, div_le_iff₀ (Real.exp_pos _)]
  refine h.trans ?_
  rw [div_le_iff₀ (Real.exp_pos _)]
  have := Real.exp_pos t
  nlinarith

theorem sigmoid_slope (s : ℝ) : Real.sigmoid s * (1 - Real.sigmoid s) ≤ Real.exp (-|s|) := by
  have key : ∀ t : ℝ, Real.sigmoid t * (1 - Real.sigmoid t) ≤ Real.exp (-t) := by
    intro t
    have hE := Real.exp_pos (-t)
    rw [Real.sigmoid_def]
    have e : (1 + Real.exp (-t))⁻¹ * (1 - (1 + Real.exp (-t))⁻¹) = Real.exp (-t) * ((1 + Real.exp (-t))⁻¹ * (1 + Real.exp (-t))⁻¹) := by
      field_simp
      ring
    rw [e]
    have h1 : (1 + Real.exp (-t))⁻¹ ≤ 1 := inv_le_one_of_one_le₀ (by linarith)
    have h0 : 0 ≤ (1 + Real.exp (-t))⁻¹ := by positivity
    nlinarith
  rcases abs_choice s with h | h
  · rw [h]; exact key s
  · rw [h]
    have := key (-s)
    rw [Real.sigmoid_neg] at this
    linarith

/-- A relative error `ρ` and an absolute error `η` of the argument of a sigmoid that multiplies its argument. -/
theorem shift_mul {z ρ η : ℝ} (hρ : |ρ| ≤ 0.2) :
    |z| * |nnSigmoid (z * (1 + ρ) + η) - nnSigmoid z| ≤ 7 * |ρ| + 2 * |η| := by
  have hn : ∀ x, nnSigmoid x = Real.sigmoid x := fun x => by rw [Real.sigmoid_def, nnSigmoid, one_div]
  rw [hn, hn]
  have hz := abs_nonneg z
  have hρ0 := abs_nonneg ρ
  have hη0 := abs_nonneg η
  rcases le_or_gt (2 * |η|) |z| with h | h
  · have hseg : ∀ s ∈ Set.uIcc z (z * (1 + ρ) + η), 0.3 * |z| ≤ |s| := by
      intro s hs
      have a := abs_le.1 hρ
      have b := abs_le.1 (show |η| ≤ |z| / 2 by linarith)
      rcases abs_cases z with ⟨e, h0⟩ | ⟨e, h0⟩
      · rw [e] at b ⊢
        have c : 0.3 * z ≤ z * (1 + ρ) + η := by nlinarith
        have : 0.3 * z ≤ s := (le_inf (by linarith) c).trans hs.1
        exact this.trans (le_abs_self _)
      · rw [e] at b ⊢
        have c : z * (1 + ρ) + η ≤ 0.3 * z := by nlinarith
        have : s ≤ 0.3 * z := hs.2.trans (sup_le (by linarith) c)
        have := neg_abs_le s
        linarith
    have hd := Convex.norm_image_sub_le_of_norm_deriv_le (f := Real.sigmoid) (C := Real.exp (-(0.3 * |z|))) (s := Set.uIcc z (z * (1 + ρ) + η))
      (x := z) (y := z * (1 + ρ) + η) (fun s _ => differentiableAt_sigmoid) (fun s hs => by
        rw [Real.deriv_sigmoid, Real.norm_eq_abs, abs_of_nonneg (mul_nonneg (Real.sigmoid_nonneg s) (by linarith [Real.sigmoid_le_one s]))]
        exact (sigmoid_slope s).trans (Real.exp_le_exp.2 (by linarith [hseg s hs]))) (convex_uIcc _ _) Set.left_mem_uIcc Set.right_mem_uIcc
    simp only [Real.norm_eq_abs] at hd
    have e1 : |z * (1 + ρ) + η - z| ≤ |z| * |ρ| + |η| := by
      rw [show z * (1 + ρ) + η - z = z * ρ + η by ring, ← abs_mul]
      exact abs_add_le _ _
    have m1 : |z| * Real.exp (-(0.3 * |z|)) ≤ 1.3 := by
      have := mul_exp_le (0.3 * |z|)
      linarith
    have m2 : |z| * |z| * Real.exp (-(0.3 * |z|)) ≤ 7 := by
      have h1 := mul_exp_le (0.15 * |z|)
      have h2 : 0 ≤ 0.15 * |z| * Real.exp (-(0.15 * |z|)) := by positivity
      have h3 := mul_self_le_mul_self h2 h1
      have h4 : Real.exp (-(0.3 * |z|)) = Real.exp (-(0.15 * |z|)) * Real.exp (-(0.15 * |z|)) := by rw [← Real.exp_add]; ring_nf
      rw [h4]
      nlinarith
    calc |z| * |Real.sigmoid (z * (1 + ρ) + η) - Real.sigmoid z|
        ≤ |z| * (Real.exp (-(0.3 * |z|)) * (|z| * |ρ| + |η|)) :=
          mul_le_mul_of_nonneg_left (hd.trans (mul_le_mul_of_nonneg_left e1 (Real.exp_pos _).le)) hz
      _ = (|z| * |z| * Real.exp (-(0.3 * |z|))) * |ρ| + (|z| * Real.exp (-(0.3 * |z|))) * |η| := by ring
      _ ≤ 7 * |ρ| + 2 * |η| := by nlinarith
  · have h1 : |Real.sigmoid (z * (1 + ρ) + η) - Real.sigmoid z| ≤ 1 := by
      rw [abs_le]
      have := Real.sigmoid_nonneg z
      have := Real.sigmoid_le_one z
      have := Real.sigmoid_nonneg (z * (1 + ρ) + η)
      have := Real.sigmoid_le_one (z * (1 + ρ) + η)
      constructor <;> linarith
    nlinarith

theorem shift_abs {z ρ η : ℝ} (hρ : |ρ| ≤ 0.2) : |nnSigmoid (z * (1 + ρ) + η) - nnSigmoid z| ≤ 7 * |ρ| + 2 * |η| := by
  have hρ0 := abs_nonneg ρ
  have hη0 := abs_nonneg η
  have hd0 := abs_nonneg (nnSigmoid (z * (1 + ρ) + η) - nnSigmoid z)
  rcases le_total 1 |z| with h | h
  · have := shift_mul (z := z) (η := η) hρ
    nlinarith
  · have := sigma_quarter (z * (1 + ρ) + η) z
    have e1 : |z * (1 + ρ) + η - z| ≤ |z| * |ρ| + |η| := by
      rw [show z * (1 + ρ) + η - z = z * ρ + η by ring, ← abs_mul]
      exact abs_add_le _ _
    simp only [nnSigmoid]
    nlinarith

/-- Distance of the line clipped from below to the upper clip. -/
theorem clip_upper {D Z L H : ℝ} (hD : 0 < D) (hHL : L ≤ H) :
    |H - (L + (Z - L) * nnSigmoid (2000 / D * (Z - L)))| ≤ D / 2000 * (|2000 / D * (Z - H)| + 0.2816) := by
  have s0 := nnSigmoid_pos (2000 / D * (Z - L))
  have s1 := nnSigmoid_lt_one (2000 / D * (Z - L))
  have q1 := mul_nnSigmoid_neg_le_sharp (2000 / D * (Z - L))
  have q2 := mul_nnSigmoid_neg_le_sharp (-(2000 / D * (Z - L)))
  rw [neg_neg] at q2
  rw [nnSigmoid_neg] at q1
  generalize nnSigmoid (2000 / D * (Z - L)) = t at *
  have k1 : (Z - L) * (1 - t) ≤ D / 2000 * 0.2816 := by
    have : (Z - L) * (1 - t) = D / 2000 * (2000 / D * (Z - L) * (1 - t)) := by field_simp
    rw [this]; exact mul_le_mul_of_nonneg_left q1 (by positivity)
  have k2 : -((Z - L) * t) ≤ D / 2000 * 0.2816 := by
    have : -((Z - L) * t) = D / 2000 * (-(2000 / D * (Z - L)) * t) := by field_simp
    rw [this]; exact mul_le_mul_of_nonneg_left q2 (by positivity)
  have k3 : D / 2000 * (|2000 / D * (Z - H)| + 0.2816) = |Z - H| + D / 2000 * 0.2816 := by
    rw [abs_mul, abs_of_pos (show (0 : ℝ) < 2000 / D by positivity)]; field_simp
  rw [k3]
  have k4 := le_abs_self (Z - H)
  have k5 := neg_abs_le (Z - H)
  rcases le_total 0 (Z - L) with h | h
  · have k6 : 0 ≤ (Z - L) * (1 - t) := mul_nonneg h (by linarith)
    rw [abs_le]; constructor <;> linarith
  · have k6 : (Z - L) * t ≤ 0 := mul_nonpos_of_nonpos_of_nonneg h s0.le
    rw [abs_le]; constructor <;> linarith

theorem clip_upper_shift {D Z L H ρ η : ℝ} (hD : 0 < D) (hHL : L ≤ H) (hρ : |ρ| ≤ 0.2) :
    |H - (L + (Z - L) * nnSigmoid (2000 / D * (Z - L)))| * |nnSigmoid (2000 / D * (Z - H) * (1 + ρ) + η) - nnSigmoid (2000 / D * (Z - H))| ≤
      1.2816 * (D / 2000 * (7 * |ρ| + 2 * |η|)) := by
  have k := shift_mul (z := 2000 / D * (Z - H)) (η := η) hρ
  have k' := shift_abs (z := 2000 / D * (Z - H)) (η := η) hρ
  have h := mul_le_mul_of_nonneg_right (clip_upper (Z := Z) hD hHL) (abs_nonneg (nnSigmoid (2000 / D * (Z - H) * (1 + ρ) + η) - nnSigmoid (2000 / D * (Z - H))))
  generalize |nnSigmoid (2000 / D * (Z - H) * (1 + ρ) + η) - nnSigmoid (2000 / D * (Z - H))| = t at *
  generalize |2000 / D * (Z - H)| = v at *
  generalize 7 * |ρ| + 2 * |η| = r at *
  have g : 0 < D / 2000 := by positivity
  calc _ ≤ _ := h
    _ = D / 2000 * (v * t + 0.2816 * t) := by ring
    _ ≤ D / 2000 * (r + 0.2816 * r) := mul_le_mul_of_nonneg_left (by linarith) g.le
    _ = _ := by ring

/-! ### Rounding errors, multiplied with the slope -/

section line

variable (R : Rounding) (hu : R.u ≤ 2 ^ (-24 : ℤ))

include hu

theorem rnd {x B : ℝ} (h : |x| ≤ B) : |R.fl x - x| ≤ 6 / 10 ^ 8 * B :=
  (R.err x).trans (mul_le_mul (hu.trans (by norm_num)) h (abs_nonneg _) (by norm_num))

theorem rnd_mul {m x B : ℝ} (h : |m * x| ≤ B) : |m * R.fl x - m * x| ≤ 6 / 10 ^ 8 * B := by
  have hr := R.err x
  rw [← mul_sub, abs_mul]
  rw [abs_mul] at h
  have h1 := mul_le_mul_of_nonneg_left hr (abs_nonneg m)
  have h2 := mul_le_mul (hu.trans (by norm_num) : R.u ≤ 6 / 10 ^ 8) h (by positivity) (by norm_num)
  calc _ ≤ _ := h1
    _ = R.u * (|m| * |x|) := by ring
    _ ≤ _ := h2

/-- Position and height of a clip: `yB'` is the bound as a floating-point number, `W = |m| X + Y`, `e = 6e-8 W`. -/
theorem clip_pos {m x0 y0 yB yB' W e Y : ℝ} (hm : m ≠ 0) (hx0 : |m * x0| ≤ W - Y) (hy0 : |y0| ≤ Y) (hyB : |yB| ≤ Y)
    (hb : |yB' - yB| ≤ 6 / 10 ^ 8 * Y) (he : e = 6 / 10 ^ 8 * W) :
    let xB := R.fl (R.fl (R.fl (yB' - y0) / m) + x0)
    let eps := R.fl (R.fl (x0 - xB) / 100)
    let xc := R.fl (xB + eps)
    let yc := R.fl (y0 + R.fl (m * R.fl (xc - x0)))
    |m * eps - (y0 - yB) / 100| ≤ 0.15 * e ∧ |m * xc - (m * x0 + 0.99 * (yB - y0))| ≤ 10 * e ∧
      |yc - (y0 + 0.99 * (yB - y0))| ≤ 18 * e := by
  intro xB eps xc yc
  have hY0 : 0 ≤ Y := (abs_nonneg _).trans hy0
  have hWY : 0 ≤ W - Y := (abs_nonneg _).trans hx0
  have b0 := abs_le.1 hy0
  have b1 := abs_le.1 hyB
  have b2 := abs_le.1 hb
  have b3 := abs_le.1 hx0
  have r1 := abs_le.1 (rnd R hu (x := yB' - y0) (B := 2.1 * Y) (by rw [abs_le]; constructor <;> linarith))
  set d := R.fl (yB' - y0)
  have r2 := abs_le.1 (rnd_mul R hu (m := m) (x := d / m) (B := 2.2 * Y) (by
    rw [mul_div_cancel₀ _ hm, abs_le]; constructor <;> linarith))
  rw [mul_div_cancel₀ _ hm] at r2
  set a := R.fl (d / m)
  have r3 := abs_le.1 (rnd_mul R hu (m := m) (x := a + x0) (B := W + 1.3 * Y) (by
    rw [mul_add, abs_le]; constructor <;> linarith))
  change _ ≤ m * xB - _ ∧ m * xB - _ ≤ _ at r3
  rw [mul_add] at r3
  have r4 := abs_le.1 (rnd_mul R hu (m := m) (x := x0 - xB) (B := 2.2 * W) (by
    rw [mul_sub, abs_le]; constructor <;> linarith))
  rw [mul_sub] at r4
  set dx := R.fl (x0 - xB)
  have r5 := abs_le.1 (rnd_mul R hu (m := m) (x := dx / 100) (B := 0.03 * W) (by
    rw [← mul_div_assoc, abs_le]; constructor <;> linarith))
  change _ ≤ m * eps - _ ∧ m * eps - _ ≤ _ at r5
  have r6 := abs_le.1 (rnd_mul R hu (m := m) (x := xB + eps) (B := 2.2 * W) (by
    rw [mul_add, abs_le]; constructor <;> linarith))
  change _ ≤ m * xc - _ ∧ m * xc - _ ≤ _ at r6
  rw [mul_add] at r6
  have r7 := abs_le.1 (rnd_mul R hu (m := m) (x := xc - x0) (B := 2.1 * W) (by
    rw [mul_sub, abs_le]; constructor <;> linarith))
  rw [mul_sub] at r7
  set f := R.fl (xc - x0)
  have r8 := abs_le.1 (rnd R hu (x := m * f) (B := 2.2 * W) (by rw [abs_le]; constructor <;> linarith))
  have r9 := abs_le.1 (rnd R hu (x := y0 + R.fl (m * f)) (B := 1.1 * W) (by rw [abs_le]; constructor <;> linarith))
  change _ ≤ yc - _ ∧ yc - _ ≤ _ at r9
  clear_value d a xB dx eps xc f yc
  subst he
  rw [← mul_div_assoc] at r5
  refine ⟨?_, ?_, ?_⟩ <;> rw [abs_le] <;> constructor <;> linarith

theorem fl_factor (x : ℝ) : ∃ δ, |δ| ≤ 6 / 10 ^ 8 ∧ R.fl x = x * (1 + δ) := by
  rcases eq_or_ne x 0 with rfl | h
  · exact ⟨0, by norm_num, by rw [R.fl_zero]; ring⟩
  · refine ⟨(R.fl x - x) / x, ?_, by field_simp; ring⟩
    rw [abs_div, div_le_iff₀ (abs_pos.2 h)]
    exact rnd R hu le_rfl

/-- The argument of the transition function. -/
theorem clip_arg {m x xc eps c D w W e : ℝ} (hm : m ≠ 0) (hE : |m * eps - D / 100| ≤ 0.15 * e) (hc : |m * xc - c| ≤ 10 * e) (hw : m * x - c = w)
    (hwW : |w| ≤ 2 * W) (he : e = 6 / 10 ^ 8 * W) (hW : 0 < W) (hD : 120 * e ≤ D) (hD2 : D ≤ 2 * W) :
    eps ≠ 0 ∧ ∃ ρ η, R.fl (R.fl (20 / eps) * R.fl (x - xc)) = 2000 / D * w * (1 + ρ) + η ∧ |ρ| ≤ 0.2 ∧
      D / 2000 * (7 * |ρ| + 2 * |η|) ≤ 29.4 * e := by
  have he0 : 0 < e := by rw [he]; positivity
  have hD0 : 0 < D := by linarith
  have a := abs_le.1 hE
  have hE0 : 0 < m * eps := by linarith
  have heps : eps ≠ 0 := fun h => by rw [h, mul_zero] at hE0; exact lt_irrefl _ hE0
  refine ⟨heps, ?_⟩
  have h1 := abs_le.1 (rnd_mul R hu (m := m) (x := x - xc) (B := 2.1 * W) (by
    have := abs_le.1 hc
    have := abs_le.1 hwW
    rw [mul_sub, abs_le]; constructor <;> linarith))
  rw [mul_sub] at h1
  set q := R.fl (x - xc)
  obtain ⟨δ, hδ, e1⟩ := fl_factor R hu (20 / eps)
  obtain ⟨δ', hδ', e2⟩ := fl_factor R hu (R.fl (20 / eps) * q)
  set E := m * eps with hEdef
  have hq : |m * q - w| ≤ 12.2 * e := by
    have := abs_le.1 hc
    rw [abs_le]; constructor <;> linarith
  have hκ : R.fl (R.fl (20 / eps) * q) = 20 * ((1 + δ) * (1 + δ')) / E * (m * q) := by
    rw [e2, e1, hEdef]
    field_simp
  set κ := (1 + δ) * (1 + δ') with hκdef
  have hκ1 : |κ - 1| ≤ 1.3 / 10 ^ 7 := by
    have := abs_le.1 hδ
    have := abs_le.1 hδ'
    rw [hκdef, abs_le]; constructor <;> nlinarith
  have hk := abs_le.1 hκ1
  have heD : 3 / 10 ^ 8 * D ≤ e := by rw [he]; linarith
  have hρ : |κ * D / (100 * E) - 1| ≤ 22.4 * e / D := by
    rw [show κ * D / (100 * E) - 1 = (κ * D - 100 * E) / (100 * E) by field_simp, abs_div, abs_of_pos (show (0 : ℝ) < 100 * E by linarith),
      div_le_div_iff₀ (by linarith) hD0]
    have b1 : |κ * D - 100 * E| ≤ 19.4 * e := by
      rw [abs_le]; constructor <;> nlinarith
    have b2 : 0.875 * D ≤ 100 * E := by linarith
    calc |κ * D - 100 * E| * D ≤ 19.4 * e * D := mul_le_mul_of_nonneg_right b1 hD0.le
      _ ≤ 22.4 * e * (0.875 * D) := by nlinarith [mul_pos he0 hD0]
      _ ≤ 22.4 * e * (100 * E) := mul_le_mul_of_nonneg_left b2 (by positivity)
  have hρ2 : 22.4 * e / D ≤ 0.2 := by rw [div_le_iff₀ hD0]; linarith
  refine ⟨κ * D / (100 * E) - 1, 20 * κ / E * (m * q - w), ?_, hρ.trans hρ2, ?_⟩
  · rw [hκ]
    have : 2000 / D * w * (1 + (κ * D / (100 * E) - 1)) = 20 * κ / E * w := by
      field_simp
      ring
    rw [this]; ring
  · have hf : 20 * κ / E = 2000 / D * (1 + (κ * D / (100 * E) - 1)) := by
      field_simp
      ring
    have hf2 : 1 + (κ * D / (100 * E) - 1) ≤ 1.2 ∧ 0 ≤ 1 + (κ * D / (100 * E) - 1) := by
      have := abs_le.1 (hρ.trans hρ2)
      constructor <;> linarith
    have hη : |20 * κ / E * (m * q - w)| ≤ 2000 / D * (14.64 * e) := by
      rw [hf, abs_mul, abs_mul, abs_of_pos (show (0 : ℝ) < 2000 / D by positivity), abs_of_nonneg hf2.2, mul_assoc]
      refine mul_le_mul_of_nonneg_left ?_ (by positivity)
      calc _ ≤ 1.2 * (12.2 * e) := mul_le_mul hf2.1 hq (abs_nonneg _) (by norm_num)
        _ = _ := by ring
    calc D / 2000 * (7 * |κ * D / (100 * E) - 1| + 2 * |20 * κ / E * (m * q - w)|)
        ≤ D / 2000 * (7 * (22.4 * e / D) + 2 * (2000 / D * (14.64 * e))) := by gcongr
      _ = (7 * 22.4 / 2000 + 2 * 14.64) * e := by field_simp
      _ ≤ 29.4 * e := mul_le_mul_of_nonneg_right (by norm_num) he0.le

/-- One transition: `P`, `Q` the exact values on both sides, `P'`, `Q'` the computed ones. -/
theorem clip_stage {exp : ℝ → ℝ} (hexp : ∀ x, |exp x - Real.exp x| ≤ 5 / 10 ^ 7 * Real.exp x) {P Q P' Q' z x xc K a c V : ℝ}
    (hP : |P' - P| ≤ a) (hQ : |Q' - Q| ≤ a) (hPV : |P'| ≤ V) (hQV : |Q'| ≤ V)
    (hc : |Q - P| * |nnSigmoid (R.fl (K * R.fl (x - xc))) - nnSigmoid z| ≤ c) :
    |R.sigmoid exp x xc K P' Q' - (P + (Q - P) * nnSigmoid z)| ≤ a + c + 3.2 / 10 ^ 6 * V := by
  unfold Rounding.sigmoid
  dsimp only
  have hpos : ∀ x, 0 ≤ exp x := fun x => by
    have := (abs_le.1 (hexp x)).1
    have := Real.exp_pos x
    linarith
  set z' := R.fl (K * R.fl (x - xc))
  have s1 := nnSigmoidFl_close R hu hexp z'
  have s2 := nnSigmoidFl_unit R exp hpos z'
  have s3 : 0 ≤ nnSigmoid z' ∧ nnSigmoid z' ≤ 1 := ⟨(nnSigmoid_pos _).le, (nnSigmoid_lt_one _).le⟩
  change |_ - nnSigmoid z'| ≤ _ at s1
  generalize R.nnSigmoid exp z' = s at *
  generalize nnSigmoid z' = t at *
  generalize nnSigmoid z = t0 at *
  have hV0 : 0 ≤ V := (abs_nonneg _).trans hPV
  have hd : |Q' - P'| ≤ 2 * V := (abs_sub _ _).trans (by linarith)
  have r1 := rnd R hu hd
  generalize R.fl (Q' - P') = h at *
  have hh : |h| ≤ 2.1 * V := by
    have := abs_sub_abs_le_abs_sub h (Q' - P')
    linarith
  have hs : |h * s| ≤ 2.1 * V := by
    rw [abs_mul, abs_of_nonneg s2.1]
    exact (mul_le_of_le_one_right (abs_nonneg _) s2.2).trans hh
  have r2 := rnd R hu hs
  have r3 : |h * s - (Q' - P') * s| ≤ 6 / 10 ^ 8 * (2 * V) := by
    rw [← sub_mul, abs_mul, abs_of_nonneg s2.1]
    exact (mul_le_of_le_one_right (abs_nonneg _) s2.2).trans r1
  have r4 := mix_abs hPV hQV s2.1 s2.2
  generalize R.fl (h * s) = v at *
  have r5 : |P' + v| ≤ 1.1 * V := by
    have := abs_le.1 r2
    have := abs_le.1 r3
    have := abs_le.1 r4
    rw [abs_le]; constructor <;> linarith
  have r6 := rnd R hu r5
  have r7 : |(Q' - P') * s - (Q' - P') * t| ≤ 2 * V * (1.4 / 10 ^ 6) := by
    rw [← mul_sub, abs_mul]
    exact mul_le_mul hd s1 (abs_nonneg _) (by linarith)
  have r8 : |P' + (Q' - P') * t - (P + (Q - P) * t)| ≤ a := by
    have := mix_abs hP hQ s3.1 s3.2
    rwa [show P' - P + (Q' - Q - (P' - P)) * t = P' + (Q' - P') * t - (P + (Q - P) * t) by ring] at this
  have r9 : |(Q - P) * t - (Q - P) * t0| ≤ c := by rwa [← mul_sub, abs_mul]
  generalize (Q - P) * t = g1 at *
  generalize (Q - P) * t0 = g2 at *
  generalize (Q' - P') * s = g3 at *
  generalize (Q' - P') * t = g4 at *
  have b2 := abs_le.1 r2
  have b3 := abs_le.1 r3
  have b6 := abs_le.1 r6
  have b7 := abs_le.1 r7
  have b8 := abs_le.1 r8
  have b9 := abs_le.1 r9
  rw [abs_le]
  constructor <;> linarith

/-- The two transitions. -/
theorem clip_combine {exp : ℝ → ℝ} (hexp : ∀ x, |exp x - Real.exp x| ≤ 5 / 10 ^ 7 * Real.exp x) {x xcLo xcHi K L L' H H' Z Z' D W e ρ η ρ2 η2 : ℝ}
    (hDpos : 0 < D) (he : e = 6 / 10 ^ 8 * W) (hW : 0 < W) (hL : |L| ≤ W) (hH : |H| ≤ W) (hZ : |Z| ≤ W) (hLH : L ≤ H) (l1 : |L' - L| ≤ 18 * e)
    (l2 : |H' - H| ≤ 18 * e) (hZ' : |Z' - Z| ≤ 18 * e) (z1 : R.fl (K * R.fl (x - xcLo)) = 2000 / D * (Z - L) * (1 + ρ) + η)
    (z2 : R.fl (K * R.fl (x - xcHi)) = 2000 / D * (Z - H) * (1 + ρ2) + η2) (hρ : |ρ| ≤ 0.2) (hρ2 : |ρ2| ≤ 0.2)
    (hc : D / 2000 * (7 * |ρ| + 2 * |η|) ≤ 29.4 * e) (hc2 : D / 2000 * (7 * |ρ2| + 2 * |η2|) ≤ 29.4 * e) :
    |R.sigmoid exp x xcHi K (R.sigmoid exp x xcLo K L' Z') H' - (L + (Z - L) * nnSigmoid (2000 / D * (Z - L)) +
      (H - (L + (Z - L) * nnSigmoid (2000 / D * (Z - L)))) * nnSigmoid (2000 / D * (Z - H)))| ≤ 195 * e := by
  have he0 : 0 < e := by rw [he]; positivity
  have hst : |Z - L| * |nnSigmoid (R.fl (K * R.fl (x - xcLo))) - nnSigmoid (2000 / D * (Z - L))| ≤ 29.4 * e := by
    rw [z1]
    have k := shift_mul (z := 2000 / D * (Z - L)) (η := η) hρ
    have : |Z - L| = D / 2000 * |2000 / D * (Z - L)| := by
      rw [abs_mul, abs_of_pos (show (0 : ℝ) < 2000 / D by positivity)]; field_simp
    rw [this, mul_assoc]
    exact (mul_le_mul_of_nonneg_left k (by positivity)).trans hc
  have hst2 : |H - (L + (Z - L) * nnSigmoid (2000 / D * (Z - L)))| * |nnSigmoid (R.fl (K * R.fl (x - xcHi))) - nnSigmoid (2000 / D * (Z - H))| ≤ 37.7 * e := by
    rw [z2]
    refine (clip_upper_shift hDpos hLH hρ2).trans ((mul_le_mul_of_nonneg_left hc2 (by norm_num)).trans ?_)
    linarith only [he0]
  have b1 := abs_le.1 hL
  have b2 := abs_le.1 hH
  have b0 := abs_le.1 hZ
  have b3 := abs_le.1 l1
  have b4 := abs_le.1 l2
  have b5 := abs_le.1 hZ'
  have hW102 : 102 * e ≤ 0.01 * W := by rw [he]; linarith only [hW]
  have S1 := clip_stage R hu hexp (P := L) (Q := Z) (P' := L') (Q' := Z') (z := 2000 / D * (Z - L)) (x := x) (xc := xcLo) (K := K)
    (a := 18 * e) (V := 1.01 * W) l1 hZ' (by rw [abs_le]; constructor <;> linarith only [b1, b3, hW102, he0])
    (by rw [abs_le]; constructor <;> linarith only [b0, b5, hW102, he0]) hst
  have hBW : |L + (Z - L) * nnSigmoid (2000 / D * (Z - L))| ≤ W := mix_abs hL hZ (nnSigmoid_pos _).le (nnSigmoid_lt_one _).le
  generalize L + (Z - L) * nnSigmoid (2000 / D * (Z - L)) = B at *
  generalize R.sigmoid exp x xcLo K L' Z' = B' at *
  have S1' : |B' - B| ≤ 102 * e := by
    refine S1.trans ?_
    rw [he]; linarith only [hW]
  have b6 := abs_le.1 hBW
  have b7 := abs_le.1 S1'
  have S2 := clip_stage R hu hexp (P := B) (Q := H) (P' := B') (Q' := H') (z := 2000 / D * (Z - H)) (x := x) (xc := xcHi) (K := K)
    (a := 102 * e) (V := 1.01 * W) S1' (l2.trans (by linarith only [he0])) (by rw [abs_le]; constructor <;> linarith only [b6, b7, hW102])
    (by rw [abs_le]; constructor <;> linarith only [b2, b4, hW102, he0]) hst2
  refine S2.trans ?_
  rw [he]; linarith only [hW]

/-- Error of a clipped line: `W = |m| X + Y`, where `X` bounds the abscissas and `Y` the ordinates. -/
theorem clipFl_err {exp : ℝ → ℝ} (hexp : ∀ x, |exp x - Real.exp x| ≤ 5 / 10 ^ 7 * Real.exp x) {x x0 y0 m yLo yHi yLo' yHi' X Y W e : ℝ} (hm : m ≠ 0)
    (hW : W = |m| * X + Y) (he : e = 6 / 10 ^ 8 * W) (hX : |x - x0| ≤ X) (hX0 : |x0| ≤ X) (hy0 : |y0| ≤ Y) (hlo : |yLo| ≤ Y) (hhi : |yHi| ≤ Y)
    (hlo' : |yLo' - yLo| ≤ 6 / 10 ^ 8 * Y) (hhi' : |yHi' - yHi| ≤ 6 / 10 ^ 8 * Y) (hD : 120 * e ≤ y0 - yLo) (hY : yLo < y0) (hU : y0 ≤ yHi) :
    ∃ v, R.smoothlyClippedLine exp x x0 y0 m yLo' yHi' = some v ∧
      |v - clipOf (y0 - yLo) (yHi - y0) y0 (y0 + m * (x - x0))| ≤ 195 * e := by
  have hY0 : 0 ≤ Y := (abs_nonneg _).trans hy0
  have hmx0 : |m * x0| ≤ W - Y := by
    rw [abs_mul, hW, add_sub_cancel_right]; exact mul_le_mul_of_nonneg_left hX0 (abs_nonneg _)
  have hmx : |m * (x - x0)| ≤ W - Y := by
    rw [abs_mul, hW, add_sub_cancel_right]; exact mul_le_mul_of_nonneg_left hX (abs_nonneg _)
  have a0 := abs_le.1 hy0
  have a1 := abs_le.1 hlo
  have a2 := abs_le.1 hhi
  have a3 := abs_le.1 hmx
  have hWpos : 0 < W := by linarith [(abs_nonneg _).trans hmx]
  have he0 : 0 < e := by rw [he]; positivity
  obtain ⟨e1, c1, l1⟩ := clip_pos R hu hm hmx0 hy0 hlo hlo' he
  obtain ⟨e2, c2, l2⟩ := clip_pos R hu hm hmx0 hy0 hhi hhi' he
  set xLo := R.fl (R.fl (R.fl (yLo' - y0) / m) + x0) with hxLo
  set xHi := R.fl (R.fl (R.fl (yHi' - y0) / m) + x0) with hxHi
  set eLo := R.fl (R.fl (x0 - xLo) / 100) with heLo
  have hflip : R.fl (xHi - R.fl (R.fl (xHi - x0) / 100)) = R.fl (xHi + R.fl (R.fl (x0 - xHi) / 100)) := by
    rw [← neg_sub x0 xHi, R.neg, neg_div, R.neg, sub_neg_eq_add]
  set xcLo := R.fl (xLo + eLo) with hxcLo
  set xcHi := R.fl (xHi + R.fl (R.fl (x0 - xHi) / 100)) with hxcHi
  set D := y0 - yLo with hDdef
  set U := yHi - y0 with hUdef
  set Z := y0 + m * (x - x0) with hZ
  have hwlo : m * x - (m * x0 + 0.99 * (yLo - y0)) = Z - (y0 - 0.99 * D) := by rw [hZ, hDdef]; ring
  have hwhi : m * x - (m * x0 + 0.99 * (yHi - y0)) = Z - (y0 + 0.99 * U) := by rw [hZ, hUdef]; ring
  have hZW : |Z| ≤ W := by rw [abs_le]; constructor <;> linarith
  have a4 := abs_le.1 hZW
  have hDpos : 0 < D := by linarith
  obtain ⟨hne, ρ, η, z1, hρ, hc⟩ := clip_arg R hu (x := x) hm e1 c1 hwlo (by rw [abs_le]; constructor <;> linarith) he hWpos hD (by linarith)
  obtain ⟨-, ρ2, η2, z2, hρ2, hc2⟩ := clip_arg R hu (x := x) hm e1 c2 hwhi (by rw [abs_le]; constructor <;> linarith) he hWpos hD (by linarith)
  simp only [Rounding.smoothlyClippedLine, if_neg hm]
  rw [if_neg hne]
  refine ⟨_, rfl, ?_⟩
  rw [hflip, ← hxLo, ← heLo, ← hxcLo]
  -- the unclipped line
  have u1 := abs_le.1 (rnd_mul R hu hmx)
  set f := R.fl (x - x0)
  have u2 := abs_le.1 (rnd R hu (x := m * f) (B := 1.1 * W) (by rw [abs_le]; constructor <;> linarith))
  have u3 := abs_le.1 (rnd R hu (x := y0 + R.fl (m * f)) (B := 1.1 * W) (by rw [abs_le]; constructor <;> linarith))
  set Z' := R.fl (y0 + R.fl (m * f))
  have hZ' : |Z' - Z| ≤ 18 * e := by rw [hZ, he, abs_le]; constructor <;> linarith
  set L' := R.fl (y0 + R.fl (m * R.fl (xcLo - x0)))
  set H' := R.fl (y0 + R.fl (m * R.fl (xcHi - x0)))
  set L := y0 - 0.99 * D with hL
  set H := y0 + 0.99 * U with hH
  rw [show y0 + 0.99 * (yLo - y0) = L by rw [hL, hDdef]; ring] at l1
  have hLY : |L| ≤ Y := by rw [abs_le]; constructor <;> linarith
  have hHY : |H| ≤ Y := by rw [abs_le]; constructor <;> linarith
  have hYW : Y ≤ W := by linarith only [(abs_nonneg _).trans hmx]
  have hLH : L ≤ H := by linarith only [hL, hH, hDpos, hU, hUdef]
  simp only [clipOf]
  exact clip_combine R hu hexp hDpos he hWpos (hLY.trans hYW) (hHY.trans hYW) hZW hLH l1 l2 hZ' z1 z2 hρ hρ2 hc hc2

end line

end Diffstar.Props
