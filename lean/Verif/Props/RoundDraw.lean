import Verif.Props.RoundLine
import Verif.Props.HaloDraws

/-! C148: galaxy parameters drawn from the population model in single precision. -/

namespace Diffstar.Spec

open Diffstar.Pop

/-- Intercept and slope of each straight line of the population model. -/
def lines : List (QF × QF) :=
  [(.mean_ul_mseq_int, .mean_ul_mseq_slp), (.mean_uh_mseq_int, .mean_uh_mseq_slp), (.mean_ul_qseq_int, .mean_ul_qseq_slp),
    (.mean_uh_qseq_int, .mean_uh_qseq_slp), (.mean_uqs_int, .mean_uqs_slp), (.mean_udrop_int, .mean_udrop_slp),
    (.mean_urej_int, .mean_urej_slp), (.std_ulgm_mseq_int, .std_ulgm_mseq_slp), (.std_ulgy_mseq_int, .std_ulgy_mseq_slp),
    (.std_ul_mseq_int, .std_ul_mseq_slp), (.std_uh_mseq_int, .std_uh_mseq_slp), (.std_ulgm_qseq_int, .std_ulgm_qseq_slp),
    (.std_ulgy_qseq_int, .std_ulgy_qseq_slp), (.std_ul_qseq_int, .std_ul_qseq_slp), (.std_uh_qseq_int, .std_uh_qseq_slp),
    (.std_uqt_int, .std_uqt_slp), (.std_uqs_int, .std_uqs_slp), (.std_udrop_int, .std_udrop_slp), (.std_urej_int, .std_urej_slp)]

/-- Population parameters whose lines are not horizontal and start above their lower bound by a margin. -/
def UsableLines (p : PF → ℝ) : Prop := ∀ l ∈ lines, p (.inl l.2) ≠ 0 ∧ (PF.bounds (.inl l.1)).1 + (2 * |p (.inl l.2)| + 1) / 10 ^ 4 ≤ p (.inl l.1)

end Diffstar.Spec

namespace Diffstar.Props

open Diffstar Diffstar.Spec Diffstar.Pop

theorem float32_u : float32.u ≤ 2 ^ (-24 : ℤ) := le_of_eq rfl

theorem f32_half (m : ℤ) (hm : |m| < 2 ^ 24) : float32.fl ((m : ℝ) / 2) = m / 2 := by
  have key : ∀ n : ℕ, n < 2 ^ 24 → float32.fl ((n : ℝ) / 2) = n / 2 := by
    intro n hn
    have := float32_exact n hn (-1)
    rwa [show (2 : ℝ) ^ (-1 : ℤ) = 2⁻¹ by norm_num, ← div_eq_mul_inv] at this
  rcases le_total 0 m with h | h
  · obtain ⟨n, rfl⟩ := Int.eq_ofNat_of_zero_le h
    rw [abs_of_nonneg h] at hm
    have := key n (by exact_mod_cast hm)
    simpa using this
  · obtain ⟨n, hn⟩ := Int.eq_ofNat_of_zero_le (show 0 ≤ -m by omega)
    rw [abs_of_nonpos h, hn] at hm
    have := key n (by exact_mod_cast hm)
    have e : (m : ℝ) = -(n : ℝ) := by
      have : m = -(n : ℤ) := by omega
      rw [this]; push_cast; ring
    rw [e, neg_div, float32.neg, this]

theorem lines_bounds : ∀ l ∈ lines, (-10 ≤ l.1.boundsQ.1 ∧ l.1.boundsQ.1 ≤ 1 ∧ 0 ≤ l.1.boundsQ.2 ∧ l.1.boundsQ.2 ≤ 10) ∧ (2 * l.1.boundsQ.2).den = 1 ∧
    (2 * l.1.boundsQ.2).num.natAbs ≤ 20 := by
  intro l hl
  fin_cases hl <;> decide +kernel

theorem slopes_bounds : ∀ l ∈ lines, l.2.boundsQ = (-20, 20) ∨ l.2.boundsQ = (-1, 1) := by
  intro l hl
  fin_cases hl <;> decide +kernel

theorem line_top {l : QF × QF} (hl : l ∈ lines) : float32.fl (PF.bounds (.inl l.1)).2 = (PF.bounds (.inl l.1)).2 := by
  obtain ⟨-, h1, h2⟩ := lines_bounds l hl
  show float32.fl ((l.1.boundsQ.2 : ℚ) : ℝ) = ((l.1.boundsQ.2 : ℚ) : ℝ)
  have e : ((l.1.boundsQ.2 : ℚ) : ℝ) = ((2 * l.1.boundsQ.2).num : ℝ) / 2 := by
    have : ((2 * l.1.boundsQ.2).num : ℚ) = 2 * l.1.boundsQ.2 := Rat.coe_int_num_of_den_eq_one h1
    have h3 : (((2 * l.1.boundsQ.2).num : ℚ) : ℝ) = ((2 * l.1.boundsQ.2 : ℚ) : ℝ) := by rw [this]
    push_cast at h3 ⊢
    rw [h3]; ring
  rw [e]
  exact f32_half _ (by rw [abs_lt]; omega)

theorem clip_abs {D U y0 Z W : ℝ} (hL : |y0 - 0.99 * D| ≤ W) (hH : |y0 + 0.99 * U| ≤ W) (hZ : |Z| ≤ W) : |clipOf D U y0 Z| ≤ W := by
  simp only [clipOf]
  exact mix_abs (mix_abs hL hZ (nnSigmoid_pos _).le (nnSigmoid_lt_one _).le) hH (nnSigmoid_pos _).le (nnSigmoid_lt_one _).le

theorem clip_gt {D U y0 : ℝ} (hD : 0 < D) (hU : 0 ≤ U) (Y : ℝ) : y0 - D < clipOf D U y0 Y := by
  simp only [clipOf]
  set L := y0 - 0.99 * D with hL
  set H := y0 + 0.99 * U with hH
  have hB : L - D / 6000 ≤ L + (Y - L) * nnSigmoid (2000 / D * (Y - L)) := by
    have := mul_nnSigmoid_ge (2000 / D * (Y - L))
    have e : (Y - L) * nnSigmoid (2000 / D * (Y - L)) = D / 2000 * (2000 / D * (Y - L) * nnSigmoid (2000 / D * (Y - L))) := by field_simp
    rw [e]
    nlinarith
  set B := L + (Y - L) * nnSigmoid (2000 / D * (Y - L))
  have s0 := nnSigmoid_pos (2000 / D * (Y - H))
  have s1 := nnSigmoid_lt_one (2000 / D * (Y - H))
  have b1 : y0 - D < B := by linarith
  have b2 : y0 - D < H := by linarith
  nlinarith [mul_pos s0 (sub_pos.2 b2), mul_pos (sub_pos.2 s1) (sub_pos.2 b1)]

section draw

variable {exp : ℝ → ℝ} (hexp : ∀ x, |exp x - Real.exp x| ≤ 5 / 10 ^ 7 * Real.exp x) {p : PF → ℝ} (hp : InPopFloatBounds p)

include hexp hp

theorem lineFl_err (hl : UsableLines p) (logmp0 : ℝ) (h0 : 0 ≤ logmp0) (h1 : logmp0 ≤ 25) (l : QF × QF) (hm : l ∈ lines) :
    ∃ v w, float32.lineModel exp logmp0 (p (.inl l.1)) (p (.inl l.2)) (PF.bounds (.inl l.1)) = some v ∧
      lineModel logmp0 (p (.inl l.1)) (p (.inl l.2)) (PF.bounds (.inl l.1)) = some w ∧ |v - w| ≤ 1.5 / 10 ^ 4 * (|p (.inl l.2)| + 1) ∧
      (PF.bounds (.inl l.1)).1 < w ∧ |w| ≤ |p (.inl l.2)| * 12.5 + 10 := by
  obtain ⟨g1, g2⟩ := hl l hm
  have g3 := hp.upper (.inl l.1) (by simp)
  have t := line_top hm
  rw [t] at g3
  obtain ⟨⟨b1, b1', b2', b2⟩, -, -⟩ := lines_bounds l hm
  have c1 : (-10 : ℝ) ≤ (PF.bounds (.inl l.1)).1 := by
    show (-10 : ℝ) ≤ ((l.1.boundsQ.1 : ℚ) : ℝ)
    exact_mod_cast b1
  have c2 : (PF.bounds (.inl l.1)).2 ≤ 10 := by
    show ((l.1.boundsQ.2 : ℚ) : ℝ) ≤ 10
    exact_mod_cast b2
  generalize PF.bounds (.inl l.1) = b at *
  generalize p (.inl l.1) = y0 at *
  generalize p (.inl l.2) = m at *
  have ha := abs_nonneg m
  have hlt : b.1 < y0 := by linarith
  have hlo : |b.1| ≤ 10 := abs_le.2 ⟨c1, by linarith⟩
  have hhi : |b.2| ≤ 10 := abs_le.2 ⟨by linarith, c2⟩
  have hx : |logmp0 - LGM_X0| ≤ 12.5 := by rw [LGM_X0, abs_le]; constructor <;> linarith
  obtain ⟨v, e1, e2⟩ := clipFl_err float32 float32_u hexp (x := logmp0) (x0 := LGM_X0) (y0 := y0) (m := m) (yLo := b.1) (yHi := b.2)
    (yLo' := float32.fl b.1) (yHi' := float32.fl b.2) (X := 12.5) (Y := 10) (W := |m| * 12.5 + 10) (e := 6 / 10 ^ 8 * (|m| * 12.5 + 10)) g1 rfl rfl
    hx (by rw [LGM_X0, abs_le]; norm_num) (abs_le.2 ⟨by linarith, by linarith⟩) hlo hhi
    (rnd _ float32_u hlo) (rnd _ float32_u hhi) (by linarith) hlt g3
  refine ⟨v, _, e1, smoothlyClippedLine_eq g1 hlt, e2.trans (by linarith), ?_, ?_⟩
  · have := clip_gt (D := y0 - b.1) (U := b.2 - y0) (y0 := y0) (by linarith) (by linarith) (y0 + m * (logmp0 - LGM_X0))
    linarith
  · have hmx : |m * (logmp0 - LGM_X0)| ≤ |m| * 12.5 := by rw [abs_mul]; exact mul_le_mul_of_nonneg_left hx ha
    have := abs_le.1 hmx
    apply clip_abs <;> rw [abs_le] <;> constructor <;> linarith

/-- **C148**: every straight line of the population model, for halo masses up to `10^25`. -/
theorem C148_line_error_partial (hl : UsableLines p) (logmp0 : ℝ) (h0 : 0 ≤ logmp0) (h1 : logmp0 ≤ 25) (l : QF × QF) (hm : l ∈ lines) :
    ∃ v w, float32.lineModel exp logmp0 (p (.inl l.1)) (p (.inl l.2)) (PF.bounds (.inl l.1)) = some v ∧
      lineModel logmp0 (p (.inl l.1)) (p (.inl l.2)) (PF.bounds (.inl l.1)) = some w ∧ |v - w| ≤ 1.5 / 10 ^ 4 * (|p (.inl l.2)| + 1) := by
  obtain ⟨v, w, a, b, c, -⟩ := lineFl_err hexp hp hl logmp0 h0 h1 l hm
  exact ⟨v, w, a, b, c⟩

omit hexp in
/-- A field between integers. -/
theorem abs_field (f : PF) (hf : f ≠ .inr .qphi_lgmu_crit) (a b : ℤ) (B : ℝ) (h : PF.bounds f = ((a : ℝ), (b : ℝ)))
    (ha : |a| < 2 ^ 24) (hb : |b| < 2 ^ 24) (h1 : -B ≤ a) (h2 : (b : ℝ) ≤ B) : |p f| ≤ B := by
  have l := hp.lower f
  have u := hp.upper f hf
  rw [h] at l u
  rw [f32_int a ha] at l
  rw [f32_int b hb] at u
  exact abs_le.2 ⟨by linarith, by linarith⟩

/-- A mean. -/
theorem mean_ok (hl : UsableLines p) {x : ℝ} (h0 : 5 ≤ x) (h1 : x ≤ 20) (a b : QF) {bv : ℝ × ℝ} (hb : PF.bounds (.inl a) = bv)
    (hs : PF.bounds (.inl b) = (-20, 20)) (hm : (a, b) ∈ lines := by decide) :
    ∃ v w, float32.lineModel exp x (p (.inl a)) (p (.inl b)) bv = some v ∧
      lineModel x (p (.inl a)) (p (.inl b)) bv = some w ∧ |v - w| ≤ 1.5 / 10 ^ 4 * (|p (.inl b)| + 1) ∧ |w| ≤ 260 ∧ |p (.inl b)| ≤ 20 := by
  obtain ⟨v, w, e1, e2, e3, e4, e5⟩ := lineFl_err hexp hp hl x (by linarith) (by linarith) (a, b) hm
  dsimp only at *
  rw [hb] at e1 e2
  have := abs_field hp (.inl b) (by simp) (-20) 20 20 (by rw [hs]; norm_num) (by norm_num) (by norm_num) (by norm_num) (by norm_num)
  exact ⟨v, w, e1, e2, e3, by linarith, this⟩

/-- A standard deviation. -/
theorem std_ok (hl : UsableLines p) {x : ℝ} (h0 : 5 ≤ x) (h1 : x ≤ 20) (a b : QF) {hi : ℝ} (hb : PF.bounds (.inl a) = (0.01, hi))
    (hs : PF.bounds (.inl b) = (-1, 1)) (hm : (a, b) ∈ lines := by decide) :
    ∃ v w, float32.lineModel exp x (p (.inl a)) (p (.inl b)) (0.01, hi) = some v ∧
      lineModel x (p (.inl a)) (p (.inl b)) (0.01, hi) = some w ∧ |v - w| ≤ 3 / 10 ^ 4 ∧ 0 < w ∧ w ≤ 23 := by
  obtain ⟨v, w, e1, e2, e3, e4, e5⟩ := lineFl_err hexp hp hl x (by linarith) (by linarith) (a, b) hm
  dsimp only at *
  rw [hb] at e1 e2 e4
  dsimp only at e4
  have := abs_field hp (.inl b) (by simp) (-1) 1 1 (by rw [hs]; norm_num) (by norm_num) (by norm_num) (by norm_num) (by norm_num)
  have h5 := le_abs_self w
  exact ⟨v, w, e1, e2, by linarith, by linarith, by linarith⟩

omit hp in
/-- Rolling power law with exact parameters. -/
theorem mcritFl_err {x xtp ytp lo hi : ℝ} (hx : |x - xtp| ≤ 9) (hy : |ytp| ≤ 14) (hlo : |lo| ≤ 5) (hhi : |hi| ≤ 5) :
    |float32.mcritModel exp x xtp ytp lo hi - mcritModel x xtp ytp lo hi| ≤ 6 / 10 ^ 4 ∧ |mcritModel x xtp ytp lo hi| ≤ 59 := by
  have hd : |hi - lo| ≤ 10 := (abs_sub _ _).trans (by linarith)
  have s := sigmoidFl_err float32 float32_u hexp (x := x) (x0 := xtp) (x0' := xtp) (k := 3) (lo := lo) (lo' := lo) (hi := hi) (hi' := hi) (a := 0) (b := 0)
    (D := 10) (B := 5) (by norm_num) (by simp) (by simp) (by simp) hlo hhi hd
  have s5 : |sigmoid x xtp 3 lo hi| ≤ 5 := mix_abs hlo hhi (nnSigmoid_pos _).le (nnSigmoid_lt_one _).le
  simp only [Rounding.mcritModel, Rounding.sigSlope, mcritModel, sigSlope]
  generalize float32.sigmoid exp x xtp 3 lo hi = t' at *
  generalize sigmoid x xtp 3 lo hi = t at *
  have r1 := rnd float32 float32_u hx
  generalize float32.fl (x - xtp) = d' at *
  generalize x - xtp = d at *
  have k1 : |t' * d' - t * d| ≤ 5.65 / 10 ^ 5 * 9.1 + 5 * (6 / 10 ^ 8 * 9) := by
    rw [show t' * d' - t * d = (t' - t) * d' + t * (d' - d) by ring]
    refine (abs_add_le _ _).trans (add_le_add ?_ ?_)
    · rw [abs_mul]
      refine mul_le_mul (s.trans (by norm_num)) ?_ (abs_nonneg _) (by norm_num)
      have := abs_sub_abs_le_abs_sub d' d
      linarith
    · rw [abs_mul]; exact mul_le_mul s5 r1 (abs_nonneg _) (by norm_num)
  have k2 : |t * d| ≤ 5 * 9 := by rw [abs_mul]; exact mul_le_mul s5 hx (abs_nonneg _) (by norm_num)
  have a1 := abs_le.1 k1
  have a2 := abs_le.1 k2
  have a3 := abs_le.1 hy
  have a4 := abs_le.1 (rnd float32 float32_u (x := t' * d') (B := 46) (by rw [abs_le]; constructor <;> linarith))
  have a5 := abs_le.1 (rnd float32 float32_u (x := ytp + float32.fl (t' * d')) (B := 61) (by rw [abs_le]; constructor <;> linarith))
  constructor <;> rw [abs_le] <;> constructor <;> linarith

omit hexp in
theorem dist_xtp (f : PF) (hf : f ≠ .inr .qphi_lgmu_crit) (h : PF.bounds f = (11, 14)) {x : ℝ} (h0 : 5 ≤ x) (h1 : x ≤ 20) : |x - p f| ≤ 9 := by
  have l := hp.lower f
  have u := hp.upper f hf
  rw [h] at l u
  have e1 := f32_int 11 (by norm_num)
  have e2 := f32_int 14 (by norm_num)
  push_cast at e1 e2
  rw [e1] at l
  rw [e2] at u
  rw [abs_le]; constructor <;> linarith

theorem deltaUqtFl_err {m : ℝ} (h0 : 5 ≤ m) (h1 : m ≤ 20) (t : ℝ) :
    |float32.deltaUqt exp (sfhPdfPart p) m t - deltaUqt (sfhPdfPart p) m t| ≤ 2 / 10 ^ 5 ∧ |deltaUqt (sfhPdfPart p) m t| ≤ 2 := by
  simp only [Rounding.deltaUqt, deltaUqt, sfhPdfPart_apply]
  have hk := hp.lower (.inl .delta_uqt_k)
  rw [bnd (f := .inl .delta_uqt_k) (a := 0.01) (b := 5), f32_cent] at hk
  have hlo := abs_field hp (.inl .delta_uqt_ylo) (by simp) (-1) 1 1 (by simp [PF.bounds, QF.bounds, QF.boundsQ]) (by norm_num) (by norm_num)
    (by norm_num) (by norm_num)
  have hhi := abs_field hp (.inl .delta_uqt_yhi) (by simp) (-1) 1 1 (by simp [PF.bounds, QF.bounds, QF.boundsQ]) (by norm_num) (by norm_num)
    (by norm_num) (by norm_num)
  have hs : |p (.inl .delta_uqt_slope)| ≤ 0.1001 := by
    have l := hp.lower (.inl .delta_uqt_slope)
    have u := hp.upper (.inl .delta_uqt_slope) (by simp)
    rw [bnd (f := .inl .delta_uqt_slope) (a := -0.1) (b := 0.1)] at l u
    have e := abs_le.1 (rnd float32 float32_u (x := 0.1) (B := 0.1) (by norm_num))
    rw [float32.neg] at l
    rw [abs_le]; constructor <;> linarith
  have s := sigmoidFl_err float32 float32_u hexp (x := t) (x0 := p (.inl .delta_uqt_x0)) (x0' := p (.inl .delta_uqt_x0)) (k := p (.inl .delta_uqt_k))
    (lo := p (.inl .delta_uqt_ylo)) (lo' := p (.inl .delta_uqt_ylo)) (hi := p (.inl .delta_uqt_yhi)) (hi' := p (.inl .delta_uqt_yhi)) (a := 0) (b := 0)
    (D := 2) (B := 1) (le_trans (by positivity) hk) (by simp) (by simp) (by simp) hlo hhi ((abs_sub _ _).trans (by linarith))
  have s1 : |sigmoid t (p (.inl .delta_uqt_x0)) (p (.inl .delta_uqt_k)) (p (.inl .delta_uqt_ylo)) (p (.inl .delta_uqt_yhi))| ≤ 1 :=
    mix_abs hlo hhi (nnSigmoid_pos _).le (nnSigmoid_lt_one _).le
  rw [mul_zero, zero_div, add_zero, zero_add] at s
  generalize float32.sigmoid exp t _ _ _ _ = a' at *
  generalize sigmoid t _ _ _ _ = a at *
  have hx : |m - 12.5| ≤ 7.5 := by rw [abs_le]; constructor <;> linarith
  have r1 := rnd float32 float32_u hx
  generalize float32.fl (m - 12.5) = d' at *
  generalize m - 12.5 = d at *
  generalize p (.inl .delta_uqt_slope) = k at *
  have k1 : |d' * k - d * k| ≤ 6 / 10 ^ 8 * 7.5 * 0.1001 := by
    rw [← sub_mul, abs_mul]; exact mul_le_mul r1 hs (abs_nonneg _) (by norm_num)
  have k2 : |d * k| ≤ 7.5 * 0.1001 := by rw [abs_mul]; exact mul_le_mul hx hs (abs_nonneg _) (by norm_num)
  have a0 := abs_le.1 s
  have a00 := abs_le.1 s1
  have a1 := abs_le.1 k1
  have a2 := abs_le.1 k2
  have a4 := abs_le.1 (rnd float32 float32_u (x := d' * k) (B := 1) (by rw [abs_le]; constructor <;> linarith))
  have a5 := abs_le.1 (rnd float32 float32_u (x := a' + float32.fl (d' * k)) (B := 2) (by rw [abs_le]; constructor <;> linarith))
  constructor <;> rw [abs_le] <;> constructor <;> linarith

omit hexp hp in
/-- One drawn number. -/
theorem drawFl_err {mu mu' s s' z a b M : ℝ} (ha : |mu' - mu| ≤ a) (hb : |s' - s| ≤ b) (hM : |mu| ≤ M) (hs0 : 0 ≤ s) (hs : s ≤ 23) (hb1 : b ≤ 1) (ha1 : a ≤ 1) :
    |float32.fl (mu' + float32.fl (float32.fl (Real.sqrt (float32.fl (s' * s'))) * z)) - (mu + s * z)| ≤ a + 7 / 10 ^ 8 * (M + 1) + (b + 8 / 10 ^ 6) * |z| := by
  have hu := float32_u
  obtain ⟨δ, hδ, e1⟩ := fl_factor float32 hu (s' * s')
  obtain ⟨δ2, hδ2, e2⟩ := fl_factor float32 hu (Real.sqrt (float32.fl (s' * s')))
  have d1 := abs_le.1 hδ
  have d2 := abs_le.1 hδ2
  rw [e2, e1, Real.sqrt_mul (mul_self_nonneg _), Real.sqrt_mul_self_eq_abs]
  have q : |Real.sqrt (1 + δ) - 1| ≤ 6 / 10 ^ 8 := by
    rw [abs_le]
    constructor
    · have : 1 - 6 / 10 ^ 8 ≤ Real.sqrt (1 + δ) := Real.le_sqrt_of_sq_le (by norm_num at *; linarith)
      linarith
    · have : Real.sqrt (1 + δ) ≤ 1 + 6 / 10 ^ 8 := by
        rw [Real.sqrt_le_left (by norm_num)]
        norm_num at *
        linarith
      linarith
  generalize Real.sqrt (1 + δ) = r at *
  have q1 := abs_le.1 q
  have hs' : |(|s'| - s)| ≤ b := by
    have := abs_abs_sub_abs_le s' s
    rw [abs_of_nonneg hs0] at this
    exact this.trans hb
  have c1 := abs_le.1 hs'
  set t := |s'| with ht
  have ht0 : 0 ≤ t := abs_nonneg _
  have ht5 : t ≤ 24 := by linarith
  have w1 : |t * r * (1 + δ2) - t| ≤ 3.2 / 10 ^ 6 := by
    have : |r * (1 + δ2) - 1| ≤ 1.3 / 10 ^ 7 := by rw [abs_le]; constructor <;> nlinarith
    rw [show t * r * (1 + δ2) - t = t * (r * (1 + δ2) - 1) by ring, abs_mul, abs_of_nonneg ht0]
    calc _ ≤ 24 * (1.3 / 10 ^ 7) := mul_le_mul ht5 this (abs_nonneg _) (by norm_num)
      _ ≤ _ := by norm_num
  generalize t * r * (1 + δ2) = s2 at *
  have c2 := abs_le.1 w1
  clear_value t
  have w2 : |s2 - s| ≤ b + 3.2 / 10 ^ 6 := by rw [abs_le]; constructor <;> linarith
  have w3 : |s2| ≤ 25 := by rw [abs_le]; constructor <;> linarith
  have z0 := abs_nonneg z
  have w4 : |s2 * z| ≤ 25 * |z| := by rw [abs_mul]; exact mul_le_mul_of_nonneg_right w3 z0
  have w5 := rnd float32 hu w4
  have w6 : |s2 * z - s * z| ≤ (b + 3.2 / 10 ^ 6) * |z| := by rw [← sub_mul, abs_mul]; exact mul_le_mul_of_nonneg_right w2 z0
  generalize float32.fl (s2 * z) = v at *
  generalize s2 * z = v1 at *
  generalize s * z = v2 at *
  rw [add_mul] at w6 ⊢
  generalize b * |z| = bz at *
  generalize |z| = y at *
  have x1 := abs_le.1 ha
  have x2 := abs_le.1 hM
  have x3 := abs_le.1 w4
  have x4 := abs_le.1 w5
  have x5 := abs_le.1 w6
  have x6 := abs_le.1 (rnd float32 hu (x := mu' + v) (B := M + 1 + 25.1 * y) (by rw [abs_le]; constructor <;> linarith))
  have hM0 : 0 ≤ M := (abs_nonneg _).trans hM
  rw [abs_le]; constructor <;> linarith

omit hexp hp in
theorem sum_ok {x x' y y' : ℝ} (c4 : |x' - x| ≤ 6 / 10 ^ 4) (d4 : |x| ≤ 59) (c8 : |y' - y| ≤ 2 / 10 ^ 5) (d8 : |y| ≤ 2) :
    |float32.fl (x' + y') - (x + y)| ≤ 6.3 / 10 ^ 4 ∧ |x + y| ≤ 260 := by
  have e1 := abs_le.1 c4
  have e2 := abs_le.1 d4
  have e3 := abs_le.1 c8
  have e4 := abs_le.1 d8
  have e5 := abs_le.1 (rnd float32 float32_u (x := x' + y') (B := 62) (by rw [abs_le]; constructor <;> linarith))
  constructor <;> rw [abs_le] <;> constructor <;> linarith

section means

variable (hl : UsableLines p) {m : ℝ} (h0 : 5 ≤ m) (h1 : m ≤ 20)

include hl h0 h1

omit hl in
theorem mcrit_ok (a b c d : QF) {l1 l2 l3 l4 l5 l6 : ℤ} (ha : PF.bounds (.inl a) = (11, 14)) (hb : PF.bounds (.inl b) = ((l1 : ℝ), (l2 : ℝ)))
    (hc : PF.bounds (.inl c) = ((l3 : ℝ), (l4 : ℝ))) (hd : PF.bounds (.inl d) = ((l5 : ℝ), (l6 : ℝ)))
    (hn : -14 ≤ l1 ∧ l1 ≤ 14 ∧ -14 ≤ l2 ∧ l2 ≤ 14 ∧ -5 ≤ l3 ∧ l3 ≤ 5 ∧ -5 ≤ l4 ∧ l4 ≤ 5 ∧ -5 ≤ l5 ∧ l5 ≤ 5 ∧ -5 ≤ l6 ∧ l6 ≤ 5) :
    |float32.mcritModel exp m (p (.inl a)) (p (.inl b)) (p (.inl c)) (p (.inl d)) - mcritModel m (p (.inl a)) (p (.inl b)) (p (.inl c)) (p (.inl d))| ≤ 6 / 10 ^ 4 ∧
      |mcritModel m (p (.inl a)) (p (.inl b)) (p (.inl c)) (p (.inl d))| ≤ 59 := by
  obtain ⟨n1, n1', n2, n2', n3, n3', n4, n4', n5, n5', n6, n6'⟩ := hn
  refine mcritFl_err hexp (dist_xtp hp _ (by simp) ha h0 h1) ?_ ?_ ?_
  · exact abs_field hp _ (by simp) _ _ 14 hb (by rw [abs_lt]; omega) (by rw [abs_lt]; omega) (by exact_mod_cast n1) (by exact_mod_cast n2')
  · exact abs_field hp _ (by simp) _ _ 5 hc (by rw [abs_lt]; omega) (by rw [abs_lt]; omega) (by exact_mod_cast n3) (by exact_mod_cast n4')
  · exact abs_field hp _ (by simp) _ _ 5 hd (by rw [abs_lt]; omega) (by rw [abs_lt]; omega) (by exact_mod_cast n5) (by exact_mod_cast n6')

theorem meanMsFl : ∃ mu' mu, float32.getMeanUParamsMseq exp (sfhPdfPart p) m = some mu' ∧ getMeanUParamsMseq (sfhPdfPart p) m = some mu ∧
    |mu' 0 - mu 0| ≤ 6 / 10 ^ 4 ∧ |mu' 1 - mu 1| ≤ 6 / 10 ^ 4 ∧ |mu' 2 - mu 2| ≤ 1.5 / 10 ^ 4 * (|p (.inl .mean_ul_mseq_slp)| + 1) ∧
    |mu' 3 - mu 3| ≤ 1.5 / 10 ^ 4 * (|p (.inl .mean_uh_mseq_slp)| + 1) ∧ (∀ i, |mu i| ≤ 260) ∧
    |p (.inl .mean_ul_mseq_slp)| ≤ 20 ∧ |p (.inl .mean_uh_mseq_slp)| ≤ 20 := by
  obtain ⟨v2, w2, a2, b2, c2, d2, f2⟩ := mean_ok hexp hp hl h0 h1 .mean_ul_mseq_int .mean_ul_mseq_slp (bv := (-3, 5)) bnd bnd
  obtain ⟨v3, w3, a3, b3, c3, d3, f3⟩ := mean_ok hexp hp hl h0 h1 .mean_uh_mseq_int .mean_uh_mseq_slp (bv := (-5, 3)) bnd bnd
  obtain ⟨c0, d0⟩ := mcrit_ok hexp hp h0 h1 .mean_ulgm_mseq_xtp .mean_ulgm_mseq_ytp .mean_ulgm_mseq_lo .mean_ulgm_mseq_hi (l1 := 11) (l2 := 14) (l3 := -1) (l4 := 5)
    (l5 := -5) (l6 := 1) bnd bnd bnd bnd (by omega)
  obtain ⟨c1, d1⟩ := mcrit_ok hexp hp h0 h1 .mean_ulgy_mseq_xtp .mean_ulgy_mseq_ytp .mean_ulgy_mseq_lo .mean_ulgy_mseq_hi (l1 := -13) (l2 := -8) (l3 := -1) (l4 := 5)
    (l5 := -5) (l6 := 1) bnd bnd bnd bnd (by omega)
  refine ⟨_, _, by
    simp only [Rounding.getMeanUParamsMseq, sfhPdfPart_apply, BV_mean_ul, BV_mean_uh, a2, a3, Option.bind_eq_bind, Option.bind_some, Option.pure_def]; rfl, by
    simp only [getMeanUParamsMseq, sfhPdfPart_apply, BV_mean_ul, BV_mean_uh, b2, b3, Option.bind_eq_bind, Option.bind_some, Option.pure_def]; rfl,
    c0, c1, c2, c3, ?_, f2, f3⟩
  · intro i
    fin_cases i
    · exact d0.trans (by norm_num)
    · exact d1.trans (by norm_num)
    · exact d2
    · exact d3

theorem meanQFl (t : ℝ) : ∃ mu' mu, float32.getMeanUParamsQseq exp (sfhPdfPart p) m t = some mu' ∧ getMeanUParamsQseq (sfhPdfPart p) m t = some mu ∧
    (|mu' 0 - mu 0| ≤ 6 / 10 ^ 4 ∧ |mu' 1 - mu 1| ≤ 6 / 10 ^ 4 ∧ |mu' 2 - mu 2| ≤ 1.5 / 10 ^ 4 * (|p (.inl .mean_ul_qseq_slp)| + 1) ∧
    |mu' 3 - mu 3| ≤ 1.5 / 10 ^ 4 * (|p (.inl .mean_uh_qseq_slp)| + 1) ∧ |mu' 4 - mu 4| ≤ 6.3 / 10 ^ 4 ∧
    |mu' 5 - mu 5| ≤ 1.5 / 10 ^ 4 * (|p (.inl .mean_uqs_slp)| + 1) ∧ |mu' 6 - mu 6| ≤ 1.5 / 10 ^ 4 * (|p (.inl .mean_udrop_slp)| + 1) ∧
    |mu' 7 - mu 7| ≤ 1.5 / 10 ^ 4 * (|p (.inl .mean_urej_slp)| + 1)) ∧ (∀ i, |mu i| ≤ 260) ∧
    |p (.inl .mean_ul_qseq_slp)| ≤ 20 ∧ |p (.inl .mean_uh_qseq_slp)| ≤ 20 ∧ |p (.inl .mean_uqs_slp)| ≤ 20 ∧ |p (.inl .mean_udrop_slp)| ≤ 20 ∧
    |p (.inl .mean_urej_slp)| ≤ 20 := by
  obtain ⟨v2, w2, a2, b2, c2, d2, f2⟩ := mean_ok hexp hp hl h0 h1 .mean_ul_qseq_int .mean_ul_qseq_slp (bv := (-3, 5)) bnd bnd
  obtain ⟨v3, w3, a3, b3, c3, d3, f3⟩ := mean_ok hexp hp hl h0 h1 .mean_uh_qseq_int .mean_uh_qseq_slp (bv := (-5, 3)) bnd bnd
  obtain ⟨v5, w5, a5, b5, c5, d5, f5⟩ := mean_ok hexp hp hl h0 h1 .mean_uqs_int .mean_uqs_slp (bv := (-5, 2)) bnd bnd
  obtain ⟨v6, w6, a6, b6, c6, d6, f6⟩ := mean_ok hexp hp hl h0 h1 .mean_udrop_int .mean_udrop_slp (bv := (-3, 2)) bnd bnd
  obtain ⟨v7, w7, a7, b7, c7, d7, f7⟩ := mean_ok hexp hp hl h0 h1 .mean_urej_int .mean_urej_slp (bv := (-10, 2)) bnd bnd
  obtain ⟨c0, d0⟩ := mcrit_ok hexp hp h0 h1 .mean_ulgm_qseq_xtp .mean_ulgm_qseq_ytp .mean_ulgm_qseq_lo .mean_ulgm_qseq_hi (l1 := 11) (l2 := 14) (l3 := -1) (l4 := 5)
    (l5 := -5) (l6 := 1) bnd bnd bnd bnd (by omega)
  obtain ⟨c1, d1⟩ := mcrit_ok hexp hp h0 h1 .mean_ulgy_qseq_xtp .mean_ulgy_qseq_ytp .mean_ulgy_qseq_lo .mean_ulgy_qseq_hi (l1 := -13) (l2 := -8) (l3 := -1) (l4 := 5)
    (l5 := -5) (l6 := 1) bnd bnd bnd bnd (by omega)
  obtain ⟨c4, d4⟩ := mcrit_ok hexp hp h0 h1 .mean_uqt_xtp .mean_uqt_ytp .mean_uqt_lo .mean_uqt_hi (l1 := 0) (l2 := 2) (l3 := -1) (l4 := 0)
    (l5 := -1) (l6 := 0) bnd bnd bnd bnd (by omega)
  obtain ⟨c8, d8⟩ := deltaUqtFl_err hexp hp h0 h1 t
  have key : |float32.fl (float32.mcritModel exp m (p (.inl .mean_uqt_xtp)) (p (.inl .mean_uqt_ytp)) (p (.inl .mean_uqt_lo)) (p (.inl .mean_uqt_hi)) +
      float32.deltaUqt exp (sfhPdfPart p) m t) - (mcritModel m (p (.inl .mean_uqt_xtp)) (p (.inl .mean_uqt_ytp)) (p (.inl .mean_uqt_lo)) (p (.inl .mean_uqt_hi)) +
      deltaUqt (sfhPdfPart p) m t)| ≤ 6.3 / 10 ^ 4 ∧ |mcritModel m (p (.inl .mean_uqt_xtp)) (p (.inl .mean_uqt_ytp)) (p (.inl .mean_uqt_lo)) (p (.inl .mean_uqt_hi)) +
      deltaUqt (sfhPdfPart p) m t| ≤ 260 := by
    exact sum_ok c4 d4 c8 d8
  refine ⟨_, _, by
    simp only [Rounding.getMeanUParamsQseq, sfhPdfPart_apply, BV_mean_ul, BV_mean_uh, BV_mean_uqs, BV_mean_udrop, BV_mean_urej, a2, a3, a5, a6, a7,
      Option.bind_eq_bind, Option.bind_some, Option.pure_def]; rfl, by
    simp only [getMeanUParamsQseq, sfhPdfPart_apply, BV_mean_ul, BV_mean_uh, BV_mean_uqs, BV_mean_udrop, BV_mean_urej, b2, b3, b5, b6, b7,
      Option.bind_eq_bind, Option.bind_some, Option.pure_def]; rfl, ⟨c0, c1, c2, c3, key.1, c5, c6, c7⟩, ?_, f2, f3, f5, f6, f7⟩
  · intro i
    fin_cases i
    · exact d0.trans (by norm_num)
    · exact d1.trans (by norm_num)
    · exact d2
    · exact d3
    · exact key.2
    · exact d5
    · exact d6
    · exact d7

theorem stdMsFl : ∃ s' s : Fin 4 → ℝ, float32.getStdMseqMsBlock exp (sfhPdfPart p) m = some s' ∧
    getCovarianceMseqMsBlock (sfhPdfPart p) m = some (Matrix.diagonal fun i => s i ^ 2) ∧ ∀ i, |s' i - s i| ≤ 3 / 10 ^ 4 ∧ 0 < s i ∧ s i ≤ 23 := by
  obtain ⟨v0, w0, a0, b0, c0, d0⟩ := std_ok hexp hp hl h0 h1 .std_ulgm_mseq_int .std_ulgm_mseq_slp (hi := 1) bnd (by norm_num [PF.bounds, QF.bounds, QF.boundsQ])
  obtain ⟨v1, w1, a1, b1, c1, d1⟩ := std_ok hexp hp hl h0 h1 .std_ulgy_mseq_int .std_ulgy_mseq_slp (hi := 1) bnd (by norm_num [PF.bounds, QF.bounds, QF.boundsQ])
  obtain ⟨v2, w2, a2, b2, c2, d2⟩ := std_ok hexp hp hl h0 h1 .std_ul_mseq_int .std_ul_mseq_slp (hi := 3) bnd (by norm_num [PF.bounds, QF.bounds, QF.boundsQ])
  obtain ⟨v3, w3, a3, b3, c3, d3⟩ := std_ok hexp hp hl h0 h1 .std_uh_mseq_int .std_uh_mseq_slp (hi := 3) bnd (by norm_num [PF.bounds, QF.bounds, QF.boundsQ])
  refine ⟨_, ![w0, w1, w2, w3], by
    simp only [Rounding.getStdMseqMsBlock, sfhPdfPart_apply, BV_std_ulgm, BV_std_ulgy, BV_std_ul, BV_std_uh, a0, a1, a2, a3, Option.bind_eq_bind, Option.bind_some,
      Option.pure_def]; rfl, ?_, ?_⟩
  · simp only [getCovarianceMseqMsBlock, getCovParamsMseqMsBlock, sfhPdfPart_apply, BV_std_ulgm, BV_std_ulgy, BV_std_ul, BV_std_uh, b0, b1, b2, b3,
      Option.bind_eq_bind, Option.bind_some, Option.pure_def, Option.map_some]
    exact congrArg some (covarianceFromCovParams_zero _)
  · intro i
    fin_cases i
    exacts [⟨c0, d0⟩, ⟨c1, d1⟩, ⟨c2, d2⟩, ⟨c3, d3⟩]

theorem stdQmsFl : ∃ s' s : Fin 4 → ℝ, float32.getStdQseqMsBlock exp (sfhPdfPart p) m = some s' ∧
    getCovarianceQseqMsBlock (sfhPdfPart p) m = some (Matrix.diagonal fun i => s i ^ 2) ∧ ∀ i, |s' i - s i| ≤ 3 / 10 ^ 4 ∧ 0 < s i ∧ s i ≤ 23 := by
  obtain ⟨v0, w0, a0, b0, c0, d0⟩ := std_ok hexp hp hl h0 h1 .std_ulgm_qseq_int .std_ulgm_qseq_slp (hi := 1) bnd (by norm_num [PF.bounds, QF.bounds, QF.boundsQ])
  obtain ⟨v1, w1, a1, b1, c1, d1⟩ := std_ok hexp hp hl h0 h1 .std_ulgy_qseq_int .std_ulgy_qseq_slp (hi := 1) bnd (by norm_num [PF.bounds, QF.bounds, QF.boundsQ])
  obtain ⟨v2, w2, a2, b2, c2, d2⟩ := std_ok hexp hp hl h0 h1 .std_ul_qseq_int .std_ul_qseq_slp (hi := 3) bnd (by norm_num [PF.bounds, QF.bounds, QF.boundsQ])
  obtain ⟨v3, w3, a3, b3, c3, d3⟩ := std_ok hexp hp hl h0 h1 .std_uh_qseq_int .std_uh_qseq_slp (hi := 3) bnd (by norm_num [PF.bounds, QF.bounds, QF.boundsQ])
  refine ⟨_, ![w0, w1, w2, w3], by
    simp only [Rounding.getStdQseqMsBlock, sfhPdfPart_apply, BV_std_ulgm, BV_std_ulgy, BV_std_ul, BV_std_uh, a0, a1, a2, a3, Option.bind_eq_bind, Option.bind_some,
      Option.pure_def]; rfl, ?_, ?_⟩
  · simp only [getCovarianceQseqMsBlock, getCovParamsQseqMsBlock, sfhPdfPart_apply, BV_std_ulgm, BV_std_ulgy, BV_std_ul, BV_std_uh, b0, b1, b2, b3,
      Option.bind_eq_bind, Option.bind_some, Option.pure_def, Option.map_some]
    exact congrArg some (covarianceFromCovParams_zero _)
  · intro i
    fin_cases i
    exacts [⟨c0, d0⟩, ⟨c1, d1⟩, ⟨c2, d2⟩, ⟨c3, d3⟩]

theorem stdQFl : ∃ s' s : Fin 4 → ℝ, float32.getStdQseqQBlock exp (sfhPdfPart p) m = some s' ∧
    getCovarianceQseqQBlock (sfhPdfPart p) m = some (Matrix.diagonal fun i => s i ^ 2) ∧ ∀ i, |s' i - s i| ≤ 3 / 10 ^ 4 ∧ 0 < s i ∧ s i ≤ 23 := by
  obtain ⟨v0, w0, a0, b0, c0, d0⟩ := std_ok hexp hp hl h0 h1 .std_uqt_int .std_uqt_slp (hi := 0.5) bnd (by norm_num [PF.bounds, QF.bounds, QF.boundsQ])
  obtain ⟨v1, w1, a1, b1, c1, d1⟩ := std_ok hexp hp hl h0 h1 .std_uqs_int .std_uqs_slp (hi := 1) bnd (by norm_num [PF.bounds, QF.bounds, QF.boundsQ])
  obtain ⟨v2, w2, a2, b2, c2, d2⟩ := std_ok hexp hp hl h0 h1 .std_udrop_int .std_udrop_slp (hi := 2) bnd (by norm_num [PF.bounds, QF.bounds, QF.boundsQ])
  obtain ⟨v3, w3, a3, b3, c3, d3⟩ := std_ok hexp hp hl h0 h1 .std_urej_int .std_urej_slp (hi := 2) bnd (by norm_num [PF.bounds, QF.bounds, QF.boundsQ])
  refine ⟨_, ![w0, w1, w2, w3], by
    simp only [Rounding.getStdQseqQBlock, sfhPdfPart_apply, BV_std_uqt, BV_std_uqs, BV_std_udrop, BV_std_urej, a0, a1, a2, a3, Option.bind_eq_bind, Option.bind_some,
      Option.pure_def]; rfl, ?_, ?_⟩
  · simp only [getCovarianceQseqQBlock, getCovParamsQseqQBlock, sfhPdfPart_apply, BV_std_uqt, BV_std_uqs, BV_std_udrop, BV_std_urej, b0, b1, b2, b3,
      Option.bind_eq_bind, Option.bind_some, Option.pure_def, Option.map_some]
    exact congrArg some (covarianceFromCovParams_zero _)
  · intro i
    fin_cases i
    exacts [⟨c0, d0⟩, ⟨c1, d1⟩, ⟨c2, d2⟩, ⟨c3, d3⟩]

end means

/-! ### The bounding transform -/

omit hp in
theorem boundFl_err {x x0 k lo hi lo' hi' b : ℝ} (hx0 : |x0| ≤ 14) (hk : 0 < k) (hk2 : k ≤ 2.2) (hw : lo ≤ hi) (hw2 : hi - lo ≤ 5) (hlo : |lo' - lo| ≤ b)
    (hhi : |hi' - hi| ≤ b) (hB : |lo| ≤ 14) (hB' : |hi| ≤ 14) (hb : b ≤ 1 / 10 ^ 3) :
    |float32.sigmoid exp x (float32.fl x0) (float32.fl k) lo' hi' - sigmoid x x0 k lo hi| ≤ b + 6 / 10 ^ 5 := by
  have r0 := rnd float32 float32_u hx0
  have rk := rnd float32 float32_u (x := k) (B := k) (abs_of_pos hk).le
  generalize float32.fl x0 = x0' at *
  generalize float32.fl k = k' at *
  have c1 := abs_le.1 rk
  have c2 := abs_le.1 hlo
  have c3 := abs_le.1 hhi
  have c4 := abs_le.1 hB
  have c5 := abs_le.1 hB'
  have k0 : 0 ≤ k' := by linarith
  have e1 := sigmoidFl_err float32 float32_u hexp (x := x) k0 r0 hlo hhi (B := 14.01) (D := 5.002) (abs_le.2 ⟨by linarith, by linarith⟩)
    (abs_le.2 ⟨by linarith, by linarith⟩) (abs_le.2 ⟨by linarith, by linarith⟩)
  have e2 : |sigmoid x x0 k' lo hi - sigmoid x x0 k lo hi| ≤ 5 * (4 / 10 ^ 6) := by
    have h := sigma_arg (z := k * (x - x0)) (z' := k' * (x - x0)) (by
      rw [← sub_mul, abs_mul, abs_mul, abs_of_pos hk]
      have := mul_le_mul_of_nonneg_right rk (abs_nonneg (x - x0))
      have h0 := mul_nonneg hk.le (abs_nonneg (x - x0))
      linarith)
    simp only [sigmoid, nnSigmoid]
    rw [add_sub_add_left_eq_sub, ← mul_sub, abs_mul, abs_of_nonneg (show 0 ≤ hi - lo by linarith)]
    exact mul_le_mul hw2 h (abs_nonneg _) (by norm_num)
  have e3 := abs_sub_le (float32.sigmoid exp x x0' k' lo' hi') (sigmoid x x0 k' lo hi) (sigmoid x x0 k lo hi)
  linarith

omit hp in
theorem boundedFl_err (v v' : DiffstarParams ℝ) : let q' := float32.getBoundedDiffstarParams exp v'
    let q := getBoundedDiffstarParams v
    |q'.lgmcrit - q.lgmcrit| ≤ |v'.lgmcrit - v.lgmcrit| + 7 / 10 ^ 5 ∧ |q'.lgyAtMcrit - q.lgyAtMcrit| ≤ |v'.lgyAtMcrit - v.lgyAtMcrit| + 7 / 10 ^ 5 ∧
    |q'.indxLo - q.indxLo| ≤ |v'.indxLo - v.indxLo| + 7 / 10 ^ 5 ∧ |q'.indxHi - q.indxHi| ≤ |v'.indxHi - v.indxHi| + 7 / 10 ^ 5 ∧
    |q'.lgQt - q.lgQt| ≤ |v'.lgQt - v.lgQt| + 7 / 10 ^ 5 ∧ |q'.qlglgdt - q.qlglgdt| ≤ |v'.qlglgdt - v.qlglgdt| + 7 / 10 ^ 5 ∧
    |q'.lgDrop - q.lgDrop| ≤ |v'.lgDrop - v.lgDrop| + 7 / 10 ^ 5 ∧
    |q'.lgRejuv - q.lgRejuv| ≤ |v'.lgDrop - v.lgDrop| + |v'.lgRejuv - v.lgRejuv| + 14 / 10 ^ 5 := by
  intro q' q
  obtain ⟨b0, b1, b2, b3, b4, b5, b6, b7⟩ := bounded_contract v' v
  have r : ∀ {x : ℝ}, |x| ≤ 14 → |float32.fl x - x| ≤ 1 / 10 ^ 6 := fun h => (rnd float32 float32_u h).trans (by norm_num)
  have go : ∀ {x x0 k lo hi : ℝ}, |x0| ≤ 14 → 0 < k → k ≤ 2.2 → lo ≤ hi → hi - lo ≤ 5 → |lo| ≤ 14 → |hi| ≤ 14 →
      |float32.sigmoidB exp x (x0, k, lo, hi) - sigmoid x x0 k lo hi| ≤ 7 / 10 ^ 5 := by
    intro x x0 k lo hi h1 h2 h3 h4 h5 h6 h7
    refine (boundFl_err hexp (x := x) h1 h2 h3 h4 h5 (r h6) (r h7) h6 h7 (by norm_num)).trans (by norm_num)
  have m0 : MS_BOUNDING_SIGMOID.lgmcrit = (11.25, 4 / 4.5, 9, 13.5) := by
    simp only [MS_BOUNDING_SIGMOID, calculateSigmoidBounds, MS_PARAM_BOUNDS]; norm_num [abs_of_pos]
  have m1 : MS_BOUNDING_SIGMOID.lgyAtMcrit = (-10, 1, -12, -8) := by
    simp only [MS_BOUNDING_SIGMOID, calculateSigmoidBounds, MS_PARAM_BOUNDS]; norm_num [abs_of_pos]
  have m2 : MS_BOUNDING_SIGMOID.indxLo = (2.5, 0.8, 0, 5) := by
    simp only [MS_BOUNDING_SIGMOID, calculateSigmoidBounds, MS_PARAM_BOUNDS]; norm_num [abs_of_pos]
  have m3 : MS_BOUNDING_SIGMOID.indxHi = (-2.5, 0.8, -5, 0) := by
    simp only [MS_BOUNDING_SIGMOID, calculateSigmoidBounds, MS_PARAM_BOUNDS]; norm_num [abs_of_pos]
  have m4 : Q_BOUNDING_SIGMOID.lgQt = (1.05, 4 / 1.9, 0.1, 2) := by
    simp only [Q_BOUNDING_SIGMOID, calculateSigmoidBounds, Q_PARAM_BOUNDS]; norm_num [abs_of_pos]
  have m5 : Q_BOUNDING_SIGMOID.qlglgdt = (-1.505, 4 / 2.99, -3, -0.01) := by
    simp only [Q_BOUNDING_SIGMOID, calculateSigmoidBounds, Q_PARAM_BOUNDS]; norm_num [abs_of_pos]
  have m6 : Q_BOUNDING_SIGMOID.lgDrop = (-1.5, 4 / 3, -3, 0) := by
    simp only [Q_BOUNDING_SIGMOID, calculateSigmoidBounds, Q_PARAM_BOUNDS]; norm_num [abs_of_pos]
  have m7 : Q_BOUNDING_SIGMOID.lgRejuv.1 = -1.5 ∧ Q_BOUNDING_SIGMOID.lgRejuv.2.1 = 4 / 3 ∧ Q_BOUNDING_SIGMOID.lgRejuv.2.2.2 = 0 := by
    simp only [Q_BOUNDING_SIGMOID, calculateSigmoidBounds, Q_PARAM_BOUNDS]; norm_num [abs_of_pos]
  have hd : |q'.lgDrop - (getBoundedDiffstarParams v').lgDrop| ≤ 7 / 10 ^ 5 := by
    rw [bounded_eq]
    show |float32.sigmoidB exp v'.lgDrop Q_BOUNDING_SIGMOID.lgDrop - _| ≤ _
    rw [m6]
    exact go (by norm_num [abs_le]) (by norm_num) (by norm_num) (by norm_num) (by norm_num) (by norm_num [abs_le]) (by norm_num [abs_le])
  have hdr := C01_bounded_params_in_bounds v'
  have step : ∀ {a b c e f : ℝ}, |a - b| ≤ e → |b - c| ≤ f → |a - c| ≤ f + e := fun {a b c e f} h1 h2 => (abs_sub_le a b c).trans (by linarith)
  refine ⟨step ?_ b0, step ?_ b1, step ?_ b2, step ?_ b3, step ?_ b4, step ?_ b5, step hd b6, step ?_ b7⟩
  · rw [bounded_eq]
    show |float32.sigmoidB exp v'.lgmcrit MS_BOUNDING_SIGMOID.lgmcrit - _| ≤ _
    rw [m0]
    exact go (by norm_num [abs_le]) (by norm_num) (by norm_num) (by norm_num) (by norm_num) (by norm_num [abs_le]) (by norm_num [abs_le])
  · rw [bounded_eq]
    show |float32.sigmoidB exp v'.lgyAtMcrit MS_BOUNDING_SIGMOID.lgyAtMcrit - _| ≤ _
    rw [m1]
    exact go (by norm_num [abs_le]) (by norm_num) (by norm_num) (by norm_num) (by norm_num) (by norm_num [abs_le]) (by norm_num [abs_le])
  · rw [bounded_eq]
    show |float32.sigmoidB exp v'.indxLo MS_BOUNDING_SIGMOID.indxLo - _| ≤ _
    rw [m2]
    exact go (by norm_num [abs_le]) (by norm_num) (by norm_num) (by norm_num) (by norm_num) (by norm_num [abs_le]) (by norm_num [abs_le])
  · rw [bounded_eq]
    show |float32.sigmoidB exp v'.indxHi MS_BOUNDING_SIGMOID.indxHi - _| ≤ _
    rw [m3]
    exact go (by norm_num [abs_le]) (by norm_num) (by norm_num) (by norm_num) (by norm_num) (by norm_num [abs_le]) (by norm_num [abs_le])
  · rw [bounded_eq]
    show |float32.sigmoidB exp v'.lgQt Q_BOUNDING_SIGMOID.lgQt - _| ≤ _
    rw [m4]
    exact go (by norm_num [abs_le]) (by norm_num) (by norm_num) (by norm_num) (by norm_num) (by norm_num [abs_le]) (by norm_num [abs_le])
  · rw [bounded_eq]
    show |float32.sigmoidB exp v'.qlglgdt Q_BOUNDING_SIGMOID.qlglgdt - _| ≤ _
    rw [m5]
    exact go (by norm_num [abs_le]) (by norm_num) (by norm_num) (by norm_num) (by norm_num) (by norm_num [abs_le]) (by norm_num [abs_le])
  · have e : (getBoundedDiffstarParams v').lgRejuv = sigmoid v'.lgRejuv (-1.5) (4 / 3) (getBoundedDiffstarParams v').lgDrop 0 := by
      simp only [bounded_eq]
    rw [e]
    show |float32.sigmoid exp v'.lgRejuv (float32.fl Q_BOUNDING_SIGMOID.lgRejuv.1) (float32.fl Q_BOUNDING_SIGMOID.lgRejuv.2.1) q'.lgDrop
      (float32.fl Q_BOUNDING_SIGMOID.lgRejuv.2.2.2) - _| ≤ _
    rw [m7.1, m7.2.1, m7.2.2, float32.fl_zero]
    have l := hdr.lgDrop
    refine (boundFl_err hexp (b := 7 / 10 ^ 5) (by norm_num [abs_le]) (by norm_num) (by norm_num) l.2.le (by linarith [l.1]) hd (by norm_num)
      (by rw [abs_le]; constructor <;> linarith [l.1, l.2]) (by norm_num) (by norm_num)).trans (by norm_num)

omit hexp hp in
theorem draw_at {K : Type} {rng : Rng K} {z : K → Fin 4 → ℝ} (hr : Reparametrised rng z) (key : K) {mu mu' s s' : Fin 4 → ℝ} {a : ℝ} (i : Fin 4)
    (hm : |mu' i - mu i| ≤ a) (hM : |mu i| ≤ 260) (ha : a ≤ 1) (hs : ∀ i, |s' i - s i| ≤ 3 / 10 ^ 4 ∧ 0 < s i ∧ s i ≤ 23) :
    |float32.drawDiagonal mu' s' (z key) i - rng.multivariateNormal key mu (Matrix.diagonal fun i => s i ^ 2) i| ≤
      a + 2 / 10 ^ 5 + 3.1 / 10 ^ 4 * |z key i| := by
  rw [hr key mu _ fun i => pow_pos (hs i).2.1 2]
  beta_reduce
  rw [Real.sqrt_sq (hs i).2.1.le]
  have e := drawFl_err (z := z key i) hm (hs i).1 hM (hs i).2.1.le (hs i).2.2 (by norm_num) ha
  refine e.trans ?_
  have := abs_nonneg (z key i)
  nlinarith

/-- **C148**, main sequence: the parameters drawn in single precision against the exact ones of the same deviates. -/
theorem C148_params_ms_partial {K : Type} {rng : Rng K} {z : K → Fin 4 → ℝ} (hr : Reparametrised rng z) (hl : UsableLines p) {m : ℝ} (h0 : 5 ≤ m) (h1 : m ≤ 20)
    (t : ℝ) (upid : ℤ) (a b c : ℝ) (key : K) : ∃ q' q, float32.mcParamsMs exp p m (z (rng.split key 4 0)) = some q' ∧
    (mcDiffstarParamsSinglegal rng p m t upid a b c key).paramsMs = some q ∧
    let zm := fun i => |z (rng.split key 4 0) i|
    |q'.lgmcrit - q.lgmcrit| ≤ (7 + 4 * zm 0) / 10 ^ 4 ∧ |q'.lgyAtMcrit - q.lgyAtMcrit| ≤ (7 + 4 * zm 1) / 10 ^ 4 ∧
    |q'.indxLo - q.indxLo| ≤ (3 + 1.5 * |p (.inl .mean_ul_mseq_slp)| + 4 * zm 2) / 10 ^ 4 ∧
    |q'.indxHi - q.indxHi| ≤ (3 + 1.5 * |p (.inl .mean_uh_mseq_slp)| + 4 * zm 3) / 10 ^ 4 ∧
    |q'.lgQt - q.lgQt| ≤ 1 / 10 ^ 4 ∧ |q'.qlglgdt - q.qlglgdt| ≤ 1 / 10 ^ 4 ∧ |q'.lgDrop - q.lgDrop| ≤ 1 / 10 ^ 4 ∧ |q'.lgRejuv - q.lgRejuv| ≤ 2 / 10 ^ 4 := by
  obtain ⟨mu', mu, e1, e2, k0, k1, k2, k3, hM, f2, f3⟩ := meanMsFl hexp hp hl h0 h1
  obtain ⟨s', s, e3, e4, hs⟩ := stdMsFl hexp hp hl h0 h1
  have d0 := draw_at hr (rng.split key 4 0) 0 k0 (hM 0) (by norm_num) hs
  have d1 := draw_at hr (rng.split key 4 0) 1 k1 (hM 1) (by norm_num) hs
  have d2 := draw_at hr (rng.split key 4 0) 2 k2 (hM 2) (by linarith) hs
  have d3 := draw_at hr (rng.split key 4 0) 3 k3 (hM 3) (by linarith) hs
  have r5 : float32.fl 5 = 5 := by exact_mod_cast f32_int 5 (by norm_num)
  have g1 : (mcDiffstarParamsSinglegal rng p m t upid a b c key).paramsMs = some (getBoundedDiffstarParams (
      let x := rng.multivariateNormal (rng.split key 4 0) mu (Matrix.diagonal fun i => s i ^ 2)
      DiffstarParams.join ⟨x 0, x 1, x 2, x 3⟩ ⟨5, 5, 5, 5⟩)) := by
    simp only [mcDiffstarParamsSinglegal, mcDiffstarUParamsSinglegalKernel, diffstarpopMeansCovs, sfhPdfScalarKernel, drawMs, e2, e4, Option.bind_eq_bind,
      Option.bind_some, Option.pure_def, Option.map_some, DEFAULT_Q_U_PARAMS_UNQUENCHED]
  have g2 : float32.mcParamsMs exp p m (z (rng.split key 4 0)) = some (float32.getBoundedDiffstarParams exp (
      let x := float32.drawDiagonal mu' s' (z (rng.split key 4 0))
      DiffstarParams.join ⟨x 0, x 1, x 2, x 3⟩ ⟨5, 5, 5, 5⟩)) := by
    simp only [Rounding.mcParamsMs, e1, e3, Option.bind_eq_bind, Option.bind_some, Option.pure_def, DEFAULT_Q_U_PARAMS_UNQUENCHED, r5]
  generalize rng.multivariateNormal (rng.split key 4 0) mu _ = x at *
  generalize float32.drawDiagonal mu' _ _ = x' at *
  refine ⟨_, _, g2, g1, ?_⟩
  obtain ⟨b0, b1, b2, b3, b4, b5, b6, b7⟩ := boundedFl_err hexp (DiffstarParams.join ⟨x 0, x 1, x 2, x 3⟩ ⟨5, 5, 5, 5⟩)
    (DiffstarParams.join ⟨x' 0, x' 1, x' 2, x' 3⟩ ⟨5, 5, 5, 5⟩)
  have z0 := abs_nonneg (z (rng.split key 4 0) 0)
  have z1 := abs_nonneg (z (rng.split key 4 0) 1)
  have z2 := abs_nonneg (z (rng.split key 4 0) 2)
  have z3 := abs_nonneg (z (rng.split key 4 0) 3)
  refine ⟨(b0.trans (add_le_add_left d0 _)).trans ?_, (b1.trans (add_le_add_left d1 _)).trans ?_, (b2.trans (add_le_add_left d2 _)).trans ?_,
    (b3.trans (add_le_add_left d3 _)).trans ?_, b4.trans ?_, b5.trans ?_, b6.trans ?_, b7.trans ?_⟩
  · linarith only [z0]
  · linarith only [z1]
  · linarith only [z2]
  · linarith only [z3]
  all_goals simp only [DiffstarParams.join, sub_self, abs_zero]; norm_num

/-- **C148**, quenched sequence. -/
theorem C148_params_q_partial {K : Type} {rng : Rng K} {z : K → Fin 4 → ℝ} (hr : Reparametrised rng z) (hl : UsableLines p) {m : ℝ} (h0 : 5 ≤ m) (h1 : m ≤ 20)
    (t : ℝ) (upid : ℤ) (a b c : ℝ) (key : K) : ∃ q' q, float32.mcParamsQ exp p m t (z (rng.split key 4 1)) (z (rng.split key 4 2)) = some q' ∧
    (mcDiffstarParamsSinglegal rng p m t upid a b c key).paramsQ = some q ∧
    let zm := fun i => |z (rng.split key 4 1) i|
    let zq := fun i => |z (rng.split key 4 2) i|
    |q'.lgmcrit - q.lgmcrit| ≤ (7 + 4 * zm 0) / 10 ^ 4 ∧ |q'.lgyAtMcrit - q.lgyAtMcrit| ≤ (7 + 4 * zm 1) / 10 ^ 4 ∧
    |q'.indxLo - q.indxLo| ≤ (3 + 1.5 * |p (.inl .mean_ul_qseq_slp)| + 4 * zm 2) / 10 ^ 4 ∧
    |q'.indxHi - q.indxHi| ≤ (3 + 1.5 * |p (.inl .mean_uh_qseq_slp)| + 4 * zm 3) / 10 ^ 4 ∧
    |q'.lgQt - q.lgQt| ≤ (8 + 4 * zq 0) / 10 ^ 4 ∧ |q'.qlglgdt - q.qlglgdt| ≤ (3 + 1.5 * |p (.inl .mean_uqs_slp)| + 4 * zq 1) / 10 ^ 4 ∧
    |q'.lgDrop - q.lgDrop| ≤ (3 + 1.5 * |p (.inl .mean_udrop_slp)| + 4 * zq 2) / 10 ^ 4 ∧
    |q'.lgRejuv - q.lgRejuv| ≤ (6 + 1.5 * |p (.inl .mean_udrop_slp)| + 1.5 * |p (.inl .mean_urej_slp)| + 4 * zq 2 + 4 * zq 3) / 10 ^ 4 := by
  obtain ⟨mu', mu, e1, e2, ⟨k0, k1, k2, k3, k4, k5, k6, k7⟩, hM, f2, f3, f5, f6, f7⟩ := meanQFl hexp hp hl h0 h1 t
  obtain ⟨s', s, e3, e4, hs⟩ := stdQmsFl hexp hp hl h0 h1
  obtain ⟨r', r, e5, e6, hr'⟩ := stdQFl hexp hp hl h0 h1
  have d0 := draw_at hr (rng.split key 4 1) (mu := ![mu 0, mu 1, mu 2, mu 3]) (mu' := ![mu' 0, mu' 1, mu' 2, mu' 3]) 0 k0 (hM 0) (by norm_num) hs
  have d1 := draw_at hr (rng.split key 4 1) (mu := ![mu 0, mu 1, mu 2, mu 3]) (mu' := ![mu' 0, mu' 1, mu' 2, mu' 3]) 1 k1 (hM 1) (by norm_num) hs
  have d2 := draw_at hr (rng.split key 4 1) (mu := ![mu 0, mu 1, mu 2, mu 3]) (mu' := ![mu' 0, mu' 1, mu' 2, mu' 3]) 2 k2 (hM 2) (by linarith) hs
  have d3 := draw_at hr (rng.split key 4 1) (mu := ![mu 0, mu 1, mu 2, mu 3]) (mu' := ![mu' 0, mu' 1, mu' 2, mu' 3]) 3 k3 (hM 3) (by linarith) hs
  have d4 := draw_at hr (rng.split key 4 2) (mu := ![mu 4, mu 5, mu 6, mu 7]) (mu' := ![mu' 4, mu' 5, mu' 6, mu' 7]) 0 k4 (hM 4) (by norm_num) hr'
  have d5 := draw_at hr (rng.split key 4 2) (mu := ![mu 4, mu 5, mu 6, mu 7]) (mu' := ![mu' 4, mu' 5, mu' 6, mu' 7]) 1 k5 (hM 5) (by linarith) hr'
  have d6 := draw_at hr (rng.split key 4 2) (mu := ![mu 4, mu 5, mu 6, mu 7]) (mu' := ![mu' 4, mu' 5, mu' 6, mu' 7]) 2 k6 (hM 6) (by linarith) hr'
  have d7 := draw_at hr (rng.split key 4 2) (mu := ![mu 4, mu 5, mu 6, mu 7]) (mu' := ![mu' 4, mu' 5, mu' 6, mu' 7]) 3 k7 (hM 7) (by linarith) hr'
  have g1 : (mcDiffstarParamsSinglegal rng p m t upid a b c key).paramsQ = some (getBoundedDiffstarParams (
      let x := rng.multivariateNormal (rng.split key 4 1) ![mu 0, mu 1, mu 2, mu 3] (Matrix.diagonal fun i => s i ^ 2)
      let y := rng.multivariateNormal (rng.split key 4 2) ![mu 4, mu 5, mu 6, mu 7] (Matrix.diagonal fun i => r i ^ 2)
      DiffstarParams.join ⟨x 0, x 1, x 2, x 3⟩ ⟨y 0, y 1, y 2, y 3⟩)) := by
    simp only [mcDiffstarParamsSinglegal, mcDiffstarUParamsSinglegalKernel, diffstarpopMeansCovs, sfhPdfScalarKernel, drawQ, e2, e4, e6, Option.bind_eq_bind,
      Option.bind_some, Option.pure_def, Option.map_some]
  have g2 : float32.mcParamsQ exp p m t (z (rng.split key 4 1)) (z (rng.split key 4 2)) = some (float32.getBoundedDiffstarParams exp (
      let x := float32.drawDiagonal ![mu' 0, mu' 1, mu' 2, mu' 3] s' (z (rng.split key 4 1))
      let y := float32.drawDiagonal ![mu' 4, mu' 5, mu' 6, mu' 7] r' (z (rng.split key 4 2))
      DiffstarParams.join ⟨x 0, x 1, x 2, x 3⟩ ⟨y 0, y 1, y 2, y 3⟩)) := by
    simp only [Rounding.mcParamsQ, e1, e3, e5, Option.bind_eq_bind, Option.bind_some, Option.pure_def]
  generalize rng.multivariateNormal (rng.split key 4 1) ![mu 0, mu 1, mu 2, mu 3] _ = x at *
  generalize rng.multivariateNormal (rng.split key 4 2) ![mu 4, mu 5, mu 6, mu 7] _ = y at *
  generalize float32.drawDiagonal ![mu' 0, mu' 1, mu' 2, mu' 3] _ _ = x' at *
  generalize float32.drawDiagonal ![mu' 4, mu' 5, mu' 6, mu' 7] _ _ = y' at *
  refine ⟨_, _, g2, g1, ?_⟩
  obtain ⟨b0, b1, b2, b3, b4, b5, b6, b7⟩ := boundedFl_err hexp (DiffstarParams.join ⟨x 0, x 1, x 2, x 3⟩ ⟨y 0, y 1, y 2, y 3⟩)
    (DiffstarParams.join ⟨x' 0, x' 1, x' 2, x' 3⟩ ⟨y' 0, y' 1, y' 2, y' 3⟩)
  have z0 := abs_nonneg (z (rng.split key 4 1) 0)
  have z1 := abs_nonneg (z (rng.split key 4 1) 1)
  have z2 := abs_nonneg (z (rng.split key 4 1) 2)
  have z3 := abs_nonneg (z (rng.split key 4 1) 3)
  have z4 := abs_nonneg (z (rng.split key 4 2) 0)
  have z5 := abs_nonneg (z (rng.split key 4 2) 1)
  have z6 := abs_nonneg (z (rng.split key 4 2) 2)
  have z7 := abs_nonneg (z (rng.split key 4 2) 3)
  refine ⟨(b0.trans (add_le_add_left d0 _)).trans ?_, (b1.trans (add_le_add_left d1 _)).trans ?_, (b2.trans (add_le_add_left d2 _)).trans ?_,
    (b3.trans (add_le_add_left d3 _)).trans ?_, (b4.trans (add_le_add_left d4 _)).trans ?_, (b5.trans (add_le_add_left d5 _)).trans ?_,
    (b6.trans (add_le_add_left d6 _)).trans ?_, (b7.trans (add_le_add_left (add_le_add d6 d7) _)).trans ?_⟩
  · linarith only [z0]
  · linarith only [z1]
  · linarith only [z2]
  · linarith only [z3]
  · linarith only [z4]
  · linarith only [z5]
  · linarith only [z6]
  · linarith only [z6, z7]

end draw

/-! ### Lines that start at their lower bound -/

theorem nnSigmoidFl_low {exp : ℝ → ℝ} (hexp : ∀ x, |exp x - Real.exp x| ≤ 5 / 10 ^ 7 * Real.exp x) {x : ℝ} (hx : x ≤ -25) :
    |float32.nnSigmoid exp x| ≤ 1 / 10 ^ 10 := by
  have h2 : (2.7 : ℝ) ^ 25 ≤ Real.exp 1 ^ 25 := pow_le_pow_left₀ (by norm_num) (by linarith [Real.exp_one_gt_d9]) _
  rw [← Real.exp_nat_mul, mul_one] at h2
  have h3 : Real.exp ((25 : ℕ) : ℝ) ≤ Real.exp (-x) := Real.exp_le_exp.2 (by norm_num; linarith)
  have h4 : (2.1 * 10 ^ 10 : ℝ) ≤ Real.exp (-x) := le_trans (by norm_num) (h2.trans h3)
  have h5 := (abs_le.1 (hexp (-x))).1
  have h6 : (2 * 10 ^ 10 : ℝ) ≤ 1 + exp (-x) := by linarith
  obtain ⟨d, hd, e⟩ := fl_factor float32 float32_u (1 + exp (-x))
  have d1 := abs_le.1 hd
  have h7 : (1.9 * 10 ^ 10 : ℝ) ≤ float32.fl (1 + exp (-x)) := by
    rw [e]
    nlinarith
  unfold Rounding.nnSigmoid
  have h8 : 1 / float32.fl (1 + exp (-x)) ≤ 0.6 / 10 ^ 10 := by
    rw [div_le_iff₀ (by linarith)]
    linarith
  have h9 : 0 ≤ 1 / float32.fl (1 + exp (-x)) := by
    apply div_nonneg (by norm_num)
    linarith
  have r := abs_le.1 (rnd float32 float32_u (x := 1 / float32.fl (1 + exp (-x))) (B := 0.6 / 10 ^ 10) (by rw [abs_of_nonneg h9]; exact h8))
  rw [abs_le]
  constructor <;> linarith

theorem low_tail {exp : ℝ → ℝ} (hexp : ∀ x, |exp x - Real.exp x| ≤ 5 / 10 ^ 7 * Real.exp x) {x0 h : ℝ} (hx0 : |x0| ≤ 1) (hh : |h| ≤ 40) :
    |float32.fl (h * float32.nnSigmoid exp (float32.fl (float32.fl BOUNDING_K * float32.fl (-300 - x0))))| ≤ 5 / 10 ^ 9 := by
  have hk : float32.fl BOUNDING_K = 13421773 * 2 ^ (-27 : ℤ) := by rw [show BOUNDING_K = 0.1 from rfl, f32_tenth]
  have c0 := abs_le.1 hx0
  have r := abs_le.1 (rnd float32 float32_u (x := -300 - x0) (B := 301) (by rw [abs_le]; constructor <;> linarith))
  have hz : float32.fl (float32.fl BOUNDING_K * float32.fl (-300 - x0)) ≤ -25 := by
    have h6 := float32.mono (show float32.fl BOUNDING_K * float32.fl (-300 - x0) ≤ -25 by rw [hk]; norm_num; linarith)
    rwa [float32.neg, f32_exact' 25 0 25 (by norm_num) (by norm_num)] at h6
  have n := nnSigmoidFl_low hexp hz
  have a : |h * float32.nnSigmoid exp (float32.fl (float32.fl BOUNDING_K * float32.fl (-300 - x0)))| ≤ 4 / 10 ^ 9 := by
    rw [abs_mul]
    exact (mul_le_mul hh n (abs_nonneg _) (by norm_num)).trans (by norm_num)
  have b := abs_le.1 a
  have r2 := abs_le.1 (rnd float32 float32_u a)
  rw [abs_le]
  constructor <;> linarith

theorem low_three {d : ℝ} (hd : |d| ≤ 5 / 10 ^ 9) : float32.fl (-3 + d) = -3 := by
  have c := abs_le.1 hd
  have := float32_eq (x := 3 - d) 12582912 (-22) (by norm_num; linarith) (by norm_num; linarith) (by rw [abs_lt]; norm_num; constructor <;> linarith)
  rw [show -3 + d = -(3 - d) by ring, float32.neg, this]
  norm_num

theorem low_twenty {d : ℝ} (hd : |d| ≤ 5 / 10 ^ 9) : float32.fl (-20 + d) = -20 := by
  have c := abs_le.1 hd
  have := float32_eq (x := 20 - d) 10485760 (-19) (by norm_num; linarith) (by norm_num; linarith) (by rw [abs_lt]; norm_num; constructor <;> linarith)
  rw [show -20 + d = -(20 - d) by ring, float32.neg, this]
  norm_num

theorem low_values {exp : ℝ → ℝ} (hexp : ∀ x, |exp x - Real.exp x| ≤ 5 / 10 ^ 7 * Real.exp x) :
    float32.getBoundedDiffstarpopParams exp (fun _ => -300) (.inl .mean_ul_mseq_int) = -3 ∧
      float32.getBoundedDiffstarpopParams exp (fun _ => -300) (.inl .mean_ul_mseq_slp) = -20 := by
  have f3 : float32.fl (-3) = -3 := by exact_mod_cast f32_int (-3) (by norm_num)
  have f5 : float32.fl 5 = 5 := by exact_mod_cast f32_int 5 (by norm_num)
  have f8 : float32.fl 8 = 8 := by exact_mod_cast f32_int 8 (by norm_num)
  have f2 : float32.fl 2 = 2 := by exact_mod_cast f32_int 2 (by norm_num)
  have f20 : float32.fl 20 = 20 := by exact_mod_cast f32_int 20 (by norm_num)
  have f40 : float32.fl 40 = 40 := by exact_mod_cast f32_int 40 (by norm_num)
  have fm20 : float32.fl (-20) = -20 := by exact_mod_cast f32_int (-20) (by norm_num)
  constructor
  · rw [getBoundedFl_apply, Rounding.getPFromUPScalar, Rounding.sigmoid, show PF.bounds (.inl .mean_ul_mseq_int) = (-3, 5) from bnd]
    dsimp only
    rw [f3, f5, show (-3 : ℝ) + 5 = 2 by norm_num, f2, show (0.5 : ℝ) * 2 = 1 by norm_num, float32.one, show (5 : ℝ) - -3 = 8 by norm_num, f8]
    exact low_three (low_tail hexp (by norm_num) (by norm_num))
  · rw [getBoundedFl_apply, Rounding.getPFromUPScalar, Rounding.sigmoid, show PF.bounds (.inl .mean_ul_mseq_slp) = (-20, 20) from bnd]
    dsimp only
    rw [fm20, f20, show (-20 : ℝ) + 20 = 0 by norm_num, float32.fl_zero, mul_zero, float32.fl_zero, show (20 : ℝ) - -20 = 40 by norm_num, f40]
    exact low_twenty (low_tail hexp (by norm_num) (by norm_num))

/-- The line through a point at the lower bound with negative slope, right of that point. -/
theorem reversed_line (exp : ℝ → ℝ) : ∃ v, float32.lineModel exp 13 (-3) (-20) (-3, 5) = some v ∧ 4.9 ≤ v := by
  have f3 : float32.fl (-3) = -3 := by exact_mod_cast f32_int (-3) (by norm_num)
  have f5 : float32.fl 5 = 5 := by exact_mod_cast f32_int 5 (by norm_num)
  have f8 : float32.fl 8 = 8 := by exact_mod_cast f32_int 8 (by norm_num)
  have f10 : float32.fl (-10) = -10 := by exact_mod_cast f32_int (-10) (by norm_num)
  have f13 : float32.fl (-13) = -13 := by exact_mod_cast f32_int (-13) (by norm_num)
  have fx : float32.fl 12.5 = 12.5 := by
    have := f32_half 25 (by norm_num)
    norm_num at this ⊢
    exact this
  have fh : float32.fl (13 - 12.5) = 0.5 := by
    have := f32_half 1 (by norm_num)
    norm_num at this ⊢
    exact this
  simp only [Rounding.lineModel, Rounding.smoothlyClippedLine, LGM_X0, f3, f5, sub_self, float32.fl_zero, zero_div, zero_add, fx, add_zero, mul_zero,
    show (-20 : ℝ) ≠ 0 by norm_num, if_false, if_true, show (5 : ℝ) - -3 = 8 by norm_num, f8, fh, show (-20 : ℝ) * 0.5 = -10 by norm_num, f10,
    show (-3 : ℝ) + -10 = -13 by norm_num, f13]
  simp only [Rounding.sigmoidStep, fh, show (0.5 : ℝ) ≠ 0 by norm_num, show (0 : ℝ) < 0.5 by norm_num, if_false, if_true, mul_one,
    show (-13 : ℝ) - -3 = -10 by norm_num, f10, show (-3 : ℝ) + -10 = -13 by norm_num, f13, Option.bind_eq_bind, Option.bind_some]
  have r1 := rnd float32 float32_u (x := 8 / -20) (B := 0.4) (by norm_num [abs_le])
  generalize float32.fl (8 / -20) = x1 at *
  have r1 := abs_le.1 r1
  have r2 := abs_le.1 (rnd float32 float32_u (x := x1 + 12.5) (B := 13) (by rw [abs_le]; norm_num at *; constructor <;> linarith))
  generalize float32.fl (x1 + 12.5) = x2 at *
  have r3 := abs_le.1 (rnd float32 float32_u (x := x2 - 12.5) (B := 0.5) (by rw [abs_le]; norm_num at *; constructor <;> linarith))
  generalize float32.fl (x2 - 12.5) = x3 at *
  have r4 := abs_le.1 (rnd float32 float32_u (x := x3 / 100) (B := 0.005) (by rw [abs_le]; norm_num at *; constructor <;> linarith))
  generalize float32.fl (x3 / 100) = x4 at *
  have r5 := abs_le.1 (rnd float32 float32_u (x := x2 - x4) (B := 13) (by rw [abs_le]; norm_num at *; constructor <;> linarith))
  generalize float32.fl (x2 - x4) = x5 at *
  have r6 := abs_le.1 (rnd float32 float32_u (x := 13 - x5) (B := 1) (by rw [abs_le]; norm_num at *; constructor <;> linarith))
  have p6 : 0 < float32.fl (13 - x5) := by norm_num at *; linarith
  rw [if_neg p6.ne']
  simp only [p6, if_true, mul_one, float32.idem]
  refine ⟨_, rfl, ?_⟩
  have r7 := abs_le.1 (rnd float32 float32_u (x := x5 - 12.5) (B := 0.5) (by rw [abs_le]; norm_num at *; constructor <;> linarith))
  generalize float32.fl (x5 - 12.5) = x7 at *
  have r8 := abs_le.1 (rnd float32 float32_u (x := -20 * x7) (B := 10) (by rw [abs_le]; norm_num at *; constructor <;> linarith))
  generalize float32.fl (-20 * x7) = x8 at *
  have r9 := abs_le.1 (rnd float32 float32_u (x := -3 + x8) (B := 10) (by rw [abs_le]; norm_num at *; constructor <;> linarith))
  generalize float32.fl (-3 + x8) = x9 at *
  have r10 := abs_le.1 (rnd float32 float32_u (x := x9 - -13) (B := 20) (by rw [abs_le]; norm_num at *; constructor <;> linarith))
  generalize float32.fl (x9 - -13) = x10 at *
  have r11 := abs_le.1 (rnd float32 float32_u (x := -13 + x10) (B := 10) (by rw [abs_le]; norm_num at *; constructor <;> linarith))
  norm_num at *
  linarith

/-- A clipped line below its starting point stays below it, up to a small fraction of the distance to the lower bound. -/
theorem clipOf_low {D U y0 Y : ℝ} (hD : 0 < D) (hY : Y ≤ y0 - 0.99 * D) : clipOf D U y0 Y ≤ y0 := by
  simp only [clipOf]
  have s0 := nnSigmoid_pos (2000 / D * (Y - (y0 - 0.99 * D)))
  have s1 := nnSigmoid_lt_one (2000 / D * (Y - (y0 - 0.99 * D)))
  generalize nnSigmoid (2000 / D * (Y - (y0 - 0.99 * D))) = s at *
  have q := mul_nnSigmoid_neg_le_sharp (2000 / D * (y0 + 0.99 * U - Y))
  rw [show -(2000 / D * (y0 + 0.99 * U - Y)) = 2000 / D * (Y - (y0 + 0.99 * U)) by ring] at q
  have t0 := nnSigmoid_pos (2000 / D * (Y - (y0 + 0.99 * U)))
  generalize nnSigmoid (2000 / D * (Y - (y0 + 0.99 * U))) = t at *
  have q2 : (y0 + 0.99 * U - Y) * t ≤ 0.2816 * D / 2000 := by
    rw [le_div_iff₀ (by norm_num)]
    have := mul_le_mul_of_nonneg_left q hD.le
    rw [show D * (2000 / D * (y0 + 0.99 * U - Y) * t) = (y0 + 0.99 * U - Y) * t * 2000 by field_simp] at this
    linarith
  have a1 : (Y - (y0 - 0.99 * D)) * s ≤ 0 := mul_nonpos_of_nonpos_of_nonneg (by linarith) s0.le
  have a2 : Y - (y0 - 0.99 * D) ≤ (Y - (y0 - 0.99 * D)) * s := by nlinarith
  have a3 : (y0 + 0.99 * U - (y0 - 0.99 * D + (Y - (y0 - 0.99 * D)) * s)) * t ≤ (y0 + 0.99 * U - Y) * t := mul_le_mul_of_nonneg_right (by linarith) t0.le
  linarith

/-- **C148**: in single precision a line that starts at its lower bound and falls is sent to its *upper* bound: the slope of the low-mass index of
main-sequence galaxies, for population parameters -300 (within exact arithmetic the same parameters give the lower bound). -/
theorem C148_reversed_violated {exp : ℝ → ℝ} (hexp : ∀ x, |exp x - Real.exp x| ≤ 5 / 10 ^ 7 * Real.exp x) : ∃ u : PF → ℝ, ∃ m : ℝ, ∃ v w,
    let p' := float32.getBoundedDiffstarpopParams exp u
    let p := getBoundedDiffstarpopParams u
    float32.lineModel exp m (p' (.inl .mean_ul_mseq_int)) (p' (.inl .mean_ul_mseq_slp)) BV_mean_ul = some v ∧
      lineModel m (p (.inl .mean_ul_mseq_int)) (p (.inl .mean_ul_mseq_slp)) BV_mean_ul = some w ∧ w ≤ -2.9 ∧ 4.9 ≤ v := by
  obtain ⟨v, hv, hv'⟩ := reversed_line exp
  have hs : ∀ x : ℝ, x ≤ -30 → nnSigmoid x ≤ 0.01 := by
    intro x hx
    rw [nnSigmoid, div_le_iff₀ (by positivity)]
    have h2 : (2.7 : ℝ) ^ 25 ≤ Real.exp 1 ^ 25 := pow_le_pow_left₀ (by norm_num) (by linarith [Real.exp_one_gt_d9]) _
    rw [← Real.exp_nat_mul, mul_one] at h2
    have h3 : Real.exp ((25 : ℕ) : ℝ) ≤ Real.exp (-x) := Real.exp_le_exp.2 (by norm_num; linarith)
    have h4 : (100 : ℝ) ≤ Real.exp (-x) := le_trans (by norm_num) (h2.trans h3)
    linarith
  have e1 : getBoundedDiffstarpopParams (fun _ => -300) (.inl .mean_ul_mseq_int) = -3 + 8 * nnSigmoid (-30.1) := by
    rw [getBounded_apply, show PF.bounds (.inl .mean_ul_mseq_int) = (-3, 5) from bnd, sigmoid]
    norm_num
  have e2 : getBoundedDiffstarpopParams (fun _ => -300) (.inl .mean_ul_mseq_slp) = -20 + 40 * nnSigmoid (-30) := by
    rw [getBounded_apply, show PF.bounds (.inl .mean_ul_mseq_slp) = (-20, 20) from bnd, sigmoid]
    norm_num
  have a := hs (-30) le_rfl
  have b := hs (-30.1) (by norm_num)
  have b' := nnSigmoid_pos (-30.1)
  have a' := nnSigmoid_pos (-30)
  have hw : lineModel 13 (getBoundedDiffstarpopParams (fun _ => -300) (.inl .mean_ul_mseq_int)) (getBoundedDiffstarpopParams (fun _ => -300) (.inl .mean_ul_mseq_slp))
      BV_mean_ul = _ := smoothlyClippedLine_eq (by rw [e2]; linarith) (by rw [e1]; simp only [BV_mean_ul]; linarith)
  refine ⟨fun _ => -300, 13, v, _, ?_, hw, ?_, hv'⟩
  · rw [(low_values hexp).1, (low_values hexp).2]
    exact hv
  · rw [e1, e2]
    simp only [BV_mean_ul, LGM_X0]
    generalize nnSigmoid (-30.1) = s at *
    generalize nnSigmoid (-30) = t at *
    refine (clipOf_low (by linarith) (by norm_num; linarith)).trans ?_
    linarith

/-- **C148**: with the same population parameters a halo of peak mass exactly 10^12.5 has no galaxy in single precision (the parameters are NaN:
infinity times zero), whatever the deviates, while in exact arithmetic the line passes through its intercept there. -/
theorem C148_nan_violated {exp : ℝ → ℝ} (hexp : ∀ x, |exp x - Real.exp x| ≤ 5 / 10 ^ 7 * Real.exp x) : ∃ u : PF → ℝ,
    (∀ z, float32.mcParamsMs exp (float32.getBoundedDiffstarpopParams exp u) 12.5 z = none) ∧
      ∃ w, lineModel 12.5 (getBoundedDiffstarpopParams u (.inl .mean_ul_mseq_int)) (getBoundedDiffstarpopParams u (.inl .mean_ul_mseq_slp))
        BV_mean_ul = some w := by
  have e1 : getBoundedDiffstarpopParams (fun _ => -300) (.inl .mean_ul_mseq_int) = -3 + 8 * nnSigmoid (-30.1) := by
    rw [getBounded_apply, show PF.bounds (.inl .mean_ul_mseq_int) = (-3, 5) from bnd, sigmoid]
    norm_num
  have e2 : getBoundedDiffstarpopParams (fun _ => -300) (.inl .mean_ul_mseq_slp) = -20 + 40 * nnSigmoid (-30) := by
    rw [getBounded_apply, show PF.bounds (.inl .mean_ul_mseq_slp) = (-20, 20) from bnd, sigmoid]
    norm_num
  have b := nnSigmoid_pos (-30.1)
  have a : nnSigmoid (-30) < 0.5 := by
    rw [nnSigmoid, div_lt_iff₀ (by positivity)]
    have := Real.add_one_le_exp (30 : ℝ)
    rw [neg_neg]
    linarith
  refine ⟨fun _ => -300, fun z => ?_, _, smoothlyClippedLine_eq (by rw [e2]; linarith) (by rw [e1]; simp only [BV_mean_ul]; linarith)⟩
  have f3 : float32.fl (-3) = -3 := by exact_mod_cast f32_int (-3) (by norm_num)
  have f5 : float32.fl 5 = 5 := by exact_mod_cast f32_int 5 (by norm_num)
  have fx : float32.fl 12.5 = 12.5 := by
    have := f32_half 25 (by norm_num)
    norm_num at this ⊢
    exact this
  have hnone : float32.lineModel exp 12.5 (-3) (-20) (-3, 5) = none := by
    simp only [Rounding.lineModel, Rounding.smoothlyClippedLine, LGM_X0, f3, f5, sub_self, float32.fl_zero, zero_div, zero_add, fx, add_zero, mul_zero,
      show (-20 : ℝ) ≠ 0 by norm_num, if_false, if_true, Rounding.sigmoidStep, Option.bind_eq_bind, Option.bind_none]
  have l := low_values hexp
  have h : float32.lineModel exp 12.5 (sfhPdfPart (float32.getBoundedDiffstarpopParams exp fun _ => -300) .mean_ul_mseq_int)
      (sfhPdfPart (float32.getBoundedDiffstarpopParams exp fun _ => -300) .mean_ul_mseq_slp) BV_mean_ul = none := by
    simp only [sfhPdfPart_apply]
    rw [l.1, l.2]
    exact hnone
  simp only [Rounding.mcParamsMs, Rounding.getMeanUParamsMseq, h, Option.bind_eq_bind, Option.bind_none]

/-! ### The hypotheses can be met -/

theorem line_gap : ∀ l ∈ lines, 2 / 5 ≤ l.1.boundsQ.2 - l.1.boundsQ.1 := by
  intro l hl
  fin_cases hl <;> decide +kernel

/-- Parameters three quarters of the way up. -/
noncomputable def threeQuarters (f : PF) : ℝ := float32.fl (0.25 * (PF.bounds f).1 + 0.75 * (PF.bounds f).2)

theorem threeQuarters_ok : InPopFloatBounds threeQuarters ∧ UsableLines threeQuarters := by
  have hle : ∀ f : PF, (PF.bounds f).1 ≤ (PF.bounds f).2 := fun f => (PF.bounds_lt f).le
  refine ⟨⟨fun f => float32.idem _, fun f => float32.mono (by linarith [hle f]), fun f _ => float32.mono (by linarith [hle f])⟩, fun l hl => ?_⟩
  have hg : (2 / 5 : ℝ) ≤ (PF.bounds (.inl l.1)).2 - (PF.bounds (.inl l.1)).1 := by
    have := line_gap l hl
    have h' : (((2 / 5 : ℚ)) : ℝ) ≤ ((l.1.boundsQ.2 - l.1.boundsQ.1 : ℚ) : ℝ) := Rat.cast_le.2 this
    push_cast at h'
    exact h'
  obtain ⟨⟨g1, g2, g3, g4⟩, -, -⟩ := lines_bounds l hl
  have g1' : (-10 : ℝ) ≤ (PF.bounds (.inl l.1)).1 := by
    show (-10 : ℝ) ≤ ((l.1.boundsQ.1 : ℚ) : ℝ)
    exact_mod_cast g1
  have g4' : (PF.bounds (.inl l.1)).2 ≤ (10 : ℝ) := by
    show ((l.1.boundsQ.2 : ℚ) : ℝ) ≤ (10 : ℝ)
    exact_mod_cast g4
  have r := abs_le.1 (rnd float32 float32_u (x := 0.25 * (PF.bounds (.inl l.1)).1 + 0.75 * (PF.bounds (.inl l.1)).2) (B := 10) (by
    rw [abs_le]; constructor <;> linarith [hle (.inl l.1)]))
  have hslp : threeQuarters (.inl l.2) = 10 ∨ threeQuarters (.inl l.2) = 0.5 := by
    rcases slopes_bounds l hl with h | h
    · left
      show float32.fl (0.25 * ((l.2.boundsQ.1 : ℚ) : ℝ) + 0.75 * ((l.2.boundsQ.2 : ℚ) : ℝ)) = 10
      rw [h]
      norm_num
      exact_mod_cast f32_int 10 (by norm_num)
    · right
      show float32.fl (0.25 * ((l.2.boundsQ.1 : ℚ) : ℝ) + 0.75 * ((l.2.boundsQ.2 : ℚ) : ℝ)) = 0.5
      rw [h]
      have := f32_half 1 (by norm_num)
      norm_num at this ⊢
      exact this
  have e : threeQuarters (.inl l.1) = float32.fl (0.25 * (PF.bounds (.inl l.1)).1 + 0.75 * (PF.bounds (.inl l.1)).2) := rfl
  rw [e]
  rcases hslp with h | h <;> rw [h] <;> refine ⟨by norm_num, ?_⟩
  · rw [abs_of_pos (by norm_num)]
    linarith
  · rw [abs_of_pos (by norm_num)]
    linarith

/-- The hypotheses of the theorems on draws can be met. -/
example : ∃ (exp : ℝ → ℝ) (p : PF → ℝ) (rng : Rng Unit) (z : Unit → Fin 4 → ℝ), (∀ x, |exp x - Real.exp x| ≤ 5 / 10 ^ 7 * Real.exp x) ∧
    InPopFloatBounds p ∧ UsableLines p ∧ Reparametrised rng z :=
  ⟨_, _, oneSigmaRng, _, accurate_rounded.exp, threeQuarters_ok.1, threeQuarters_ok.2, oneSigmaRng_reparametrised⟩

end Diffstar.Props
