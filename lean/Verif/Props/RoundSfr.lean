import Verif.Props.RoundTw
import Verif.Props.RoundMass
import Verif.Props.RoundParams

/-!
C127: star formation histories in floating-point arithmetic.
-/

namespace Diffstar.Spec

/-- Parameters within or on their bounds, as far as single precision allows. -/
structure InFloatBounds (p : DiffstarParams ℝ) : Prop where
  lgmcrit : 9 ≤ p.lgmcrit ∧ p.lgmcrit ≤ 13.5
  lgyAtMcrit : -12 ≤ p.lgyAtMcrit ∧ p.lgyAtMcrit ≤ -8
  indxLo : 0 ≤ p.indxLo ∧ p.indxLo ≤ 5
  indxHi : -5 ≤ p.indxHi ∧ p.indxHi ≤ 0
  lgQt : 0.1 ≤ p.lgQt ∧ p.lgQt ≤ 2
  qlglgdt : -3 ≤ p.qlglgdt ∧ p.qlglgdt < -0.01 + 1e-8
  lgDrop : -3 ≤ p.lgDrop ∧ p.lgDrop ≤ 0
  lgRejuv : p.lgDrop ≤ p.lgRejuv ∧ p.lgRejuv ≤ 0

/-- Accuracy of library functions that single precision allows. -/
structure Accurate (L : Rounding.MathLib) : Prop where
  exp : ∀ x, |L.exp x - Real.exp x| ≤ 5 / 10 ^ 7 * Real.exp x
  pow10 : ∀ x, |L.pow10 x - (10 : ℝ) ^ x| ≤ (10 : ℝ) ^ x / 10 ^ 5
  log10 : ∀ t, 0.01 ≤ t → t ≤ 100 → |L.log10 t - Real.logb 10 t| ≤ 2 / 10 ^ 7

end Diffstar.Spec

namespace Diffstar.Props

open Diffstar Diffstar.Spec

/-- `a` is within a factor `e^d` of `b`. -/
def Near (d a b : ℝ) : Prop := b * Real.exp (-d) ≤ a ∧ a ≤ b * Real.exp d

theorem Near.pos {d a b : ℝ} (h : Near d a b) (hb : 0 < b) : 0 < a :=
  lt_of_lt_of_le (mul_pos hb (Real.exp_pos _)) h.1

theorem Near.mono {d e a b : ℝ} (h : Near d a b) (hb : 0 < b) (hde : d ≤ e) : Near e a b :=
  ⟨le_trans (mul_le_mul_of_nonneg_left (Real.exp_le_exp.2 (by linarith)) hb.le) h.1,
    h.2.trans (mul_le_mul_of_nonneg_left (Real.exp_le_exp.2 hde) hb.le)⟩

theorem Near.mul {d e a b x y : ℝ} (h : Near d a b) (h' : Near e x y) (hb : 0 < b) (hy : 0 < y) :
    Near (d + e) (a * x) (b * y) := by
  have ha := h.pos hb
  have hx := h'.pos hy
  constructor
  · calc b * y * Real.exp (-(d + e)) = (b * Real.exp (-d)) * (y * Real.exp (-e)) := by
          rw [neg_add, Real.exp_add]; ring
      _ ≤ a * x := mul_le_mul h.1 h'.1 (by positivity) ha.le
  · calc a * x ≤ (b * Real.exp d) * (y * Real.exp e) := mul_le_mul h.2 h'.2 hx.le (by positivity)
      _ = b * y * Real.exp (d + e) := by rw [Real.exp_add]; ring

theorem Near.trans {d e a b c : ℝ} (h : Near d a b) (h' : Near e b c) : Near (d + e) a c := by
  constructor
  · calc c * Real.exp (-(d + e)) = (c * Real.exp (-e)) * Real.exp (-d) := by rw [neg_add, Real.exp_add]; ring
      _ ≤ b * Real.exp (-d) := mul_le_mul_of_nonneg_right h'.1 (Real.exp_pos _).le
      _ ≤ a := h.1
  · calc a ≤ b * Real.exp d := h.2
      _ ≤ (c * Real.exp e) * Real.exp d := mul_le_mul_of_nonneg_right h'.2 (Real.exp_pos _).le
      _ = c * Real.exp (d + e) := by rw [Real.exp_add]; ring

theorem Near.inv {d a b : ℝ} (h : Near d a b) (hb : 0 < b) : Near d (1 / a) (1 / b) := by
  have ha := h.pos hb
  constructor
  · rw [Real.exp_neg, ← one_div, div_mul_div_comm, one_mul]
    exact one_div_le_one_div_of_le ha h.2
  · have : 1 / b * Real.exp d = 1 / (b * Real.exp (-d)) := by
      rw [Real.exp_neg]; field_simp
    rw [this]
    exact one_div_le_one_div_of_le (by positivity) h.1

theorem Near.max {d a b x y : ℝ} (h : Near d a b) (h' : Near d x y) : Near d (max a x) (max b y) := by
  have e1 := Real.exp_pos (-d)
  have e2 := Real.exp_pos d
  constructor
  · rw [max_mul_of_nonneg _ _ e1.le]; exact max_le_max h.1 h'.1
  · rw [max_mul_of_nonneg _ _ e2.le]; exact max_le_max h.2 h'.2

theorem near_of_rel {d a b : ℝ} (hb : 0 < b) (hd0 : 0 ≤ d) (hd : d ≤ 1 / 4) (h : |a - b| ≤ d * b) : Near (2 * d) a b := by
  have h' := abs_le.1 h
  constructor
  · have : Real.exp (-(2 * d)) ≤ 1 - d := by
      rw [Real.exp_neg, inv_le_comm₀ (Real.exp_pos _) (by linarith)]
      have := Real.add_one_le_exp (2 * d)
      refine le_trans ?_ this
      rw [inv_le_iff_one_le_mul₀ (by linarith)]
      nlinarith
    calc b * Real.exp (-(2 * d)) ≤ b * (1 - d) := mul_le_mul_of_nonneg_left this hb.le
      _ ≤ a := by nlinarith
  · have := Real.add_one_le_exp (2 * d)
    calc a ≤ b * (1 + d) := by nlinarith
      _ ≤ b * Real.exp (2 * d) := mul_le_mul_of_nonneg_left (by linarith) hb.le

theorem Near.rel {d a b : ℝ} (h : Near d a b) (hb : 0 < b) (hd0 : 0 ≤ d) (hd : d ≤ 1 / 10) : |a - b| ≤ 1.1 * d * b := by
  have hx := Real.abs_exp_sub_one_sub_id_le (x := d) (by rw [abs_of_nonneg hd0]; linarith)
  have e1 := Real.add_one_le_exp (-d)
  rw [abs_le]
  constructor
  · nlinarith [h.1]
  · have := (abs_le.1 hx).2
    have : Real.exp d ≤ 1 + 1.1 * d := by nlinarith
    nlinarith [h.2]

theorem near_fl (R : Rounding) (hu : R.u ≤ 2 ^ (-24 : ℤ)) {x : ℝ} (hx : 0 < x) : Near (12 / 10 ^ 8) (R.fl x) x := by
  have := R.err x
  rw [abs_of_pos hx] at this
  have := near_of_rel hx R.u_nonneg ((u_small hu).trans (by norm_num)) this
  exact this.mono hx (by have := u_small hu; norm_num at this ⊢; linarith)

theorem near_pow10 {x y d : ℝ} (h : |x - y| ≤ d) : Near (2.4 * d) ((10 : ℝ) ^ x) ((10 : ℝ) ^ y) := by
  have hl : Real.log 10 ≤ 2.4 := by
    have := Real.log_le_sub_one_of_pos (show (0 : ℝ) < 10 / 8 by norm_num)
    rw [Real.log_div (by norm_num) (by norm_num), show (8 : ℝ) = 2 ^ 3 by norm_num, Real.log_pow] at this
    have := Real.log_two_lt_d9
    norm_num at *
    linarith
  have hl0 : 0 ≤ Real.log 10 := Real.log_nonneg (by norm_num)
  have h' := abs_le.1 h
  have hd : 0 ≤ d := (abs_nonneg _).trans h
  unfold Near
  rw [Real.rpow_def_of_pos (by norm_num), Real.rpow_def_of_pos (by norm_num), ← Real.exp_add, ← Real.exp_add,
    Real.exp_le_exp, Real.exp_le_exp]
  constructor <;> nlinarith

theorem near_lib {L : Rounding.MathLib} (hL : Accurate L) {x y d : ℝ} (h : |x - y| ≤ d) :
    Near (2 / 10 ^ 5 + 2.4 * d) (L.pow10 x) ((10 : ℝ) ^ y) := by
  have h1 := hL.pow10 x
  rw [div_eq_inv_mul, ← one_div] at h1
  have h2 := near_of_rel (by positivity) (by norm_num) (by norm_num) h1
  rw [mul_one_div] at h2
  exact h2.trans (near_pow10 h)

/-- The sigmoid of the library. -/
theorem nnSigmoidFl_close (R : Rounding) (hu : R.u ≤ 2 ^ (-24 : ℤ)) {exp : ℝ → ℝ}
    (hexp : ∀ x, |exp x - Real.exp x| ≤ 5 / 10 ^ 7 * Real.exp x) (x : ℝ) :
    |R.nnSigmoid exp x - 1 / (1 + Real.exp (-x))| ≤ 1.4 / 10 ^ 6 := by
  have hE := Real.exp_pos (-x)
  have h1 := abs_le.1 (hexp (-x))
  have hp : 0 < 1 + exp (-x) := by norm_num at h1; linarith
  have n1 : Near (1 / 10 ^ 6) (1 + exp (-x)) (1 + Real.exp (-x)) := by
    have := near_of_rel (a := 1 + exp (-x)) (b := 1 + Real.exp (-x)) (d := 5 / 10 ^ 7) (by positivity) (by norm_num) (by norm_num)
      (by rw [abs_le]; norm_num at h1 ⊢; constructor <;> linarith)
    exact this.mono (by positivity) (by norm_num)
  have n2 := (near_fl R hu hp).trans n1
  have hfp := n2.pos (by positivity)
  have n3 : Near (12 / 10 ^ 8 + 1 / 10 ^ 6) (1 / R.fl (1 + exp (-x))) (1 / (1 + Real.exp (-x))) := n2.inv (by positivity)
  have n4 := ((near_fl R hu (by positivity)).trans n3).rel (by positivity) (by norm_num) (by norm_num)
  unfold Rounding.nnSigmoid
  have h5 : 1 / (1 + Real.exp (-x)) ≤ 1 := by rw [div_le_one (by positivity)]; linarith
  refine n4.trans ?_
  norm_num at h5 ⊢
  nlinarith

/-- The efficiency for a given halo mass. -/
theorem effFl_close (R : Rounding) (hu : R.u ≤ 2 ^ (-24 : ℤ)) {exp : ℝ → ℝ}
    (hexp : ∀ x, |exp x - Real.exp x| ≤ 5 / 10 ^ 7 * Real.exp x) (p : DiffstarParams ℝ) (hp : InFloatBounds p) (m : ℝ)
    (hm : |m - p.lgmcrit| ≤ 14) :
    |R.sfrEffPlaw exp m p.lgmcrit p.lgyAtMcrit p.indxLo p.indxHi - msLogEfficiency p m| ≤ 4 / 10 ^ 4 := by
  have hs := u_small hu
  have h0 := R.u_nonneg
  have lo1 : |p.indxLo| ≤ 5 := abs_le.2 ⟨by linarith [hp.indxLo.1], hp.indxLo.2⟩
  have hi1 : |p.indxHi| ≤ 5 := abs_le.2 ⟨hp.indxHi.1, by linarith [hp.indxHi.2]⟩
  have hy1 : |p.lgyAtMcrit| ≤ 12 := abs_le.2 ⟨hp.lgyAtMcrit.1, by linarith [hp.lgyAtMcrit.2]⟩
  have round : ∀ {x B : ℝ}, |x| ≤ B → |R.fl x - x| ≤ 6 / 10 ^ 8 * B := fun {x B} hB =>
    (R.err x).trans (mul_le_mul hs hB (abs_nonneg _) (by norm_num))
  have hD := round hm
  have hD' : |R.fl (m - p.lgmcrit)| ≤ 14.1 := by
    have := abs_sub_abs_le_abs_sub (R.fl (m - p.lgmcrit)) (m - p.lgmcrit)
    norm_num at hD ⊢
    linarith
  unfold Rounding.sfrEffPlaw Rounding.sigmoid msLogEfficiency INDX_K
  dsimp only
  generalize R.fl (m - p.lgmcrit) = D' at *
  generalize m - p.lgmcrit = D at *
  have hz : |R.fl (9 * D') - 9 * D'| ≤ 6 / 10 ^ 8 * (9 * 14.1) := round (by
    rw [abs_mul, abs_of_pos (by norm_num : (0 : ℝ) < 9)]; linarith)
  obtain ⟨x, hx⟩ : ∃ x, R.fl (9 * D') = 9 * x := ⟨R.fl (9 * D') / 9, by ring⟩
  rw [hx] at hz ⊢
  have hx1 : |x - D'| ≤ 6 / 10 ^ 8 * 14.1 := by
    rw [← mul_sub, abs_mul, abs_of_pos (by norm_num : (0 : ℝ) < 9)] at hz
    linarith
  have hxD : |x - D| ≤ 2 / 10 ^ 6 := by
    have := abs_sub_le x D' D
    norm_num at this hx1 hD ⊢
    linarith
  have hlip := slope_lip (x := x) (x' := D) (lo1.trans (by norm_num)) (hi1.trans (by norm_num))
  have hS := nnSigmoidFl_close R hu hexp (9 * x)
  have hS1 : 1 / (1 + Real.exp (-(9 * x))) ≤ 1 := by
    rw [div_le_one (by positivity)]; linarith [Real.exp_pos (-(9 * x))]
  have hS0 : 0 ≤ 1 / (1 + Real.exp (-(9 * x))) := by positivity
  generalize R.nnSigmoid exp (9 * x) = s' at *
  rw [div_eq_mul_one_div] at hlip
  generalize 1 / (1 + Real.exp (-(9 * x))) = s at *
  generalize (p.indxLo + (p.indxHi - p.indxLo) / (1 + Real.exp (-(9 * D)))) * D = target at *
  have hh : |p.indxHi - p.indxLo| ≤ 10 := (abs_sub _ _).trans (by linarith)
  have hf := round hh
  generalize R.fl (p.indxHi - p.indxLo) = f at *
  generalize p.indxHi - p.indxLo = g at *
  have hs1 : |s'| ≤ 1.1 := by
    have := abs_le.1 hS
    norm_num at this ⊢
    rw [abs_le]; constructor <;> linarith
  have hff : |f| ≤ 10.1 := by
    have := abs_sub_abs_le_abs_sub f g
    norm_num at hf ⊢
    linarith
  have hfs : |f * s'| ≤ 10.1 * 1.1 := by rw [abs_mul]; exact mul_le_mul hff hs1 (abs_nonneg _) (by norm_num)
  have a1 : |f * s' - g * s| ≤ 6 / 10 ^ 8 * 10 * 1.1 + 10 * (1.4 / 10 ^ 6) := by
    rw [show f * s' - g * s = (f - g) * s' + g * (s' - s) by ring]
    refine (abs_add_le _ _).trans (add_le_add ?_ ?_)
    · rw [abs_mul]; exact mul_le_mul hf hs1 (abs_nonneg _) (by norm_num)
    · rw [abs_mul]; exact mul_le_mul hh hS (abs_nonneg _) (by norm_num)
  have a2 := round hfs
  generalize R.fl (f * s') = v at *
  have a3 : |p.indxLo + v| ≤ 17 := by
    have b1 := abs_le.1 a2
    have b2 := abs_le.1 hfs
    have b3 := abs_le.1 lo1
    norm_num at b1 b2 ⊢
    rw [abs_le]; constructor <;> linarith
  have a4 := round a3
  have a5 : |R.fl (p.indxLo + v) - (p.indxLo + g * s)| ≤ 1.7 / 10 ^ 5 := by
    have b1 := abs_le.1 a1
    have b2 := abs_le.1 a2
    have b3 := abs_le.1 a4
    norm_num at b1 b2 b3 ⊢
    rw [abs_le]; constructor <;> linarith
  have a6 : |p.indxLo + g * s| ≤ 15 := by
    refine (abs_add_le _ _).trans ?_
    have : |g * s| ≤ 10 * 1 := by
      rw [abs_mul, abs_of_nonneg hS0]; exact mul_le_mul hh hS1 hS0 (by norm_num)
    linarith
  generalize R.fl (p.indxLo + v) = sl' at *
  generalize p.indxLo + g * s = sl at *
  have a7 : |sl'| ≤ 15.1 := by
    have := abs_sub_abs_le_abs_sub sl' sl
    norm_num at a5 ⊢
    linarith
  have a8 : |sl' * D' - sl * x| ≤ 1.7 / 10 ^ 5 * 14.1 + 15 * (6 / 10 ^ 8 * 14.1) := by
    rw [show sl' * D' - sl * x = (sl' - sl) * D' + sl * (D' - x) by ring]
    refine (abs_add_le _ _).trans (add_le_add ?_ ?_)
    · rw [abs_mul]; exact mul_le_mul a5 hD' (abs_nonneg _) (by norm_num)
    · rw [abs_mul, abs_sub_comm]; exact mul_le_mul a6 hx1 (abs_nonneg _) (by norm_num)
  have a9 : |sl' * D'| ≤ 15.1 * 14.1 := by rw [abs_mul]; exact mul_le_mul a7 hD' (abs_nonneg _) (by norm_num)
  have a10 := round a9
  generalize R.fl (sl' * D') = w at *
  have a11 : |p.lgyAtMcrit + w| ≤ 230 := by
    have b1 := abs_le.1 a10
    have b2 := abs_le.1 a9
    have b3 := abs_le.1 hy1
    norm_num at b1 b2 ⊢
    rw [abs_le]; constructor <;> linarith
  have a12 := round a11
  have b1 := abs_le.1 a12
  have b2 := abs_le.1 a10
  have b3 := abs_le.1 a8
  have b4 := abs_le.1 (hlip.trans (mul_le_mul_of_nonneg_left hxD (by norm_num)))
  norm_num at b1 b2 b3 b4 ⊢
  rw [abs_le]; constructor <;> linarith

/-- The star formation rate. -/
theorem sfrFl_near (R : Rounding) (hu : R.u ≤ 2 ^ (-24 : ℤ)) {L : Rounding.MathLib} (hL : Accurate L) {M : Type*}
    (logMah logMah' : M → ℝ → ℝ → ℝ) (p : DiffstarParams ℝ) (hp : InFloatBounds p) (mah : M) (t lgt0 fb : ℝ) (hfb : 0 < fb)
    (ht : 0.01 ≤ t ∧ t ≤ 100) (hm : 0 ≤ logMah mah t lgt0 ∧ logMah mah t lgt0 ≤ 20)
    (hm' : |logMah' mah t lgt0 - logMah mah t lgt0| ≤ 1 / 10 ^ 5) :
    Near (1.6 / 10 ^ 3 + 6.3 / 10 ^ 6 / (10 : ℝ) ^ p.qlglgdt) (R.sfhSinglegalScalar L logMah' t mah p.ms p.q lgt0 fb)
      (sfhSinglegalScalar logMah t mah p.ms p.q lgt0 fb) := by
  rw [sfhSinglegalScalar_eq]
  unfold Rounding.sfhSinglegalScalar Rounding.sfhMsKernel
  dsimp only [DiffstarParams.ms, DiffstarParams.q]
  have hlg := hL.log10 t ht.1 ht.2
  generalize L.log10 t = lgt' at *
  generalize Real.logb 10 t = lgt at *
  generalize logMah' mah t lgt0 = m' at *
  generalize logMah mah t lgt0 = m at *
  have hm2 := abs_le.1 hm'
  norm_num at hm2
  -- main sequence
  have hmc : |m' - p.lgmcrit| ≤ 14 := by
    have h1 := hp.lgmcrit
    norm_num at h1
    rw [abs_le]; constructor <;> linarith [h1.1, h1.2, hm.1, hm.2, hm2.1, hm2.2]
  have e1 := effFl_close R hu hL.exp p hp m' hmc
  have e2 : |msLogEfficiency p m' - msLogEfficiency p m| ≤ 8.5 * (1 / 10 ^ 5) := by
    have lo1 : |p.indxLo| ≤ 5.1 := abs_le.2 ⟨by linarith [hp.indxLo.1], by linarith [hp.indxLo.2]⟩
    have hi1 : |p.indxHi| ≤ 5.1 := abs_le.2 ⟨by linarith [hp.indxHi.1], by linarith [hp.indxHi.2]⟩
    have := slope_lip (x := m' - p.lgmcrit) (x' := m - p.lgmcrit) lo1 hi1
    rw [sub_sub_sub_cancel_right] at this
    unfold msLogEfficiency
    rw [add_sub_add_left_eq_sub]
    exact this.trans (mul_le_mul_of_nonneg_left hm' (by norm_num))
  have e3 : |R.sfrEffPlaw L.exp m' p.lgmcrit p.lgyAtMcrit p.indxLo p.indxHi - msLogEfficiency p m| ≤ 4.85 / 10 ^ 4 := by
    have := abs_sub_le (R.sfrEffPlaw L.exp m' p.lgmcrit p.lgyAtMcrit p.indxLo p.indxHi) (msLogEfficiency p m')
      (msLogEfficiency p m)
    norm_num at e1 e2 ⊢
    linarith
  have n1 := near_lib hL e3
  have n2 := near_lib hL hm'
  have n3 : Near 0 fb fb := by simp [Near]
  have p2 := n2.pos (by positivity)
  have n4 := (near_fl R hu (mul_pos hfb p2)).trans (n3.mul n2 hfb (by positivity))
  have p1 := n1.pos (by positivity)
  have p4 := n4.pos (by positivity)
  have n5 := (near_fl R hu (mul_pos p4 p1)).trans (n4.mul n1 (by positivity) (by positivity))
  change Near _ _ (msSfr p fb m) at n5
  have hms : 0 < msSfr p fb m := by unfold msSfr; positivity
  have p5 := n5.pos hms
  -- quenching
  have hdrop : |p.lgDrop| ≤ 3 := abs_le.2 ⟨hp.lgDrop.1, by linarith [hp.lgDrop.2]⟩
  have hdr : |p.lgDrop - p.lgRejuv| ≤ 3 :=
    abs_le.2 ⟨by linarith [hp.lgDrop.1, hp.lgRejuv.2], by linarith [hp.lgDrop.1, hp.lgRejuv.1]⟩
  have hdt := hL.pow10 p.qlglgdt
  have hdt0 : (0 : ℝ) < (10 : ℝ) ^ p.qlglgdt := by positivity
  unfold Rounding.quenchingKern
  dsimp only
  generalize L.pow10 p.qlglgdt = dt' at *
  generalize (10 : ℝ) ^ p.qlglgdt = dt at *
  have hdt2 := abs_le.1 hdt
  norm_num at hdt2
  have hdt' : 0 < dt' := by linarith [hdt2.1]
  have q1 := quenchingFl_exponent R hu lgt' p.lgQt dt' p.lgDrop p.lgRejuv hdt' hdrop hdr
  have q2 : |qExp lgt' p.lgQt dt' p.lgDrop p.lgRejuv - qExp lgt' p.lgQt dt p.lgDrop p.lgRejuv| ≤
      3 * (35 / 96) * (8 * (1.1 / 10 ^ 5)) := by
    refine qShape_rel (a := (lgt' - p.lgQt) / (dt' / 12)) (b := (lgt' - p.lgQt) / (dt / 12)) (by norm_num) hdrop hdr
      (by norm_num) (by norm_num) ?_
    have e : (lgt' - p.lgQt) / (dt' / 12) - (lgt' - p.lgQt) / (dt / 12) =
        (dt - dt') / dt' * ((lgt' - p.lgQt) / (dt / 12)) := by field_simp
    rw [e, abs_mul]
    refine mul_le_mul_of_nonneg_right ?_ (abs_nonneg _)
    rw [abs_div, abs_of_pos hdt', div_le_iff₀ hdt', abs_le]
    norm_num
    constructor <;> linarith [hdt2.1, hdt2.2]
  have q3 : |qExp lgt' p.lgQt dt p.lgDrop p.lgRejuv - qExp lgt p.lgQt dt p.lgDrop p.lgRejuv| ≤
      2.625 / 10 ^ 6 / dt := by
    refine (qShape_lip (y := (lgt' - p.lgQt) / (dt / 12)) (y' := (lgt - p.lgQt) / (dt / 12)) hdrop hdr).trans ?_
    have e : (lgt' - p.lgQt) / (dt / 12) - (lgt - p.lgQt) / (dt / 12) = 12 / dt * (lgt' - lgt) := by
      field_simp
      ring
    rw [e, abs_mul, abs_of_pos (by positivity : 0 < 12 / dt)]
    calc 3 * (35 / 96) * (12 / dt * |lgt' - lgt|) ≤ 3 * (35 / 96) * (12 / dt * (2 / 10 ^ 7)) := by gcongr
      _ = 2.625 / 10 ^ 6 / dt := by ring
  have q4 : |R.jaxPartialUTwKern lgt' p.lgQt (R.fl (dt' / 12)) p.lgDrop (R.fl (p.lgDrop - p.lgRejuv)) -
      qExp lgt p.lgQt dt p.lgDrop p.lgRejuv| ≤ 1.1 / 10 ^ 4 + 2.625 / 10 ^ 6 / dt := by
    have b1 := abs_le.1 q1
    have b2 := abs_le.1 q2
    have b3 := abs_le.1 q3
    generalize 2.625 / 10 ^ 6 / dt = X at *
    norm_num at b1 b2 b3 ⊢
    rw [abs_le]; constructor <;> linarith
  have n6 := near_lib hL q4
  have p6 := n6.pos (by positivity)
  have n7 := (near_fl R hu (mul_pos p6 p5)).trans (n6.mul n5 (by positivity) hms)
  have hX : 2.4 * (2.625 / 10 ^ 6 / dt) = 6.3 / 10 ^ 6 / dt := by ring
  have hX0 : 0 ≤ 6.3 / 10 ^ 6 / dt := by positivity
  have n8 := n7.mono (e := 1.6 / 10 ^ 3 + 6.3 / 10 ^ 6 / dt) (by positivity) (by
    rw [mul_add 2.4, hX]
    generalize 6.3 / 10 ^ 6 / dt = X at *
    norm_num
    linarith)
  have n9 := (near_fl R hu (x := SFR_MIN) (by unfold SFR_MIN; norm_num)).mono (e := 1.6 / 10 ^ 3 + 6.3 / 10 ^ 6 / dt)
    (by unfold SFR_MIN; norm_num) (by
      generalize 6.3 / 10 ^ 6 / dt = X at *
      norm_num
      linarith)
  have n10 := n9.max n8
  have hmin : SFR_MIN = 1 / 10 ^ 14 := by unfold SFR_MIN; norm_num
  rw [hmin] at n10 ⊢
  convert n10 using 1
  rw [max_def]
  split_ifs with c1 c2 c2
  · linarith
  · rfl
  · rfl
  · linarith

/-- **C127**: with library functions and halo masses of the accuracy of single precision, star formation rates in single
precision (or better) have a relative error below `0.002 + 1e-5 / dt`, `dt` being the duration of the quenching event in dex. -/
theorem C127_sfr_error (R : Rounding) (hu : R.u ≤ 2 ^ (-24 : ℤ)) {L : Rounding.MathLib} (hL : Accurate L) {M : Type*}
    (logMah logMah' : M → ℝ → ℝ → ℝ) (p : DiffstarParams ℝ) (hp : InFloatBounds p) (mah : M) (tarr : List ℝ) (lgt0 fb : ℝ)
    (hfb : 0 < fb) (ht : ∀ t ∈ tarr, 0.01 ≤ t ∧ t ≤ 100)
    (hm : ∀ t ∈ tarr, 0 ≤ logMah mah t lgt0 ∧ logMah mah t lgt0 ≤ 20)
    (hm' : ∀ t ∈ tarr, |logMah' mah t lgt0 - logMah mah t lgt0| ≤ 1 / 10 ^ 5) :
    List.Forall₂ (fun a b => |a - b| ≤ (0.002 + 1 / 10 ^ 5 / (10 : ℝ) ^ p.qlglgdt) * b)
      (R.calcSfhSinglegalSmh L logMah' p mah tarr lgt0 fb).sfh (calcSfhSinglegal logMah p mah tarr lgt0 fb) := by
  show List.Forall₂ _ (tarr.map _) (tarr.map _)
  rw [List.forall₂_map_left_iff, List.forall₂_map_right_iff, List.forall₂_same]
  intro t htm
  have h := sfrFl_near R hu hL logMah logMah' p hp mah t lgt0 fb hfb (ht t htm) (hm t htm) (hm' t htm)
  have hpos : 0 < sfhSinglegalScalar logMah t mah p.ms p.q lgt0 fb := by
    rw [sfhSinglegalScalar_eq]
    exact lt_of_lt_of_le (by norm_num) (le_max_left _ _)
  have hdt : (1 / 1000 : ℝ) ≤ (10 : ℝ) ^ p.qlglgdt := by
    have := Real.rpow_le_rpow_of_exponent_le (show (1 : ℝ) ≤ 10 by norm_num) hp.qlglgdt.1
    refine le_trans (le_of_eq ?_) this
    rw [show (-3 : ℝ) = ((-3 : ℤ) : ℝ) by norm_num, Real.rpow_intCast]; norm_num
  have hX : 6.3 / 10 ^ 6 / (10 : ℝ) ^ p.qlglgdt ≤ 6.3 / 10 ^ 3 := by
    rw [div_le_iff₀ (by positivity)]
    norm_num at hdt ⊢
    linarith
  have hX0 : 0 ≤ 6.3 / 10 ^ 6 / (10 : ℝ) ^ p.qlglgdt := by positivity
  have hXe : 1 / 10 ^ 5 / (10 : ℝ) ^ p.qlglgdt = 1 / 0.63 * (6.3 / 10 ^ 6 / (10 : ℝ) ^ p.qlglgdt) := by ring
  rw [hXe]
  generalize 6.3 / 10 ^ 6 / (10 : ℝ) ^ p.qlglgdt = X at *
  refine (h.rel hpos (by positivity) (by norm_num at hX ⊢; linarith)).trans (mul_le_mul_of_nonneg_right ?_ hpos.le)
  norm_num
  linarith

/-- Relative errors of the rates carry over to the masses. -/
theorem trapFrom_rel (e : ℝ) : ∀ (t s s' : List ℝ) (a fa fa' c c' : ℝ), |fa' - fa| ≤ e * fa → |c' - c| ≤ e * c →
    (a :: t).Pairwise (· < ·) → List.Forall₂ (fun x' x => |x' - x| ≤ e * x) s' s →
    List.Forall₂ (fun x' x => |x' - x| ≤ e * x) (trapFrom a fa' c' (t.zip s')) (trapFrom a fa c (t.zip s)) := by
  intro t
  induction t with
  | nil => intro s s' a fa fa' c c' _ _ _ _; simp
  | cons b t ih =>
    intro s s' a fa fa' c c' hf hc hinc hs
    cases hs with
    | nil => simp
    | @cons x' x s' s hx hs =>
      rw [List.zip_cons_cons, List.zip_cons_cons, trapFrom_cons, trapFrom_cons]
      rw [List.pairwise_cons] at hinc
      have hab := hinc.1 b List.mem_cons_self
      have hnew : |c' + (b - a) * (x' + fa') / 2 - (c + (b - a) * (x + fa) / 2)| ≤ e * (c + (b - a) * (x + fa) / 2) := by
        have e1 : c' + (b - a) * (x' + fa') / 2 - (c + (b - a) * (x + fa) / 2) =
            (c' - c) + (b - a) / 2 * ((x' - x) + (fa' - fa)) := by ring
        rw [e1]
        have h2 : |(b - a) / 2 * ((x' - x) + (fa' - fa))| ≤ (b - a) / 2 * (e * x + e * fa) := by
          rw [abs_mul, abs_of_pos (by linarith)]
          exact mul_le_mul_of_nonneg_left ((abs_add_le _ _).trans (add_le_add hx hf)) (by linarith)
        refine (abs_add_le _ _).trans ((add_le_add hc h2).trans (le_of_eq ?_))
        ring
      exact List.Forall₂.cons hnew (ih s s' b x x' _ _ hx hnew hinc.2 hs)

/-- **C127**: stellar masses in single precision, for tables of up to 1000 times. -/
theorem C127_mass_error {L : Rounding.MathLib} (hL : Accurate L) {M : Type*}
    (logMah logMah' : M → ℝ → ℝ → ℝ) (p : DiffstarParams ℝ) (hp : InFloatBounds p) (mah : M) (tarr : List ℝ) (lgt0 fb : ℝ)
    (hfb : 0 < fb) (ht : ∀ t ∈ tarr, 0.01 ≤ t ∧ t ≤ 100) (hinc : Increasing tarr) (hn : tarr.length ≤ 1000)
    (hm : ∀ t ∈ tarr, 0 ≤ logMah mah t lgt0 ∧ logMah mah t lgt0 ≤ 20)
    (hm' : ∀ t ∈ tarr, |logMah' mah t lgt0 - logMah mah t lgt0| ≤ 1 / 10 ^ 5) :
    List.Forall₂ (fun a b => |a - b| ≤ (0.003 + 1.1 / 10 ^ 5 / (10 : ℝ) ^ p.qlglgdt) * b)
      (float32.calcSfhSinglegalSmh L logMah' p mah tarr lgt0 fb).smh (calcSfhSinglegalSmh logMah p mah tarr lgt0 fb).smh := by
  have hs := C127_sfr_error float32 le_rfl hL logMah logMah' p hp mah tarr lgt0 fb hfb ht hm hm'
  have hX0 : 0 ≤ 1 / 10 ^ 5 / (10 : ℝ) ^ p.qlglgdt := by positivity
  have hXe : 1.1 / 10 ^ 5 / (10 : ℝ) ^ p.qlglgdt = 1.1 * (1 / 10 ^ 5 / (10 : ℝ) ^ p.qlglgdt) := by ring
  rw [hXe]
  have hX1 : 1 / 10 ^ 5 / (10 : ℝ) ^ p.qlglgdt ≤ 0.01 := by
    have h1 := Real.rpow_le_rpow_of_exponent_le (show (1 : ℝ) ≤ 10 by norm_num) hp.qlglgdt.1
    rw [show (-3 : ℝ) = ((-3 : ℤ) : ℝ) by norm_num, Real.rpow_intCast] at h1
    rw [div_le_iff₀ (by positivity)]
    norm_num at h1 ⊢
    linarith
  generalize 1 / 10 ^ 5 / (10 : ℝ) ^ p.qlglgdt = X at *
  change List.Forall₂ _ (float32.cumulativeMstarFormed tarr (float32.calcSfhSinglegalSmh L logMah' p mah tarr lgt0 fb).sfh)
    (cumulativeMstarFormed tarr (calcSfhSinglegal logMah p mah tarr lgt0 fb))
  have hl' : (float32.calcSfhSinglegalSmh L logMah' p mah tarr lgt0 fb).sfh.length = tarr.length := List.length_map ..
  have hl : (calcSfhSinglegal logMah p mah tarr lgt0 fb).length = tarr.length := List.length_map ..
  have hpos : ∀ x ∈ calcSfhSinglegal logMah p mah tarr lgt0 fb, 0 < x := by
    rw [calcSfhSinglegal_eq]
    intro x hx
    obtain ⟨t, -, rfl⟩ := List.mem_map.1 hx
    exact lt_of_lt_of_le (by norm_num) (le_max_left _ _)
  generalize (float32.calcSfhSinglegalSmh L logMah' p mah tarr lgt0 fb).sfh = s' at *
  generalize calcSfhSinglegal logMah p mah tarr lgt0 fb = s at *
  have hinc2 : Increasing (0.002 :: tarr) :=
    List.pairwise_cons.2 ⟨fun t h => lt_of_lt_of_le (by norm_num) (ht t h).1, hinc⟩
  have hinc1 : Increasing (0.001 :: tarr) :=
    List.pairwise_cons.2 ⟨fun t h => lt_of_lt_of_le (by norm_num) (ht t h).1, hinc⟩
  have hpos' : ∀ y ∈ s', 0 ≤ y := by
    intro y hy
    obtain ⟨i, hi, rfl⟩ := List.getElem_of_mem hy
    have hi2 : i < s.length := by omega
    have h1 := (List.forall₂_iff_get.1 hs).2 i hi hi2
    have h2 := hpos _ (List.getElem_mem hi2)
    simp only [List.get_eq_getElem] at h1
    have h3 := (abs_le.1 h1).1
    norm_num at hX1
    nlinarith
  obtain ⟨f, hf⟩ := exists_linInterp (0.001 :: tarr) (1 / 10 ^ 14 :: s') hinc1
  have hrel : List.Forall₂ (fun x' x => |x' - x| ≤ (0.002 + X) * x) (cumulativeMstarFormed tarr s')
      (cumulativeMstarFormed tarr s) := by
    rw [cmf_eq, cmf_eq, List.forall₂_map_left_iff, List.forall₂_map_right_iff]
    refine (trapFrom_rel (0.002 + X) tarr s s' 0.001 (1 / 10 ^ 14) (1 / 10 ^ 14) 0 0 (by rw [sub_self, abs_zero]; positivity)
      (by simp) hinc1 hs).imp ?_
    intro a b h
    rw [← sub_mul, abs_mul, abs_of_pos (by norm_num : (0 : ℝ) < 10 ^ 9), ← mul_assoc]
    exact mul_le_mul_of_nonneg_right h (by norm_num)
  have hc := cmf_length tarr s hl
  have hc' := cmf_length tarr s' hl'
  have hfl : (float32.cumulativeMstarFormed tarr s').length = tarr.length :=
    (C124_masses_never_decrease float32 (by show (2 : ℝ) ^ (-24 : ℤ) < 1; norm_num) tarr s' hl'
      (List.pairwise_cons.2 ⟨fun t h => lt_of_lt_of_le ?_ (ht t h).1, hinc⟩) hpos').1
  · rw [List.forall₂_iff_get]
    refine ⟨by rw [hfl, hc], fun i h1 h2 => ?_⟩
    have hi : i < tarr.length := by omega
    obtain ⟨m, e1, e2⟩ := C124_single_precision tarr s' hl' hinc2 hpos' f hf hn i hi
    have e3 := C11_smh_is_integral tarr s' hl' hinc1 f hf i hi
    have e4 := (List.forall₂_iff_get.1 hrel).2 i (by omega) (by omega)
    simp only [List.get_eq_getElem] at e4 ⊢
    rw [List.getElem?_eq_getElem h1, Option.some.injEq] at e1
    rw [List.getElem?_eq_getElem (by omega), Option.some.injEq] at e3
    rw [e1]
    rw [e3] at e4
    generalize (10 : ℝ) ^ 9 * ∫ x in (0.001 : ℝ)..tarr[i], f x = mass at *
    generalize (cumulativeMstarFormed tarr s)[i] = b at *
    have b1 := abs_le.1 e2
    have b2 := abs_le.1 e4
    have hb : 0 ≤ b := by
      have := (abs_nonneg _).trans e4
      nlinarith
    have hXb : 0 ≤ X * b := mul_nonneg hX0 hb
    have hXb2 : X * b ≤ 0.01 * b := mul_le_mul_of_nonneg_right hX1 hb
    norm_num at b1 b2 hXb2 ⊢
    rw [abs_le]
    constructor <;> nlinarith [b1.1, b1.2, b2.1, b2.2]
  · have := (abs_le.1 (float32.err 0.001)).2
    rw [show float32.u = 2 ^ (-24 : ℤ) from rfl] at this
    norm_num at this ⊢
    linarith

/-- The parameters that single precision gives satisfy the hypothesis on the bounds. -/
theorem inFloatBounds_bounded (exp : ℝ → ℝ) (hexp : ∀ x, 0 ≤ exp x) (u : DiffstarParams ℝ) :
    InFloatBounds (float32.getBoundedDiffstarParams exp u) := by
  obtain ⟨h1, h2, h3, h4, h5, h6, h7, h8⟩ := C125_bounds_single_precision_partial exp hexp u
  exact ⟨h1, h2, h3, h4, h5, h6, h7, h8⟩

/-- Correctly rounded library functions are accurate enough. -/
theorem accurate_rounded : Accurate ⟨fun x => float32.fl (Real.exp x), fun x => float32.fl ((10 : ℝ) ^ x),
    fun x => float32.fl (Real.logb 10 x)⟩ := by
  have hu : float32.u = 2 ^ (-24 : ℤ) := rfl
  refine ⟨fun x => ?_, fun x => ?_, fun t h1 h2 => ?_⟩
  · have h := float32.err (Real.exp x)
    have hx := Real.exp_pos x
    rw [abs_of_pos hx, hu] at h
    refine h.trans (mul_le_mul_of_nonneg_right (by norm_num) hx.le)
  · have hx : (0 : ℝ) < (10 : ℝ) ^ x := by positivity
    have h := float32.err ((10 : ℝ) ^ x)
    rw [abs_of_pos hx, hu] at h
    refine h.trans ?_
    norm_num
    linarith
  · have h0 : 0 < t := lt_of_lt_of_le (by norm_num) h1
    have h := float32.err (Real.logb 10 t)
    rw [hu] at h
    have hb : |Real.logb 10 t| ≤ 2 := by
      rw [abs_le]
      constructor
      · rw [Real.le_logb_iff_rpow_le (by norm_num) h0, show (-2 : ℝ) = ((-2 : ℤ) : ℝ) by norm_num, Real.rpow_intCast]
        norm_num at h1 ⊢
        exact h1
      · rw [Real.logb_le_iff_le_rpow (by norm_num) h0, show (2 : ℝ) = ((2 : ℕ) : ℝ) by norm_num, Real.rpow_natCast]
        norm_num at h2 ⊢
        exact h2
    refine h.trans ((mul_le_mul_of_nonneg_left hb (by positivity)).trans (by norm_num))

/-- A halo of constant mass `10^12` with any unbounded parameters, at three times. -/
example (u : DiffstarParams ℝ) : ∃ (L : Rounding.MathLib) (p : DiffstarParams ℝ) (logMah : Unit → ℝ → ℝ → ℝ) (tarr : List ℝ),
    Accurate L ∧ InFloatBounds p ∧ p = float32.getBoundedDiffstarParams L.exp u ∧ (∀ t ∈ tarr, 0.01 ≤ t ∧ t ≤ 100) ∧
      Increasing tarr ∧ (∀ t ∈ tarr, 0 ≤ logMah () t 1.1 ∧ logMah () t 1.1 ≤ 20) :=
  ⟨_, _, fun _ _ _ => 12, [1, 5, 13.8], accurate_rounded,
    inFloatBounds_bounded _ (fun x => float32.fl_nonneg (Real.exp_pos x).le) u, rfl, by
      intro t ht
      simp only [List.mem_cons, List.not_mem_nil, or_false] at ht
      rcases ht with rfl | rfl | rfl <;> norm_num, by norm_num [Increasing], fun _ _ => by norm_num⟩

end Diffstar.Props
