import Verif.Lemmas.Rounding
import Verif.Props.Stability

/-!
C126: the quenching function and histogram weights in floating-point arithmetic.
-/

namespace Diffstar.Props

open Diffstar Diffstar.Spec

theorem f32_val {x : ℝ} (m : ℕ) (k : ℤ) (y : ℝ) (hy : m * 2 ^ k = y) (h1 : 2 ^ 23 * 2 ^ k ≤ x) (h2 : x < 2 ^ 24 * 2 ^ k)
    (h : |x - m * 2 ^ k| < 2 ^ k / 2) : float32.fl x = y := by
  rw [float32_eq m k h1 h2 h, hy]

theorem f32_val_neg {x : ℝ} (m : ℕ) (k : ℤ) (y : ℝ) (hy : m * 2 ^ k = -y) (h1 : 2 ^ 23 * 2 ^ k ≤ -x) (h2 : -x < 2 ^ 24 * 2 ^ k)
    (h : |(-x) - m * 2 ^ k| < 2 ^ k / 2) : float32.fl x = y := by
  have := float32_eq m k h1 h2 h
  rw [hy, float32.neg] at this
  linarith

theorem f32_val_tie {x : ℝ} (m : ℕ) (k : ℤ) (y : ℝ) (hm : Even m) (hy : m * 2 ^ k = y) (h1 : 2 ^ 23 * 2 ^ k ≤ x)
    (h2 : x < 2 ^ 24 * 2 ^ k) (h : |x - m * 2 ^ k| ≤ 2 ^ k / 2) : float32.fl x = y := by
  rw [float32_tie m hm k h1 h2 h, hy]

/-- The triweight polynomial in single precision close to the lower end of its range. -/
theorem f32_twPoly : float32.twPoly (-(381 / 128)) = -(2 ^ (-23 : ℤ)) := by
  have y2 : float32.fl ((-(381 / 128)) * (-(381 / 128))) = (9290304 * 2 ^ (-20 : ℤ)) :=
    f32_val 9290304 (-20) _ (by norm_num) (by norm_num) (by norm_num) (by rw [abs_lt]; norm_num)
  have y3 : float32.fl ((-(381 / 128)) * (9290304 * 2 ^ (-20 : ℤ))) = (-(13826585 * 2 ^ (-19 : ℤ))) :=
    f32_val_neg 13826585 (-19) _ (by norm_num) (by norm_num) (by norm_num) (by rw [abs_lt]; norm_num)
  have y4 : float32.fl ((9290304 * 2 ^ (-20 : ℤ)) * (9290304 * 2 ^ (-20 : ℤ))) = (10288924 * 2 ^ (-17 : ℤ)) :=
    f32_val 10288924 (-17) _ (by norm_num) (by norm_num) (by norm_num) (by rw [abs_lt]; norm_num)
  have y5 : float32.fl ((-(381 / 128)) * (10288924 * 2 ^ (-17 : ℤ))) = (-(15312813 * 2 ^ (-16 : ℤ))) :=
    f32_val_neg 15312813 (-16) _ (by norm_num) (by norm_num) (by norm_num) (by rw [abs_lt]; norm_num)
  have y7 : float32.fl ((-(13826585 * 2 ^ (-19 : ℤ))) * (10288924 * 2 ^ (-17 : ℤ))) = (-(8479397 * 2 ^ (-12 : ℤ))) :=
    f32_val_neg 8479397 (-12) _ (by norm_num) (by norm_num) (by norm_num) (by rw [abs_lt]; norm_num)
  have a7 : float32.fl ((-5) * (-(8479397 * 2 ^ (-12 : ℤ)))) = (10599246 * 2 ^ (-10 : ℤ)) :=
    f32_val 10599246 (-10) _ (by norm_num) (by norm_num) (by norm_num) (by rw [abs_lt]; norm_num)
  have a7d : float32.fl ((10599246 * 2 ^ (-10 : ℤ)) / 69984) = (9925586 * 2 ^ (-26 : ℤ)) :=
    f32_val 9925586 (-26) _ (by norm_num) (by norm_num) (by norm_num) (by rw [abs_lt]; norm_num)
  have a5 : float32.fl (7 * (-(15312813 * 2 ^ (-16 : ℤ)))) = (-(13398711 * 2 ^ (-13 : ℤ))) :=
    f32_val_neg 13398711 (-13) _ (by norm_num) (by norm_num) (by norm_num) (by rw [abs_lt]; norm_num)
  have a5d : float32.fl ((-(13398711 * 2 ^ (-13 : ℤ))) / 2592) = (-(10586636 * 2 ^ (-24 : ℤ))) :=
    f32_val_neg 10586636 (-24) _ (by norm_num) (by norm_num) (by norm_num) (by rw [abs_lt]; norm_num)
  have a3 : float32.fl (35 * (-(13826585 * 2 ^ (-19 : ℤ)))) = (-(15122827 * 2 ^ (-14 : ℤ))) :=
    f32_val_neg 15122827 (-14) _ (by norm_num) (by norm_num) (by norm_num) (by rw [abs_lt]; norm_num)
  have a3d : float32.fl ((-(15122827 * 2 ^ (-14 : ℤ))) / 864) = (-(8961675 * 2 ^ (-23 : ℤ))) :=
    f32_val_neg 8961675 (-23) _ (by norm_num) (by norm_num) (by norm_num) (by rw [abs_lt]; norm_num)
  have a1 : float32.fl (35 * (-(381 / 128))) = (-(13655040 * 2 ^ (-17 : ℤ))) :=
    f32_val_neg 13655040 (-17) _ (by norm_num) (by norm_num) (by norm_num) (by rw [abs_lt]; norm_num)
  have a1d : float32.fl ((-(13655040 * 2 ^ (-17 : ℤ))) / 96) = (-(9103360 * 2 ^ (-23 : ℤ))) :=
    f32_val_neg 9103360 (-23) _ (by norm_num) (by norm_num) (by norm_num) (by rw [abs_lt]; norm_num)
  have s1 : float32.fl ((9925586 * 2 ^ (-26 : ℤ)) + (-(10586636 * 2 ^ (-24 : ℤ)))) = (-(16210479 * 2 ^ (-25 : ℤ))) :=
    f32_val_neg 16210479 (-25) _ (by norm_num) (by norm_num) (by norm_num) (by rw [abs_lt]; norm_num)
  have s2 : float32.fl ((-(16210479 * 2 ^ (-25 : ℤ))) - (-(8961675 * 2 ^ (-23 : ℤ)))) = (9818110 * 2 ^ (-24 : ℤ)) :=
    f32_val_tie 9818110 (-24) _ (by decide) (by norm_num) (by norm_num) (by norm_num) (by rw [abs_le]; norm_num)
  have s3 : float32.fl ((9818110 * 2 ^ (-24 : ℤ)) + (-(9103360 * 2 ^ (-23 : ℤ)))) = (-(8388610 * 2 ^ (-24 : ℤ))) :=
    f32_val_neg 8388610 (-24) _ (by norm_num) (by norm_num) (by norm_num) (by rw [abs_lt]; norm_num)
  have s4 : float32.fl ((-(8388610 * 2 ^ (-24 : ℤ))) + 1 / 2) = (-(8388608 * 2 ^ (-46 : ℤ))) :=
    f32_val_neg 8388608 (-46) _ (by norm_num) (by norm_num) (by norm_num) (by rw [abs_lt]; norm_num)
  unfold Rounding.twPoly Rounding.pow7 Rounding.pow5 Rounding.pow3
  rw [y2, y3, y4, y5, y7, a7, a7d, a5, a5d, a3, a3d, a1, a1d, s1, s2, s3, s4]
  norm_num

/-- Error of the triweight polynomial. -/
theorem twPolyFl_close (R : Rounding) {y : ℝ} (hy : |y| ≤ 3) : |R.twPoly y - twPoly y| ≤ ((1 + R.u) ^ 12 - 1) * 3.5 := by
  have y1 : R.Approx 0 3 y y := (Rounding.Approx.exact y).mono le_rfl hy
  have y2 := (y1.mul y1).round
  have y3 := (y1.mul y2).round
  have y4 := (y2.mul y2).round
  have y5 := (y1.mul y4).round
  have y7 := (y3.mul y4).round
  have a7 := (((Rounding.Approx.exact (R := R) (-5)).mul y7).round.div_const 69984).round
  have a5 := (((Rounding.Approx.exact (R := R) 7).mul y5).round.div_const 2592).round
  have a3 := (((Rounding.Approx.exact (R := R) 35).mul y3).round.div_const 864).round
  have a1 := (((Rounding.Approx.exact (R := R) 35).mul y1).round.div_const 96).round
  have h := ((((a7.add a5).round.sub a3).round.add a1).round.add (Rounding.Approx.exact (R := R) (1 / 2))).round
  have e : -5 * (y * (y * y) * (y * y * (y * y))) / 69984 + 7 * (y * (y * y * (y * y))) / 2592 - 35 * (y * (y * y)) / 864 +
      35 * y / 96 + 1 / 2 = twPoly y := by
    unfold twPoly
    ring
  rw [e] at h
  have h' := h.mono (l := 12) (B := 3.5) (by decide) (by norm_num [abs_of_pos, abs_of_neg])
  exact h'.2

/-- Error of the triweight kernel in single precision or better. -/
theorem jaxTwFl_close (R : Rounding) (hu : R.u ≤ 2 ^ (-24 : ℤ)) (y : ℝ) : |R.jaxTw y - jaxTw y| ≤ 2.6 / 10 ^ 6 := by
  unfold Rounding.jaxTw
  split_ifs with h1 h2
  · rw [jaxTw_hi h1.le]; norm_num
  · rw [jaxTw_lo h2.le]; norm_num
  · rw [jaxTw_mid (not_lt.1 h2) (not_lt.1 h1)]
    refine (twPolyFl_close R (abs_le.2 ⟨not_lt.1 h2, not_lt.1 h1⟩)).trans ?_
    have : (1 + R.u) ^ 12 ≤ (1 + 2 ^ (-24 : ℤ)) ^ 12 :=
      pow_le_pow_left₀ (by linarith [R.u_nonneg]) (add_le_add_right hu 1) _
    have h2 : ((1 : ℝ) + 2 ^ (-24 : ℤ)) ^ 12 ≤ 1 + 7.2 / 10 ^ 7 := by norm_num
    have h3 := this.trans h2
    calc ((1 + R.u) ^ 12 - 1) * 3.5 ≤ (7.2 / 10 ^ 7) * 3.5 := by linarith
      _ ≤ 2.6 / 10 ^ 6 := by norm_num

/-- Effect of a relative error of the argument of the triweight kernel. -/
theorem jaxTw_rel {a b e : ℝ} (he0 : 0 ≤ e) (he : e ≤ 1 / 4) (h : |a - b| ≤ e * |b|) : |jaxTw a - jaxTw b| ≤ 35 / 96 * (4 * e) := by
  rcases le_total |b| 4 with hb | hb
  · refine (jaxTw_lipschitz a b).trans (mul_le_mul_of_nonneg_left (h.trans ?_) (by norm_num))
    nlinarith
  · have h2 := abs_le.1 h
    rcases le_total 0 b with hb0 | hb0
    · rw [abs_of_nonneg hb0] at hb h2
      rw [jaxTw_hi (y := a) (by nlinarith), jaxTw_hi (y := b) (by linarith)]
      simp; positivity
    · rw [abs_of_nonpos hb0] at hb h2
      rw [jaxTw_lo (y := a) (by nlinarith), jaxTw_lo (y := b) (by linarith)]
      simp; positivity

theorem u_small {R : Rounding} (hu : R.u ≤ 2 ^ (-24 : ℤ)) : R.u ≤ 6 / 10 ^ 8 := hu.trans (by norm_num)

theorem jaxTwFl_arg (R : Rounding) (hu : R.u ≤ 2 ^ (-24 : ℤ)) {a b e : ℝ} (he0 : 0 ≤ e) (he : e ≤ 13 / 10 ^ 8)
    (h : |a - b| ≤ e * |b|) : |R.jaxTw a - jaxTw b| ≤ 2.8 / 10 ^ 6 := by
  have h1 := jaxTwFl_close R hu a
  have h2 := jaxTw_rel he0 (by norm_num at he ⊢; linarith) h
  have h3 := abs_sub_le (R.jaxTw a) (jaxTw a) (jaxTw b)
  linarith

/-- Quotients of a difference of two floating-point numbers. -/
theorem flQuot (R : Rounding) (hu : R.u ≤ 2 ^ (-24 : ℤ)) (d h : ℝ) :
    |R.fl (R.fl d / h) - d / h| ≤ 13 / 10 ^ 8 * |d / h| := by
  have hs := u_small hu
  have h0 := R.u_nonneg
  have a : R.Approx 1 |d| (R.fl d) d := (Rounding.Approx.exact d).round
  have b := (a.div_const h).round.2
  rw [← abs_div] at b
  refine b.trans (mul_le_mul_of_nonneg_right ?_ (abs_nonneg _))
  norm_num
  nlinarith

theorem twCumlFl_close (R : Rounding) (hu : R.u ≤ 2 ^ (-24 : ℤ)) (x m h : ℝ) :
    |R.twCumlJaxKern x m h - twCumlJaxKern x m h| ≤ 2.8 / 10 ^ 6 := by
  have e : R.twCumlJaxKern x m h = R.jaxTw (R.fl (R.fl (x - m) / h)) := by
    unfold Rounding.twCumlJaxKern Rounding.jaxTw
    dsimp only
    split_ifs with h1 h2 h2
    · linarith
    · rfl
    · rfl
    · rfl
  rw [e, twCumlJaxKern_eq]
  exact jaxTwFl_arg R hu (by norm_num) le_rfl (flQuot R hu _ _)

/-- **C126**: histogram weights in single precision (or better) are correct to `6e-6`. -/
theorem C126_bin_weight_error (R : Rounding) (hu : R.u ≤ 2 ^ (-24 : ℤ)) (m h L H : ℝ) :
    |R.twBinJaxKern m h L H - twBinJaxKern m h L H| ≤ 6 / 10 ^ 6 := by
  have h1 := abs_le.1 (twCumlFl_close R hu H m h)
  have h2 := abs_le.1 (twCumlFl_close R hu L m h)
  have hs := u_small hu
  have h0 := R.u_nonneg
  have j1 := jaxTw_nonneg ((H - m) / h)
  have j2 := jaxTw_le_one ((H - m) / h)
  have j3 := jaxTw_nonneg ((L - m) / h)
  have j4 := jaxTw_le_one ((L - m) / h)
  have h3 := R.err (R.twCumlJaxKern H m h - R.twCumlJaxKern L m h)
  unfold Rounding.twBinJaxKern twBinJaxKern
  rw [twCumlJaxKern_eq] at h1 h2 ⊢
  rw [twCumlJaxKern_eq]
  have h4 : |R.twCumlJaxKern H m h - R.twCumlJaxKern L m h| ≤ 2 := by
    norm_num at h1 h2
    rw [abs_le]; constructor <;> linarith
  have h5 : R.u * |R.twCumlJaxKern H m h - R.twCumlJaxKern L m h| ≤ 6 / 10 ^ 8 * 2 :=
    mul_le_mul hs h4 (abs_nonneg _) (by norm_num)
  have h6 := abs_le.1 (h3.trans h5)
  norm_num at h1 h2 h6 ⊢
  rw [abs_le]; constructor <;> linarith

/-- **C126**: in single precision the weight of a galaxy in a bin can be negative. -/
theorem C126_weight_nonneg_violated : ∃ m h L H : ℝ, 0 < h ∧ L < H ∧ (∀ x ∈ [m, h, L, H], float32.fl x = x) ∧
    float32.twBinJaxKern m h L H < 0 := by
  have f0 : float32.fl 0 = 0 := float32.fl_zero
  have f1 : float32.fl 1 = 1 := float32.one
  have f4 : float32.fl (-4) = -4 := by
    rw [float32.neg, neg_inj]
    have := float32_exact 4 (by norm_num) 0
    simpa using this
  have f3 : float32.fl (-(381 / 128)) = -(381 / 128) := by
    rw [float32.neg, neg_inj]
    have := float32_exact 381 (by norm_num) (-7)
    norm_num at this ⊢
    exact this
  refine ⟨0, 1, -4, -(381 / 128), one_pos, by norm_num, by simp [f0, f1, f4, f3], ?_⟩
  unfold Rounding.twBinJaxKern Rounding.twCumlJaxKern
  dsimp only
  rw [sub_zero, sub_zero, f3, f4, div_one, div_one, f3, f4, if_neg (by norm_num), if_neg (by norm_num), if_pos (by norm_num),
    f32_twPoly, sub_zero, float32.neg]
  have := float32.fl_pos (by show (2 : ℝ) ^ (-24 : ℤ) < 1; norm_num) (show (0 : ℝ) < 2 ^ (-23 : ℤ) by positivity)
  linarith

theorem qShape_rel {a b e drop rejuv K : ℝ} (hK : 0 ≤ K) (h1 : |drop| ≤ K) (h2 : |drop - rejuv| ≤ K) (he0 : 0 ≤ e)
    (he : e ≤ 1 / 4) (h : |a - b| ≤ e * |b|) :
    |qShape a drop rejuv - qShape b drop rejuv| ≤ K * (35 / 96) * (8 * e) := by
  rcases le_total |b| 8 with hb | hb
  · refine (qShape_lip h1 h2).trans (mul_le_mul_of_nonneg_left (h.trans ?_) (by positivity))
    nlinarith
  · have h2 := abs_le.1 h
    rcases le_total 0 b with hb0 | hb0
    · rw [abs_of_nonneg hb0] at hb h2
      rw [qShape_hi (y := a) (by nlinarith), qShape_hi (y := b) (by linarith)]
      simp; positivity
    · rw [abs_of_nonpos hb0] at hb h2
      rw [qShape_lo (y := a) (by nlinarith), qShape_lo (y := b) (by linarith)]
      simp; positivity

/-- Time relative to the event, with all operations rounded. -/
theorem flPhase (R : Rounding) (hu : R.u ≤ 2 ^ (-24 : ℤ)) (d dt : ℝ) (hdt : 0 < dt) :
    |R.fl (R.fl d / R.fl (dt / 12)) - d / (dt / 12)| ≤ 20 / 10 ^ 8 * |d / (dt / 12)| := by
  have hs := u_small hu
  have h0 := R.u_nonneg
  have hpos : 0 < dt / 12 := by positivity
  have h1 := flQuot R hu d (R.fl (dt / 12))
  have h2 := R.err (dt / 12)
  rw [abs_of_pos hpos] at h2
  have h3 := abs_le.1 (h2.trans (mul_le_mul_of_nonneg_right hs hpos.le))
  generalize dt / 12 = h at *
  generalize R.fl h = h' at *
  have hlo : (1 - 6 / 10 ^ 8) * h ≤ h' := by linarith [h3.1]
  have hp' : 0 < h' := lt_of_lt_of_le (by norm_num at *; linarith) hlo
  have e : d / h' - d / h = d / h * ((h - h') / h') := by field_simp
  have h4 : |(h - h') / h'| ≤ 6.1 / 10 ^ 8 := by
    rw [abs_div, abs_of_pos hp', div_le_iff₀ hp', abs_le]
    norm_num at *
    constructor <;> linarith
  have h5 : |d / h' - d / h| ≤ 6.1 / 10 ^ 8 * |d / h| := by
    rw [e, abs_mul, mul_comm]
    exact mul_le_mul_of_nonneg_right h4 (abs_nonneg _)
  have h6 : |d / h'| ≤ 1.01 * |d / h| := by
    have := abs_sub_abs_le_abs_sub (d / h') (d / h)
    have h8 : 0 ≤ |d / h| := abs_nonneg (d / h)
    linarith only [this, h5, h8]
  have h7 := abs_sub_le (R.fl (R.fl d / h')) (d / h') (d / h)
  have h8 : 0 ≤ |d / h| := abs_nonneg (d / h)
  linarith only [h1, h5, h6, h7, h8]

/-- Error of the logarithm of the quenching function. -/
theorem quenchingFl_exponent (R : Rounding) (hu : R.u ≤ 2 ^ (-24 : ℤ)) (lgt qt dt drop rejuv : ℝ) (hdt : 0 < dt)
    (h1 : |drop| ≤ 3) (h2 : |drop - rejuv| ≤ 3) :
    |R.jaxPartialUTwKern lgt qt (R.fl (dt / 12)) drop (R.fl (drop - rejuv)) - qExp lgt qt dt drop rejuv| ≤ 1.2 / 10 ^ 5 := by
  have hs := u_small hu
  have h0 := R.u_nonneg
  have hph := flPhase R hu (lgt - qt) dt hdt
  have hq : qExp lgt qt dt drop rejuv = qShape ((lgt - qt) / (dt / 12)) drop rejuv := rfl
  rw [hq]
  have hsh := qShape_rel (by norm_num) h1 h2 (by norm_num) (by norm_num) hph
  unfold Rounding.jaxPartialUTwKern
  dsimp only
  set y := R.fl (R.fl (lgt - qt) / R.fl (dt / 12)) with hy
  clear_value y
  have hf2 := R.err (drop - rejuv)
  have hsplit : ∀ z, |z - qShape y drop rejuv| ≤ 1 / 10 ^ 5 →
      |z - qShape ((lgt - qt) / (dt / 12)) drop rejuv| ≤ 1.2 / 10 ^ 5 := by
    intro z hz
    have := abs_sub_le z (qShape y drop rejuv) (qShape ((lgt - qt) / (dt / 12)) drop rejuv)
    norm_num at this hz hsh ⊢
    linarith only [this, hz, hsh]
  have hbig : ∀ {T J : ℝ}, |T - J| ≤ 2.8 / 10 ^ 6 → 0 ≤ J → J ≤ 1 → |T| ≤ 1.1 := by
    intro T J h a b
    have := abs_le.1 h
    norm_num at this ⊢
    rw [abs_le]
    constructor <;> linarith
  apply hsplit
  split_ifs with hlt
  · have hT := jaxTwFl_arg R hu (a := R.fl (y + 3)) (b := y + 3) h0 (hs.trans (by norm_num)) (R.err _)
    have hT1 := hbig hT (jaxTw_nonneg _) (jaxTw_le_one _)
    have hz := R.err (drop * R.jaxTw (R.fl (y + 3)))
    unfold qShape
    rw [jaxTw_lo (y := y - 3) (by linarith), mul_zero, sub_zero]
    generalize R.jaxTw (R.fl (y + 3)) = T at *
    generalize jaxTw (y + 3) = J at *
    have a1 : |drop * T| ≤ 3 * 1.1 := by rw [abs_mul]; exact mul_le_mul h1 hT1 (abs_nonneg _) (by norm_num)
    have a2 : R.u * |drop * T| ≤ 6 / 10 ^ 8 * (3 * 1.1) := mul_le_mul hs a1 (abs_nonneg _) (by norm_num)
    have a3 : |drop * T - drop * J| ≤ 3 * (2.8 / 10 ^ 6) := by
      rw [← mul_sub, abs_mul]; exact mul_le_mul h1 hT (abs_nonneg _) (by norm_num)
    have a4 := abs_sub_le (R.fl (drop * T)) (drop * T) (drop * J)
    norm_num at hz a2 a3 a4 ⊢
    linarith only [hz, a2, a3, a4]
  · have hT := jaxTwFl_arg R hu (a := R.fl (y - 3)) (b := y - 3) h0 (hs.trans (by norm_num)) (R.err _)
    have hT1 := hbig hT (jaxTw_nonneg _) (jaxTw_le_one _)
    have hz := R.err (R.fl (drop - rejuv) * R.jaxTw (R.fl (y - 3)))
    have hw := R.err (drop - R.fl (R.fl (drop - rejuv) * R.jaxTw (R.fl (y - 3))))
    unfold qShape
    rw [jaxTw_hi (y := y + 3) (by linarith [not_lt.1 hlt]), mul_one]
    generalize R.jaxTw (R.fl (y - 3)) = T at *
    generalize jaxTw (y - 3) = J at *
    generalize R.fl (drop - rejuv) = f at *
    generalize drop - rejuv = g at *
    have b1 : |f - g| ≤ 6 / 10 ^ 8 * 3 := hf2.trans (mul_le_mul hs h2 (abs_nonneg _) (by norm_num))
    have b2 : |f| ≤ 3.1 := by
      have := abs_sub_abs_le_abs_sub f g
      norm_num at b1 ⊢
      linarith only [this, b1, h2]
    have b3 : |f * T| ≤ 3.1 * 1.1 := by rw [abs_mul]; exact mul_le_mul b2 hT1 (abs_nonneg _) (by norm_num)
    have b4 : |f * T - g * J| ≤ 6 / 10 ^ 8 * 3 * 1.1 + 3 * (2.8 / 10 ^ 6) := by
      rw [show f * T - g * J = (f - g) * T + g * (T - J) by ring]
      refine (abs_add_le _ _).trans (add_le_add ?_ ?_)
      · rw [abs_mul]; exact mul_le_mul b1 hT1 (abs_nonneg _) (by norm_num)
      · rw [abs_mul]; exact mul_le_mul h2 hT (abs_nonneg _) (by norm_num)
    have b5 : R.u * |f * T| ≤ 6 / 10 ^ 8 * (3.1 * 1.1) := mul_le_mul hs b3 (abs_nonneg _) (by norm_num)
    have b6 := hz.trans b5
    generalize R.fl (f * T) = v at *
    have b7 : |drop - v| ≤ 7 := by
      have c1 := abs_le.1 b6
      have c2 := abs_le.1 b3
      have c3 := abs_le.1 h1
      norm_num at c1 c2 ⊢
      rw [abs_le]; constructor <;> linarith
    have b8 : R.u * |drop - v| ≤ 6 / 10 ^ 8 * 7 := mul_le_mul hs b7 (abs_nonneg _) (by norm_num)
    have c1 := abs_le.1 (hw.trans b8)
    have c2 := abs_le.1 b6
    have c3 := abs_le.1 b4
    norm_num at c1 c2 c3 ⊢
    rw [abs_le]; constructor <;> linarith

/-- **C126**: with powers of ten of the library correct to `1e-5`, the quenching function has in single precision (or better) a
relative error below `5e-5`, at all times and for all events. -/
theorem C126_quenching_error (R : Rounding) (hu : R.u ≤ 2 ^ (-24 : ℤ)) (pow10 : ℝ → ℝ)
    (hpow : ∀ x, |pow10 x - (10 : ℝ) ^ x| ≤ (10 : ℝ) ^ x / 10 ^ 5) (lgt qt dt drop rejuv : ℝ) (hdt : 0 < dt)
    (h1 : |drop| ≤ 3) (h2 : |drop - rejuv| ≤ 3) :
    |R.quenchingKern pow10 lgt qt dt drop rejuv - quenchingKern lgt qt dt drop rejuv| ≤
      5 / 10 ^ 5 * quenchingKern lgt qt dt drop rejuv := by
  have h := quenchingFl_exponent R hu lgt qt dt drop rejuv hdt h1 h2
  rw [quenchingKern_eq]
  unfold Rounding.quenchingKern
  dsimp only
  generalize R.jaxPartialUTwKern lgt qt (R.fl (dt / 12)) drop (R.fl (drop - rejuv)) = z at *
  generalize qExp lgt qt dt drop rejuv = w at *
  have hz := hpow z
  have hw : (0 : ℝ) < (10 : ℝ) ^ w := by positivity
  have e : (10 : ℝ) ^ z = (10 : ℝ) ^ w * (10 : ℝ) ^ (z - w) := by rw [← Real.rpow_add (by norm_num)]; congr 1; ring
  have hx : |(10 : ℝ) ^ (z - w) - 1| ≤ 3 / 10 ^ 5 := by
    have hl : Real.log 10 ≤ 2.4 := by
      have := Real.log_le_sub_one_of_pos (show (0 : ℝ) < 10 / 8 by norm_num)
      rw [Real.log_div (by norm_num) (by norm_num), show (8 : ℝ) = 2 ^ 3 by norm_num, Real.log_pow] at this
      have := Real.log_two_lt_d9
      norm_num at *
      linarith
    have hl0 : 0 ≤ Real.log 10 := Real.log_nonneg (by norm_num)
    rw [Real.rpow_def_of_pos (by norm_num)]
    have hs : |Real.log 10 * (z - w)| ≤ 2.4 * (1.2 / 10 ^ 5) := by
      rw [abs_mul, abs_of_nonneg hl0]; exact mul_le_mul hl h (abs_nonneg _) (by norm_num)
    have h3 := Real.abs_exp_sub_one_sub_id_le (x := Real.log 10 * (z - w)) (hs.trans (by norm_num))
    have h4 : (Real.log 10 * (z - w)) ^ 2 ≤ (2.4 * (1.2 / 10 ^ 5)) ^ 2 := sq_le_sq' (by linarith [(abs_le.1 hs).1]) (abs_le.1 hs).2
    have h5 := abs_le.1 (h3.trans h4)
    have h6 := abs_le.1 hs
    norm_num at h5 h6 ⊢
    rw [abs_le]; constructor <;> linarith
  have hx' := abs_le.1 hx
  have hz' := abs_le.1 hz
  rw [e] at hz'
  rw [abs_le]
  norm_num at hx' hz' ⊢
  constructor <;> nlinarith

/-- **C126**: in single precision, with powers of ten correct to `2^-23`, the quenching function can exceed one: the galaxy forms
stars faster than on the main sequence. -/
theorem C126_quenching_le_one_violated (pow10 : ℝ → ℝ) (hpow : ∀ x, |pow10 x - (10 : ℝ) ^ x| ≤ (10 : ℝ) ^ x * 2 ^ (-23 : ℤ)) :
    ∃ lgt qt dt drop rejuv : ℝ, (∀ x ∈ [lgt, qt, dt, drop, rejuv], float32.fl x = x) ∧ (0.1 < qt ∧ qt < 2) ∧
      ((10 : ℝ) ^ (-3 : ℝ) < dt ∧ dt < (10 : ℝ) ^ (-0.01 : ℝ)) ∧ (-3 < drop ∧ drop < rejuv ∧ rejuv < 0) ∧
      1 < float32.quenchingKern pow10 lgt qt dt drop rejuv := by
  have ex : ∀ (m : ℕ) (k : ℤ) (x : ℝ), m * 2 ^ k = x → m < 2 ^ 24 → float32.fl x = x := by
    intro m k x hx hm
    rw [← hx]
    exact float32_exact m hm k
  have exn : ∀ (m : ℕ) (k : ℤ) (x : ℝ), m * 2 ^ k = -x → m < 2 ^ 24 → float32.fl x = x := by
    intro m k x hx hm
    have := ex m k (-x) hx hm
    rw [float32.neg] at this
    linarith
  have f1 : float32.fl (15619 / 16384) = 15619 / 16384 := ex 15619 (-14) _ (by norm_num) (by norm_num)
  have f3 : float32.fl (3 / 32) = 3 / 32 := ex 3 (-5) _ (by norm_num) (by norm_num)
  have f4 : float32.fl (-2) = -2 := exn 2 0 _ (by norm_num) (by norm_num)
  have f5 : float32.fl (-1) = -1 := exn 1 0 _ (by norm_num) (by norm_num)
  have f6 : float32.fl (1 / 128) = 1 / 128 := ex 1 (-7) _ (by norm_num) (by norm_num)
  have f7 : float32.fl (-(765 / 16384)) = -(765 / 16384) := exn 765 (-14) _ (by norm_num) (by norm_num)
  have f8 : float32.fl (-(765 / 128)) = -(765 / 128) := exn 765 (-7) _ (by norm_num) (by norm_num)
  have f9 : float32.fl (-(381 / 128)) = -(381 / 128) := exn 381 (-7) _ (by norm_num) (by norm_num)
  have f10 : float32.fl (2 ^ (-22 : ℤ)) = 2 ^ (-22 : ℤ) := ex 1 (-22) _ (by norm_num) (by norm_num)
  refine ⟨15619 / 16384, 1, 3 / 32, -2, -1, by simp [f1, float32.one, f3, f4, f5], by norm_num, ⟨?_, ?_⟩, by norm_num, ?_⟩
  · rw [show (-3 : ℝ) = ((-3 : ℤ) : ℝ) by norm_num, Real.rpow_intCast]; norm_num
  · refine lt_of_lt_of_le ?_ (Real.rpow_le_rpow_of_exponent_le (by norm_num) (show (-1 : ℝ) ≤ -0.01 by norm_num))
    rw [show (-1 : ℝ) = ((-1 : ℤ) : ℝ) by norm_num, Real.rpow_intCast]; norm_num
  have e : float32.jaxPartialUTwKern (15619 / 16384) 1 (float32.fl (3 / 32 / 12)) (-2) (float32.fl (-2 - -1)) =
      2 ^ (-22 : ℤ) := by
    unfold Rounding.jaxPartialUTwKern
    dsimp only
    rw [show (3 : ℝ) / 32 / 12 = 1 / 128 by norm_num, f6, show (15619 : ℝ) / 16384 - 1 = -(765 / 16384) by norm_num, f7,
      show -(765 / 16384 : ℝ) / (1 / 128) = -(765 / 128) by norm_num, f8, if_pos (by norm_num),
      show -(765 / 128 : ℝ) + 3 = -(381 / 128) by norm_num, f9]
    unfold Rounding.jaxTw
    rw [if_neg (by norm_num), if_neg (by norm_num), f32_twPoly, show (-2 : ℝ) * -2 ^ (-23 : ℤ) = 2 ^ (-22 : ℤ) by norm_num, f10]
  unfold Rounding.quenchingKern
  dsimp only
  rw [e]
  have h := (abs_le.1 (hpow (2 ^ (-22 : ℤ)))).1
  have h1 : 1 + 2 * (2 : ℝ) ^ (-22 : ℤ) ≤ (10 : ℝ) ^ ((2 : ℝ) ^ (-22 : ℤ)) := by
    rw [Real.rpow_def_of_pos (by norm_num)]
    have hl : 2 ≤ Real.log 10 := by
      have : Real.log 8 ≤ Real.log 10 := Real.log_le_log (by norm_num) (by norm_num)
      rw [show (8 : ℝ) = 2 ^ 3 by norm_num, Real.log_pow] at this
      have := Real.log_two_gt_d9
      norm_num at *
      linarith
    have := Real.add_one_le_exp (Real.log 10 * (2 : ℝ) ^ (-22 : ℤ))
    have h2 : (0 : ℝ) < 2 ^ (-22 : ℤ) := by positivity
    nlinarith
  norm_num at h h1 ⊢
  linarith

/-- Correctly rounded powers of ten are accurate enough. -/
example (x : ℝ) : |float32.fl ((10 : ℝ) ^ x) - (10 : ℝ) ^ x| ≤ (10 : ℝ) ^ x * 2 ^ (-23 : ℤ) ∧
    |float32.fl ((10 : ℝ) ^ x) - (10 : ℝ) ^ x| ≤ (10 : ℝ) ^ x / 10 ^ 5 ∧ float32.u ≤ 2 ^ (-24 : ℤ) := by
  have hx : (0 : ℝ) < (10 : ℝ) ^ x := by positivity
  have h := float32.err ((10 : ℝ) ^ x)
  rw [abs_of_pos hx, show float32.u = 2 ^ (-24 : ℤ) from rfl] at h
  refine ⟨h.trans ?_, h.trans ?_, le_rfl⟩
  · norm_num; linarith
  · norm_num; linarith

end Diffstar.Props
