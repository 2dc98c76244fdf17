import Verif.Props.RoundRangeKern

/-! C156: underflow and overflow do not affect star formation histories. -/

namespace Diffstar.Spec

open Diffstar

/-- Inputs and results of the library are floating-point numbers, and powers of ten of tiny numbers are one. -/
structure FloatInputs (R : Rounding) (L : Rounding.MathLib) (p : DiffstarParams ℝ) : Prop where
  lgmcrit : R.fl p.lgmcrit = p.lgmcrit
  lgyAtMcrit : R.fl p.lgyAtMcrit = p.lgyAtMcrit
  indxLo : R.fl p.indxLo = p.indxLo
  indxHi : R.fl p.indxHi = p.indxHi
  lgQt : R.fl p.lgQt = p.lgQt
  lgDrop : R.fl p.lgDrop = p.lgDrop
  log10 : ∀ t, R.fl (L.log10 t) = L.log10 t
  pow10 : ∀ x, |x| ≤ 1 / 10 ^ 17 → L.pow10 x = 1

end Diffstar.Spec

namespace Diffstar.Props

open Diffstar Diffstar.Spec

theorem x_mul_sigmoid_le (x : ℝ) : x * nnSigmoid (-(9 * x)) ≤ 1 / 9 := by
  rcases le_or_gt x 0 with h | h
  · nlinarith [nnSigmoid_pos (-(9 * x))]
  · unfold nnSigmoid
    rw [neg_neg, mul_one_div, div_le_div_iff₀ (by positivity) (by norm_num)]
    linarith [Real.add_one_le_exp (9 * x)]

/-- The efficiency is never far above its value at the critical mass. -/
theorem msLogEfficiency_upper (p : DiffstarParams ℝ) (hp : InFloatBounds p) (m : ℝ) : msLogEfficiency p m ≤ p.lgyAtMcrit + 10 / 9 := by
  have e : msLogEfficiency p m = p.lgyAtMcrit + (p.indxLo * ((m - p.lgmcrit) * (1 - nnSigmoid (9 * (m - p.lgmcrit)))) +
      p.indxHi * ((m - p.lgmcrit) * nnSigmoid (9 * (m - p.lgmcrit)))) := by
    unfold msLogEfficiency nnSigmoid
    ring
  rw [e]
  generalize m - p.lgmcrit = x
  rw [← nnSigmoid_neg]
  have a := x_mul_sigmoid_le x
  have b := x_mul_sigmoid_le (-x)
  rw [show -(9 * -x) = 9 * x by ring] at b
  have c1 := mul_le_mul_of_nonneg_left a hp.indxLo.1
  have c2 := mul_le_mul_of_nonneg_left b (show 0 ≤ -p.indxHi by linarith [hp.indxHi.2])
  linarith [hp.indxLo.2, hp.indxHi.1]

section

variable {R : Rounding} {L : Rounding.MathLib} (A : Machine R L) (hu : R.u ≤ 2 ^ (-24 : ℤ))

/-- A rounded number that is not negative: as without underflow, or small both ways. -/
theorem machine_fl {x : ℝ} (h0 : 0 ≤ x) (h1 : x ≤ 10 ^ 38) : ∃ y, A.fl x = some y ∧ (y = R.fl x ∨ (x ≤ 1 / 10 ^ 37 ∧ 0 ≤ y ∧ y ≤ 1 / 10 ^ 37)) := by
  rcases lt_or_ge x (2 ^ (-126 : ℤ)) with h | h
  · obtain ⟨y, a, b, c⟩ := A.fl_tiny x (by rwa [abs_of_nonneg h0])
    exact ⟨y, a, .inr ⟨h.le.trans (by norm_num), c h0, (le_abs_self y).trans (b.trans (by norm_num))⟩⟩
  · exact ⟨_, A.fl_normal x (by rwa [abs_of_nonneg h0]) (by rw [abs_of_nonneg h0]; exact h1.trans (by norm_num)), .inl rfl⟩

/-- The same for numbers in the range. -/
theorem machine_normal {x : ℝ} (h0 : 1 / 10 ^ 37 ≤ x) (h1 : x ≤ 10 ^ 38) : A.fl x = some (R.fl x) := by
  have p : 0 < x := lt_of_lt_of_le (by norm_num) h0
  exact A.fl_normal x (by rw [abs_of_pos p]; exact le_trans (by norm_num) h0) (by rw [abs_of_pos p]; exact h1.trans (by norm_num))

theorem machine_pow {x : ℝ} (h0 : 1 / 10 ^ 37 ≤ L.pow10 x) (h1 : L.pow10 x ≤ 10 ^ 38) : A.pow10 x = some (L.pow10 x) :=
  A.pow10_normal x (le_trans (by norm_num) h0) (h1.trans (by norm_num))

include hu in
/-- The floor of the star formation rate hides underflow. -/
theorem machine_floor (q : ℝ) (q1 : 1 / 10 ^ 4 ≤ q) (q2 : q ≤ 2) (ms s : ℝ) (s3 : 0 ≤ ms) (s4 : ms ≤ 4 * 10 ^ 20)
    (s2 : s = ms ∨ (ms ≤ 1 / 10 ^ 16 ∧ 0 ≤ s ∧ s ≤ 1 / 10 ^ 16)) :
    ((A.fl (q * s)).map fun sfr => if sfr < R.fl SFR_MIN then R.fl SFR_MIN else sfr) =
        some (if R.fl (q * ms) < R.fl SFR_MIN then R.fl SFR_MIN else R.fl (q * ms)) ∧
      9 / 10 ^ 15 ≤ (if R.fl (q * ms) < R.fl SFR_MIN then R.fl SFR_MIN else R.fl (q * ms)) ∧
      (if R.fl (q * ms) < R.fl SFR_MIN then R.fl SFR_MIN else R.fl (q * ms)) ≤ 10 ^ 21 := by
  have hmin : SFR_MIN = 1 / 10 ^ 14 := rfl
  have f0 := fl_within R hu (x := SFR_MIN) (by rw [hmin]; norm_num)
  rw [hmin] at f0 ⊢
  generalize R.fl (1 / 10 ^ 14) = lo at *
  have f1 : 9.9 / 10 ^ 15 ≤ lo := by norm_num at f0 ⊢; linarith [f0.1]
  have f2 : lo ≤ 1.1 / 10 ^ 14 := by norm_num at f0 ⊢; linarith [f0.2]
  have f3 : 0 ≤ q * ms := mul_nonneg (by linarith [q1]) s3
  have f4 : q * ms ≤ 8 * 10 ^ 20 := by nlinarith [q1, q2]
  have f5 := fl_within R hu f3
  have small : ∀ v, 0 ≤ v → v ≤ 1 / 10 ^ 16 → ∃ y, A.fl (q * v) = some y ∧ y < lo ∧ R.fl (q * v) < lo := by
    intro v v0 v1
    have w0 : 0 ≤ q * v := mul_nonneg (by linarith [q1]) v0
    have w1 : q * v ≤ 2 / 10 ^ 16 := by nlinarith [q1, q2]
    have w2 := (fl_within R hu w0).2
    have w3 : R.fl (q * v) < lo := by norm_num at *; linarith
    obtain ⟨y, y1, y2⟩ := machine_fl A w0 (w1.trans (by norm_num))
    refine ⟨y, y1, ?_, w3⟩
    rcases y2 with rfl | ⟨-, -, y3⟩
    · exact w3
    · norm_num at *; linarith
  refine ⟨?_, ?_, ?_⟩
  · rcases s2 with rfl | ⟨t1, t2, t3⟩
    · obtain ⟨y, y1, y2⟩ := machine_fl A f3 (f4.trans (by norm_num))
      rw [y1, Option.map_some]
      rcases y2 with rfl | ⟨y0, -, y3⟩
      · rfl
      · rw [if_pos (by norm_num at *; linarith), if_pos (by norm_num at *; linarith [f5.2])]
    · obtain ⟨y, y1, y2, -⟩ := small s t2 t3
      obtain ⟨-, -, -, y3⟩ := small ms s3 t1
      rw [y1, Option.map_some, if_pos y2, if_pos y3]
  · split_ifs with c
    · norm_num at *; linarith
    · norm_num at *; linarith
  · split_ifs with c
    · norm_num at *; linarith
    · norm_num at *; linarith [f5.2]

include hu in
/-- One star formation rate: limited and unlimited range agree, and bounds. -/
theorem machine_scalar (hR : Absorbs R) (half : R.fl (1 / 2) = 1 / 2) (hL : Accurate L) {M : Type*} (logMah : M → ℝ → ℝ → ℝ) (p : DiffstarParams ℝ)
    (hp : InFloatBounds p) (hF : FloatInputs R L p) (mah : M) (t lgt0 fb : ℝ) (ht : 0.01 ≤ t ∧ t ≤ 100)
    (hfb : 1 / 10 ^ 10 ≤ fb ∧ fb ≤ 1) (hmf : R.fl (logMah mah t lgt0) = logMah mah t lgt0)
    (lo : ℝ) (hlo : Sim 1000 10 lo p.indxLo) (hm : -0.1 ≤ logMah mah t lgt0 ∧ logMah mah t lgt0 ≤ 20.1) :
    A.sfhSinglegalScalar logMah t mah { p.ms with indxLo := lo } p.q lgt0 fb = some (R.sfhSinglegalScalar L logMah t mah p.ms p.q lgt0 fb) ∧
      9 / 10 ^ 15 ≤ R.sfhSinglegalScalar L logMah t mah p.ms p.q lgt0 fb ∧ R.sfhSinglegalScalar L logMah t mah p.ms p.q lgt0 fb ≤ 10 ^ 21 := by
  unfold Machine.sfhSinglegalScalar Machine.sfhMsKernel Rounding.sfhSinglegalScalar Rounding.sfhMsKernel Rounding.quenchingKern
  dsimp only [DiffstarParams.ms, DiffstarParams.q]
  generalize logMah mah t lgt0 = m at *
  have rel : ∀ x, 0.999 * (10 : ℝ) ^ x ≤ L.pow10 x ∧ L.pow10 x ≤ 1.001 * (10 : ℝ) ^ x := by
    intro x
    have h := abs_le.1 (hL.pow10 x)
    have := Real.rpow_pos_of_pos (show (0 : ℝ) < 10 by norm_num) x
    constructor <;> linarith [h.1, h.2]
  have up : ∀ (x : ℝ) (k : ℤ), x ≤ k → (10 : ℝ) ^ x ≤ (10 : ℝ) ^ k := by
    intro x k h
    have := Real.rpow_le_rpow_of_exponent_le (show (1 : ℝ) ≤ 10 by norm_num) h
    rwa [Real.rpow_intCast] at this
  have down : ∀ (x : ℝ) (k : ℤ), (k : ℝ) ≤ x → (10 : ℝ) ^ k ≤ (10 : ℝ) ^ x := by
    intro x k h
    have := Real.rpow_le_rpow_of_exponent_le (show (1 : ℝ) ≤ 10 by norm_num) h
    rwa [Real.rpow_intCast] at this
  -- mass
  have hmc : |m - p.lgmcrit| ≤ 14 := by
    have h1 := hp.lgmcrit
    norm_num at h1 hm
    rw [abs_le]; constructor <;> linarith [h1.1, h1.2, hm.1, hm.2]
  have g1 : 1 / 100 ≤ L.pow10 m := by
    have := down m (-1) (by push_cast; linarith [hm.1])
    norm_num at this
    linarith [(rel m).1]
  have g2 : L.pow10 m ≤ 2 * 10 ^ 20 := by
    have h1 := Real.rpow_le_rpow_of_exponent_le (show (1 : ℝ) ≤ 10 by norm_num) hm.2
    have h2 : (10 : ℝ) ^ (20.1 : ℝ) ≤ 1.9 * 10 ^ 20 := by
      rw [show (20.1 : ℝ) = (20 : ℕ) + 0.1 by norm_num, Real.rpow_add (by norm_num), Real.rpow_natCast]
      have : (10 : ℝ) ^ (0.1 : ℝ) ≤ 1.9 := by
        rw [show (0.1 : ℝ) = ((10 : ℕ) : ℝ)⁻¹ by norm_num]
        refine le_of_pow_le_pow_left₀ (n := 10) (by norm_num) (by norm_num) ?_
        rw [Real.rpow_inv_natCast_pow (by norm_num) (by norm_num)]
        norm_num
      linarith
    linarith [(rel m).2]
  rw [machine_pow A (le_trans (by norm_num) g1) (g2.trans (by norm_num)), Option.bind_some]
  have g3 : 1 / 10 ^ 12 ≤ fb * L.pow10 m := by nlinarith [hfb.1]
  have g4 : fb * L.pow10 m ≤ 2 * 10 ^ 20 := by nlinarith [hfb.1, hfb.2]
  rw [machine_normal A (le_trans (by norm_num) g3) (g4.trans (by norm_num)), Option.bind_some]
  have g5 := fl_within R hu (x := fb * L.pow10 m) (by linarith)
  generalize R.fl (fb * L.pow10 m) = gas at *
  have g6 : 0 ≤ gas := by linarith
  have g7 : gas ≤ 3 * 10 ^ 20 := by linarith
  -- efficiency
  have exp0 : ∀ x, 0 ≤ L.exp x := by
    intro x
    have h := abs_le.1 (hL.exp x)
    have := Real.exp_pos x
    linarith [h.1]
  rw [machine_sfrEffPlaw A hu hR exp0 p hp hF.lgmcrit hF.lgyAtMcrit hF.indxLo hF.indxHi m hmf hmc lo hlo, Option.bind_some]
  have e1 := effFl_close R hu hL.exp p hp m hmc
  have e2 := msLogEfficiency_upper p hp m
  have e3 : L.pow10 (R.sfrEffPlaw L.exp m p.lgmcrit p.lgyAtMcrit p.indxLo p.indxHi) ≤ 1 := by
    have h := up (R.sfrEffPlaw L.exp m p.lgmcrit p.lgyAtMcrit p.indxLo p.indxHi) (-6) (by
      have := (abs_le.1 e1).2
      have := hp.lgyAtMcrit.2
      push_cast
      norm_num at *
      linarith)
    norm_num at h
    linarith [(rel (R.sfrEffPlaw L.exp m p.lgmcrit p.lgyAtMcrit p.indxLo p.indxHi)).2]
  have e4 : 0 ≤ L.pow10 (R.sfrEffPlaw L.exp m p.lgmcrit p.lgyAtMcrit p.indxLo p.indxHi) := by
    have := Real.rpow_pos_of_pos (show (0 : ℝ) < 10 by norm_num) (R.sfrEffPlaw L.exp m p.lgmcrit p.lgyAtMcrit p.indxLo p.indxHi)
    linarith [(rel (R.sfrEffPlaw L.exp m p.lgmcrit p.lgyAtMcrit p.indxLo p.indxHi)).1]
  generalize hx : R.sfrEffPlaw L.exp m p.lgmcrit p.lgyAtMcrit p.indxLo p.indxHi = x at *
  have step1 : ∃ s, ((A.pow10 x).bind fun eff => A.fl (gas * eff)) = some s ∧
      (s = R.fl (gas * L.pow10 x) ∨ (R.fl (gas * L.pow10 x) ≤ 1 / 10 ^ 16 ∧ 0 ≤ s ∧ s ≤ 1 / 10 ^ 16)) := by
    rcases lt_or_ge (L.pow10 x) (2 ^ (-126 : ℤ)) with h | h
    · obtain ⟨y, a, b, c⟩ := A.pow10_tiny x h
      have c' : y ≤ 1 / 10 ^ 37 := c.trans (by norm_num)
      have h' : L.pow10 x ≤ 1 / 10 ^ 37 := h.le.trans (by norm_num)
      have y1 : gas * y ≤ 3 / 10 ^ 17 := by nlinarith
      have y2 : gas * L.pow10 x ≤ 3 / 10 ^ 17 := by nlinarith
      have y0 : 0 ≤ gas * y := by positivity
      have y3 : 0 ≤ gas * L.pow10 x := by positivity
      obtain ⟨s, s1, s2⟩ := machine_fl A y0 (y1.trans (by norm_num))
      refine ⟨s, by rw [a, Option.bind_some, s1], .inr ⟨(fl_within R hu y3).2.trans (by norm_num; linarith), ?_⟩⟩
      rcases s2 with rfl | ⟨-, s2, s3⟩
      · have := fl_within R hu y0
        exact ⟨by linarith, by norm_num; linarith⟩
      · exact ⟨s2, s3.trans (by norm_num)⟩
    · have y3 : 0 ≤ gas * L.pow10 x := by positivity
      have y2 : gas * L.pow10 x ≤ 3 * 10 ^ 20 := by nlinarith
      obtain ⟨s, s1, s2⟩ := machine_fl A y3 (y2.trans (by norm_num))
      refine ⟨s, by rw [A.pow10_normal x h (e3.trans (by norm_num)), Option.bind_some, s1], ?_⟩
      rcases s2 with s2 | ⟨s0, s2, s3⟩
      · exact .inl s2
      · exact .inr ⟨(fl_within R hu y3).2.trans (by norm_num; linarith), s2, s3.trans (by norm_num)⟩
  obtain ⟨s, s1, s2⟩ := step1
  have s3 : 0 ≤ R.fl (gas * L.pow10 x) := by
    have := (fl_within R hu (x := gas * L.pow10 x) (by positivity)).1
    have : 0 ≤ gas * L.pow10 x := by positivity
    linarith
  have s4 : R.fl (gas * L.pow10 x) ≤ 4 * 10 ^ 20 := by
    have h1 := (fl_within R hu (x := gas * L.pow10 x) (by positivity)).2
    have : gas * L.pow10 x ≤ 3 * 10 ^ 20 := by nlinarith
    linarith
  rw [s1, Option.bind_some]
  generalize R.fl (gas * L.pow10 x) = ms at *
  -- quenching
  have d1 : 1 / 10 ^ 4 ≤ L.pow10 p.qlglgdt := by
    have := down p.qlglgdt (-3) (by push_cast; linarith [hp.qlglgdt.1])
    norm_num at this
    linarith [(rel p.qlglgdt).1]
  have d2 : L.pow10 p.qlglgdt ≤ 2 := by
    have := up p.qlglgdt 0 (by
      have := hp.qlglgdt.2
      push_cast
      norm_num at this
      linarith)
    norm_num at this
    linarith [(rel p.qlglgdt).2]
  rw [machine_pow A (le_trans (by norm_num) d1) (d2.trans (by norm_num)), Option.bind_some]
  have hdrop : |p.lgDrop| ≤ 3 := abs_le.2 ⟨hp.lgDrop.1, by linarith [hp.lgDrop.2]⟩
  have hdr : |p.lgDrop - p.lgRejuv| ≤ 3 :=
    abs_le.2 ⟨by linarith [hp.lgDrop.1, hp.lgRejuv.2], by linarith [hp.lgDrop.1, hp.lgRejuv.1]⟩
  have q0 : 0 < L.pow10 p.qlglgdt := lt_of_lt_of_le (by norm_num) d1
  have q1 := C126_quenching_error R hu L.pow10 hL.pow10 (L.log10 t) p.lgQt (L.pow10 p.qlglgdt) p.lgDrop p.lgRejuv q0 hdrop hdr
  have q2 := ((C05_quenching_range (L.log10 t) p.lgQt (L.pow10 p.qlglgdt) p.lgDrop p.lgRejuv q0).2.2.2 hp.lgRejuv.1 hp.lgRejuv.2)
  have q3 := down p.lgDrop (-3) (by push_cast; linarith [hp.lgDrop.1])
  unfold Rounding.quenchingKern at q1
  dsimp only at q1
  unfold Machine.quenchingKern
  rw [machine_normal A (x := L.pow10 p.qlglgdt / 12) (by norm_num at *; linarith) (by norm_num at *; linarith), Option.bind_some]
  obtain ⟨f2, r1, r2⟩ := sim_fl A hu (Sim.refl (k := 1) hdr) le_rfl (by norm_num) (by norm_num)
  rw [r1, Option.bind_some]
  have w := fl_within R hu (x := L.pow10 p.qlglgdt / 12) (by linarith)
  have lt : |L.log10 t - p.lgQt| ≤ 10 := by
    have h1 := abs_le.1 (hL.log10 t ht.1 ht.2)
    have h2 : Real.logb 10 t ≤ 2 := by
      rw [Real.logb_le_iff_le_rpow (by norm_num) (by linarith [ht.1])]
      norm_num
      exact ht.2
    have h3 : -2 ≤ Real.logb 10 t := by
      rw [Real.le_logb_iff_rpow_le (by norm_num) (by linarith [ht.1])]
      have : (10 : ℝ) ^ (-2 : ℝ) = 0.01 := by
        rw [show (-2 : ℝ) = ((-2 : ℤ) : ℝ) by norm_num, Real.rpow_intCast]
        norm_num
      rw [this]
      exact ht.1
    have h4 := hp.lgQt
    norm_num at h1
    rw [abs_le]
    constructor <;> linarith [h1.1, h1.2, h4.1, h4.2]
  obtain ⟨z', z1, z2⟩ := machine_jaxPartial A hu hR half (h := R.fl (L.pow10 p.qlglgdt / 12)) (hF.log10 t) hF.lgQt hF.lgDrop
    (by rw [abs_of_nonneg (by linarith [hp.lgQt.1])]; exact hp.lgQt.1) lt (by norm_num at *; linarith) (by norm_num at *; linarith) hdrop
    (r2.mono (by norm_num) (by norm_num))
  rw [z1, Option.bind_some]
  generalize R.jaxPartialUTwKern (L.log10 t) p.lgQt (R.fl (L.pow10 p.qlglgdt / 12)) p.lgDrop (R.fl (p.lgDrop - p.lgRejuv)) = z at *
  have ez : L.pow10 z' = L.pow10 z := by
    rcases z2.1 with e | ⟨e1, e2⟩
    · rw [e]
    · rw [hF.pow10 z' (e1.trans (by norm_num)), hF.pow10 z (e2.trans (by norm_num))]
  have q4 : 1 / 10 ^ 4 ≤ L.pow10 z ∧ L.pow10 z ≤ 2 := by
    have b := abs_le.1 q1
    have c1 := q2.1
    have c2 := q2.2.1
    generalize quenchingKern (L.log10 t) p.lgQt (L.pow10 p.qlglgdt) p.lgDrop p.lgRejuv = w at *
    norm_num at q3 b ⊢
    constructor <;> linarith [b.1, b.2]
  rw [machine_pow A (x := z') (by rw [ez]; exact le_trans (by norm_num) q4.1) (by rw [ez]; exact q4.2.trans (by norm_num)), ez, Option.bind_some]
  exact machine_floor A hu (L.pow10 z) q4.1 q4.2 ms s s3 s4 s2

include hu in
/-- The running sum of the trapezoids. -/
theorem machine_scan : ∀ (es : List (ℝ × ℝ)) (a fa c : ℝ) (k : ℕ), 0 ≤ a → 9 / 10 ^ 15 ≤ fa → fa ≤ 10 ^ 21 → 0 ≤ c → c ≤ k * (2 * 10 ^ 23) →
    k + es.length ≤ 1001 → (∀ e ∈ es, a + 1 / 10 ^ 6 ≤ e.1 ∧ e.1 ≤ 100 ∧ 9 / 10 ^ 15 ≤ e.2 ∧ e.2 ≤ 10 ^ 21) →
    es.Pairwise (fun x y => x.1 + 1 / 10 ^ 6 ≤ y.1) →
    A.scan (a, fa, c) es = some (scanOut R.cumtrapzScanFunc (a, fa, c) es) ∧
      ∀ m ∈ scanOut R.cumtrapzScanFunc (a, fa, c) es, 1 / 10 ^ 24 ≤ m ∧ m ≤ 1001 * (2 * 10 ^ 23)
  | [], _, _, _, _, _, _, _, _, _, _, _, _ => by simp [Machine.scan, scanOut]
  | (b, gb) :: es, a, fa, c, k, ha, f1, f2, c0, c1, hk, he, hp => by
    obtain ⟨b1, b2, b3, b4⟩ := he (b, gb) (List.mem_cons_self ..)
    dsimp only at b1 b2 b3 b4
    rw [List.length_cons] at hk
    have w := fl_within R hu (x := b - a) (by linarith)
    have w1 : 9 / 10 ^ 7 ≤ R.fl (b - a) := by norm_num at *; linarith
    have w2 : R.fl (b - a) ≤ 101 := by norm_num at *; linarith
    have h := fl_within R hu (x := gb + fa) (by norm_num at *; linarith)
    have h1 : 1 / 10 ^ 14 ≤ R.fl (gb + fa) := by norm_num at *; linarith
    have h2 : R.fl (gb + fa) ≤ 2.01 * 10 ^ 21 := by norm_num at *; linarith
    have e1 : A.fl (b - a) = some (R.fl (b - a)) := machine_normal A (by norm_num at *; linarith) (by norm_num at *; linarith)
    have e2 : A.fl (gb + fa) = some (R.fl (gb + fa)) := machine_normal A (by norm_num at *; linarith) (by norm_num at *; linarith)
    have hs : (scanOut R.cumtrapzScanFunc (a, fa, c) ((b, gb) :: es)) =
        R.fl (c + R.fl (R.fl (R.fl (b - a) * R.fl (gb + fa)) / 2)) ::
          scanOut R.cumtrapzScanFunc (b, gb, R.fl (c + R.fl (R.fl (R.fl (b - a) * R.fl (gb + fa)) / 2))) es := rfl
    have ht : A.scan (a, fa, c) ((b, gb) :: es) =
        (A.cumtrapzScanFunc (a, fa, c) (b, gb)).bind fun m => (A.scan (b, gb, m) es).map (m :: ·) := rfl
    rw [hs, ht]
    unfold Machine.cumtrapzScanFunc
    dsimp only
    rw [e1, Option.bind_some, e2, Option.bind_some]
    generalize R.fl (b - a) = W at *
    generalize R.fl (gb + fa) = H at *
    have hb : 0 ≤ b := by norm_num at b1; linarith
    clear e1 e2 w h hs ht
    have p1 : 9 / 10 ^ 21 ≤ W * H := by
      have := mul_le_mul w1 h1 (by norm_num) (by linarith)
      norm_num at this ⊢; linarith
    have p2 : W * H ≤ 2.1 * 10 ^ 23 := by
      have := mul_le_mul w2 h2 (by norm_num at *; linarith) (by norm_num)
      norm_num at this ⊢; linarith
    have e3 : A.fl (W * H) = some (R.fl (W * H)) := machine_normal A (by norm_num at *; linarith) (by norm_num at *; linarith)
    have q := fl_within R hu (x := W * H) (by norm_num at *; linarith)
    rw [e3, Option.bind_some]
    generalize R.fl (W * H) = Q at *
    have q1 : 8 / 10 ^ 21 ≤ Q := by norm_num at *; linarith
    have q2 : Q ≤ 2.2 * 10 ^ 23 := by norm_num at *; linarith
    clear e3 q p1 p2
    have e4 : A.fl (Q / 2) = some (R.fl (Q / 2)) := machine_normal A (by norm_num at *; linarith) (by norm_num at *; linarith)
    have d := fl_within R hu (x := Q / 2) (by norm_num at *; linarith)
    rw [e4, Option.bind_some]
    generalize R.fl (Q / 2) = D at *
    have d1 : 3 / 10 ^ 21 ≤ D := by norm_num at *; linarith
    have d2 : D ≤ 1.2 * 10 ^ 23 := by norm_num at *; linarith
    clear e4 d
    have hk' : (k : ℝ) ≤ 1000 := by
      have : k ≤ 1000 := by omega
      exact_mod_cast this
    have m0 : 0 < c + D := by norm_num at *; linarith
    have m1 : c + D ≤ 3 * 10 ^ 26 := by
      have := mul_le_mul_of_nonneg_right hk' (show (0 : ℝ) ≤ 2 * 10 ^ 23 by norm_num)
      norm_num at *; linarith
    have e5 : A.fl (c + D) = some (R.fl (c + D)) := machine_normal A (by norm_num at *; linarith) (by norm_num at *; linarith)
    have g := fl_within R hu m0.le
    have g' : R.fl (c + D) ≤ (k + 1 : ℕ) * (2 * 10 ^ 23) := by
      have r := (abs_le.1 (R.err (c + D))).2
      rw [abs_of_pos m0] at r
      have u1 : R.u ≤ 1 / 10 ^ 7 := hu.trans (by norm_num)
      have := mul_le_mul u1 m1 m0.le (by norm_num)
      push_cast
      norm_num at *; linarith
    rw [e5, Option.bind_some]
    generalize R.fl (c + D) = C at *
    have C0 : 1 / 10 ^ 24 ≤ C := by norm_num at *; linarith
    have C1 : C ≤ 1001 * (2 * 10 ^ 23) := by
      refine g'.trans (mul_le_mul_of_nonneg_right ?_ (by norm_num))
      have : k + 1 ≤ 1001 := by omega
      exact_mod_cast this
    obtain ⟨hp1, hp2⟩ := List.pairwise_cons.1 hp
    have ih := machine_scan es b gb C (k + 1) hb b3 b4 (le_trans (by norm_num) C0) g' (by omega)
      (fun e hm => ⟨hp1 e hm, (he e (List.mem_cons_of_mem _ hm)).2⟩) hp2
    refine ⟨by rw [ih.1]; rfl, ?_⟩
    intro m hm
    rcases List.mem_cons.1 hm with rfl | hm
    · exact ⟨C0, C1⟩
    · exact ih.2 m hm

private theorem mapM_total {α β : Type*} (f : α → Option β) (g : α → β) : ∀ (l : List α), (∀ x ∈ l, f x = some (g x)) → l.mapM f = some (l.map g)
  | [], _ => rfl
  | x :: l, h => by
    rw [List.mapM_cons, h x (List.mem_cons_self ..), mapM_total f g l fun y hy => h y (List.mem_cons_of_mem _ hy)]
    rfl

include hu in
/-- The masses formed. -/
theorem machine_mass (tarr sfh : List ℝ) (ht : ∀ t ∈ tarr, 0.01 ≤ t ∧ t ≤ 100) (hstep : tarr.Pairwise fun a b => a + 1 / 10 ^ 6 ≤ b)
    (hn : tarr.length ≤ 1000) (hlen : tarr.length = sfh.length) (hs : ∀ s ∈ sfh, 9 / 10 ^ 15 ≤ s ∧ s ≤ 10 ^ 21) :
    A.cumulativeMstarFormed tarr sfh = some (R.cumulativeMstarFormed tarr sfh) := by
  unfold Machine.cumulativeMstarFormed Rounding.cumulativeMstarFormed Rounding.cumtrapz
  dsimp only
  have hmin : SFR_MIN = 1 / 10 ^ 14 := rfl
  have htb : T_BIRTH_MIN = 0.001 := by norm_num [T_BIRTH_MIN]
  have hyr : YEAR_PER_GYR = 10 ^ 9 := by norm_num [YEAR_PER_GYR]
  have f := fl_within R hu (x := SFR_MIN) (by rw [hmin]; norm_num)
  have b := fl_within R hu (x := T_BIRTH_MIN) (by rw [htb]; norm_num)
  have y := fl_within R hu (x := YEAR_PER_GYR) (by rw [hyr]; norm_num)
  rw [hmin, htb, hyr] at *
  generalize R.fl (1 / 10 ^ 14) = s0 at *
  generalize R.fl 0.001 = t0 at *
  generalize R.fl (10 ^ 9) = yr at *
  have f1 : 9 / 10 ^ 15 ≤ s0 := by norm_num at *; linarith
  have f2 : s0 ≤ 1 := by norm_num at *; linarith
  have b1 : 0 ≤ t0 := by norm_num at *; linarith
  have b2 : t0 ≤ 0.002 := by norm_num at *; linarith
  have z : R.fl 0 = 0 := R.fl_zero
  have first : A.cumtrapzScanFunc (t0, s0, 0) (t0, s0) = some 0 := by
    unfold Machine.cumtrapzScanFunc
    dsimp only
    rw [sub_self, A.fl_zero, Option.bind_some, machine_normal A (x := s0 + s0) (by norm_num at *; linarith) (by norm_num at *; linarith), Option.bind_some,
      zero_mul, A.fl_zero, Option.bind_some, zero_div, A.fl_zero, Option.bind_some, add_zero, A.fl_zero]
  have first' : scanOut R.cumtrapzScanFunc (t0, s0, 0) (List.zip (t0 :: tarr) (s0 :: sfh)) =
      0 :: scanOut R.cumtrapzScanFunc (t0, s0, 0) (List.zip tarr sfh) := by
    rw [List.zip_cons_cons]
    have e : (R.cumtrapzScanFunc (t0, s0, 0) (t0, s0)) = ((t0, s0, 0), 0) := by
      unfold Rounding.cumtrapzScanFunc
      simp [z]
    show (R.cumtrapzScanFunc (t0, s0, 0) (t0, s0)).2 :: scanOut R.cumtrapzScanFunc (R.cumtrapzScanFunc (t0, s0, 0) (t0, s0)).1 (List.zip tarr sfh) = _
    rw [e]
  have pw : (List.zip tarr sfh).Pairwise fun x y => x.1 + 1 / 10 ^ 6 ≤ y.1 := by
    have h : ((List.zip tarr sfh).map Prod.fst).Pairwise fun a b => a + 1 / 10 ^ 6 ≤ b := by
      rwa [List.map_fst_zip hlen.le]
    exact List.pairwise_map.1 h
  have sc := machine_scan A hu (List.zip tarr sfh) t0 s0 0 0 b1 f1 (f2.trans (by norm_num)) le_rfl (by norm_num)
    (by rw [List.length_zip]; omega)
    (fun e he => by
      have h1 := ht _ (List.of_mem_zip he).1
      have h2 := hs _ (List.of_mem_zip he).2
      refine ⟨?_, h1.2, h2⟩
      have := h1.1
      norm_num at *; linarith) pw
  have main : A.scan (t0, s0, 0) (List.zip (t0 :: tarr) (s0 :: sfh)) =
      some (0 :: scanOut R.cumtrapzScanFunc (t0, s0, 0) (List.zip tarr sfh)) := by
    rw [List.zip_cons_cons]
    have : A.scan (t0, s0, 0) ((t0, s0) :: List.zip tarr sfh) =
        (A.cumtrapzScanFunc (t0, s0, 0) (t0, s0)).bind fun m => (A.scan (t0, s0, m) (List.zip tarr sfh)).map (m :: ·) := rfl
    rw [this, first, Option.bind_some, sc.1]
    rfl
  rw [main, Option.bind_some, first']
  refine mapM_total _ _ _ fun m hm => ?_
  have := sc.2 m hm
  have y1 : 1 ≤ yr := by norm_num at *; linarith
  have y2 : yr ≤ 2 * 10 ^ 9 := by norm_num at *; linarith
  have m0 : 0 ≤ m := le_trans (by norm_num) this.1
  refine machine_normal A ?_ ?_
  · have := mul_le_mul this.1 y1 (by norm_num) m0
    norm_num at *; linarith
  · have := mul_le_mul this.2 y2 (by linarith) (by norm_num)
    norm_num at *; linarith

end

theorem float32_half : float32.fl (1 / 2) = 1 / 2 := by
  have := float32_exact 1 (by norm_num) (-1)
  norm_num at this ⊢
  exact this

/-- As `C156_no_effect`, if the slope at low masses differs by underflow. -/
theorem machine_history {L : Rounding.MathLib} (A : Machine float32 L) (hL : Accurate L) {M : Type*} (logMah : M → ℝ → ℝ → ℝ) (p : DiffstarParams ℝ)
    (hp : InFloatBounds p) (hF : FloatInputs float32 L p) (lo : ℝ) (hlo : Sim 1000 10 lo p.indxLo) (mah : M)
    (tarr : List ℝ) (lgt0 fb : ℝ) (hfb : 1 / 10 ^ 10 ≤ fb ∧ fb ≤ 1) (ht : ∀ t ∈ tarr, 0.01 ≤ t ∧ t ≤ 100)
    (hstep : tarr.Pairwise fun a b => a + 1 / 10 ^ 6 ≤ b) (hn : tarr.length ≤ 1000)
    (hmf : ∀ t ∈ tarr, float32.fl (logMah mah t lgt0) = logMah mah t lgt0)
    (hm : ∀ t ∈ tarr, -0.1 ≤ logMah mah t lgt0 ∧ logMah mah t lgt0 ≤ 20.1) :
    A.calcSfhSinglegalSmh logMah { p with indxLo := lo } mah tarr lgt0 fb = some (float32.calcSfhSinglegalSmh L logMah p mah tarr lgt0 fb) := by
  have h := fun t h => machine_scalar A le_rfl float32_absorbs float32_half hL logMah p hp hF mah t lgt0 fb (ht t h) hfb (hmf t h) lo hlo (hm t h)
  unfold Machine.calcSfhSinglegalSmh Rounding.calcSfhSinglegalSmh
  dsimp only
  have e : (tarr.mapM fun t => A.sfhSinglegalScalar logMah t mah ({ p with indxLo := lo } : DiffstarParams ℝ).ms
      ({ p with indxLo := lo } : DiffstarParams ℝ).q lgt0 fb) = some (tarr.map fun t => float32.sfhSinglegalScalar L logMah t mah p.ms p.q lgt0 fb) :=
    mapM_total _ _ tarr fun t ht => (h t ht).1
  rw [e, Option.bind_some, machine_mass A le_rfl tarr _ ht hstep hn (by rw [List.length_map]) fun s hs => ?_]
  · rfl
  · obtain ⟨t, h1, rfl⟩ := List.mem_map.1 hs
    exact (h t h1).2

/-- C156. In single precision, star formation rates and stellar masses computed with the limited range of exponents are *equal* to those
computed with an unlimited range, and no number is infinite, although the efficiency can underflow (to subnormal numbers or to zero) and `exp` can
overflow: wherever the efficiency underflows, the star formation rate is set to its floor either way. Parameters inside the float bounds, halo masses
between 1 and 1e20 Msun, times between 0.01 and 100 Gyr in steps of at least 1e-6 Gyr; parameters, halo masses and logarithms of times are
floating-point numbers. -/
theorem C156_no_effect {L : Rounding.MathLib} (A : Machine float32 L) (hL : Accurate L) {M : Type*} (logMah : M → ℝ → ℝ → ℝ) (p : DiffstarParams ℝ)
    (hp : InFloatBounds p) (hF : FloatInputs float32 L p) (mah : M)
    (tarr : List ℝ) (lgt0 fb : ℝ) (hfb : 1 / 10 ^ 10 ≤ fb ∧ fb ≤ 1) (ht : ∀ t ∈ tarr, 0.01 ≤ t ∧ t ≤ 100)
    (hstep : tarr.Pairwise fun a b => a + 1 / 10 ^ 6 ≤ b) (hn : tarr.length ≤ 1000)
    (hmf : ∀ t ∈ tarr, float32.fl (logMah mah t lgt0) = logMah mah t lgt0)
    (hm : ∀ t ∈ tarr, -0.1 ≤ logMah mah t lgt0 ∧ logMah mah t lgt0 ≤ 20.1) :
    A.calcSfhSinglegalSmh logMah p mah tarr lgt0 fb = some (float32.calcSfhSinglegalSmh L logMah p mah tarr lgt0 fb) := by
  have lo : |p.indxLo| ≤ 10 := by rw [abs_of_nonneg hp.indxLo.1]; linarith [hp.indxLo.2]
  exact machine_history A hL logMah p hp hF p.indxLo (Sim.refl lo) mah tarr lgt0 fb hfb ht hstep hn hmf hm

/-- C156. Hence the bound on the rounding errors of stellar masses holds with the limited range: no result is infinite, and each mass formed is within
`0.3% + 1.1e-5 / 10^qlglgdt` of the exact one. -/
theorem C156_mass_error {L : Rounding.MathLib} (A : Machine float32 L) (hL : Accurate L) {M : Type*}
    (logMah logMah' : M → ℝ → ℝ → ℝ) (p : DiffstarParams ℝ) (hp : InFloatBounds p) (hF : FloatInputs float32 L p) (mah : M) (tarr : List ℝ) (lgt0 fb : ℝ)
    (hfb : 1 / 10 ^ 10 ≤ fb ∧ fb ≤ 1) (ht : ∀ t ∈ tarr, 0.01 ≤ t ∧ t ≤ 100) (hstep : tarr.Pairwise fun a b => a + 1 / 10 ^ 6 ≤ b)
    (hn : tarr.length ≤ 1000) (hm : ∀ t ∈ tarr, 0 ≤ logMah mah t lgt0 ∧ logMah mah t lgt0 ≤ 20)
    (hmf : ∀ t ∈ tarr, float32.fl (logMah' mah t lgt0) = logMah' mah t lgt0)
    (hm' : ∀ t ∈ tarr, |logMah' mah t lgt0 - logMah mah t lgt0| ≤ 1 / 10 ^ 5) :
    ∃ gal, A.calcSfhSinglegalSmh logMah' p mah tarr lgt0 fb = some gal ∧
      List.Forall₂ (fun a b => |a - b| ≤ (0.003 + 1.1 / 10 ^ 5 / (10 : ℝ) ^ p.qlglgdt) * b) gal.smh
        (calcSfhSinglegalSmh logMah p mah tarr lgt0 fb).smh := by
  refine ⟨_, C156_no_effect A hL logMah' p hp hF mah tarr lgt0 fb hfb ht hstep hn hmf fun t h => ?_,
    C127_mass_error hL logMah logMah' p hp mah tarr lgt0 fb (lt_of_lt_of_le (by norm_num) hfb.1) ht
      (hstep.imp fun h => by norm_num at h; linarith) hn hm hm'⟩
  have h1 := hm t h
  have h2 := abs_le.1 (hm' t h)
  norm_num at h2 ⊢
  constructor <;> linarith [h1.1, h1.2, h2.1, h2.2]

open Classical in
/-- Arithmetic that sets what underflows to zero. -/
noncomputable def flushing (R : Rounding) (L : Rounding.MathLib) : Machine R L where
  fl x := if |x| < 2 ^ (-126 : ℤ) then some 0 else if |x| ≤ 2 ^ (127 : ℤ) then some (R.fl x) else none
  exp x := if L.exp x < 2 ^ (-126 : ℤ) then some 0 else if L.exp x ≤ 2 ^ (127 : ℤ) then some (L.exp x) else none
  pow10 x := if L.pow10 x < 2 ^ (-126 : ℤ) then some 0 else if L.pow10 x ≤ 2 ^ (127 : ℤ) then some (L.pow10 x) else none
  fl_zero := by rw [abs_zero, if_pos (by positivity)]
  fl_normal x h1 h2 := by rw [if_neg (not_lt.2 h1), if_pos h2]
  fl_tiny x h := ⟨0, by rw [if_pos h], by rw [abs_zero]; positivity, fun _ => le_rfl⟩
  fl_large x h := by
    left
    rw [if_neg (not_lt.2 (le_trans (by norm_num) h.le)), if_neg (not_le.2 h)]
  exp_normal x h1 h2 := by rw [if_neg (not_lt.2 h1), if_pos h2]
  exp_tiny x h := ⟨0, by rw [if_pos h], le_rfl, by positivity⟩
  exp_large x h := by
    left
    rw [if_neg (not_lt.2 (le_trans (by norm_num) h.le)), if_neg (not_le.2 h)]
  pow10_normal x h1 h2 := by rw [if_neg (not_lt.2 h1), if_pos h2]
  pow10_tiny x h := ⟨0, by rw [if_pos h], le_rfl, by positivity⟩

/-- Parameters at the edge of their bounds: a steep efficiency. -/
noncomputable def steepParams : DiffstarParams ℝ where
  lgmcrit := 13
  lgyAtMcrit := -10
  indxLo := 4
  indxHi := -1
  lgQt := 1
  qlglgdt := -0.5
  lgDrop := -1
  lgRejuv := -0.5

theorem steepParams_bounds : InFloatBounds steepParams := by
  constructor <;> norm_num [steepParams]

theorem steepParams_float : float32.fl steepParams.lgmcrit = steepParams.lgmcrit ∧ float32.fl steepParams.lgyAtMcrit = steepParams.lgyAtMcrit ∧
    float32.fl steepParams.indxLo = steepParams.indxLo ∧ float32.fl steepParams.indxHi = steepParams.indxHi ∧ float32.fl steepParams.lgQt = steepParams.lgQt ∧
    float32.fl steepParams.lgDrop = steepParams.lgDrop := by
  have h := fun m (hm : m < 2 ^ 24) => by simpa using float32_exact m hm 0
  unfold steepParams
  dsimp only
  refine ⟨h 13 (by norm_num), ?_, h 4 (by norm_num), ?_, float32.one, ?_⟩
  · rw [float32.neg]
    exact congrArg _ (h 10 (by norm_num))
  · rw [float32.neg]
    exact congrArg _ float32.one
  · rw [float32.neg]
    exact congrArg _ float32.one

/-- C156. Underflow does happen: in a halo of one solar mass the main sequence star formation rate is zero if small results are flushed, though its
exact value is positive. Only the floor that the code applies to the star formation rate hides this. -/
theorem C156_underflow {L : Rounding.MathLib} (hL : Accurate L) :
    (flushing float32 L).sfhMsKernel (fun (_ : Unit) _ _ => 0) 1 () steepParams.ms 1 0.16 = some 0 ∧
      0 < float32.sfhMsKernel L (fun (_ : Unit) _ _ => 0) 1 () steepParams.ms 1 0.16 := by
  have e1 := effFl_close float32 le_rfl hL.exp steepParams steepParams_bounds 0 (by norm_num [steepParams])
  have e2 : msLogEfficiency steepParams 0 ≤ -50 := by
    unfold msLogEfficiency steepParams
    dsimp only
    have h := Real.add_one_le_exp (-(9 * ((0 : ℝ) - 13)))
    generalize Real.exp (-(9 * ((0 : ℝ) - 13))) = E at *
    have : -0.1 ≤ (-1 - 4) / (1 + E) := by
      rw [le_div_iff₀ (by norm_num at h; linarith)]
      norm_num at h ⊢; linarith
    norm_num at this ⊢
    linarith
  have rel : ∀ x, 0.999 * (10 : ℝ) ^ x ≤ L.pow10 x ∧ L.pow10 x ≤ 1.001 * (10 : ℝ) ^ x := by
    intro x
    have h := abs_le.1 (hL.pow10 x)
    have := Real.rpow_pos_of_pos (show (0 : ℝ) < 10 by norm_num) x
    constructor <;> linarith [h.1, h.2]
  have m1 := rel 0
  rw [Real.rpow_zero] at m1
  have exp0 : ∀ x, 0 ≤ L.exp x := by
    intro x
    have h := abs_le.1 (hL.exp x)
    have := Real.exp_pos x
    linarith [h.1]
  have zero : float32.fl 0 = 0 := float32.fl_zero
  have es := machine_sfrEffPlaw (flushing float32 L) le_rfl float32_absorbs exp0 steepParams steepParams_bounds steepParams_float.1 steepParams_float.2.1
    steepParams_float.2.2.1 steepParams_float.2.2.2.1 0 zero (by norm_num [steepParams]) steepParams.indxLo (Sim.refl (by norm_num [steepParams]))
  unfold Machine.sfhMsKernel Rounding.sfhMsKernel
  dsimp only [DiffstarParams.ms]
  generalize float32.sfrEffPlaw L.exp 0 steepParams.lgmcrit steepParams.lgyAtMcrit steepParams.indxLo steepParams.indxHi = x at *
  have x1 : x ≤ ((-45 : ℤ) : ℝ) := by
    have := (abs_le.1 e1).2
    push_cast
    norm_num at this
    linarith
  have x2 := Real.rpow_le_rpow_of_exponent_le (show (1 : ℝ) ≤ 10 by norm_num) x1
  rw [Real.rpow_intCast] at x2
  have x3 : L.pow10 x < 2 ^ (-126 : ℤ) := by
    have := (rel x).2
    norm_num at x2 this ⊢
    linarith
  have x4 := Real.rpow_pos_of_pos (show (0 : ℝ) < 10 by norm_num) x
  have x5 : 0 < L.pow10 x := by linarith [(rel x).1]
  have g := fl_within float32 le_rfl (x := 0.16 * L.pow10 0) (by linarith [m1.1])
  have g0 : 0 < float32.fl (0.16 * L.pow10 0) := by linarith [m1.1, g.1]
  constructor
  · have p0 : (flushing float32 L).pow10 0 = some (L.pow10 0) := machine_pow _ (by norm_num at *; linarith) (by norm_num at *; linarith)
    have p1 : (flushing float32 L).fl (0.16 * L.pow10 0) = some (float32.fl (0.16 * L.pow10 0)) :=
      machine_normal _ (by norm_num at *; linarith) (by norm_num at *; linarith)
    have p2 : (flushing float32 L).pow10 x = some 0 := by
      show (if _ then _ else _) = _
      rw [if_pos x3]
    rw [p0, Option.bind_some, p1, Option.bind_some, es, Option.bind_some, p2, Option.bind_some, mul_zero, (flushing float32 L).fl_zero]
  · have h : 0 < float32.fl (0.16 * L.pow10 0) * L.pow10 x := mul_pos g0 x5
    linarith [(fl_within float32 le_rfl h.le).1]

theorem pow10_tiny_rounded (x : ℝ) (hx : |x| ≤ 1 / 10 ^ 17) : float32.fl ((10 : ℝ) ^ x) = 1 := by
  have l1 : Real.log 10 ≤ 9 := (Real.log_le_sub_one_of_pos (by norm_num)).trans (by norm_num)
  have l0 : 0 ≤ Real.log 10 := Real.log_nonneg (by norm_num)
  have a : |Real.log 10 * x| ≤ 9 / 10 ^ 17 := by
    rw [abs_mul, abs_of_nonneg l0]
    exact (mul_le_mul l1 hx (abs_nonneg _) (by norm_num)).trans (by norm_num)
  have b := Real.abs_exp_sub_one_le (a.trans (by norm_num))
  rw [Real.rpow_def_of_pos (by norm_num)]
  have := float32_absorbs 1 (Real.exp (Real.log 10 * x) - 1) float32.one (by
    rw [abs_one]
    norm_num at a b ⊢
    linarith)
  rwa [add_sub_cancel] at this

/-- The hypotheses are met by the halo that underflows. -/
example : ∃ (L : Rounding.MathLib) (gal : GalHistory (List ℝ)), Accurate L ∧ FloatInputs float32 L steepParams ∧
    (flushing float32 L).calcSfhSinglegalSmh (fun (_ : Unit) _ _ => 0) steepParams () [1, 5, 13.8] 1 0.16 = some gal ∧
      (flushing float32 L).sfhMsKernel (fun (_ : Unit) _ _ => 0) 1 () steepParams.ms 1 0.16 = some 0 := by
  have f : FloatInputs float32 ⟨fun x => float32.fl (Real.exp x), fun x => float32.fl ((10 : ℝ) ^ x), fun x => float32.fl (Real.logb 10 x)⟩ steepParams :=
    ⟨steepParams_float.1, steepParams_float.2.1, steepParams_float.2.2.1, steepParams_float.2.2.2.1, steepParams_float.2.2.2.2.1, steepParams_float.2.2.2.2.2,
      fun t => float32.idem _, pow10_tiny_rounded⟩
  exact ⟨_, _, accurate_rounded, f, C156_no_effect _ accurate_rounded _ _ steepParams_bounds f () _ 1 0.16 (by norm_num)
    (by
      intro t ht
      simp only [List.mem_cons, List.not_mem_nil, or_false] at ht
      rcases ht with rfl | rfl | rfl <;> norm_num)
    (by norm_num) (by norm_num) (fun _ _ => float32.fl_zero) (fun _ _ => by norm_num), (C156_underflow accurate_rounded).1⟩

end Diffstar.Props
