import Verif.Props.RoundRangeSim

/-! Helper lemmas for C156: the exponents of the star formation rate with a limited range of exponents. -/

namespace Diffstar.Props

open Diffstar Diffstar.Spec

theorem float32_absorbs_pos {a e : ℝ} (h0 : 0 < a) (ha : float32.fl a = a) (he : |e| ≤ a / 2 ^ 26) : float32.fl (a + e) = a := by
  have l1 := Int.zpow_log_le_self (b := 2) (r := a) (by norm_num) h0
  have l2 := Int.lt_zpow_succ_log_self (b := 2) (by norm_num) a
  have rep : ∃ (m : ℕ) (k : ℤ), a = m * 2 ^ k ∧ 2 ^ 23 * (2 : ℝ) ^ k ≤ a ∧ a < 2 ^ 24 * 2 ^ k := by
    have hr : posRound 24 a = a := by
      have : float32.fl a = posRound 24 a := ieee_pos h0
      rw [← this, ha]
    have hu := ulp_pos 24 a
    have hn : 0 ≤ roundEven (a / ulp 24 a) := by
      have := roundEven_mono (a := ((0 : ℤ) : ℝ)) (b := a / ulp 24 a) (by push_cast; positivity)
      rwa [roundEven_int] at this
    obtain ⟨m, hm⟩ := Int.eq_ofNat_of_zero_le hn
    refine ⟨m, Int.log 2 a + 1 - 24, ?_, ?_, ?_⟩
    · unfold posRound at hr
      rw [hm] at hr
      exact hr.symm
    · refine le_trans (le_of_eq ?_) l1
      push_cast
      rw [show ((2 : ℝ) ^ 23) = 2 ^ (23 : ℤ) by norm_num, ← zpow_add₀ (by norm_num)]
      congr 1
      ring
    · refine lt_of_lt_of_le l2 (le_of_eq ?_)
      push_cast
      rw [show ((2 : ℝ) ^ 24) = 2 ^ (24 : ℤ) by norm_num, ← zpow_add₀ (by norm_num)]
      congr 1
      ring
  obtain ⟨m, k, e1, e2, e3⟩ := rep
  have hk : (0 : ℝ) < 2 ^ k := by positivity
  have b := abs_le.1 he
  have m1 : m ≤ 2 ^ 24 - 1 := by
    have : (m : ℝ) < ((2 ^ 24 : ℕ) : ℝ) := by
      rw [e1] at e3
      have := lt_of_mul_lt_mul_right e3 hk.le
      norm_num at this ⊢
      exact_mod_cast this
    have : m < 2 ^ 24 := by exact_mod_cast this
    omega
  have m1' : (m : ℝ) ≤ 2 ^ 24 - 1 := by
    have : (m : ℝ) ≤ ((2 ^ 24 - 1 : ℕ) : ℝ) := by exact_mod_cast m1
    norm_num at this ⊢
    linarith
  have a1 : a ≤ 2 ^ 24 * 2 ^ k - 2 ^ k := by
    rw [e1]
    nlinarith
  have ee : a / 2 ^ 26 < 2 ^ k / 4 := by
    rw [div_lt_div_iff₀ (by norm_num) (by norm_num)]
    norm_num at e3 ⊢
    linarith
  rcases le_or_gt (2 ^ 23 * (2 : ℝ) ^ k) (a + e) with h | h
  · have := float32_eq (x := a + e) m k h (by linarith [b.2]) (by
      rw [← e1, show a + e - a = e by ring]
      linarith)
    rw [this, ← e1]
  · have m2 : m = 2 ^ 23 := by
      have h1 : (m : ℝ) * 2 ^ k < (2 ^ 23 + 1) * 2 ^ k := by rw [← e1]; linarith [b.1]
      have h2 : (m : ℝ) < ((2 ^ 23 + 1 : ℕ) : ℝ) := by
        have := lt_of_mul_lt_mul_right h1 hk.le
        norm_num at this ⊢
        exact_mod_cast this
      have h3 : m < 2 ^ 23 + 1 := by exact_mod_cast h2
      have h4 : ((2 ^ 23 : ℕ) : ℝ) ≤ m := by
        rw [e1] at e2
        have := le_of_mul_le_mul_right e2 hk
        norm_num at this ⊢
        exact_mod_cast this
      have h5 : 2 ^ 23 ≤ m := by exact_mod_cast h4
      omega
    have kk : (2 : ℝ) ^ k = 2 * 2 ^ (k - 1) := by
      rw [zpow_sub_one₀ (by norm_num)]
      ring
    have ha' : a = 2 ^ 24 * 2 ^ (k - 1) := by
      rw [e1, m2, kk]
      push_cast
      ring
    have := float32_eq (x := a + e) (2 ^ 24) (k - 1) (by rw [kk] at ee; norm_num at *; linarith [b.1]) (by rw [kk] at h; norm_num at *; linarith) (by
      rw [show ((2 ^ 24 : ℕ) : ℝ) = 2 ^ 24 by norm_num, ← ha', show a + e - a = e by ring]
      rw [ha'] at he
      have : (0 : ℝ) < 2 ^ (k - 1) := by positivity
      norm_num at he ⊢
      linarith)
    rw [this, show ((2 ^ 24 : ℕ) : ℝ) = 2 ^ 24 by norm_num]
    exact ha'.symm

/-- Single precision. -/
theorem float32_absorbs : Absorbs float32 := by
  intro a e ha he
  rcases lt_trichotomy a 0 with h | h | h
  · rw [abs_of_neg h] at he
    have := float32_absorbs_pos (a := -a) (e := -e) (by linarith) (by rw [float32.neg, ha]) (by rw [abs_neg]; exact he)
    rw [show -a + -e = -(a + e) by ring, float32.neg] at this
    linarith
  · subst h
    rw [abs_zero, zero_div] at he
    rw [abs_nonpos_iff.1 he, add_zero, ha]
  · rw [abs_of_pos h] at he
    exact float32_absorbs_pos h ha he

section

variable {R : Rounding} {L : Rounding.MathLib} (A : Machine R L) (hu : R.u ≤ 2 ^ (-24 : ℤ)) (hR : Absorbs R)

include hu hR in
/-- The logistic function. -/
theorem machine_nnSigmoid (he : ∀ x, 0 ≤ L.exp x) (x : ℝ) : ∃ s, A.nnSigmoid x = some s ∧ Sim 2 2 s (R.nnSigmoid L.exp x) := by
  have one : R.fl 1 = 1 := R.one
  unfold Machine.nnSigmoid Rounding.nnSigmoid
  have e0 := he (-x)
  generalize hE : L.exp (-x) = E at *
  have s0 := (fl_within R hu (x := 1 + E) (by linarith))
  have s1 : 1 ≤ R.fl (1 + E) := by
    have := R.mono (show (1 : ℝ) ≤ 1 + E by linarith)
    rwa [one] at this
  -- the denominator
  have den : ((A.exp (-x)).bind fun e => A.fl (1 + e)) = some (R.fl (1 + E)) ∨
      (((A.exp (-x)).bind fun e => A.fl (1 + e)) = none ∧ 2 ^ (127 : ℤ) ≤ 1 + E) := by
    have fin : A.exp (-x) = some E → ((A.exp (-x)).bind fun e => A.fl (1 + e)) = some (R.fl (1 + E)) ∨
        (((A.exp (-x)).bind fun e => A.fl (1 + e)) = none ∧ 2 ^ (127 : ℤ) ≤ 1 + E) := by
      intro h
      rw [h, Option.bind_some]
      have habs : |1 + E| = 1 + E := abs_of_nonneg (by linarith)
      rcases le_or_gt (1 + E) (2 ^ (127 : ℤ)) with g | g
      · left
        exact A.fl_normal _ (by rw [habs]; exact le_trans (by norm_num) (show (1 : ℝ) ≤ 1 + E by linarith)) (by rw [habs]; exact g)
      · rcases A.fl_large (1 + E) (by rw [habs]; exact g) with h | h
        · exact .inr ⟨h, g.le⟩
        · exact .inl h
    rcases lt_or_ge E (2 ^ (-126 : ℤ)) with t | t
    · left
      obtain ⟨y, y1, y2, y3⟩ := A.exp_tiny (-x) (by rw [hE]; exact t)
      rw [y1, Option.bind_some]
      have r1 : R.fl (1 + y) = 1 := hR 1 y one (by rw [abs_of_nonneg y2, abs_one]; exact y3.trans (by norm_num))
      have r2 : R.fl (1 + E) = 1 := hR 1 E one (by rw [abs_of_nonneg e0, abs_one]; exact t.le.trans (by norm_num))
      have := A.fl_normal (1 + y) (by rw [abs_of_nonneg (by linarith)]; norm_num at *; linarith)
        (by rw [abs_of_nonneg (by linarith)]; norm_num at *; linarith)
      rw [this, r1, r2]
    · rcases le_or_gt E (2 ^ (127 : ℤ)) with g | g
      · exact fin (by rw [A.exp_normal (-x) (by rw [hE]; exact t) (by rw [hE]; exact g), hE])
      · rcases A.exp_large (-x) (by rw [hE]; exact g) with h | h
        · exact .inr ⟨by rw [h]; rfl, by linarith⟩
        · exact fin (by rw [h, hE])
  rcases den with d | ⟨d, g⟩
  · rw [d]
    have q : |1 / R.fl (1 + E)| ≤ 1 := by
      rw [abs_of_nonneg (by positivity), div_le_one (by linarith)]
      exact s1
    obtain ⟨w, w1, w2⟩ := sim_fl A hu (Sim.refl (k := 1) q) le_rfl (by norm_num) (by norm_num)
    exact ⟨w, w1, w2.mono (by norm_num) (by norm_num)⟩
  · rw [d]
    refine ⟨0, rfl, .inr ⟨by rw [abs_zero]; positivity, ?_⟩, ?_⟩
    · refine (fl_abs_le R hu _).trans ?_
      rw [abs_of_nonneg (by positivity), mul_one_div, div_le_iff₀ (by linarith)]
      have := s0.1
      norm_num at g this ⊢
      linarith
    · refine (fl_abs_le R hu _).trans ?_
      rw [abs_of_nonneg (by positivity), mul_one_div, div_le_iff₀ (by linarith)]
      linarith

include hR in
/-- Differences of floating-point numbers do not underflow. -/
theorem machine_sub {a b : ℝ} (ha : R.fl a = a) (hb : R.fl b = b) (hb1 : 0.1 ≤ |b|) (hb2 : |a - b| ≤ 10 ^ 30) :
    A.fl (a - b) = some (R.fl (a - b)) ∧ (a - b = 0 ∨ 1 / 10 ^ 9 ≤ |a - b|) := by
  have hb' : R.fl (-b) = -b := by rw [R.neg, hb]
  rcases float_gap hR hb' ha with g | g
  · have e : a - b = 0 := by linarith
    rw [e]
    have : R.fl 0 = 0 := R.fl_zero
    exact ⟨by rw [A.fl_zero, this], .inl rfl⟩
  · rw [abs_neg, show -b + a = a - b by ring] at g
    have g' : 1 / 10 ^ 9 ≤ |a - b| := by norm_num at *; linarith
    exact ⟨A.fl_normal _ (le_trans (by norm_num) g') (hb2.trans (by norm_num)), .inr g'⟩

include hu hR in
/-- The logistic function at a multiple of a difference of floating-point numbers. -/
theorem machine_logistic (he : ∀ x, 0 ≤ L.exp x) {x x0 k : ℝ} (hx : R.fl x = x) (hx0 : R.fl x0 = x0) (h0 : 0.1 ≤ |x0|) (hd : |x - x0| ≤ 10 ^ 30)
    (hk1 : 0.1 ≤ |k|) (hk2 : |k| ≤ 10) : A.fl (x - x0) = some (R.fl (x - x0)) ∧
      ∃ s, ((A.fl (k * R.fl (x - x0))).bind fun arg => A.nnSigmoid arg) = some s ∧ Sim 2 2 s (R.nnSigmoid L.exp (R.fl (k * R.fl (x - x0)))) := by
  obtain ⟨d1, d2⟩ := machine_sub A hR hx hx0 h0 hd
  have d3 := fl_abs_le R hu (x - x0)
  have z : R.fl 0 = 0 := R.fl_zero
  have k1 : A.fl (k * R.fl (x - x0)) = some (R.fl (k * R.fl (x - x0))) := by
    rcases d2 with e | e
    · rw [e, z, mul_zero, A.fl_zero, z]
    · have lo : 0.999 * |x - x0| ≤ |R.fl (x - x0)| := by
        have h := R.err (x - x0)
        have h' := abs_sub_abs_le_abs_sub (x - x0) (R.fl (x - x0))
        rw [abs_sub_comm] at h
        have : R.u ≤ 0.001 := hu.trans (by norm_num)
        nlinarith [abs_nonneg (x - x0)]
      refine A.fl_normal _ ?_ ?_
      · rw [abs_mul]
        have h1 : 0.9 / 10 ^ 9 ≤ |R.fl (x - x0)| := by norm_num at *; linarith
        have := mul_le_mul hk1 h1 (by norm_num) (abs_nonneg _)
        norm_num at this ⊢
        linarith
      · rw [abs_mul]
        have h1 : |R.fl (x - x0)| ≤ 2 * 10 ^ 30 := by norm_num at *; linarith
        have := mul_le_mul hk2 h1 (abs_nonneg _) (by norm_num)
        norm_num at this ⊢
        linarith
  refine ⟨d1, ?_⟩
  rw [k1, Option.bind_some]
  exact machine_nnSigmoid A hu hR he _

include hu hR in
/-- The efficiency. -/
theorem machine_sfrEffPlaw (he : ∀ x, 0 ≤ L.exp x) (p : DiffstarParams ℝ) (hp : InFloatBounds p) (h1 : R.fl p.lgmcrit = p.lgmcrit)
    (h2 : R.fl p.lgyAtMcrit = p.lgyAtMcrit) (h3 : R.fl p.indxLo = p.indxLo) (h4 : R.fl p.indxHi = p.indxHi) (m : ℝ) (hm : R.fl m = m)
    (hmc : |m - p.lgmcrit| ≤ 14) (lo : ℝ) (hlo : Sim 1000 10 lo p.indxLo) :
    A.sfrEffPlaw m p.lgmcrit p.lgyAtMcrit lo p.indxHi = some (R.sfrEffPlaw L.exp m p.lgmcrit p.lgyAtMcrit p.indxLo p.indxHi) := by
  have hk : INDX_K = 9 := by norm_num [INDX_K]
  have hc : 0.1 ≤ |p.lgmcrit| := by rw [abs_of_nonneg (by linarith [hp.lgmcrit.1])]; linarith [hp.lgmcrit.1]
  obtain ⟨d1, s, s1, s2⟩ := machine_logistic A hu hR he (k := INDX_K) hm h1 hc (hmc.trans (by norm_num)) (by rw [hk]; norm_num) (by rw [hk]; norm_num)
  have d3 := fl_abs_le R hu (m - p.lgmcrit)
  have n : R.fl (-p.indxLo) = -p.indxLo := by rw [R.neg, h3]
  obtain ⟨hdM, g1, g2⟩ := sim_add A hu hR (k := 1000) (B := 10) (y := p.indxHi) (x := p.indxHi)
    (Sim.refl (by rw [abs_of_nonpos hp.indxHi.2]; linarith [hp.indxHi.1])) hlo.neg h4 n (by norm_num) (by norm_num) (by norm_num)
  rw [← sub_eq_add_neg] at g1 g2
  obtain ⟨r, r1, r2⟩ := sim_fl A hu (g2.mul s2 (by norm_num) (by norm_num) (by norm_num) (by norm_num) (by norm_num) (by norm_num))
    (by norm_num) (by norm_num) (by norm_num)
  obtain ⟨sl, sl1, sl2⟩ := sim_add A hu hR (k := 2 * (2 ^ 28 * 1000 * 2 + 2 * (4 * 10))) (B := 2 * (4 * 10 * 2))
    (hlo.mono (by norm_num) (by norm_num)) r2 h3 (R.idem _) (by norm_num) (by norm_num) (by norm_num)
  have dS : Sim 1 15 (R.fl (m - p.lgmcrit)) (R.fl (m - p.lgmcrit)) := Sim.refl (by norm_num at *; linarith)
  obtain ⟨q, q1, q2⟩ := sim_fl A hu (sl2.mul dS (by norm_num) (by norm_num) (by norm_num) (by norm_num) (by norm_num) (by norm_num))
    (by norm_num) (by norm_num) (by norm_num)
  have fin := sim_absorb A hR q2 (R.idem _) h2 (by
      rw [abs_of_nonpos (by linarith [hp.lgyAtMcrit.2])]
      linarith [hp.lgyAtMcrit.2]) (by
      rw [abs_of_nonpos (by linarith [hp.lgyAtMcrit.2])]
      linarith [hp.lgyAtMcrit.1]) (by norm_num) (by norm_num)
  rw [Option.bind_eq_some_iff] at s1
  obtain ⟨arg, s3, s4⟩ := s1
  unfold Machine.sfrEffPlaw Machine.sigmoid Rounding.sfrEffPlaw Rounding.sigmoid
  dsimp only
  rw [g1, Option.bind_some, d1, Option.bind_some, s3, Option.bind_some, s4, Option.bind_some, r1, Option.bind_some, sl1, Option.bind_some,
    Option.bind_some, q1, Option.bind_some, fin]

include hu hR in
/-- The polynomial of the triweight kernel. -/
theorem machine_twPoly (half : R.fl (1 / 2) = 1 / 2) {y x : ℝ} (h : Sim 2 3 y x) :
    A.twPoly y = some (R.twPoly x) ∧ |R.twPoly x| ≤ 10 ^ 6 := by
  obtain ⟨y2, a2, b2⟩ := sim_fl A hu (h.mul h (by norm_num) (by norm_num) (by norm_num) (by norm_num) (by norm_num) (by norm_num))
    (by norm_num) (by norm_num) (by norm_num)
  replace b2 := b2.mono (k' := 24) (B' := 18) (by norm_num) (by norm_num)
  obtain ⟨y4, a4, b4⟩ := sim_fl A hu (b2.mul b2 (by norm_num) (by norm_num) (by norm_num) (by norm_num) (by norm_num) (by norm_num))
    (by norm_num) (by norm_num) (by norm_num)
  replace b4 := b4.mono (k' := 1800) (B' := 650) (by norm_num) (by norm_num)
  obtain ⟨y3, a3, b3⟩ := sim_fl A hu (h.mul b2 (by norm_num) (by norm_num) (by norm_num) (by norm_num) (by norm_num) (by norm_num))
    (by norm_num) (by norm_num) (by norm_num)
  replace b3 := b3.mono (k' := 220) (B' := 110) (by norm_num) (by norm_num)
  obtain ⟨y5, a5, b5⟩ := sim_fl A hu (h.mul b4 (by norm_num) (by norm_num) (by norm_num) (by norm_num) (by norm_num) (by norm_num))
    (by norm_num) (by norm_num) (by norm_num)
  replace b5 := b5.mono (k' := 14000) (B' := 4000) (by norm_num) (by norm_num)
  obtain ⟨y7, a7, b7⟩ := sim_fl A hu (b3.mul b4 (by norm_num) (by norm_num) (by norm_num) (by norm_num) (by norm_num) (by norm_num))
    (by norm_num) (by norm_num) (by norm_num)
  replace b7 := b7.mono (k' := 700000) (B' := 150000) (by norm_num) (by norm_num)
  obtain ⟨c7, d7, e7⟩ := sim_fl A hu (b7.const_mul (c := -5) (C := 5) (by norm_num) (by norm_num) (by norm_num)) (by norm_num) (by norm_num) (by norm_num)
  have q7 := (e7.const_mul (c := 1 / 69984) (C := 1 / 69984) (by rw [abs_of_nonneg (by norm_num)]) (by norm_num) (by norm_num)).mono (k' := 200) (B' := 1000)
    (by norm_num) (by norm_num)
  rw [one_div_mul_eq_div, one_div_mul_eq_div] at q7
  obtain ⟨f7, g7, h7⟩ := sim_fl A hu q7 (by norm_num) (by norm_num) (by norm_num)
  obtain ⟨c5, d5, e5⟩ := sim_fl A hu (b5.const_mul (c := 7) (C := 7) (by norm_num) (by norm_num) (by norm_num)) (by norm_num) (by norm_num) (by norm_num)
  have q5 := (e5.const_mul (c := 1 / 2592) (C := 1 / 2592) (by rw [abs_of_nonneg (by norm_num)]) (by norm_num) (by norm_num)).mono (k' := 200) (B' := 1000)
    (by norm_num) (by norm_num)
  rw [one_div_mul_eq_div, one_div_mul_eq_div] at q5
  obtain ⟨f5, g5, h5⟩ := sim_fl A hu q5 (by norm_num) (by norm_num) (by norm_num)
  obtain ⟨c3, d3, e3⟩ := sim_fl A hu (b3.const_mul (c := 35) (C := 35) (by norm_num) (by norm_num) (by norm_num)) (by norm_num) (by norm_num) (by norm_num)
  have q3 := (e3.const_mul (c := 1 / 864) (C := 1 / 864) (by rw [abs_of_nonneg (by norm_num)]) (by norm_num) (by norm_num)).mono (k' := 200) (B' := 1000)
    (by norm_num) (by norm_num)
  rw [one_div_mul_eq_div, one_div_mul_eq_div] at q3
  obtain ⟨f3, g3, h3⟩ := sim_fl A hu q3 (by norm_num) (by norm_num) (by norm_num)
  obtain ⟨c1, d1, e1⟩ := sim_fl A hu (h.const_mul (c := 35) (C := 35) (by norm_num) (by norm_num) (by norm_num)) (by norm_num) (by norm_num) (by norm_num)
  have q1 := (e1.const_mul (c := 1 / 96) (C := 1 / 96) (by rw [abs_of_nonneg (by norm_num)]) (by norm_num) (by norm_num)).mono (k' := 200) (B' := 1000)
    (by norm_num) (by norm_num)
  rw [one_div_mul_eq_div, one_div_mul_eq_div] at q1
  obtain ⟨f1, g1, h1⟩ := sim_fl A hu q1 (by norm_num) (by norm_num) (by norm_num)
  obtain ⟨s1, t1, u1⟩ := sim_add A hu hR h7 h5 (R.idem _) (R.idem _) (by norm_num) (by norm_num) (by norm_num)
  have n3 : R.fl (-R.fl (R.fl (35 * R.fl (x * R.fl (x * x))) / 864)) = -R.fl (R.fl (35 * R.fl (x * R.fl (x * x))) / 864) := by rw [R.neg, R.idem]
  obtain ⟨s2, t2, u2⟩ := sim_add A hu hR u1 (h3.neg.mono (by norm_num) (by norm_num)) (R.idem _) n3 (by norm_num) (by norm_num) (by norm_num)
  rw [← sub_eq_add_neg] at t2 u2
  obtain ⟨s3, t3, u3⟩ := sim_add A hu hR u2 (h1.mono (by norm_num) (by norm_num)) (R.idem _) (R.idem _) (by norm_num) (by norm_num) (by norm_num)
  have t4 := sim_absorb A hR (c := 1 / 2) u3 (R.idem _) half (by rw [abs_of_nonneg (by norm_num)]) (by rw [abs_of_nonneg (by norm_num)]; norm_num)
    (by norm_num) (by norm_num)
  rw [add_comm (1 / 2) s3, add_comm (1 / 2 : ℝ)] at t4
  constructor
  · unfold Machine.twPoly Rounding.twPoly Rounding.pow7 Rounding.pow5 Rounding.pow3
    rw [a2, Option.bind_some, a4, Option.bind_some, a3, Option.bind_some, a5, Option.bind_some, a7, Option.bind_some, d7, Option.bind_some, g7, Option.bind_some,
      d5, Option.bind_some, g5, Option.bind_some, d3, Option.bind_some, g3, Option.bind_some, d1, Option.bind_some, g1, Option.bind_some,
      t1, Option.bind_some, t2, Option.bind_some, t3, Option.bind_some, t4]
  · unfold Rounding.twPoly Rounding.pow7 Rounding.pow5 Rounding.pow3
    refine (fl_abs_le R hu _).trans ?_
    have := abs_add_le (R.fl (R.fl (R.fl (R.fl (R.fl (-5 * R.fl (R.fl (x * R.fl (x * x)) * R.fl (R.fl (x * x) * R.fl (x * x)))) / 69984) +
      R.fl (R.fl (7 * R.fl (x * R.fl (R.fl (x * x) * R.fl (x * x)))) / 2592)) - R.fl (R.fl (35 * R.fl (x * R.fl (x * x))) / 864)) +
      R.fl (R.fl (35 * x) / 96))) (1 / 2)
    have b := u3.2
    rw [abs_of_nonneg (show (0 : ℝ) ≤ 1 / 2 by norm_num)] at this
    norm_num at this b ⊢
    linarith

include hu hR in
theorem machine_jaxTw (half : R.fl (1 / 2) = 1 / 2) {y x : ℝ} (h : Sim 2 (10 ^ 20) y x) :
    A.jaxTw y = some (R.jaxTw x) ∧ |R.jaxTw x| ≤ 10 ^ 6 := by
  unfold Machine.jaxTw Rounding.jaxTw
  have c1 : y > 3 ↔ x > 3 := by
    rcases h.1 with e | ⟨e1, e2⟩
    · rw [e]
    · have := (abs_le.1 e1).2
      have := (abs_le.1 e2).2
      norm_num at *
      constructor <;> intro _ <;> linarith
  have c2 : y < -3 ↔ x < -3 := by
    rcases h.1 with e | ⟨e1, e2⟩
    · rw [e]
    · have := (abs_le.1 e1).1
      have := (abs_le.1 e2).1
      norm_num at *
      constructor <;> intro _ <;> linarith
  rw [if_congr c1 rfl rfl, if_congr c2 rfl rfl]
  by_cases g1 : x > 3
  · rw [if_pos g1, if_pos g1]
    norm_num
  · by_cases g2 : x < -3
    · rw [if_neg g1, if_neg g1, if_pos g2, if_pos g2]
      norm_num
    · rw [if_neg g1, if_neg g1, if_neg g2, if_neg g2]
      exact machine_twPoly A hu hR half ⟨h.1, abs_le.2 ⟨not_lt.1 g2, not_lt.1 g1⟩⟩

include hu hR in
/-- The exponent of the quenching function. -/
theorem machine_jaxPartial (half : R.fl (1 / 2) = 1 / 2) {x m h f1 f2 g2 : ℝ} (hx : R.fl x = x) (hm : R.fl m = m) (hf1 : R.fl f1 = f1)
    (hm1 : 0.1 ≤ |m|) (hxm : |x - m| ≤ 10) (hh1 : 1 / 10 ^ 6 ≤ h) (hh2 : h ≤ 10) (b1 : |f1| ≤ 3) (s2 : Sim 2 6 g2 f2) :
    ∃ z, A.jaxPartialUTwKern x m h f1 g2 = some z ∧ Sim (10 ^ 20) (10 ^ 20) z (R.jaxPartialUTwKern x m h f1 f2) := by
  obtain ⟨d1, d2⟩ := machine_sub A hR hx hm hm1 (hxm.trans (by norm_num))
  have z : R.fl 0 = 0 := R.fl_zero
  have h0 : 0 < h := lt_of_lt_of_le (by norm_num) hh1
  have y1 : A.fl (R.fl (x - m) / h) = some (R.fl (R.fl (x - m) / h)) := by
    rcases d2 with e | e
    · rw [e, z, zero_div, A.fl_zero, z]
    · have lo : 0.999 * |x - m| ≤ |R.fl (x - m)| := by
        have h := R.err (x - m)
        have h' := abs_sub_abs_le_abs_sub (x - m) (R.fl (x - m))
        rw [abs_sub_comm] at h
        have : R.u ≤ 0.001 := hu.trans (by norm_num)
        nlinarith [abs_nonneg (x - m)]
      have hi := fl_abs_le R hu (x - m)
      refine A.fl_normal _ ?_ ?_
      · rw [abs_div, abs_of_pos h0, le_div_iff₀ h0]; norm_num at *; linarith
      · rw [abs_div, abs_of_pos h0, div_le_iff₀ h0]; norm_num at *; linarith
  have y2 : |R.fl (R.fl (x - m) / h)| ≤ 10 ^ 8 := by
    have hi := fl_abs_le R hu (x - m)
    refine (fl_abs_le R hu _).trans ?_
    rw [abs_div, abs_of_pos h0, ← mul_div_assoc, div_le_iff₀ h0]
    norm_num at *; linarith
  have y3 : R.fl (R.fl (R.fl (x - m) / h)) = R.fl (R.fl (x - m) / h) := R.idem _
  unfold Machine.jaxPartialUTwKern Rounding.jaxPartialUTwKern
  dsimp only
  rw [d1, Option.bind_some, y1, Option.bind_some]
  generalize R.fl (R.fl (x - m) / h) = y at *
  have p3 : |y + 3| ≤ 10 ^ 9 := (abs_add_le _ _).trans (by norm_num at *; linarith)
  have m3 : |y - 3| ≤ 10 ^ 9 := (abs_sub _ _).trans (by norm_num at *; linarith)
  obtain ⟨v, v1, v2⟩ := sim_fl A hu (Sim.refl (k := 1) p3) le_rfl (by norm_num) (by norm_num)
  obtain ⟨w, w1, w2⟩ := sim_fl A hu (Sim.refl (k := 1) m3) le_rfl (by norm_num) (by norm_num)
  obtain ⟨tv, tv'⟩ := machine_jaxTw A hu hR half (v2.mono (by norm_num) (by norm_num))
  obtain ⟨tw, tw'⟩ := machine_jaxTw A hu hR half (w2.mono (by norm_num) (by norm_num))
  split_ifs with c
  · rw [v1, Option.bind_some, tv, Option.bind_some]
    have s1 : Sim 1 3 f1 f1 := Sim.refl b1
    obtain ⟨r, r1, r2⟩ := sim_fl A hu (s1.mul (Sim.refl (k := 1) tv') (by norm_num) (by norm_num) (by norm_num) (by norm_num) (by norm_num) (by norm_num))
      (by norm_num) (by norm_num) (by norm_num)
    exact ⟨r, r1, r2.mono (by norm_num) (by norm_num)⟩
  · rw [w1, Option.bind_some, tw, Option.bind_some]
    obtain ⟨r, r1, r2⟩ := sim_fl A hu (s2.mul (Sim.refl (k := 1) tw') (by norm_num) (by norm_num) (by norm_num) (by norm_num) (by norm_num) (by norm_num))
      (by norm_num) (by norm_num) (by norm_num)
    have n : R.fl (-R.fl (f2 * R.jaxTw (R.fl (y - 3)))) = -R.fl (f2 * R.jaxTw (R.fl (y - 3))) := by rw [R.neg, R.idem]
    obtain ⟨q, q1, q2⟩ := sim_add A hu hR (Sim.refl (k := 10 ^ 7) (B := 10 ^ 8) (b1.trans (by norm_num))) (r2.neg.mono (by norm_num) (by norm_num)) hf1 n
      (by norm_num) (by norm_num) (by norm_num)
    rw [r1, Option.bind_some]
    rw [← sub_eq_add_neg] at q1 q2
    exact ⟨q, q1, q2.mono (by norm_num) (by norm_num)⟩

end

end Diffstar.Props
