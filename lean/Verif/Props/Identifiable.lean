import Verif.Props.Sfh
import Mathlib.Analysis.SpecialFunctions.Exp

/-!
C115: the parameters of a galaxy can be recovered from star formation histories.
-/

namespace Diffstar.Props

open Diffstar Diffstar.Spec Filter Topology

theorem lt_neg_mul_sigmoid {x : ℝ} (hx : x < 0) : |x / (1 + Real.exp (-(9 * x)))| ≤ 1 / |x| := by
  have h1 : 0 < -x := by linarith
  have e : -(9 * x) = 9 * -x := by ring
  rw [e, abs_div, abs_of_neg hx, abs_of_pos (by positivity), div_le_div_iff₀ (by positivity) h1]
  have q := Real.quadratic_le_exp_of_nonneg (x := 9 * -x) (by linarith)
  nlinarith

theorem neg_wing (p : DiffstarParams ℝ) {m : ℝ} (hm : m < p.lgmcrit) :
    |msLogEfficiency p m - (p.lgyAtMcrit + p.indxLo * (m - p.lgmcrit))| ≤ |p.indxHi - p.indxLo| / |m - p.lgmcrit| := by
  have e : msLogEfficiency p m - (p.lgyAtMcrit + p.indxLo * (m - p.lgmcrit)) =
      (p.indxHi - p.indxLo) * ((m - p.lgmcrit) / (1 + Real.exp (-(9 * (m - p.lgmcrit))))) := by
    unfold msLogEfficiency; ring
  rw [e, abs_mul, div_eq_mul_one_div |p.indxHi - p.indxLo|]
  exact mul_le_mul_of_nonneg_left (lt_neg_mul_sigmoid (by linarith)) (abs_nonneg _)

theorem pos_wing (p : DiffstarParams ℝ) {m : ℝ} (hm : p.lgmcrit < m) :
    |msLogEfficiency p m - (p.lgyAtMcrit + p.indxHi * (m - p.lgmcrit))| ≤ |p.indxHi - p.indxLo| / |m - p.lgmcrit| := by
  have h0 : 0 < m - p.lgmcrit := by linarith
  have e : msLogEfficiency p m - (p.lgyAtMcrit + p.indxHi * (m - p.lgmcrit)) =
      (p.indxHi - p.indxLo) * (-(m - p.lgmcrit) / (1 + Real.exp (-(9 * -(m - p.lgmcrit))))) := by
    unfold msLogEfficiency
    have : -(9 * -(m - p.lgmcrit)) = 9 * (m - p.lgmcrit) := by ring
    rw [this, Real.exp_neg]
    have := Real.exp_pos (9 * (m - p.lgmcrit))
    field_simp
    ring
  rw [e, abs_mul, div_eq_mul_one_div |p.indxHi - p.indxLo|]
  have := lt_neg_mul_sigmoid (x := -(m - p.lgmcrit)) (by linarith)
  rw [abs_neg] at this
  exact mul_le_mul_of_nonneg_left this (abs_nonneg _)

/-- A linear function that falls below `c / |m|` far out vanishes. -/
theorem line_zero {a b c m0 : ℝ} (h : ∀ m, m0 ≤ m → |a + b * m| ≤ c / m) : a = 0 ∧ b = 0 := by
  have hc : Tendsto (fun m : ℝ => c / m) atTop (𝓝 0) := tendsto_const_nhds.div_atTop tendsto_id
  have h1 : Tendsto (fun m : ℝ => a + b * m) atTop (𝓝 0) := by
    rw [tendsto_zero_iff_abs_tendsto_zero]
    refine tendsto_of_tendsto_of_tendsto_of_le_of_le' tendsto_const_nhds hc (Eventually.of_forall fun _ => abs_nonneg _) ?_
    filter_upwards [eventually_ge_atTop m0] with m hm using h m hm
  have h2 : Tendsto (fun m : ℝ => a + b * (m + 1)) atTop (𝓝 0) := h1.comp (tendsto_atTop_add_const_right _ 1 tendsto_id)
  have hb : b = 0 := by
    have h3 := h2.sub h1
    have e : (fun m : ℝ => a + b * (m + 1) - (a + b * m)) = fun _ => b := by funext m; ring
    rw [e, sub_zero] at h3
    exact tendsto_nhds_unique tendsto_const_nhds h3
  refine ⟨?_, hb⟩
  simp only [hb, zero_mul, add_zero] at h1
  exact tendsto_nhds_unique tendsto_const_nhds h1

theorem div_shift {c x m : ℝ} (hc : 0 ≤ c) (h : m / 2 ≤ x) (hm : 0 < m) : c / x ≤ 2 * c / m := by
  have hx : 0 < x := by linarith
  rw [div_le_div_iff₀ hx hm]
  nlinarith

theorem efficiency_inj {p p' : DiffstarParams ℝ} (hp : p.indxHi < p.indxLo)
    (h : ∀ m, msLogEfficiency p m = msLogEfficiency p' m) :
    p.lgmcrit = p'.lgmcrit ∧ p.lgyAtMcrit = p'.lgyAtMcrit ∧ p.indxLo = p'.indxLo ∧ p.indxHi = p'.indxHi := by
  set c1 := |p.indxHi - p.indxLo|
  set c2 := |p'.indxHi - p'.indxLo|
  have k1 : 0 ≤ c1 := abs_nonneg _
  have k2 : 0 ≤ c2 := abs_nonneg _
  have a1 := le_abs_self p.lgmcrit
  have a2 := le_abs_self p'.lgmcrit
  have a3 := neg_abs_le p.lgmcrit
  have a4 := neg_abs_le p'.lgmcrit
  have b1 := abs_nonneg p.lgmcrit
  have b2 := abs_nonneg p'.lgmcrit
  have lo := line_zero (a := p.lgyAtMcrit - p.indxLo * p.lgmcrit - (p'.lgyAtMcrit - p'.indxLo * p'.lgmcrit))
    (b := -(p.indxLo - p'.indxLo)) (c := 2 * c1 + 2 * c2) (m0 := 2 * |p.lgmcrit| + 2 * |p'.lgmcrit| + 1) (by
      intro m hm
      have hm0 : 0 < m := by linarith
      have w1 := neg_wing p (m := -m) (by linarith)
      have w2 := neg_wing p' (m := -m) (by linarith)
      have e1 : |-m - p.lgmcrit| = m + p.lgmcrit := by rw [abs_of_neg (by linarith)]; ring
      have e2 : |-m - p'.lgmcrit| = m + p'.lgmcrit := by rw [abs_of_neg (by linarith)]; ring
      rw [e1] at w1
      rw [e2] at w2
      have d1 := div_shift (c := c1) (x := m + p.lgmcrit) (m := m) k1 (by linarith) hm0
      have d2 := div_shift (c := c2) (x := m + p'.lgmcrit) (m := m) k2 (by linarith) hm0
      rw [h] at w1
      have t := abs_sub_le (p.lgyAtMcrit + p.indxLo * (-m - p.lgmcrit)) (msLogEfficiency p' (-m))
        (p'.lgyAtMcrit + p'.indxLo * (-m - p'.lgmcrit))
      rw [abs_sub_comm (p.lgyAtMcrit + p.indxLo * (-m - p.lgmcrit)) (msLogEfficiency p' (-m))] at t
      have e : p.lgyAtMcrit - p.indxLo * p.lgmcrit - (p'.lgyAtMcrit - p'.indxLo * p'.lgmcrit) + -(p.indxLo - p'.indxLo) * m =
          p.lgyAtMcrit + p.indxLo * (-m - p.lgmcrit) - (p'.lgyAtMcrit + p'.indxLo * (-m - p'.lgmcrit)) := by ring
      rw [e, add_div]
      linarith)
  have hi := line_zero (a := p.lgyAtMcrit - p.indxHi * p.lgmcrit - (p'.lgyAtMcrit - p'.indxHi * p'.lgmcrit))
    (b := p.indxHi - p'.indxHi) (c := 2 * c1 + 2 * c2) (m0 := 2 * |p.lgmcrit| + 2 * |p'.lgmcrit| + 1) (by
      intro m hm
      have hm0 : 0 < m := by linarith
      have w1 := pos_wing p (m := m) (by linarith)
      have w2 := pos_wing p' (m := m) (by linarith)
      rw [abs_of_pos (by linarith : 0 < m - p.lgmcrit)] at w1
      rw [abs_of_pos (by linarith : 0 < m - p'.lgmcrit)] at w2
      have d1 := div_shift (c := c1) (x := m - p.lgmcrit) (m := m) k1 (by linarith) hm0
      have d2 := div_shift (c := c2) (x := m - p'.lgmcrit) (m := m) k2 (by linarith) hm0
      rw [h] at w1
      have t := abs_sub_le (p.lgyAtMcrit + p.indxHi * (m - p.lgmcrit)) (msLogEfficiency p' m)
        (p'.lgyAtMcrit + p'.indxHi * (m - p'.lgmcrit))
      rw [abs_sub_comm (p.lgyAtMcrit + p.indxHi * (m - p.lgmcrit)) (msLogEfficiency p' m)] at t
      have e : p.lgyAtMcrit - p.indxHi * p.lgmcrit - (p'.lgyAtMcrit - p'.indxHi * p'.lgmcrit) + (p.indxHi - p'.indxHi) * m =
          p.lgyAtMcrit + p.indxHi * (m - p.lgmcrit) - (p'.lgyAtMcrit + p'.indxHi * (m - p'.lgmcrit)) := by ring
      rw [e, add_div]
      linarith)
  have l1 : p.indxLo = p'.indxLo := by linarith [lo.2]
  have l2 : p.indxHi = p'.indxHi := by linarith [hi.2]
  have l3 := lo.1
  have l4 := hi.1
  rw [← l1] at l3
  rw [← l2] at l4
  have l5 : (p.indxHi - p.indxLo) * (p.lgmcrit - p'.lgmcrit) = 0 := by linarith
  have l6 : p.lgmcrit = p'.lgmcrit := by
    rcases mul_eq_zero.1 l5 with h | h
    · linarith
    · linarith
  refine ⟨l6, ?_, l1, l2⟩
  rw [← l6] at l3
  linarith

theorem qExp_eq_drop_iff {x qt dt drop rejuv : ℝ} (hdt : 0 < dt) (h1 : drop < rejuv) (h2 : rejuv < 0)
    (h : qExp x qt dt drop rejuv = drop) : x = qt := by
  obtain ⟨s1, s2, s3, s4, -⟩ := C06_quenching_shape qt dt drop rejuv hdt h1.le h2.le
  have hq : quenchingKern x qt dt drop rejuv = quenchingKern qt qt dt drop rejuv := by
    rw [quenchingKern_eq, quenchingKern_eq, h, qExp_at]
  rcases lt_trichotomy x qt with hx | hx | hx
  · exfalso
    rcases le_total x (qt - dt / 2) with hl | hl
    · have := qExp_before (drop := drop) (rejuv := rejuv) hdt hl
      linarith
    · exact absurd hq (s3 (by linarith) ⟨hl, hx.le⟩ ⟨by linarith, le_rfl⟩ hx).ne'
  · exact hx
  · exfalso
    rcases le_total x (qt + dt / 2) with hl | hl
    · exact absurd hq (s4 h1 ⟨le_rfl, by linarith⟩ ⟨hx.le, hl⟩ hx).ne'
    · have := qExp_after (drop := drop) (rejuv := rejuv) hdt hl
      linarith

theorem quench_inj {qt dt drop rejuv qt' dt' drop' rejuv' : ℝ} (hdt : 0 < dt) (h1 : drop < rejuv) (h2 : rejuv < 0)
    (hdt' : 0 < dt') (h1' : drop' < rejuv') (h2' : rejuv' < 0)
    (h : ∀ x, qExp x qt dt drop rejuv = qExp x qt' dt' drop' rejuv') :
    qt = qt' ∧ dt = dt' ∧ drop = drop' ∧ rejuv = rejuv' := by
  have d1 : drop' ≤ drop := by
    have := qExp_ge_drop (lgt := qt) (qt := qt') (dt := dt') h1'.le h2'.le
    rwa [← h, qExp_at] at this
  have d2 : drop ≤ drop' := by
    have := qExp_ge_drop (lgt := qt') (qt := qt) (dt := dt) h1.le h2.le
    rwa [h, qExp_at] at this
  have d : drop = drop' := le_antisymm d2 d1
  have q : qt = qt' := by
    apply qExp_eq_drop_iff hdt' h1' h2'
    rw [← h, qExp_at, d]
  have r : rejuv = rejuv' := by
    have a := qExp_after (lgt := max (qt + dt / 2) (qt' + dt' / 2)) (drop := drop) (rejuv := rejuv) hdt (le_max_left _ _)
    have b := qExp_after (lgt := max (qt + dt / 2) (qt' + dt' / 2)) (drop := drop') (rejuv := rejuv') hdt' (le_max_right _ _)
    rw [h, b] at a
    exact a.symm
  have key : ∀ {a b : ℝ}, 0 < a → 0 < b → (∀ x, qExp x qt a drop rejuv = qExp x qt b drop rejuv) → b ≤ a := by
    intro a b ha hb hab
    by_contra hlt
    push Not at hlt
    have e := qExp_before (lgt := qt - a / 2) (drop := drop) (rejuv := rejuv) ha le_rfl
    rw [hab] at e
    obtain ⟨-, -, s3, -⟩ := C06_quenching_shape qt b drop rejuv hb h1.le h2.le
    have s := s3 (by linarith) ⟨le_rfl, by linarith⟩ (⟨by linarith, by linarith⟩ : qt - a / 2 ∈ Set.Icc _ _) (by linarith)
    simp only [quenchingKern_eq] at s
    rw [e, qExp_before hb le_rfl] at s
    exact absurd s (lt_irrefl _)
  subst q d r
  exact ⟨rfl, le_antisymm (key hdt' hdt fun x => (h x).symm) (key hdt hdt' h), rfl, rfl⟩

/-- **C115.** Two parameter sets within the bounds that give the same star formation rate for all halos, times and baryon
fractions are equal; halos of constant mass suffice. -/
theorem C115_identifiable (p p' : DiffstarParams ℝ) (hp : InBounds p) (hp' : InBounds p')
    (h : ∀ (m t fb : ℝ), 0 < t → 0 < fb → calcSfhSinglegal (M := Unit) (fun _ _ _ => m) p () [t] 1.14 fb =
      calcSfhSinglegal (M := Unit) (fun _ _ _ => m) p' () [t] 1.14 fb) : p = p' := by
  have raw : ∀ m x, qExp x p.lgQt ((10 : ℝ) ^ p.qlglgdt) p.lgDrop p.lgRejuv + msLogEfficiency p m =
      qExp x p'.lgQt ((10 : ℝ) ^ p'.qlglgdt) p'.lgDrop p'.lgRejuv + msLogEfficiency p' m := by
    intro m x
    have h10 : (0 : ℝ) < 10 := by norm_num
    set a := qExp x p.lgQt ((10 : ℝ) ^ p.qlglgdt) p.lgDrop p.lgRejuv
    set b := qExp x p'.lgQt ((10 : ℝ) ^ p'.qlglgdt) p'.lgDrop p'.lgRejuv
    set A := (10 : ℝ) ^ (a + msLogEfficiency p m) * (10 : ℝ) ^ m with hA
    set B := (10 : ℝ) ^ (b + msLogEfficiency p' m) * (10 : ℝ) ^ m with hB
    have pA : 0 < A := by positivity
    have pB : 0 < B := by positivity
    have hs := h m ((10 : ℝ) ^ x) (1 / A + 1 / B) (by positivity) (by positivity)
    rw [calcSfhSinglegal_eq, calcSfhSinglegal_eq] at hs
    simp only [List.map_cons, List.map_nil, List.cons.injEq, and_true] at hs
    rw [Real.logb_rpow h10 (by norm_num)] at hs
    have eA : (10 : ℝ) ^ a * msSfr p (1 / A + 1 / B) m = (1 / A + 1 / B) * A := by
      rw [hA, Real.rpow_add h10]
      unfold msSfr
      ring
    have eB : (10 : ℝ) ^ b * msSfr p' (1 / A + 1 / B) m = (1 / A + 1 / B) * B := by
      rw [hB, Real.rpow_add h10]
      unfold msSfr
      ring
    rw [eA, eB] at hs
    have gA : 1 ≤ (1 / A + 1 / B) * A := by
      have : (1 / A + 1 / B) * A = 1 + A / B := by field_simp
      rw [this]
      have : 0 < A / B := by positivity
      linarith
    have gB : 1 ≤ (1 / A + 1 / B) * B := by
      have : (1 / A + 1 / B) * B = 1 + B / A := by field_simp; ring
      rw [this]
      have : 0 < B / A := by positivity
      linarith
    rw [max_eq_right (le_trans (by norm_num) gA), max_eq_right (le_trans (by norm_num) gB)] at hs
    have hAB : A = B := mul_left_cancel₀ (by positivity) hs
    rw [hA, hB] at hAB
    have := mul_right_cancel₀ (by positivity) hAB
    exact (Real.rpow_right_inj h10 (by norm_num)).1 this
  have hd : (0 : ℝ) < (10 : ℝ) ^ p.qlglgdt := by positivity
  have hd' : (0 : ℝ) < (10 : ℝ) ^ p'.qlglgdt := by positivity
  have eff : ∀ m, msLogEfficiency p m = msLogEfficiency p' m := by
    intro m
    have := raw m (min (p.lgQt - (10 : ℝ) ^ p.qlglgdt / 2) (p'.lgQt - (10 : ℝ) ^ p'.qlglgdt / 2))
    rwa [qExp_before hd (min_le_left _ _), qExp_before hd' (min_le_right _ _), zero_add, zero_add] at this
  obtain ⟨e1, e2, e3, e4⟩ := efficiency_inj (hp.indxHi.2.trans hp.indxLo.1) eff
  obtain ⟨q1, q2, q3, q4⟩ := quench_inj hd hp.lgRejuv.1 hp.lgRejuv.2 hd' hp'.lgRejuv.1 hp'.lgRejuv.2 (fun x => by
    have := raw 12 x
    rw [eff] at this
    exact add_right_cancel this)
  have q5 := (Real.rpow_right_inj (by norm_num : (0 : ℝ) < 10) (by norm_num)).1 q2
  cases p
  cases p'
  simp only at e1 e2 e3 e4 q1 q3 q4 q5
  subst e1 e2 e3 e4 q1 q3 q4 q5
  rfl

/-- **C115**: different parameters within the bounds are told apart by some halo of constant mass. -/
theorem C115_distinguishable (p p' : DiffstarParams ℝ) (hp : InBounds p) (hp' : InBounds p') (hne : p ≠ p') :
    ∃ m t fb : ℝ, 0 < t ∧ 0 < fb ∧ calcSfhSinglegal (M := Unit) (fun _ _ _ => m) p () [t] 1.14 fb ≠
      calcSfhSinglegal (M := Unit) (fun _ _ _ => m) p' () [t] 1.14 fb := by
  by_contra hcon
  push Not at hcon
  exact hne (C115_identifiable p p' hp hp' fun m t fb ht hf => hcon m t fb ht hf)

example : InBounds ⟨12, -10, 1, -1, 1, -0.5, -2, -1⟩ ∧ InBounds ⟨12, -10, 1, -1, 1, -0.5, -2, -1.5⟩ ∧
    (⟨12, -10, 1, -1, 1, -0.5, -2, -1⟩ : DiffstarParams ℝ) ≠ ⟨12, -10, 1, -1, 1, -0.5, -2, -1.5⟩ := by
  refine ⟨by constructor <;> norm_num, by constructor <;> norm_num, ?_⟩
  intro h
  have := congrArg DiffstarParams.lgRejuv h
  norm_num at this

/-- **C115**, limit of a single history: a table that ends before the quenching event tells nothing about the event. Any
two parameter sets with the same main sequence whose events start after the last time give the same history. -/
theorem C115_before_quenching {M : Type*} (logMah : M → ℝ → ℝ → ℝ) (p p' : DiffstarParams ℝ) (mah : M) (tarr : List ℝ)
    (lgt0 fb : ℝ) (hms : p.lgmcrit = p'.lgmcrit ∧ p.lgyAtMcrit = p'.lgyAtMcrit ∧ p.indxLo = p'.indxLo ∧ p.indxHi = p'.indxHi)
    (ht : ∀ t ∈ tarr, Real.logb 10 t ≤ p.lgQt - (10 : ℝ) ^ p.qlglgdt / 2 ∧
      Real.logb 10 t ≤ p'.lgQt - (10 : ℝ) ^ p'.qlglgdt / 2) :
    calcSfhSinglegalSmh logMah p mah tarr lgt0 fb = calcSfhSinglegalSmh logMah p' mah tarr lgt0 fb := by
  have e : calcSfhSinglegal logMah p mah tarr lgt0 fb = calcSfhSinglegal logMah p' mah tarr lgt0 fb := by
    rw [calcSfhSinglegal_eq, calcSfhSinglegal_eq]
    apply List.map_congr_left
    intro t h
    obtain ⟨h1, h2⟩ := ht t h
    have m : ∀ x, msSfr p fb x = msSfr p' fb x := by
      intro x
      unfold msSfr msLogEfficiency
      rw [hms.1, hms.2.1, hms.2.2.1, hms.2.2.2]
    rw [qExp_before (by positivity) h1, qExp_before (by positivity) h2, m]
  unfold calcSfhSinglegalSmh
  change sfhSinglegalKern logMah tarr mah p.ms p.q lgt0 fb = sfhSinglegalKern logMah tarr mah p'.ms p'.q lgt0 fb at e
  rw [e]

/-- Two events after 4 Gyr. -/
example : ∀ t ∈ ([1, 2, 4] : List ℝ), Real.logb 10 t ≤ 1.2 - (10 : ℝ) ^ (-0.5 : ℝ) / 2 ∧
    Real.logb 10 t ≤ 1.5 - (10 : ℝ) ^ (-1 : ℝ) / 2 := by
  have a : (10 : ℝ) ^ (-0.5 : ℝ) ≤ 1 := Real.rpow_le_one_of_one_le_of_nonpos (by norm_num) (by norm_num)
  have b : (10 : ℝ) ^ (-1 : ℝ) ≤ 1 := Real.rpow_le_one_of_one_le_of_nonpos (by norm_num) (by norm_num)
  have c : ∀ t : ℝ, 0 < t → t ≤ 4 → Real.logb 10 t ≤ 0.7 := by
    intro t h0 h4
    rw [Real.logb_le_iff_le_rpow (by norm_num) h0]
    have : (4 : ℝ) ≤ (10 : ℝ) ^ (0.7 : ℝ) := by
      have h : (4 : ℝ) ^ (10 : ℕ) ≤ ((10 : ℝ) ^ (0.7 : ℝ)) ^ (10 : ℕ) := by
        rw [← Real.rpow_natCast ((10 : ℝ) ^ (0.7 : ℝ)), ← Real.rpow_mul (by norm_num)]
        norm_num
      exact le_of_pow_le_pow_left₀ (by norm_num) (by positivity) h
    linarith
  intro t ht
  simp only [List.mem_cons, List.not_mem_nil, or_false] at ht
  have : 0 < t ∧ t ≤ 4 := by rcases ht with rfl | rfl | rfl <;> norm_num
  have := c t this.1 this.2
  constructor <;> linarith

end Diffstar.Props
