import Verif.Model.RoundRange
import Verif.Props.RoundSfr

/-! Helper lemmas for C156: numbers computed with and without a limit on the range of exponents agree or are both tiny. -/

namespace Diffstar.Props

open Diffstar Diffstar.Spec

/-- Sums with a number far smaller than the other one round to the latter. -/
def Absorbs (R : Rounding) : Prop := ∀ a e : ℝ, R.fl a = a → |e| ≤ |a| / 2 ^ 26 → R.fl (a + e) = a

theorem fl_within (R : Rounding) (hu : R.u ≤ 2 ^ (-24 : ℤ)) {x : ℝ} (hx : 0 ≤ x) : 0.999 * x ≤ R.fl x ∧ R.fl x ≤ 1.001 * x := by
  have h := abs_le.1 (R.err x)
  rw [abs_of_nonneg hx] at h
  have hu' : R.u ≤ 0.001 := hu.trans (by norm_num)
  constructor <;> nlinarith [h.1, h.2, mul_le_mul_of_nonneg_right hu' hx]

theorem fl_abs_le (R : Rounding) (hu : R.u ≤ 2 ^ (-24 : ℤ)) (x : ℝ) : |R.fl x| ≤ 1.001 * |x| := by
  rcases le_total 0 x with h | h
  · have := fl_within R hu h
    rw [abs_of_nonneg h, abs_of_nonneg (by linarith)]
    exact this.2
  · have := fl_within R hu (x := -x) (by linarith)
    rw [R.neg] at this
    rw [abs_of_nonpos h, abs_of_nonpos (by linarith)]
    exact this.2

/-- Floating-point numbers are equal or apart. -/
theorem float_gap {R : Rounding} (hR : Absorbs R) {a b : ℝ} (ha : R.fl a = a) (hb : R.fl b = b) : a + b = 0 ∨ |a| / 2 ^ 26 < |a + b| := by
  by_contra h
  push Not at h
  have hb' : R.fl (-b) = -b := by rw [R.neg, hb]
  have := hR a (-(a + b)) ha (by rw [abs_neg]; exact h.2)
  rw [show a + -(a + b) = -b by ring, hb'] at this
  exact h.1 (by linarith)

/-- Numbers that agree or are both at most `k 2^-126` in size; the second is at most `B`. -/
def Sim (k B y x : ℝ) : Prop := (y = x ∨ |y| ≤ k * 2 ^ (-126 : ℤ) ∧ |x| ≤ k * 2 ^ (-126 : ℤ)) ∧ |x| ≤ B

theorem Sim.refl {k B x : ℝ} (h : |x| ≤ B) : Sim k B x x := ⟨.inl rfl, h⟩

theorem Sim.mono {k B k' B' y x : ℝ} (h : Sim k B y x) (hk : k ≤ k') (hB : B ≤ B') : Sim k' B' y x := by
  have e := mul_le_mul_of_nonneg_right hk (show (0 : ℝ) ≤ 2 ^ (-126 : ℤ) by positivity)
  exact ⟨h.1.imp_right fun ⟨a, b⟩ => ⟨a.trans e, b.trans e⟩, h.2.trans hB⟩

theorem Sim.neg {k B y x : ℝ} (h : Sim k B y x) : Sim k B (-y) (-x) := by
  unfold Sim at *
  rw [abs_neg, abs_neg]
  exact ⟨h.1.imp_left fun e => by rw [e], h.2⟩

theorem Sim.left {k B y x : ℝ} (h : Sim k B y x) (hk : k * 2 ^ (-126 : ℤ) ≤ B) : |y| ≤ B := by
  rcases h.1 with e | e
  · rw [e]; exact h.2
  · exact e.1.trans hk

theorem Sim.mul {k B y x l C z w : ℝ} (h : Sim k B y x) (g : Sim l C z w) (hk0 : 0 ≤ k) (hl0 : 0 ≤ l) (hk : k ≤ 10 ^ 30) (hl : l ≤ 10 ^ 30)
    (hB : 1 ≤ B) (hC : 1 ≤ C) : Sim (k * C + l * B) (B * C) (y * z) (x * w) := by
  have ek : k * 2 ^ (-126 : ℤ) ≤ B := by norm_num at *; linarith
  have el : l * 2 ^ (-126 : ℤ) ≤ C := by norm_num at *; linarith
  have hy := h.left ek
  have hz := g.left el
  have e0 : (0 : ℝ) ≤ 2 ^ (-126 : ℤ) := by positivity
  unfold Sim at *
  generalize (2 : ℝ) ^ (-126 : ℤ) = e at *
  have hB0 : 0 ≤ B := by linarith
  have hC0 : 0 ≤ C := by linarith
  refine ⟨?_, ?_⟩
  · rw [abs_mul, abs_mul]
    have p1 : 0 ≤ k * e * C := by positivity
    have p2 : 0 ≤ l * e * B := by positivity
    have sp : (k * C + l * B) * e = k * e * C + l * e * B := by ring
    rcases h.1 with e1 | ⟨e1, e2⟩
    · rcases g.1 with f1 | ⟨f1, f2⟩
      · left; rw [e1, f1]
      · right
        have a1 := mul_le_mul hy f1 (abs_nonneg _) hB0
        have a2 := mul_le_mul h.2 f2 (abs_nonneg _) hB0
        constructor <;> linarith
    · right
      have a1 := mul_le_mul e1 hz (abs_nonneg _) (by positivity)
      have a2 := mul_le_mul e2 g.2 (abs_nonneg _) (by positivity)
      constructor <;> linarith
  · rw [abs_mul]
    exact mul_le_mul h.2 g.2 (abs_nonneg _) hB0

theorem Sim.const_mul {k B y x c C : ℝ} (h : Sim k B y x) (hc : |c| ≤ C) (hk : 0 ≤ k) (hB : 0 ≤ B) : Sim (k * C) (B * C) (c * y) (c * x) := by
  unfold Sim at *
  have e0 : (0 : ℝ) ≤ k * 2 ^ (-126 : ℤ) := by positivity
  have sp : k * C * 2 ^ (-126 : ℤ) = k * 2 ^ (-126 : ℤ) * C := by ring
  rw [abs_mul, abs_mul, sp]
  refine ⟨?_, by rw [mul_comm]; exact mul_le_mul h.2 hc (abs_nonneg _) hB⟩
  rcases h.1 with e | ⟨a, b⟩
  · left; rw [e]
  · right
    refine ⟨?_, ?_⟩
    · rw [mul_comm]; exact mul_le_mul a hc (abs_nonneg _) e0
    · rw [mul_comm]; exact mul_le_mul b hc (abs_nonneg _) e0

section

variable {R : Rounding} {L : Rounding.MathLib} (A : Machine R L) (hu : R.u ≤ 2 ^ (-24 : ℤ))

include hu in
theorem sim_fl {k B y x : ℝ} (h : Sim k B y x) (hk1 : 1 ≤ k) (hk : k ≤ 10 ^ 30) (hB : B ≤ 10 ^ 30) :
    ∃ w, A.fl y = some w ∧ Sim (2 * k) (2 * B) w (R.fl x) := by
  have fx := fl_abs_le R hu x
  have fy := fl_abs_le R hu y
  have hB0 : 0 ≤ B := (abs_nonneg x).trans h.2
  have b2 : |R.fl x| ≤ 2 * B := by linarith [h.2]
  have e0 : (0 : ℝ) < 2 ^ (-126 : ℤ) := by positivity
  have e1 : (2 : ℝ) ^ (-126 : ℤ) ≤ k * 2 ^ (-126 : ℤ) := by nlinarith
  have e2 : k * 2 ^ (-126 : ℤ) ≤ (10 : ℝ) ^ 30 := by norm_num at hk ⊢; linarith
  have e3 : (10 : ℝ) ^ 30 ≤ 2 ^ (127 : ℤ) := by norm_num
  have sp : 2 * k * (2 : ℝ) ^ (-126 : ℤ) = 2 * (k * 2 ^ (-126 : ℤ)) := by ring
  have hy : |y| ≤ 2 ^ (127 : ℤ) := by
    rcases h.1 with e | e
    · rw [e]; linarith [h.2]
    · linarith [e.1]
  unfold Sim
  rw [sp]
  generalize k * (2 : ℝ) ^ (-126 : ℤ) = K at *
  rcases lt_or_ge |y| (2 ^ (-126 : ℤ)) with t | t
  · obtain ⟨w, w1, w2, -⟩ := A.fl_tiny y t
    refine ⟨w, w1, .inr ⟨by linarith, ?_⟩, b2⟩
    rcases h.1 with e | e
    · rw [← e]; linarith
    · linarith [e.2]
  · refine ⟨_, A.fl_normal y t hy, ?_, b2⟩
    rcases h.1 with e | e
    · left; rw [e]
    · right; constructor <;> linarith [e.1, e.2]

include hu in
theorem sim_add (hR : Absorbs R) {k B y x z w : ℝ} (h : Sim k B y x) (g : Sim k B z w) (hx : R.fl x = x) (hw : R.fl w = w) (hk1 : 1 ≤ k)
    (hk : k ≤ 10 ^ 20) (hB : B ≤ 10 ^ 29) : ∃ v, A.fl (y + z) = some v ∧ Sim (2 ^ 28 * k) (4 * B) v (R.fl (x + w)) := by
  have hB0 : 0 ≤ B := (abs_nonneg x).trans h.2
  have hxw : |x + w| ≤ 2 * B := (abs_add_le _ _).trans (by linarith [h.2, g.2])
  have e0 : (0 : ℝ) < 2 ^ (-126 : ℤ) := by positivity
  -- if the sums are equal or both tiny
  have fin : Sim (2 ^ 27 * k) (2 * B) (y + z) (x + w) → ∃ v, A.fl (y + z) = some v ∧ Sim (2 ^ 28 * k) (4 * B) v (R.fl (x + w)) := by
    intro s
    obtain ⟨v, v1, v2⟩ := sim_fl A hu s (by linarith) (by norm_num at *; linarith) (by norm_num at *; linarith)
    exact ⟨v, v1, v2.mono (by linarith) (by linarith)⟩
  -- one number large, the other tiny
  have key : ∀ a b b' : ℝ, R.fl a = a → |a| ≤ B → |b| ≤ k * 2 ^ (-126 : ℤ) → |b'| ≤ k * 2 ^ (-126 : ℤ) → 2 ^ 26 * (k * 2 ^ (-126 : ℤ)) ≤ |a| →
      A.fl (a + b) = some (R.fl (a + b')) := by
    intro a b b' ha hB' hb hb' hl
    have K1 : (2 : ℝ) ^ (-126 : ℤ) ≤ k * 2 ^ (-126 : ℤ) := by nlinarith
    have h1 : R.fl (a + b) = a := hR a b ha (by linarith)
    have h2 : R.fl (a + b') = a := hR a b' ha (by linarith)
    have h3 : |a| - |b| ≤ |a + b| := by
      have := abs_sub_abs_le_abs_sub a (-b)
      rwa [abs_neg, sub_neg_eq_add] at this
    have h4 := abs_add_le a b
    have h5 := A.fl_normal (a + b) (by linarith) (by norm_num at *; linarith)
    rw [h5, h1, h2]
  have tot : ∀ a b b' : ℝ, R.fl a = a → |a| ≤ B → |b| ≤ k * 2 ^ (-126 : ℤ) → |b'| ≤ k * 2 ^ (-126 : ℤ) → |a| < 2 ^ 26 * (k * 2 ^ (-126 : ℤ)) →
      |a + b| ≤ 2 ^ 27 * k * 2 ^ (-126 : ℤ) ∧ |a + b'| ≤ 2 ^ 27 * k * 2 ^ (-126 : ℤ) := by
    intro a b b' _ _ hb hb' hl
    have K1 : 0 ≤ k * (2 : ℝ) ^ (-126 : ℤ) := by positivity
    have := abs_add_le a b
    have := abs_add_le a b'
    rw [mul_assoc]
    constructor <;> linarith
  have bound : ∀ v, v = R.fl (x + w) → Sim (2 ^ 28 * k) (4 * B) v (R.fl (x + w)) := by
    rintro v rfl
    refine Sim.refl ?_
    have := fl_abs_le R hu (x + w)
    linarith
  rcases h.1 with e | ⟨e1, e2⟩
  · rcases g.1 with f | ⟨f1, f2⟩
    · exact fin (by rw [e, f]; exact Sim.refl hxw)
    · rw [e] at fin ⊢
      rcases lt_or_ge |x| (2 ^ 26 * (k * 2 ^ (-126 : ℤ))) with t | t
      · exact fin ⟨.inr (tot x z w hx h.2 f1 f2 t), hxw⟩
      · exact ⟨_, key x z w hx h.2 f1 f2 t, bound _ rfl⟩
  · rcases g.1 with f | ⟨f1, f2⟩
    · rw [f] at fin ⊢
      rcases lt_or_ge |w| (2 ^ 26 * (k * 2 ^ (-126 : ℤ))) with t | t
      · have := tot w y x hw g.2 e1 e2 t
        exact fin ⟨.inr ⟨by rw [add_comm]; exact this.1, by rw [add_comm]; exact this.2⟩, hxw⟩
      · have := key w y x hw g.2 e1 e2 t
        rw [add_comm w y, add_comm w x] at this
        exact ⟨_, this, bound _ rfl⟩
    · refine fin ⟨.inr ⟨?_, ?_⟩, hxw⟩
      · have := abs_add_le y z
        have K1 : 0 ≤ k * (2 : ℝ) ^ (-126 : ℤ) := by positivity
        rw [mul_assoc]; linarith
      · have := abs_add_le x w
        have K1 : 0 ≤ k * (2 : ℝ) ^ (-126 : ℤ) := by positivity
        rw [mul_assoc]; linarith

/-- A sum with a number of order one: no difference at all. -/
theorem sim_absorb (hR : Absorbs R) {k B c y x : ℝ} (h : Sim k B y x) (hx : R.fl x = x) (hc : R.fl c = c) (hc1 : 1 / 2 ≤ |c|) (hc2 : |c| ≤ 100)
    (hk : k ≤ 2 ^ 96) (hB : B ≤ 10 ^ 30) : A.fl (c + y) = some (R.fl (c + x)) := by
  have K : k * (2 : ℝ) ^ (-126 : ℤ) ≤ 1 / 2 ^ 28 := by
    have := mul_le_mul_of_nonneg_right hk (show (0 : ℝ) ≤ 2 ^ (-126 : ℤ) by positivity)
    norm_num at this ⊢
    linarith
  have tri := abs_add_le c y
  rcases h.1 with e | ⟨e1, e2⟩
  · rw [e]
    rcases float_gap hR hc hx with g | g
    · have : R.fl 0 = 0 := R.fl_zero
      rw [g, A.fl_zero, this]
    · have := abs_add_le c x
      have := h.2
      exact A.fl_normal _ (by norm_num at *; linarith) (by norm_num at *; linarith)
  · have h1 : R.fl (c + y) = c := hR c y hc (by norm_num at *; linarith)
    have h2 : R.fl (c + x) = c := hR c x hc (by norm_num at *; linarith)
    have h3 : |c| - |y| ≤ |c + y| := by
      have := abs_sub_abs_le_abs_sub c (-y)
      rwa [abs_neg, sub_neg_eq_add] at this
    have h5 := A.fl_normal (c + y) (by norm_num at *; linarith) (by norm_num at *; linarith)
    rw [h5, h1, h2]

end

end Diffstar.Props
