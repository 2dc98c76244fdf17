import Verif.Model.RoundFstar
import Verif.Lemmas.Rounding
import Verif.Lemmas.Fstar
import Mathlib.Data.List.GetD

/-! Linear interpolation by brackets, in real numbers and in floating-point arithmetic. -/

namespace Diffstar

open Diffstar.Spec

theorem increasing_getD {t : List ℝ} (h : Increasing t) {j k : ℕ} (hjk : j < k) (hk : k < t.length) :
    t.getD j 0 < t.getD k 0 := by
  rw [List.getD_eq_getElem _ _ (by omega), List.getD_eq_getElem _ _ hk]
  exact List.pairwise_iff_getElem.1 h j k (by omega) hk hjk

/-- The interval of an abscissa that is not after the `i`-th. -/
theorem npInterp_bracket : ∀ (t : List ℝ), Increasing t → ∀ (x : ℝ) (i : ℕ), i < t.length → x ≤ t.getD i 0 →
    (x ≤ t.getD 0 0 ∧ ∀ y : List ℝ, y.length = t.length → npInterp x t y = y.getD 0 0) ∨
    ∃ k, k + 1 ≤ i ∧ t.getD k 0 < x ∧ x ≤ t.getD (k + 1) 0 ∧ ∀ y : List ℝ, y.length = t.length →
      npInterp x t y = y.getD k 0 + (y.getD (k + 1) 0 - y.getD k 0) / (t.getD (k + 1) 0 - t.getD k 0) * (x - t.getD k 0)
  | [], _, _, _, hi, _ => by simp at hi
  | [x0], _, x, i, hi, hx => by
      obtain rfl : i = 0 := by simpa using hi
      exact Or.inl ⟨hx, fun y hy => by
        match y, hy with
        | [y0], _ => rfl⟩
  | x0 :: x1 :: xs, hinc, x, i, hi, hx => by
      by_cases h0 : x ≤ x0
      · refine Or.inl ⟨h0, fun y hy => ?_⟩
        match y, hy with
        | y0 :: y1 :: ys, _ => simp [npInterp, h0]
      · right
        have hinc' := List.pairwise_cons.1 hinc
        cases i with
        | zero => exact absurd hx h0
        | succ i =>
          by_cases h1 : x ≤ x1
          · refine ⟨0, by omega, not_le.1 h0, h1, fun y hy => ?_⟩
            match y, hy with
            | y0 :: y1 :: ys, _ => simp [npInterp, h0, h1]
          · rcases npInterp_bracket (x1 :: xs) hinc'.2 x i (by simpa using hi) (by simpa using hx) with h | ⟨k, a, b, c, d⟩
            · exact absurd h.1 h1
            · refine ⟨k + 1, by omega, by simpa using b, by simpa using c, fun y hy => ?_⟩
              match y, hy with
              | y0 :: y1 :: ys, hy =>
                have := d (y1 :: ys) (by simpa using hy)
                simp only [npInterp, h0, h1, if_false]
                simpa using this

namespace Rounding

variable (R : Rounding)

theorem interpChord_left (x0 x1 y0 y1 : ℝ) : R.interpChord x0 x0 x1 y0 y1 = y0 ∨ R.interpChord x0 x0 x1 y0 y1 = R.fl y0 := by
  unfold interpChord
  simp only [sub_self, R.fl_zero, zero_div, zero_mul, add_zero]
  split_ifs
  · exact Or.inl rfl
  · exact Or.inr rfl

/-- The same for the floating-point interpolation, which uses half-open intervals. -/
theorem interp_bracket : ∀ (t y : List ℝ), Increasing t → y.length = t.length → ∀ (x : ℝ) (i : ℕ), i < t.length →
    x ≤ t.getD i 0 →
    (x ≤ t.getD 0 0 ∧ R.interp x t y = y.getD 0 0) ∨
    (∃ k, k ≤ i ∧ x = t.getD k 0 ∧ (R.interp x t y = y.getD k 0 ∨ R.interp x t y = R.fl (y.getD k 0))) ∨
    ∃ k, k + 1 ≤ i ∧ t.getD k 0 < x ∧ x ≤ t.getD (k + 1) 0 ∧
      R.interp x t y = R.interpChord x (t.getD k 0) (t.getD (k + 1) 0) (y.getD k 0) (y.getD (k + 1) 0)
  | [], _, _, _, _, _, hi, _ => by simp at hi
  | [x0], y, _, hy, x, i, hi, hx => by
      obtain rfl : i = 0 := by simpa using hi
      match y, hy with
      | [y0], _ => exact Or.inl ⟨hx, rfl⟩
  | x0 :: x1 :: xs, [], _, hy, _, _, _, _ => by simp at hy
  | x0 :: x1 :: xs, [_], _, hy, _, _, _, _ => by simp at hy
  | x0 :: x1 :: xs, y0 :: y1 :: ys, hinc, hy, x, i, hi, hx => by
      have hinc' := List.pairwise_cons.1 hinc
      have h01 : x0 < x1 := hinc'.1 x1 (by simp)
      by_cases h0 : x < x0
      · exact Or.inl ⟨h0.le, by simp [interp, h0]⟩
      right
      by_cases h1 : x < x1 ∨ xs = []
      · rcases eq_or_lt_of_le (not_lt.1 h0) with h2 | h2
        · left
          have h4 : R.interp x (x0 :: x1 :: xs) (y0 :: y1 :: ys) = R.interpChord x x0 x1 y0 y1 := by
            simp only [interp, if_neg h0, if_pos h1]
            rw [if_neg (by linarith)]
          refine ⟨0, Nat.zero_le _, h2.symm, ?_⟩
          rw [h4, ← h2]
          exact R.interpChord_left x0 x1 y0 y1
        · right
          have hi0 : i ≠ 0 := by rintro rfl; simp at hx; linarith
          have h3 : x ≤ x1 := by
            rcases h1 with h1 | h1
            · exact h1.le
            · subst h1
              obtain rfl : i = 1 := by simp at hi; omega
              simpa using hx
          refine ⟨0, by omega, h2, h3, ?_⟩
          simp only [interp, if_neg h0, if_pos h1]
          rw [if_neg (not_lt.2 h3)]
          rfl
      · have e : R.interp x (x0 :: x1 :: xs) (y0 :: y1 :: ys) = R.interp x (x1 :: xs) (y1 :: ys) := by
          simp only [interp, if_neg h0, if_neg h1]
        rw [e]
        have h2 : x1 ≤ x := not_lt.1 fun h => h1 (Or.inl h)
        cases i with
        | zero => simp at hx; linarith
        | succ i =>
          rcases interp_bracket (x1 :: xs) (y1 :: ys) hinc'.2 (by simpa using hy) x i (by simpa using hi)
            (by simpa using hx) with h | ⟨k, a, b, c⟩ | ⟨k, a, b, c, d⟩
          · left
            refine ⟨1, by omega, le_antisymm (by simpa using h.1) (by simpa using h2), Or.inl (by simpa using h.2)⟩
          · exact Or.inl ⟨k + 1, by omega, by simpa using b, by simpa using c⟩
          · exact Or.inr ⟨k + 1, by omega, by simpa using b, by simpa using c, by simpa using d⟩

theorem quot_err (hu : R.u ≤ 2 ^ (-24 : ℤ)) {d D : ℝ} (hd : 0 < d) (hle : d ≤ D) :
    |R.fl (R.fl d / R.fl D) - d / D| ≤ 3.01 * R.u := by
  have hu0 := R.u_nonneg
  have hu1 : R.u ≤ 1 / 10 ^ 7 := hu.trans (by norm_num)
  have hD : 0 < D := by linarith
  have a1 := R.err d
  have a2 := R.err D
  rw [abs_of_pos hd] at a1
  rw [abs_of_pos hD] at a2
  generalize R.fl d = d' at *
  generalize R.fl D = D' at *
  have hD' : 0 < D' := by nlinarith [(abs_le.1 a2).1]
  have hθ0 : 0 ≤ d / D := by positivity
  have hθ1 : d / D ≤ 1 := (div_le_one hD).2 hle
  have q1 : |d' / D' - d / D| ≤ 2.001 * R.u := by
    have e1 : d' / D' - d / D = ((d' - d) - (d / D) * (D' - D)) / D' := by field_simp; ring
    rw [e1, abs_div, abs_of_pos hD', div_le_iff₀ hD']
    refine (abs_sub _ _).trans ?_
    rw [abs_mul, abs_of_nonneg hθ0]
    have b1 : |d' - d| ≤ R.u * D := a1.trans (mul_le_mul_of_nonneg_left hle hu0)
    have b2 : d / D * |D' - D| ≤ 1 * (R.u * D) := mul_le_mul hθ1 a2 (abs_nonneg _) zero_le_one
    have b3 : (1 - R.u) * D ≤ D' := by linarith [(abs_le.1 a2).1]
    have b4 : 2.001 * R.u * ((1 - R.u) * D) ≤ 2.001 * R.u * D' := mul_le_mul_of_nonneg_left b3 (by positivity)
    have b5 : 0 ≤ R.u * D := by positivity
    nlinarith
  generalize d / D = θ at *
  generalize d' / D' = θ' at *
  have q2 := R.err θ'
  have hθ' : |θ'| ≤ 1.001 := by
    have := abs_le.1 q1
    rw [abs_le]; constructor <;> norm_num at hu1 ⊢ <;> linarith
  have : |R.fl θ' - θ| ≤ |R.fl θ' - θ'| + |θ' - θ| := abs_sub_le _ _ _
  nlinarith

theorem chord_tail_err (hu : R.u ≤ 2 ^ (-24 : ℤ)) {θ θ' E y0 : ℝ} (hθ0 : 0 ≤ θ) (hθ1 : θ ≤ 1) (hE : 0 ≤ E) (hy0 : 0 ≤ y0)
    (q : |θ' - θ| ≤ 3.01 * R.u) :
    |R.fl (y0 + R.fl (θ' * R.fl E)) - (y0 + θ * E)| ≤ 7 * R.u * (y0 + E) := by
  have hu0 := R.u_nonneg
  have hu1 : R.u ≤ 1 / 10 ^ 7 := hu.trans (by norm_num)
  have a3 := R.err E
  rw [abs_of_nonneg hE] at a3
  have hc : 0 ≤ R.u * E := by positivity
  have huu : R.u * (R.u * E) ≤ 1 / 10 ^ 7 * (R.u * E) := mul_le_mul_of_nonneg_right hu1 hc
  have q4 : |θ' * R.fl E - θ * E| ≤ 4.02 * R.u * E := by
    have e2 : θ' * R.fl E - θ * E = (θ' - θ) * R.fl E + θ * (R.fl E - E) := by ring
    rw [e2]
    refine (abs_add_le _ _).trans ?_
    rw [abs_mul, abs_mul, abs_of_nonneg hθ0]
    have c1 : |R.fl E| ≤ (1 + R.u) * E := by
      have := abs_le.1 a3
      rw [abs_le]; constructor <;> nlinarith
    have c2 : |θ' - θ| * |R.fl E| ≤ 3.01 * R.u * ((1 + R.u) * E) := mul_le_mul q c1 (abs_nonneg _) (by positivity)
    have c3 : θ * |R.fl E - E| ≤ 1 * (R.u * E) := mul_le_mul hθ1 a3 (abs_nonneg _) zero_le_one
    nlinarith
  have hθE : 0 ≤ θ * E ∧ θ * E ≤ E := ⟨by positivity, mul_le_of_le_one_left hE hθ1⟩
  have hu2 : R.u * E ≤ 1 / 10 ^ 7 * E := mul_le_mul_of_nonneg_right hu1 hE
  generalize θ' * R.fl E = P at *
  generalize θ * E = T at *
  have q5 := R.err P
  have hP : |P| ≤ 1.001 * E := by
    have := abs_le.1 q4
    rw [abs_le]; constructor <;> norm_num at hu2 ⊢ <;> linarith
  have q6 : |R.fl P - T| ≤ 5.03 * R.u * E := by
    have h1 : |R.fl P - T| ≤ |R.fl P - P| + |P - T| := abs_sub_le _ _ _
    have h2 := mul_le_mul_of_nonneg_left hP hu0
    norm_num at h2 q4 ⊢
    linarith
  generalize R.fl P = P' at *
  have q7 := R.err (y0 + P')
  have hQ : |y0 + P'| ≤ 1.001 * (y0 + E) := by
    have := abs_le.1 q6
    rw [abs_le]; constructor <;> norm_num at hu2 this ⊢ <;> linarith
  have h1 : |R.fl (y0 + P') - (y0 + T)| ≤ |R.fl (y0 + P') - (y0 + P')| + |y0 + P' - (y0 + T)| := abs_sub_le _ _ _
  rw [show y0 + P' - (y0 + T) = P' - T by ring] at h1
  have h2 := mul_le_mul_of_nonneg_left hQ hu0
  have h3 := mul_nonneg hu0 hy0
  norm_num at h2 q6 ⊢
  linarith

/-- Error of the chord formula for ordinates that do not decrease. -/
theorem interpChord_err (hu : R.u ≤ 2 ^ (-24 : ℤ)) {x x0 x1 y0 y1 : ℝ} (h0 : x0 < x) (h1 : x ≤ x1)
    (hs : 2 ^ (-45 : ℤ) ≤ x1 - x0) (hy0 : 0 ≤ y0) (hy : y0 ≤ y1) :
    |R.interpChord x x0 x1 y0 y1 - (y0 + (y1 - y0) / (x1 - x0) * (x - x0))| ≤ 7 * R.u * y1 := by
  have hu1 : R.u ≤ 1 / 10 ^ 7 := hu.trans (by norm_num)
  have a2 := R.err (x1 - x0)
  have hd : 0 < x - x0 := by linarith
  have hD : 0 < x1 - x0 := by linarith
  rw [abs_of_pos hD] at a2
  have hbig : ¬ |R.fl (x1 - x0)| ≤ 2 ^ (-46 : ℤ) := by
    rw [not_le]
    have := (abs_le.1 a2).1
    have h3 : (2 : ℝ) ^ (-46 : ℤ) < (1 - R.u) * (x1 - x0) := by
      refine lt_of_lt_of_le ?_ (mul_le_mul (show (0.9 : ℝ) ≤ 1 - R.u by norm_num at hu1 ⊢; linarith) hs (by positivity)
        (by norm_num at hu1 ⊢; linarith))
      norm_num
    exact lt_of_lt_of_le (by linarith) (le_abs_self _)
  have q := R.quot_err hu hd (show x - x0 ≤ x1 - x0 by linarith)
  unfold interpChord
  simp only [if_neg hbig]
  rw [show y0 + (y1 - y0) / (x1 - x0) * (x - x0) = y0 + (x - x0) / (x1 - x0) * (y1 - y0) by ring]
  have := R.chord_tail_err hu (by positivity) ((div_le_one hD).2 (by linarith)) (sub_nonneg.2 hy) hy0 q
  rwa [show y0 + (y1 - y0) = y1 by ring] at this

/-- Error of the floating-point interpolation. -/
theorem interp_err (hu : R.u ≤ 2 ^ (-24 : ℤ)) (t y : List ℝ) (hinc : Increasing t) (hl : y.length = t.length) (x : ℝ) (i : ℕ)
    (hi : i < t.length) (hx : x ≤ t.getD i 0) (hs : ∀ k, k + 1 ≤ i → 2 ^ (-45 : ℤ) ≤ t.getD (k + 1) 0 - t.getD k 0)
    (hy0 : 0 ≤ y.getD 0 0) (hy : ∀ k, k + 1 ≤ i → y.getD k 0 ≤ y.getD (k + 1) 0) :
    |R.interp x t y - npInterp x t y| ≤ 7 * R.u * y.getD i 0 := by
  have hu0 := R.u_nonneg
  have hmono : ∀ j k, j ≤ k → k ≤ i → y.getD j 0 ≤ y.getD k 0 := by
    intro j k hjk
    induction hjk with
    | refl => intro _; exact le_rfl
    | step _ ih => intro hk; exact (ih (by omega)).trans (hy _ hk)
  have hpos : ∀ k, k ≤ i → 0 ≤ y.getD k 0 := fun k hk => hy0.trans (hmono 0 k (Nat.zero_le _) hk)
  have hend : 0 ≤ 7 * R.u * y.getD i 0 := mul_nonneg (by positivity) (hpos i le_rfl)
  rcases R.interp_bracket t y hinc hl x i hi hx with ⟨h, e⟩ | ⟨k, hk, rfl, e⟩ | ⟨k, hk, h1, h2, e⟩
  · rw [e]
    rcases npInterp_bracket t hinc x i hi hx with ⟨-, f⟩ | ⟨k, _, h1, _⟩
    · rw [f y hl, sub_self, abs_zero]; exact hend
    · exfalso
      rcases Nat.eq_zero_or_pos k with rfl | hk
      · linarith
      · linarith [increasing_getD hinc hk (by omega)]
  · have hg : npInterp (t.getD k 0) t y = y.getD k 0 := by
      have hk' : k < t.length := by omega
      rw [List.getD_eq_getElem _ _ hk', List.getD_eq_getElem _ _ (by omega)]
      match t, y, hl, hinc, hk' with
      | x0 :: xs, y0 :: ys, hl, hinc, hk' => exact npInterp_grid x0 y0 xs ys (by simpa using hl) hinc k hk' (by rw [hl]; exact hk')
    rw [hg]
    rcases e with e | e
    · rw [e, sub_self, abs_zero]; exact hend
    · rw [e]
      have := R.err (y.getD k 0)
      rw [abs_of_nonneg (hpos k hk)] at this
      have h3 := mul_le_mul_of_nonneg_left (hmono k i hk le_rfl) hu0
      have h4 := mul_nonneg hu0 (hpos i le_rfl)
      linarith
  · rw [e]
    rcases npInterp_bracket t hinc x i hi hx with ⟨h, -⟩ | ⟨l, hl', h3, h4, f⟩
    · exfalso
      rcases Nat.eq_zero_or_pos k with rfl | hk'
      · linarith
      · linarith [increasing_getD hinc hk' (by omega)]
    · have hkl : k = l := by
        rcases lt_trichotomy k l with h | h | h
        · exfalso
          rcases Nat.eq_or_lt_of_le (Nat.succ_le_of_lt h) with h' | h'
          · rw [← h'] at h3; exact absurd h2 (not_le.2 h3)
          · linarith [increasing_getD hinc h' (by omega)]
        · exact h
        · exfalso
          rcases Nat.eq_or_lt_of_le (Nat.succ_le_of_lt h) with h' | h'
          · rw [← h'] at h1; exact absurd h4 (not_le.2 h1)
          · linarith [increasing_getD hinc h' (by omega)]
      subst hkl
      rw [f y hl]
      refine (R.interpChord_err hu h1 h2 (hs k hk) (hpos k (by omega)) (hy k hk)).trans ?_
      exact mul_le_mul_of_nonneg_left (hmono (k + 1) i hk le_rfl) (by positivity)

end Rounding

end Diffstar
