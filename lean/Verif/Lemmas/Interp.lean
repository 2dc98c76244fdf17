import Verif.Spec

/-! Facts about linear interpolation. -/

namespace Diffstar

open Diffstar.Spec

/-- `y` is non-decreasing along the table with slopes at most `L`. -/
def SlopesIn (L : ℝ) : List ℝ → List ℝ → Prop
  | x0 :: x1 :: xs, y0 :: y1 :: ys =>
      0 ≤ y1 - y0 ∧ y1 - y0 ≤ L * (x1 - x0) ∧ SlopesIn L (x1 :: xs) (y1 :: ys)
  | _, _ => True

theorem slopes_chain {L : ℝ} : ∀ (x0 y0 : ℝ) (xs ys : List ℝ), ys.length = xs.length →
    SlopesIn L (x0 :: xs) (y0 :: ys) →
    ∀ i (h : i < xs.length) (h' : i < ys.length), 0 ≤ ys[i] - y0 ∧ ys[i] - y0 ≤ L * (xs[i] - x0) := by
  intro x0 y0 xs
  induction xs generalizing x0 y0 with
  | nil => intro ys _ _ i h; simp at h
  | cons x1 xs ih =>
    intro ys hl hs i h h'
    match ys, hl with
    | y1 :: ys, hl =>
      obtain ⟨a, b, c⟩ := hs
      cases i with
      | zero => exact ⟨a, b⟩
      | succ i =>
        have := ih x1 y1 ys (by simpa using hl) c i (by simpa using h) (by simpa using h')
        simp only [List.getElem_cons_succ]
        constructor
        · linarith [this.1]
        · nlinarith [this.2]

theorem npInterp_lower (x x0 y0 : ℝ) (xs ys : List ℝ) (h : x ≤ x0) (hl : ys.length = xs.length) :
    npInterp x (x0 :: xs) (y0 :: ys) = y0 := by
  match xs, ys, hl with
  | [], [], _ => rfl
  | x1 :: xs, y1 :: ys, _ => simp [npInterp, h]

/-- The drop from a table value back to the interpolated value at an earlier `x` is between `0` and
`L (t_i - x)`. -/
theorem npInterp_lipschitz {L : ℝ} (hL : 0 ≤ L) : ∀ (x0 y0 : ℝ) (xs ys : List ℝ),
    ys.length = xs.length → Increasing (x0 :: xs) → SlopesIn L (x0 :: xs) (y0 :: ys) →
    ∀ (x : ℝ) (i : ℕ) (h : i < (x0 :: xs).length) (h' : i < (y0 :: ys).length), x ≤ (x0 :: xs)[i] →
      0 ≤ (y0 :: ys)[i] - npInterp x (x0 :: xs) (y0 :: ys) ∧
      (y0 :: ys)[i] - npInterp x (x0 :: xs) (y0 :: ys) ≤ L * ((x0 :: xs)[i] - x) := by
  intro x0 y0 xs
  induction xs generalizing x0 y0 with
  | nil =>
    intro ys hl hinc hs x i h h' hx
    match ys, hl with
    | [], _ =>
      obtain rfl : i = 0 := by simp at h; exact h
      simp only [npInterp, List.getElem_cons_zero] at hx ⊢
      exact ⟨by simp, by nlinarith⟩
  | cons x1 xs ih =>
    intro ys hl hinc hs x i h h' hx
    match ys, hl with
    | y1 :: ys, hl =>
      have hs' := hs
      obtain ⟨a, b, c⟩ := hs
      have hinc' := hinc
      unfold Increasing at hinc'
      rw [List.pairwise_cons] at hinc'
      have h01 : x0 < x1 := hinc'.1 x1 (by simp)
      by_cases hx0 : x ≤ x0
      · rw [npInterp_lower x x0 y0 (x1 :: xs) (y1 :: ys) hx0 hl]
        cases i with
        | zero =>
          simp only [List.getElem_cons_zero, sub_self, le_refl, true_and]
          exact mul_nonneg hL (by linarith)
        | succ i =>
          have := slopes_chain x0 y0 (x1 :: xs) (y1 :: ys) hl hs' i (by simpa using h) (by simpa using h')
          simp only [List.getElem_cons_succ]
          refine ⟨this.1, this.2.trans (mul_le_mul_of_nonneg_left (by linarith) hL)⟩
      · cases i with
        | zero => simp at hx; exact absurd hx hx0
        | succ i =>
          by_cases hx1 : x ≤ x1
          · have e : npInterp x (x0 :: x1 :: xs) (y0 :: y1 :: ys) = y0 + (y1 - y0) / (x1 - x0) * (x - x0) := by
              simp [npInterp, hx0, hx1]
            rw [e]
            have hd : 0 < x1 - x0 := by linarith
            have hsl0 : 0 ≤ (y1 - y0) / (x1 - x0) := div_nonneg a hd.le
            have hsl1 : (y1 - y0) / (x1 - x0) ≤ L := by rw [div_le_iff₀ hd]; exact b
            have ey : y1 - (y0 + (y1 - y0) / (x1 - x0) * (x - x0)) = (y1 - y0) / (x1 - x0) * (x1 - x) := by
              field_simp; ring
            have f0 : 0 ≤ (y1 - y0) / (x1 - x0) * (x1 - x) := mul_nonneg hsl0 (by linarith)
            have f1 : (y1 - y0) / (x1 - x0) * (x1 - x) ≤ L * (x1 - x) :=
              mul_le_mul_of_nonneg_right hsl1 (by linarith)
            have hrest : 0 ≤ (y1 :: ys)[i]'(by simpa using h') - y1 ∧
                (y1 :: ys)[i]'(by simpa using h') - y1 ≤ L * ((x1 :: xs)[i]'(by simpa using h) - x1) := by
              cases i with
              | zero => simp
              | succ i =>
                simpa using slopes_chain x1 y1 xs ys (by simpa using hl) c i (by simpa using h)
                  (by simpa using h')
            simp only [List.getElem_cons_succ]
            constructor
            · linarith [hrest.1]
            · nlinarith [hrest.2]
          · have e : npInterp x (x0 :: x1 :: xs) (y0 :: y1 :: ys) = npInterp x (x1 :: xs) (y1 :: ys) := by
              simp [npInterp, hx0, hx1]
            rw [e]
            simp only [List.getElem_cons_succ] at hx ⊢
            exact ih x1 y1 ys (by simpa using hl) hinc'.2 c x i (by simpa using h) (by simpa using h') hx

/-- Strict version: with strictly increasing ordinates, the interpolated value strictly before the
`i`-th abscissa (`i ≥ 1`) is strictly below the `i`-th ordinate. -/
theorem npInterp_lt : ∀ (x0 y0 : ℝ) (xs ys : List ℝ),
    ys.length = xs.length → Increasing (x0 :: xs) → Increasing (y0 :: ys) →
    ∀ (x : ℝ) (i : ℕ) (h : i < xs.length) (h' : i < ys.length), x < xs[i] →
      npInterp x (x0 :: xs) (y0 :: ys) < ys[i] := by
  intro x0 y0 xs
  induction xs generalizing x0 y0 with
  | nil => intro ys hl _ _ x i h; simp at h
  | cons x1 xs ih =>
    intro ys hl hinc hy x i h h' hx
    match ys, hl with
    | y1 :: ys, hl =>
      unfold Increasing at hinc hy
      rw [List.pairwise_cons] at hinc hy
      have h01 : x0 < x1 := hinc.1 x1 (by simp)
      have hy01 : y0 < y1 := hy.1 y1 (by simp)
      have hy1 : y1 ≤ (y1 :: ys)[i] := by
        cases i with
        | zero => simp
        | succ i => exact ((List.pairwise_cons.1 hy.2).1 _ (List.getElem_mem _)).le
      by_cases hx0 : x ≤ x0
      · rw [npInterp_lower x x0 y0 (x1 :: xs) (y1 :: ys) hx0 hl]
        linarith
      · by_cases hx1 : x ≤ x1
        · have e : npInterp x (x0 :: x1 :: xs) (y0 :: y1 :: ys) = y0 + (y1 - y0) / (x1 - x0) * (x - x0) := by
            simp [npInterp, hx0, hx1]
          have hd : 0 < x1 - x0 := by linarith
          have ey : y1 - (y0 + (y1 - y0) / (x1 - x0) * (x - x0)) = (y1 - y0) / (x1 - x0) * (x1 - x) := by
            field_simp; ring
          have hpos : 0 < (y1 - y0) / (x1 - x0) := div_pos (by linarith) hd
          rcases hx1.lt_or_eq with hlt | heq
          · have := mul_pos hpos (sub_pos.2 hlt)
            rw [e]; linarith
          · cases i with
            | zero => simp at hx; linarith
            | succ i =>
              have : y1 < (y1 :: ys)[i + 1] := (List.pairwise_cons.1 hy.2).1 _ (List.getElem_mem _)
              have : 0 ≤ (y1 - y0) / (x1 - x0) * (x1 - x) := mul_nonneg hpos.le (by linarith)
              rw [e]; linarith
        · have e : npInterp x (x0 :: x1 :: xs) (y0 :: y1 :: ys) = npInterp x (x1 :: xs) (y1 :: ys) := by
            simp [npInterp, hx0, hx1]
          cases i with
          | zero => simp at hx; linarith
          | succ i =>
            rw [e]
            simp only [List.getElem_cons_succ] at hx ⊢
            exact ih x1 y1 ys (by simpa using hl) hinc.2 hy.2 x i (by simpa using h) (by simpa using h') hx

/-- Interpolating an affine table is exact inside the table range. -/
theorem npInterp_affine (a b : ℝ) : ∀ (x0 : ℝ) (xs : List ℝ), Increasing (x0 :: xs) →
    ∀ x, x0 ≤ x → (∃ z ∈ x0 :: xs, x ≤ z) →
      npInterp x (x0 :: xs) ((x0 :: xs).map fun t => a + b * t) = a + b * x := by
  intro x0 xs
  induction xs generalizing x0 with
  | nil =>
    intro _ x h ⟨z, hz, hxz⟩
    simp at hz; subst hz
    have : x = z := le_antisymm hxz h
    subst this
    simp [npInterp]
  | cons x1 xs ih =>
    intro hinc x h ⟨z, hz, hxz⟩
    unfold Increasing at hinc
    rw [List.pairwise_cons] at hinc
    have h01 : x0 < x1 := hinc.1 x1 (by simp)
    simp only [List.map_cons, npInterp]
    by_cases hx0 : x ≤ x0
    · have : x = x0 := le_antisymm hx0 h
      simp [this]
    · rw [if_neg hx0]
      by_cases hx1 : x ≤ x1
      · rw [if_pos hx1]
        have hd : x1 - x0 ≠ 0 := (sub_pos.2 h01).ne'
        field_simp
        ring
      · rw [if_neg hx1]
        refine ih x1 hinc.2 x (by linarith) ⟨z, ?_, hxz⟩
        rcases List.mem_cons.1 hz with rfl | hz
        · exact absurd hxz (by push Not; linarith)
        · exact hz

/-- In range, `searchsorted` finds the segment that `npInterp` uses. -/
theorem searchsorted_cons_lt {x0 x : ℝ} (h : x0 < x) (xs : List ℝ) :
    searchsortedLeft (x0 :: xs) x = searchsortedLeft xs x + 1 := by
  simp [searchsortedLeft, h]

theorem searchsorted_cons_ge {x0 x : ℝ} (h : x ≤ x0) (xs : List ℝ) :
    searchsortedLeft (x0 :: xs) x = 0 := by
  simp [searchsortedLeft, not_lt.2 h]

theorem jaxIndex_nat {n k : ℕ} (h : k < n) : jaxIndex n (k : ℤ) = k := by
  unfold jaxIndex
  have h1 : ¬ ((k : ℤ) < 0) := by omega
  have h2 : ¬ ((n : ℤ) ≤ (k : ℤ)) := by omega
  rw [if_neg h1, if_neg h1, if_neg h2]; simp

/-- `npInterp` picks, for `x0 < x ≤ last`, the chord between the searchsorted index and its predecessor. -/
theorem npInterp_eq_chord : ∀ (x0 y0 : ℝ) (xs ys : List ℝ), ys.length = xs.length →
    Increasing (x0 :: xs) → ∀ x, x0 < x → (∃ z ∈ xs, x ≤ z) →
    ∃ k, ∃ (hk : k + 1 < (x0 :: xs).length) (hk' : k + 1 < (y0 :: ys).length),
      searchsortedLeft (x0 :: xs) x = k + 1 ∧
      npInterp x (x0 :: xs) (y0 :: ys) = (y0 :: ys)[k] +
        ((y0 :: ys)[k + 1] - (y0 :: ys)[k]) / ((x0 :: xs)[k + 1] - (x0 :: xs)[k]) * (x - (x0 :: xs)[k]) := by
  intro x0 y0 xs
  induction xs generalizing x0 y0 with
  | nil => intro ys _ _ x _ ⟨z, hz, _⟩; simp at hz
  | cons x1 xs ih =>
    intro ys hl hinc x h ⟨z, hz, hxz⟩
    match ys, hl with
    | y1 :: ys, hl =>
      unfold Increasing at hinc
      rw [List.pairwise_cons] at hinc
      by_cases hx1 : x ≤ x1
      · refine ⟨0, by simp, by simp, ?_, ?_⟩
        · rw [searchsorted_cons_lt h, searchsorted_cons_ge hx1]
        · simp [npInterp, not_le.2 h, hx1]
      · have hz' : z ∈ xs := by
          rcases List.mem_cons.1 hz with rfl | hz
          · exact absurd hxz hx1
          · exact hz
        obtain ⟨k, hk, hk', hs, he⟩ := ih x1 y1 ys (by simpa using hl) hinc.2 x (not_le.1 hx1) ⟨z, hz', hxz⟩
        refine ⟨k + 1, by simpa using hk, by simpa using hk', ?_, ?_⟩
        · rw [searchsorted_cons_lt h, hs]
        · have e : npInterp x (x0 :: x1 :: xs) (y0 :: y1 :: ys) = npInterp x (x1 :: xs) (y1 :: ys) := by
            simp [npInterp, not_le.2 h, hx1]
          rw [e, he]
          simp only [List.getElem_cons_succ]

end Diffstar

namespace Diffstar

open Diffstar.Spec

theorem SlopesIn_smul {L k : ℝ} (hk : 0 ≤ k) : ∀ (xs ys : List ℝ), SlopesIn L xs ys →
    SlopesIn (L * k) xs (ys.map fun m => m * k)
  | [], _, _ => by simp [SlopesIn]
  | [_], _, _ => by simp [SlopesIn]
  | _ :: _ :: _, [], _ => by simp [SlopesIn]
  | _ :: _ :: _, [_], _ => by simp [SlopesIn]
  | x0 :: x1 :: xs, y0 :: y1 :: ys, h => by
    obtain ⟨a, b, c⟩ := h
    refine ⟨?_, ?_, SlopesIn_smul hk (x1 :: xs) (y1 :: ys) c⟩
    · have := mul_nonneg a hk; nlinarith
    · have := mul_le_mul_of_nonneg_right b hk; nlinarith

end Diffstar
