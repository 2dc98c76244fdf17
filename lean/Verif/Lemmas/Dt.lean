import Verif.Spec

/-! Facts about the two time-step functions. -/

namespace Diffstar

theorem jaxGetDt_some (t : List ℝ) (h : 3 ≤ t.length) :
    ∃ d, jaxGetDtArray t = some d ∧ ∃ hl : d.length = t.length,
      d[0]'(by omega) = t[1]'(by omega) - t[0]'(by omega) ∧
      (∀ i (h0 : 0 < i) (h1 : i + 1 < t.length),
        d[i]'(by omega) = (t[i + 1] - t[i - 1]) / 2) ∧
      d[t.length - 1]'(by omega) =
        (t[t.length - 1]'(by omega) - t[t.length - 2]'(by omega)) / 2 +
        (t[t.length - 1]'(by omega) - t[t.length - 3]'(by omega)) / 4 := by
  have gd : ∀ i (hi : i < t.length), t.getD i 0 = t[i] := fun i hi => by simp [hi]
  unfold jaxGetDtArray
  rw [dif_pos h]
  refine ⟨_, rfl, by simp, ?_, ?_, ?_⟩
  · simp only [List.getElem_map, List.getElem_range]
    rw [if_neg (by omega), if_pos trivial]
    simp only [gd 0 (by omega), gd (0 + 1) (by omega)]
    ring_nf
  · intro i h0 h1
    simp only [List.getElem_map, List.getElem_range]
    rw [if_neg (by omega), if_neg (by omega), gd i (by omega), gd (i + 1) (by omega),
      gd (i - 1) (by omega), gd (i - 1 + 1) (by omega)]
    have : t[i - 1 + 1]'(by omega) = t[i]'(by omega) := by congr 1; omega
    rw [this]
    ring
  · simp only [List.getElem_map, List.getElem_range]
    rw [if_pos trivial]
    simp only [gd (t.length - 2) (by omega), gd (t.length - 2 + 1) (by omega),
      gd (t.length - 3) (by omega), gd (t.length - 3 + 1) (by omega)]
    have e1 : t[t.length - 2 + 1]'(by omega) = t[t.length - 1]'(by omega) := by congr 1; omega
    have e2 : t[t.length - 3 + 1]'(by omega) = t[t.length - 2]'(by omega) := by congr 1; omega
    rw [e1, e2]
    ring

theorem getDtLoop_length (ti tlo : ℝ) (l : List ℝ) : (getDtLoop ti tlo l).1.length = l.length := by
  induction l generalizing ti tlo with
  | nil => rfl
  | cons b l ih => simp [getDtLoop, ih]

theorem getDtLoop_zero (ti tlo b : ℝ) (l : List ℝ) :
    (getDtLoop ti tlo (b :: l)).1[0]'(by simp [getDtLoop]) = (b + ti) / 2 - tlo := rfl

theorem getDtLoop_succ (ti tlo : ℝ) (l : List ℝ) (k : ℕ) (hk : k + 1 < l.length) :
    (getDtLoop ti tlo l).1[k + 1]'(by rw [getDtLoop_length]; omega) =
      ((ti :: l)[k + 2]'(by simp; omega) - (ti :: l)[k]'(by simp; omega)) / 2 := by
  induction l generalizing ti tlo k with
  | nil => simp at hk
  | cons b l ih =>
    match l with
    | [] => simp at hk
    | c :: l =>
      cases k with
      | zero => simp [getDtLoop]; try ring
      | succ k =>
        have := ih b ((b + ti) / 2) k (by simpa using hk)
        simpa [getDtLoop] using this

theorem getDtLoop_snd (ti tlo : ℝ) (l : List ℝ) (h : 0 < l.length) :
    (getDtLoop ti tlo l).2 =
      ((ti :: l)[l.length]'(by simp) + (ti :: l)[l.length - 1]'(by simp)) / 2 := by
  induction l generalizing ti tlo with
  | nil => simp at h
  | cons b l ih =>
    match l with
    | [] => simp [getDtLoop]
    | c :: l =>
      have := ih b ((b + ti) / 2) (by simp)
      simpa [getDtLoop] using this

theorem getDt_some (t : List ℝ) (h : 2 ≤ t.length) :
    ∃ d, getDtArray t = some d ∧ ∃ hl : d.length = t.length,
      d[0]'(by omega) = t[1]'(by omega) - t[0]'(by omega) ∧
      (∀ i (h0 : 0 < i) (h1 : i + 1 < t.length),
        d[i]'(by omega) = (t[i + 1] - t[i - 1]) / 2) ∧
      d[t.length - 1]'(by omega) =
        (t[t.length - 1]'(by omega) - t[t.length - 2]'(by omega)) / 2 +
          d[t.length - 2]'(by omega) / 2 := by
  match t, h with
  | t0 :: t1 :: rest, h =>
    refine ⟨_, rfl, ?_, ?_, ?_, ?_⟩
    · simp [getDtLoop_length]
    · rw [List.getElem_append_left (by rw [getDtLoop_length]; simp)]
      exact (getDtLoop_zero t0 _ t1 rest).trans (by simp; ring)
    · intro i h0 h1
      obtain ⟨k, rfl⟩ : ∃ k, i = k + 1 := ⟨i - 1, by omega⟩
      simp only [List.length_cons] at h1
      rw [List.getElem_append_left (by rw [getDtLoop_length]; simp; omega),
        getDtLoop_succ t0 _ (t1 :: rest) k (by simp; omega)]
      rfl
    · have hl : (getDtLoop t0 (t0 - (t1 - t0) / 2) (t1 :: rest)).1.length = rest.length + 1 := by
        simp [getDtLoop_length]
      have hne : (getDtLoop t0 (t0 - (t1 - t0) / 2) (t1 :: rest)).1 ≠ [] := by
        intro hc; rw [hc] at hl; simp at hl
      have e1 : (t0 :: t1 :: rest).length - 1 = (getDtLoop t0 (t0 - (t1 - t0) / 2) (t1 :: rest)).1.length := by
        rw [hl]; simp
      have hlast : (getDtLoop t0 (t0 - (t1 - t0) / 2) (t1 :: rest)).1.getLastD 0 =
          (getDtLoop t0 (t0 - (t1 - t0) / 2) (t1 :: rest)).1[rest.length]'(by omega) := by
        rw [List.getLastD_eq_getLast?, List.getLast?_eq_some_getLast hne, List.getLast_eq_getElem]
        simp [hl]
      simp only [hlast]
      rw [List.getElem_append_left (i := (t0 :: t1 :: rest).length - 2) (by rw [hl]; simp)]
      rw [List.getElem_append_right (by rw [e1])]
      simp only [List.getElem_singleton]
      rw [getDtLoop_snd t0 _ (t1 :: rest) (by simp), List.getLast_eq_getElem]
      simp
      ring

/-- Sum of a prefix of `d` from interior values: bins end at midpoints. -/
theorem dt_prefix_sum (t d : List ℝ) (hl : d.length = t.length) (h2 : 2 ≤ t.length)
    (h0 : d[0]'(by omega) = t[1]'(by omega) - t[0]'(by omega))
    (hi : ∀ i (h0 : 0 < i) (h1 : i + 1 < t.length), d[i]'(by omega) = (t[i + 1] - t[i - 1]) / 2)
    (k : ℕ) (hk : k + 1 < t.length) :
    (d.take (k + 1)).sum = (t[k] + t[k + 1]) / 2 - (t[0]'(by omega) - (t[1]'(by omega) - t[0]'(by omega)) / 2) := by
  induction k with
  | zero =>
    rw [List.sum_take_succ _ _ (by omega)]
    simp [h0]; ring
  | succ k ih =>
    rw [List.sum_take_succ _ _ (by omega), ih (by omega), hi (k + 1) (by omega) hk]
    simp only [Nat.add_sub_cancel]
    ring

end Diffstar
