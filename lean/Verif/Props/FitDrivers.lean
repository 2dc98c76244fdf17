import Verif.Model.FitDrivers
import Mathlib.Data.List.GetD
import Mathlib.Tactic.NormNum
import Mathlib.Tactic.Linarith

/-!
Properties of the fit drivers: C42-C45, C66.
-/

namespace Diffstar.Spec

open Diffstar.Fit

/-- What a sequence of fit attempts looks like, independently of how the driver is written. Each attempt
consumes random start vectors from position `k` of the stream. Either the first start vector with a NaN-free
gradient is found within 1001 draws and the optimiser is run from it (flag 1), or all 1001 have NaN gradients
and the attempt counts as failed with the initial guess, loss 999.99 and flag -1. -/
inductive AttemptsFrom {P : Type} (normal : ℕ → P) (gradNan : P → Bool) (minimize : P → P × F) (p0 : P) :
    ℕ → List (Attempt P) → Prop
  | done (k) : AttemptsFrom normal gradNan minimize p0 k []
  | failed (k l) : (∀ i, i < 1001 → gradNan (normal (k + i)) = true) →
      AttemptsFrom normal gradNan minimize p0 (k + 1001) l →
      AttemptsFrom normal gradNan minimize p0 k (⟨p0, some ((999.99 : ℝ) : EReal), -1⟩ :: l)
  | ran (k j l) : j < 1001 → (∀ i, i < j → gradNan (normal (k + i)) = true) →
      gradNan (normal (k + j)) = false →
      AttemptsFrom normal gradNan minimize p0 (k + j + 1) l →
      AttemptsFrom normal gradNan minimize p0 k
        (⟨(minimize (normal (k + j))).1, (minimize (normal (k + j))).2, 1⟩ :: l)

/-- The optimiser states visited from `p`: `traj 0` is the initial state and each step applies one update. -/
def traj {S P : Type} (A : Adam S P) (p : P) : ℕ → S
  | 0 => A.init p
  | i + 1 => A.update i (traj A p i)

/-- `r` reports exactly the first `m` steps (losses `L i`, parameters `q i`) and the best of them (the first one
of smallest loss). -/
def ReportsSteps {P : Type} (L : ℕ → ℝ) (q : ℕ → P) (m : ℕ) (r : AdamResult P) : Prop :=
  r.lossArr = (List.range m).map L ∧ r.paramsArr = (List.range m).map q ∧
  ∃ b < m, r.params = q b ∧ r.loss = L b ∧ (∀ i < m, L b ≤ L i) ∧ ∀ i < b, L b < L i

end Diffstar.Spec

namespace Diffstar.Props

open Diffstar.Fit Diffstar.Spec Classical

/-! ### C44 -/

theorem pinitLoop_spec {P : Type} (normal : ℕ → P) (gradNan : P → Bool) (fuel k : ℕ) :
    ∃ j ≤ fuel, pinitLoop normal gradNan fuel (k + 1) (normal k) (gradNan (normal k)) =
        (normal (k + j), gradNan (normal (k + j)), k + j + 1) ∧
      (∀ i, i < j → gradNan (normal (k + i)) = true) ∧
      (gradNan (normal (k + j)) = true → j = fuel) := by
  induction fuel generalizing k with
  | zero => exact ⟨0, le_rfl, by simp [pinitLoop], by simp, by simp⟩
  | succ fuel ih =>
    cases hb : gradNan (normal k) with
    | false =>
      refine ⟨0, by omega, ?_, by simp, ?_⟩
      · simp [pinitLoop, hb]
      · simp [hb]
    | true =>
      obtain ⟨j, hj, e, h1, h2⟩ := ih (k + 1)
      refine ⟨j + 1, by omega, ?_, ?_, ?_⟩
      · simp only [pinitLoop, if_true]
        rw [e]
        rw [show k + 1 + j = k + (j + 1) by omega]
      · intro i hi
        rcases i with _ | i
        · simpa using hb
        · have := h1 i (by omega)
          rwa [show k + 1 + i = k + (i + 1) by omega] at this
      · intro h
        rw [show k + (j + 1) = k + 1 + j by omega] at h
        have := h2 h
        omega

/-- **C44**: the `j+1` draws made are numbers `k, ..., k+j` of the stream with `j ≤ 1000`; the start vector is
the last one; the flag says whether its gradient has a NaN; all earlier draws had NaN gradients; and a NaN start
is returned only after all 1001 draws had NaN gradients. -/
theorem C44_random_start {P : Type} (normal : ℕ → P) (gradNan : P → Bool) (k : ℕ) :
    ∃ j ≤ 1000, returnRandomPinit normal gradNan k =
        (normal (k + j), gradNan (normal (k + j)), k + j + 1) ∧
      (∀ i, i < j → gradNan (normal (k + i)) = true) ∧
      (gradNan (normal (k + j)) = true → j = 1000) := by
  have h := pinitLoop_spec normal gradNan 1000 k
  simp only [returnRandomPinit]
  cases hb : gradNan (normal k) with
  | false => exact ⟨0, by omega, by simp [hb], by simp, by simp [hb]⟩
  | true =>
    rw [hb] at h
    simpa using h

/-- **C44** read as two implications: `isnan = False` certifies the returned start; `isnan = True` means all
1001 draws failed. -/
theorem C44_flag_certifies {P : Type} (normal : ℕ → P) (gradNan : P → Bool) (k : ℕ) :
    let r := returnRandomPinit normal gradNan k
    (r.2.1 = false → gradNan r.1 = false) ∧
    (r.2.1 = true ↔ ∀ i, i < 1001 → gradNan (normal (k + i)) = true) := by
  obtain ⟨j, hj, e, h1, h2⟩ := C44_random_start normal gradNan k
  simp only [e]
  refine ⟨id, ?_, ?_⟩
  · intro h i hi
    have := h2 h
    subst this
    rcases Nat.lt_succ_iff_lt_or_eq.1 hi with h' | h'
    · exact h1 i h'
    · rw [h']; exact h
  · intro h
    exact h j (by omega)

/-! ### C42, C43 -/

theorem npNanmin_eq_none {l : List F} : npNanmin l = none ↔ ∀ x ∈ l, x = none := by
  rw [npNanmin, List.min?_eq_none_iff, List.filterMap_eq_nil_iff]
  rfl

theorem npNanmin_eq_some {l : List F} {m : EReal} :
    npNanmin l = some m ↔ some m ∈ l ∧ ∀ w, some w ∈ l → m ≤ w := by
  rw [npNanmin, List.min?_eq_some_iff]
  simp

theorem findIdx_spec {l : List F} {m : EReal} (h : some m ∈ l) :
    ∃ hi : (l.findIdx fun x => decide (x = some m)) < l.length,
      l[l.findIdx fun x => decide (x = some m)] = some m ∧
      ∀ j (hj : j < l.findIdx fun x => decide (x = some m)), l[j] ≠ some m := by
  have hi : (l.findIdx fun x => decide (x = some m)) < l.length := by
    rw [List.findIdx_lt_length]
    exact ⟨_, h, by simp⟩
  refine ⟨hi, ?_, ?_⟩
  · have := List.findIdx_getElem (w := hi)
    simpa using this
  · intro j hj
    have := List.not_of_lt_findIdx hj
    simpa using this

theorem minimizerLoop_spec {P : Type} (normal : ℕ → P) (gradNan : P → Bool) (minimize : P → P × F) (p0 : P)
    (tol : EReal) (fuel k : ℕ) (cur : F) (acc : List (Attempt P)) :
    ∃ new, minimizerLoop normal gradNan minimize p0 tol fuel k cur acc = acc ++ new ∧
      new.length ≤ fuel ∧ AttemptsFrom normal gradNan minimize p0 k new := by
  induction fuel generalizing k cur acc with
  | zero => exact ⟨[], by simp [minimizerLoop], by simp, .done k⟩
  | succ fuel ih =>
    by_cases hc : gtTol cur tol
    · obtain ⟨j, hj, e, h1, h2⟩ := C44_random_start normal gradNan k
      cases hb : gradNan (normal (k + j)) with
      | true =>
        have hj' := h2 hb
        obtain ⟨new, e', hl, ha⟩ := ih (k + j + 1)
          (npMin ((acc ++ [(⟨p0, some ((999.99 : ℝ) : EReal), -1⟩ : Attempt P)]).map Attempt.loss))
          (acc ++ [⟨p0, some ((999.99 : ℝ) : EReal), -1⟩])
        refine ⟨⟨p0, some ((999.99 : ℝ) : EReal), -1⟩ :: new, ?_, by simp; omega, ?_⟩
        · simp only [minimizerLoop, if_pos hc, e, hb, if_true]
          rw [e']
          simp
        · refine .failed k new ?_ (by rw [hj'] at ha; exact ha)
          intro i hi
          rcases Nat.lt_or_ge i j with h' | h'
          · exact h1 i h'
          · rw [show i = j by omega]; exact hb
      | false =>
        obtain ⟨new, e', hl, ha⟩ := ih (k + j + 1)
          (if ∀ a ∈ (acc ++ [(⟨(minimize (normal (k + j))).1, (minimize (normal (k + j))).2, 1⟩ : Attempt P)]),
            a.loss = none then some ⊤ else
            npNanmin ((acc ++ [(⟨(minimize (normal (k + j))).1, (minimize (normal (k + j))).2, 1⟩ : Attempt P)]).map
              Attempt.loss))
          (acc ++ [⟨(minimize (normal (k + j))).1, (minimize (normal (k + j))).2, 1⟩])
        refine ⟨⟨(minimize (normal (k + j))).1, (minimize (normal (k + j))).2, 1⟩ :: new, ?_,
          by simp; omega, ?_⟩
        · simp only [minimizerLoop, if_pos hc, e, hb]
          simp only [Bool.false_eq_true, if_false]
          rw [e']
          simp
        · exact .ran k j new (by omega) h1 hb ha
    · exact ⟨[], by simp [minimizerLoop, hc], by simp, .done k⟩

theorem selectBest_is_min {P : Type} (p0 : P) (l : List (Attempt P)) :
    let r := selectBest p0 l
    ((∀ a ∈ l, a.loss = none) → r = ⟨p0, some ((999.99 : ℝ) : EReal), -1⟩) ∧
    ((∃ a ∈ l, a.loss ≠ none) → ∃ (i : ℕ) (hi : i < l.length) (v : EReal), l[i] = r ∧ r.loss = some v ∧
      (∀ a ∈ l, ∀ w, a.loss = some w → v ≤ w) ∧ ∀ j (hj : j < i), l[j].loss ≠ some v) := by
  simp only [selectBest, npNanargmin]
  cases hm : npNanmin (l.map Attempt.loss) with
  | none =>
    refine ⟨fun _ => rfl, ?_⟩
    rintro ⟨a, h1, h2⟩
    exact absurd (npNanmin_eq_none.1 hm _ (List.mem_map.2 ⟨a, h1, rfl⟩)) h2
  | some m =>
    obtain ⟨hmem, hmin⟩ := npNanmin_eq_some.1 hm
    obtain ⟨hi, h1, h2⟩ := findIdx_spec hmem
    set i := (l.map Attempt.loss).findIdx fun x => decide (x = some m) with hidef
    have hi' : i < l.length := by simpa using hi
    constructor
    · intro h
      obtain ⟨a, h3, h4⟩ := List.mem_map.1 hmem
      rw [h a h3] at h4
      exact absurd h4 (by simp)
    · intro _
      refine ⟨i, hi', m, ?_, ?_, ?_, ?_⟩
      · simp only
        rw [List.getD_eq_getElem _ _ hi']
      · simp only
        rw [List.getD_eq_getElem _ _ hi', ← h1, List.getElem_map]
      · intro a h3 w h4
        exact hmin w (List.mem_map.2 ⟨a, h3, h4⟩)
      · intro j hj
        have := h2 j hj
        simpa using this

/-- **C42**: the driver makes at most `max_iter` attempts (each a genuine attempt, see `AttemptsFrom`), and
returns one and the same attempt (parameters, loss and flag together) whose loss is the smallest non-NaN one,
the first such; if no attempt has a non-NaN loss it returns the initial guess with loss 999.99 and flag -1. -/
theorem C42_returns_best_attempt {P : Type} (normal : ℕ → P) (gradNan : P → Bool) (minimize : P → P × F)
    (p0 : P) (tol : EReal) (maxIter : ℕ) :
    ∃ l : List (Attempt P), l.length ≤ maxIter ∧ AttemptsFrom normal gradNan minimize p0 0 l ∧
      let r := minimizerWrapper normal gradNan minimize p0 tol maxIter
      ((∀ a ∈ l, a.loss = none) → r = ⟨p0, some ((999.99 : ℝ) : EReal), -1⟩) ∧
      ((∃ a ∈ l, a.loss ≠ none) → ∃ (i : ℕ) (hi : i < l.length) (v : EReal), l[i] = r ∧ r.loss = some v ∧
        (∀ a ∈ l, ∀ w, a.loss = some w → v ≤ w) ∧ ∀ j (hj : j < i), l[j].loss ≠ some v) := by
  obtain ⟨l, e, hl, ha⟩ := minimizerLoop_spec normal gradNan minimize p0 tol maxIter 0 (some ⊤) []
  refine ⟨l, hl, ha, ?_⟩
  have e' : minimizerAttempts normal gradNan minimize p0 tol maxIter = l := by
    rw [minimizerAttempts, e]; rfl
  simp only [minimizerWrapper, e']
  exact selectBest_is_min p0 l

/-- The driver's loss is never NaN. -/
theorem C42_loss_never_nan {P : Type} (normal : ℕ → P) (gradNan : P → Bool) (minimize : P → P × F)
    (p0 : P) (tol : EReal) (maxIter : ℕ) :
    (minimizerWrapper normal gradNan minimize p0 tol maxIter).loss ≠ none := by
  obtain ⟨l, _, _, h1, h2⟩ := C42_returns_best_attempt normal gradNan minimize p0 tol maxIter
  by_cases h : ∀ a ∈ l, a.loss = none
  · rw [h1 h]; simp
  · push Not at h
    obtain ⟨i, hi, v, _, hv, _⟩ := h2 h
    rw [hv]; simp

/-- `loss_best_current` after the attempts `l` (the last attempt decides which formula is used). -/
noncomputable def curAfter {P : Type} (l : List (Attempt P)) : F :=
  match l.getLast? with
  | none => some ⊤
  | some a => if a.success = -1 then npMin (l.map Attempt.loss)
      else if ∀ a ∈ l, a.loss = none then some ⊤ else npNanmin (l.map Attempt.loss)

theorem curAfter_gt {P : Type} {l : List (Attempt P)} {tol : EReal} (h : gtTol (curAfter l) tol)
    (a : Attempt P) (ha : a ∈ l) (v : EReal) (hv : a.loss = some v) : tol < v := by
  have hv' : some v ∈ l.map Attempt.loss := List.mem_map.2 ⟨a, ha, hv⟩
  simp only [curAfter] at h
  cases hl : l.getLast? with
  | none =>
    rw [List.getLast?_eq_none_iff] at hl
    subst hl
    simp at ha
  | some b =>
    rw [hl] at h
    simp only at h
    have key : ∀ m, npNanmin (l.map Attempt.loss) = some m → tol < m → tol < v := by
      intro m hm htm
      exact lt_of_lt_of_le htm ((npNanmin_eq_some.1 hm).2 v hv')
    split_ifs at h with h1 h2
    · simp only [npMin] at h
      split_ifs at h with h3
      · exact absurd h (by simp [gtTol])
      · cases hm : npNanmin (l.map Attempt.loss) with
        | none => simp only [npNanmin] at hm; rw [hm] at h; exact absurd h (by simp [gtTol])
        | some m =>
          have hm' := hm
          simp only [npNanmin] at hm'
          rw [hm'] at h
          exact key m hm h
    · rw [h2 a ha] at hv; exact absurd hv (by simp)
    · cases hm : npNanmin (l.map Attempt.loss) with
      | none => rw [hm] at h; exact absurd h (by simp [gtTol])
      | some m => rw [hm] at h; exact key m hm h

theorem curAfter_le {P : Type} {l : List (Attempt P)} {tol : EReal} (ht : tol < ⊤)
    (hno : ∀ a ∈ l, a.loss ≠ none) (h : ¬ gtTol (curAfter l) tol) :
    ∃ a ∈ l, ∃ v, a.loss = some v ∧ v ≤ tol := by
  simp only [curAfter] at h
  cases hl : l.getLast? with
  | none =>
    rw [hl] at h
    exact absurd ht h
  | some b =>
    have hb : b ∈ l := List.mem_of_getLast? hl
    rw [hl] at h
    have key : ¬ gtTol (npNanmin (l.map Attempt.loss)) tol → ∃ a ∈ l, ∃ v, a.loss = some v ∧ v ≤ tol := by
      intro hg
      cases hm : npNanmin (l.map Attempt.loss) with
      | none =>
        exact absurd (npNanmin_eq_none.1 hm _ (List.mem_map.2 ⟨b, hb, rfl⟩)) (hno b hb)
      | some m =>
        rw [hm] at hg
        obtain ⟨a, h1, h2⟩ := List.mem_map.1 (npNanmin_eq_some.1 hm).1
        exact ⟨a, h1, m, h2, not_lt.1 hg⟩
    simp only at h
    split_ifs at h with h1 h2
    · apply key
      have : none ∉ l.map Attempt.loss := by
        intro hn
        obtain ⟨a, h3, h4⟩ := List.mem_map.1 hn
        exact hno a h3 h4
      simpa [npMin, this, npNanmin] using h
    · exact absurd ht h
    · exact key h

theorem minimizerLoop_stop {P : Type} (normal : ℕ → P) (gradNan : P → Bool) (minimize : P → P × F) (p0 : P)
    (tol : EReal) (fuel k : ℕ) (acc : List (Attempt P)) :
    let l := minimizerLoop normal gradNan minimize p0 tol fuel k (curAfter acc) acc
    (l.length < acc.length + fuel → ¬ gtTol (curAfter l) tol) ∧
    (∀ n, acc.length ≤ n → n < l.length → gtTol (curAfter (l.take n)) tol) := by
  induction fuel generalizing k acc with
  | zero =>
    simp only [minimizerLoop]
    exact ⟨fun h => by omega, fun n h1 h2 => by omega⟩
  | succ fuel ih =>
    by_cases hc : gtTol (curAfter acc) tol
    · have step : ∀ (x : Attempt P) (k' : ℕ) (l : List (Attempt P)),
          l = minimizerLoop normal gradNan minimize p0 tol fuel k' (curAfter (acc ++ [x])) (acc ++ [x]) →
          (l.length < acc.length + (fuel + 1) → ¬ gtTol (curAfter l) tol) ∧
          (∀ n, acc.length ≤ n → n < l.length → gtTol (curAfter (l.take n)) tol) := by
        intro x k' l hl
        obtain ⟨h1, h2⟩ := ih k' (acc ++ [x])
        obtain ⟨new, e, _, _⟩ := minimizerLoop_spec normal gradNan minimize p0 tol fuel k'
          (curAfter (acc ++ [x])) (acc ++ [x])
        rw [← hl] at h1 h2 e
        simp only [List.length_append, List.length_singleton] at h1 h2
        refine ⟨fun h => h1 (by omega), ?_⟩
        intro n hn hn'
        rcases Nat.lt_or_ge acc.length n with h3 | h3
        · exact h2 n (by omega) hn'
        · have : n = acc.length := by omega
          subst this
          rw [e, List.append_assoc, List.take_left]
          exact hc
      obtain ⟨j, hj, e, h1, h2⟩ := C44_random_start normal gradNan k
      cases hb : gradNan (normal (k + j)) with
      | true =>
        refine step ⟨p0, some ((999.99 : ℝ) : EReal), -1⟩ (k + j + 1) _ ?_
        simp only [minimizerLoop, if_pos hc, e, hb, if_true]
        congr 1
        simp [curAfter]
      | false =>
        refine step ⟨(minimize (normal (k + j))).1, (minimize (normal (k + j))).2, 1⟩ (k + j + 1) _ ?_
        simp only [minimizerLoop, if_pos hc, e, hb]
        simp only [Bool.false_eq_true, if_false]
        congr 1
        simp [curAfter]
    · have : minimizerLoop normal gradNan minimize p0 tol (fuel + 1) k (curAfter acc) acc = acc := by
        simp [minimizerLoop, hc]
      simp only [this]
      exact ⟨fun _ => hc, fun n h1 h2 => by omega⟩

theorem attempts_stop {P : Type} (normal : ℕ → P) (gradNan : P → Bool) (minimize : P → P × F) (p0 : P)
    (tol : EReal) (maxIter : ℕ) :
    let l := minimizerAttempts normal gradNan minimize p0 tol maxIter
    (l.length < maxIter → ¬ gtTol (curAfter l) tol) ∧
    (∀ n, n < l.length → gtTol (curAfter (l.take n)) tol) := by
  have h := minimizerLoop_stop normal gradNan minimize p0 tol maxIter 0 []
  have e : curAfter ([] : List (Attempt P)) = some ⊤ := by simp [curAfter]
  rw [e] at h
  simpa [minimizerAttempts] using h

theorem curAfter_stop {P : Type} {l : List (Attempt P)} {tol : EReal} (ht : tol < ⊤)
    (h : ¬ gtTol (curAfter l) tol) :
    (∃ a ∈ l, ∃ v, a.loss = some v ∧ v ≤ tol) ∨
    ((∃ a ∈ l, a.loss = none) ∧ ∃ b, l.getLast? = some b ∧ b.success = -1) := by
  by_cases hno : ∀ a ∈ l, a.loss ≠ none
  · exact Or.inl (curAfter_le ht hno h)
  push Not at hno
  simp only [curAfter] at h
  cases hl : l.getLast? with
  | none => rw [hl] at h; exact absurd ht h
  | some b =>
    rw [hl] at h
    simp only at h
    split_ifs at h with h1 h2
    · exact Or.inr ⟨hno, b, rfl, h1⟩
    · exact absurd ht h
    · left
      cases hm : npNanmin (l.map Attempt.loss) with
      | none =>
        refine absurd (fun a ha => ?_) h2
        exact npNanmin_eq_none.1 hm _ (List.mem_map.2 ⟨a, ha, rfl⟩)
      | some m =>
        rw [hm] at h
        obtain ⟨a, h3, h4⟩ := List.mem_map.1 (npNanmin_eq_some.1 hm).1
        exact ⟨a, h3, m, h4, not_lt.1 h⟩

theorem curAfter_go {P : Type} {l : List (Attempt P)} {tol : EReal} (h : gtTol (curAfter l) tol) :
    ¬ ((∃ a ∈ l, a.loss = none) ∧ ∃ b, l.getLast? = some b ∧ b.success = -1) := by
  rintro ⟨⟨a, ha, hn⟩, b, hb, hs⟩
  have hmem : none ∈ l.map Attempt.loss := List.mem_map.2 ⟨a, ha, hn⟩
  simp only [curAfter, hb, hs, if_true, npMin, if_pos hmem] at h
  exact h

/-- What the caller of `minimizer_wrapper` can know about the sequence of attempts behind the returned value:
at most `maxIter`; no attempt is made after one at or below the tolerance; it is shorter than `maxIter` only if
an attempt reached the tolerance, or an optimiser run ended in NaN and the latest attempt found no usable start
(after which nothing more is tried). -/
def CompleteRun {P : Type} (tol : EReal) (maxIter : ℕ) (l : List (Attempt P)) : Prop :=
  l.length ≤ maxIter ∧
  (∀ n < l.length, (∀ a ∈ l.take n, ∀ v, a.loss = some v → tol < v) ∧
    ¬ ((∃ a ∈ l.take n, a.loss = none) ∧ ∃ b, (l.take n).getLast? = some b ∧ b.success = -1)) ∧
  (l.length < maxIter → (∃ a ∈ l, ∃ v, a.loss = some v ∧ v ≤ tol) ∨
    ((∃ a ∈ l, a.loss = none) ∧ ∃ b, l.getLast? = some b ∧ b.success = -1))

/-- **C42**, with the number of attempts pinned down: the returned parameters, loss and flag are those of the best
attempt of a *complete* run (`CompleteRun`): the driver does not stop early, does not go on needlessly, and does
not leave out any attempt when it picks the best. -/
theorem C42_best_of_complete_run {P : Type} (normal : ℕ → P) (gradNan : P → Bool) (minimize : P → P × F)
    (p0 : P) (tol : EReal) (ht : tol < ⊤) (maxIter : ℕ) :
    ∃ l : List (Attempt P), CompleteRun tol maxIter l ∧ AttemptsFrom normal gradNan minimize p0 0 l ∧
      let r := minimizerWrapper normal gradNan minimize p0 tol maxIter
      ((∀ a ∈ l, a.loss = none) → r = ⟨p0, some ((999.99 : ℝ) : EReal), -1⟩) ∧
      ((∃ a ∈ l, a.loss ≠ none) → ∃ (i : ℕ) (hi : i < l.length) (v : EReal), l[i] = r ∧ r.loss = some v ∧
        (∀ a ∈ l, ∀ w, a.loss = some w → v ≤ w) ∧ ∀ j (hj : j < i), l[j].loss ≠ some v) := by
  obtain ⟨l, e, hl, ha⟩ := minimizerLoop_spec normal gradNan minimize p0 tol maxIter 0 (some ⊤) []
  have e' : minimizerAttempts normal gradNan minimize p0 tol maxIter = l := by
    rw [minimizerAttempts, e]; rfl
  have hs := attempts_stop normal gradNan minimize p0 tol maxIter
  rw [e'] at hs
  refine ⟨l, ⟨hl, fun n hn => ⟨fun a h v hv => curAfter_gt (hs.2 n hn) a h v hv, curAfter_go (hs.2 n hn)⟩,
    fun h => curAfter_stop ht (hs.1 h)⟩, ha, ?_⟩
  simp only [minimizerWrapper, e']
  exact selectBest_is_min p0 l

/-- A complete run of two attempts (the second reaches the tolerance). -/
example : CompleteRun (P := ℕ) ((0.1 : ℝ) : EReal) 10 [⟨0, some ((0.5 : ℝ) : EReal), 1⟩, ⟨3, some ((0.05 : ℝ) : EReal), 1⟩] := by
  refine ⟨by simp, ?_, fun _ => Or.inl ⟨⟨3, some ((0.05 : ℝ) : EReal), 1⟩, by simp, _, rfl, ?_⟩⟩
  · intro n hn
    have : n = 0 ∨ n = 1 := by simp at hn; omega
    rcases this with rfl | rfl
    · simp
    · refine ⟨?_, by simp⟩
      intro a ha v hv
      simp only [List.take_succ_cons, List.take_zero, List.mem_singleton] at ha
      subst ha
      simp only [Option.some.injEq] at hv
      rw [← hv, EReal.coe_lt_coe_iff]; norm_num
  · rw [EReal.coe_le_coe_iff]; norm_num

/-- **C43** (partial: no optimiser run ends with a NaN loss): the driver stops before `max_iter` attempts only
if some attempt reached a loss at or below the tolerance. Missing: runs in which the optimiser returned NaN,
where the claim is false (`C43_gives_up_after_nan_violated`). -/
theorem C43_keeps_trying_partial {P : Type} (normal : ℕ → P) (gradNan : P → Bool) (minimize : P → P × F) (p0 : P)
    (tol : EReal) (ht : tol < ⊤) (maxIter : ℕ)
    (hno : ∀ a ∈ minimizerAttempts normal gradNan minimize p0 tol maxIter, a.loss ≠ none)
    (hlt : (minimizerAttempts normal gradNan minimize p0 tol maxIter).length < maxIter) :
    ∃ a ∈ minimizerAttempts normal gradNan minimize p0 tol maxIter, ∃ v, a.loss = some v ∧ v ≤ tol :=
  curAfter_le ht hno ((attempts_stop normal gradNan minimize p0 tol maxIter).1 hlt)

/-- **C43** (partial, the converse direction, without restriction): no further attempt is made once an attempt
has a loss at or below the tolerance; all attempts but the last have losses above it (or NaN). -/
theorem C43_stops_promptly_partial {P : Type} (normal : ℕ → P) (gradNan : P → Bool) (minimize : P → P × F) (p0 : P)
    (tol : EReal) (maxIter n : ℕ)
    (hn : n < (minimizerAttempts normal gradNan minimize p0 tol maxIter).length) :
    ∀ a ∈ (minimizerAttempts normal gradNan minimize p0 tol maxIter).take n, ∀ v, a.loss = some v → tol < v :=
  fun a ha v hv => curAfter_gt ((attempts_stop normal gradNan minimize p0 tol maxIter).2 n hn) a ha v hv

/-- One successful attempt with loss 0.05 satisfies all hypotheses of `C43_keeps_trying_partial`. -/
example :
    let l := minimizerAttempts (P := ℕ) id (fun _ => false) (fun _ => (0, some ((0.05 : ℝ) : EReal))) 0
      ((0.1 : ℝ) : EReal) 10
    (((0.1 : ℝ) : EReal) < ⊤) ∧ (∀ a ∈ l, a.loss ≠ none) ∧ l.length < 10 := by
  have h : ¬ (((0.1 : ℝ) : EReal) < ((0.05 : ℝ) : EReal)) := by
    rw [EReal.coe_lt_coe_iff]; norm_num
  refine ⟨EReal.coe_lt_top _, ?_, ?_⟩ <;>
  simp [minimizerAttempts, minimizerLoop, gtTol, returnRandomPinit, npNanmin, h, EReal.coe_lt_top]

/-- **C43** is false once a run has returned NaN: here the first optimiser run ends with a NaN loss and every
later start has NaN gradients; the driver gives up after 2 of 10 attempts although no attempt reached the
tolerance. -/
theorem C43_gives_up_after_nan_violated :
    let l := minimizerAttempts (P := ℕ) id (fun p => decide (1 ≤ p)) (fun _ => (0, none)) 0
      ((0.1 : ℝ) : EReal) 10
    l.length = 2 ∧ ∀ a ∈ l, ∀ v, a.loss = some v → ((0.1 : ℝ) : EReal) < v := by
  obtain ⟨j, hj, e, h1, h2⟩ := C44_random_start (P := ℕ) id (fun p => decide (1 ≤ p)) 1
  have hj' : j = 1000 := h2 (by simp)
  subst hj'
  have e0 : returnRandomPinit (P := ℕ) id (fun p => decide (1 ≤ p)) 0 = (0, false, 1) := by
    simp [returnRandomPinit]
  have key : minimizerAttempts (P := ℕ) id (fun p => decide (1 ≤ p)) (fun _ => (0, none)) 0
      ((0.1 : ℝ) : EReal) 10 = [⟨0, none, 1⟩, ⟨0, some ((999.99 : ℝ) : EReal), -1⟩] := by
    rw [minimizerAttempts, show (10 : ℕ) = 7 + 1 + 1 + 1 from rfl]
    rw [minimizerLoop, if_pos (by simp [gtTol, EReal.coe_lt_top])]
    simp only [e0]
    simp only [Bool.false_eq_true, if_false]
    rw [if_pos (by simp)]
    rw [minimizerLoop, if_pos (by simp [gtTol, EReal.coe_lt_top])]
    simp only [e]
    rw [if_pos (by simp)]
    rw [minimizerLoop, if_neg (by simp [gtTol, npMin])]
    simp
  simp only [key]
  refine ⟨rfl, ?_⟩
  intro a ha v hv
  simp only [List.mem_cons, List.not_mem_nil, or_false] at ha
  rcases ha with rfl | rfl
  · simp at hv
  · simp only [Option.some.injEq] at hv
    rw [← hv, EReal.coe_lt_coe_iff]
    norm_num

/-! ### C45 -/

theorem argminFinite_range (L : ℕ → ℝ) (m : ℕ) (hm : 0 < m) :
    ∃ b < m, argminFinite ((List.range m).map L) = some b ∧ (∀ i < m, L b ≤ L i) ∧ ∀ i < b, L b < L i := by
  cases hmin : ((List.range m).map L).min? with
  | none =>
    rw [List.min?_eq_none_iff] at hmin
    have := congrArg List.length hmin
    simp at this
    omega
  | some v =>
    obtain ⟨h1, h2⟩ := List.min?_eq_some_iff.1 hmin
    have hi : (((List.range m).map L).findIdx fun x => decide (x = v)) < ((List.range m).map L).length := by
      rw [List.findIdx_lt_length]
      exact ⟨_, h1, by simp⟩
    set b := ((List.range m).map L).findIdx fun x => decide (x = v) with hb
    have hb' : L b = v := by
      have := List.findIdx_getElem (w := hi)
      simpa only [decide_eq_true_eq, List.getElem_map, List.getElem_range] using this
    have hbm : b < m := by simpa using hi
    refine ⟨b, hbm, ?_, ?_, ?_⟩
    · simp only [argminFinite, hmin, hb]
    · intro i hi'
      rw [hb']
      exact h2 _ (List.mem_map.2 ⟨i, List.mem_range.2 hi', rfl⟩)
    · intro i hi'
      rw [hb']
      refine lt_of_le_of_ne (h2 _ (List.mem_map.2 ⟨i, List.mem_range.2 (by omega), rfl⟩)) ?_
      intro he
      have := List.not_of_lt_findIdx hi'
      simp only [List.getElem_map, List.getElem_range] at this
      simp [he] at this

theorem take_succ_set {α : Type} (l : List α) (i : ℕ) (x : α) (h : i < l.length) :
    (l.set i x).take (i + 1) = l.take i ++ [x] := by
  rw [List.take_succ_eq_append_getElem (by simpa using h)]
  simp [List.take_set_of_le]

theorem reports_of_arrays {P : Type} [Zero P] (L : ℕ → ℝ) (q : ℕ → P) (m : ℕ) (hm : 0 < m) (la : List ℝ)
    (pa : List P) (hla : la.take m = (List.range m).map L) (hpa : pa.take m = (List.range m).map q) :
    ∃ r, ((argminFinite (la.take m)).map fun i =>
        (⟨pa.getD i 0, la.getD i 0, la.take m, pa.take m⟩ : AdamResult P)) = some r ∧
      ReportsSteps L q m r := by
  obtain ⟨b, hb, e, h1, h2⟩ := argminFinite_range L m hm
  have hq : pa.getD b 0 = q b := by
    have h : (pa.take m)[b]? = some (q b) := by
      rw [hpa]; simp [hb]
    rw [List.getElem?_take_of_lt hb] at h
    simp [h]
  have hl : la.getD b 0 = L b := by
    have h : (la.take m)[b]? = some (L b) := by
      rw [hla]; simp [hb]
    rw [List.getElem?_take_of_lt hb] at h
    simp [h]
  refine ⟨⟨pa.getD b 0, la.getD b 0, la.take m, pa.take m⟩, ?_, hla, hpa, b, hb, hq, hl, h1, h2⟩
  rw [hla, e]
  rfl

theorem adamLoop_spec {S P : Type} [Zero P] (A : Adam S P) (p : P) (L : ℕ → ℝ) (rem istep k : ℕ)
    (la : List ℝ) (pa : List P) (hlal : la.length = istep + rem) (hpal : pa.length = istep + rem)
    (hla : la.take istep = (List.range istep).map L)
    (hpa : pa.take istep = (List.range istep).map fun i => A.getParams (traj A p i))
    (hk : istep ≤ k) (hkn : k ≤ istep + rem) (hk0 : 0 < k)
    (hok : ∀ i < k, A.loss (traj A p i) = some (L i))
    (hbad : k < istep + rem → A.loss (traj A p k) = none) :
    ∃ r, adamLoop A rem istep (traj A p istep) la pa = some r ∧
      ReportsSteps L (fun i => A.getParams (traj A p i)) k r := by
  induction rem generalizing istep la pa with
  | zero =>
    have : k = istep := by omega
    subst this
    have h := reports_of_arrays L _ k hk0 la pa hla hpa
    rw [List.take_of_length_le (by omega), List.take_of_length_le (by omega)] at h
    exact h
  | succ rem ih =>
    rcases Nat.lt_or_ge istep k with h | h
    · have hs := hok istep h
      simp only [adamLoop, hs]
      refine ih (istep + 1) _ _ (by simp; omega) (by simp; omega) ?_ ?_ (by omega) (by omega) ?_
      · rw [take_succ_set _ _ _ (by omega), hla, List.range_succ]; simp
      · rw [take_succ_set _ _ _ (by omega), hpa, List.range_succ]; simp
      · intro h'; exact hbad (by omega)
    · have : k = istep := by omega
      subst this
      have hs := hbad (by omega)
      simp only [adamLoop, hs]
      rw [if_pos hk0]
      exact reports_of_arrays L _ k hk0 la pa hla hpa

/-- **C45**: `k` is the number of steps before the first NaN/inf in the parameters, loss or gradient (`k = n_step`
if there is none). If `k ≥ 1`, the driver returns (no exception) the history of exactly those `k` steps together
with the best of them. -/
theorem C45_reports_best_step {S P : Type} [Zero P] (A : Adam S P) (p : P) (L : ℕ → ℝ) (n k : ℕ)
    (hk0 : 0 < k) (hkn : k ≤ n)
    (hok : ∀ i < k, A.loss (traj A p i) = some (L i))
    (hbad : k < n → A.loss (traj A p k) = none) :
    ∃ r, jaxAdamWrapper A p n = some r ∧ ReportsSteps L (fun i => A.getParams (traj A p i)) k r :=
  adamLoop_spec A p L n 0 k _ _ (by simp) (by simp) (by simp) (by simp) (by omega) (by omega) hk0 hok
    (by simpa using hbad)

/-- **C45**: if the very first step fails, the start itself is returned with loss 999.99 and empty histories. -/
theorem C45_first_step_fails {S P : Type} [Zero P] (A : Adam S P) (p : P) (n : ℕ) (hn : 0 < n)
    (hbad : A.loss (A.init p) = none) :
    jaxAdamWrapper A p n = some ⟨A.getParams (A.init p), 999.99, [], []⟩ := by
  obtain ⟨n, rfl⟩ : ∃ m, n = m + 1 := ⟨n - 1, by omega⟩
  simp [jaxAdamWrapper, adamLoop, hbad]

/-- **C45**: with at least one step the driver never raises; with `n_step = 0` it always does. -/
theorem C45_raises_iff_no_steps {S P : Type} [Zero P] (A : Adam S P) (p : P) (n : ℕ) :
    jaxAdamWrapper A p n = none ↔ n = 0 := by
  constructor
  · intro h
    by_contra hn
    by_cases h0 : A.loss (A.init p) = none
    · rw [C45_first_step_fails A p n (by omega) h0] at h
      simp at h
    · let bad : ℕ → Prop := fun k => k = n ∨ A.loss (traj A p k) = none
      have hex : ∃ k, bad k := ⟨n, Or.inl rfl⟩
      have hmin : ∀ i < Nat.find hex, ¬ bad i := fun i hi => Nat.find_min hex hi
      have hle : Nat.find hex ≤ n := Nat.find_min' hex (Or.inl rfl)
      have hpos : 0 < Nat.find hex := by
        rw [Nat.find_pos]
        rintro (h1 | h1)
        · exact hn h1.symm
        · exact h0 h1
      obtain ⟨r, e, _⟩ := C45_reports_best_step A p (fun i => (A.loss (traj A p i)).getD 0) n (Nat.find hex)
        hpos hle (by
          intro i hi
          have := hmin i hi
          simp only [bad, not_or] at this
          cases hl : A.loss (traj A p i) with
          | none => exact absurd hl this.2
          | some v => rfl) (by
          intro hlt
          rcases Nat.find_spec hex with h1 | h1
          · omega
          · exact h1)
      rw [e] at h
      simp at h
  · rintro rfl
    simp [jaxAdamWrapper, adamLoop, argminFinite]

/-- Number of usable steps: the history has `n` entries iff all `n` steps were fine. -/
theorem adam_full_iff {S P : Type} [Zero P] (A : Adam S P) (p : P) (n : ℕ) (r : AdamResult P)
    (h : jaxAdamWrapper A p n = some r) :
    r.lossArr.length ≤ n ∧ (r.lossArr.length = n ↔ ∀ i < n, A.loss (traj A p i) ≠ none) := by
  have hn : n ≠ 0 := by
    intro h0
    rw [(C45_raises_iff_no_steps A p n).2 h0] at h
    simp at h
  by_cases h0 : A.loss (A.init p) = none
  · rw [C45_first_step_fails A p n (by omega) h0] at h
    simp only [Option.some.injEq] at h
    subst h
    refine ⟨by simp, ?_⟩
    constructor
    · intro h1; simp at h1; omega
    · intro h1; exact absurd h0 (h1 0 (by omega))
  · let bad : ℕ → Prop := fun k => k = n ∨ A.loss (traj A p k) = none
    have hex : ∃ k, bad k := ⟨n, Or.inl rfl⟩
    have hmin : ∀ i < Nat.find hex, ¬ bad i := fun i hi => Nat.find_min hex hi
    have hle : Nat.find hex ≤ n := Nat.find_min' hex (Or.inl rfl)
    have hpos : 0 < Nat.find hex := by
      rw [Nat.find_pos]
      rintro (h1 | h1)
      · exact hn h1.symm
      · exact h0 h1
    obtain ⟨r', e, hr, _⟩ := C45_reports_best_step A p (fun i => (A.loss (traj A p i)).getD 0) n (Nat.find hex)
      hpos hle (by
        intro i hi
        have := hmin i hi
        simp only [bad, not_or] at this
        cases hl : A.loss (traj A p i) with
        | none => exact absurd hl this.2
        | some v => rfl) (by
        intro hlt
        rcases Nat.find_spec hex with h1 | h1
        · omega
        · exact h1)
    rw [e] at h
    simp only [Option.some.injEq] at h
    subst h
    have hlen : r'.lossArr.length = Nat.find hex := by rw [hr]; simp
    rw [hlen]
    refine ⟨hle, ?_, ?_⟩
    · intro h1 i hi h2
      exact hmin i (by omega) (Or.inr h2)
    · intro h1
      rcases Nat.find_spec hex with h2 | h2
      · exact h2
      · by_contra h3
        exact h1 _ (by omega) h2

/-- **C45** (two-stage driver): with at least one main and one warm-up step it returns; its main stage starts at
the warm-up result if that is finite and at the given start otherwise; and the flag is 1 exactly if none of the
`n_step` main steps met a NaN or inf. -/
theorem C45_fit_terminates_flag {S P : Type} [Zero P] (warm main : Adam S P) (finite : P → Bool) (p : P)
    (n nWarmup m : ℕ) (hn : 0 < n) (hm : 0 < m) :
    ∃ pw r flag, adamWarmup warm m nWarmup p = some pw ∧
      jaxAdamWrapper main (if finite pw then pw else p) n = some r ∧
      jaxAdamWrapperV2 warm main finite p n nWarmup m = some (r, flag) ∧
      (flag = 0 ∨ flag = 1) ∧
      (flag = 1 ↔ ∀ i < n, main.loss (traj main (if finite pw then pw else p) i) ≠ none) := by
  have hw : ∀ k q, ∃ pw, adamWarmup warm m k q = some pw := by
    intro k
    induction k with
    | zero => intro q; exact ⟨q, rfl⟩
    | succ k ih =>
      intro q
      cases hr : jaxAdamWrapper warm q m with
      | none => exact absurd ((C45_raises_iff_no_steps warm q m).1 hr) (by omega)
      | some r =>
        obtain ⟨pw, h⟩ := ih r.params
        exact ⟨pw, by simp [adamWarmup, hr, h]⟩
  obtain ⟨pw, hpw⟩ := hw nWarmup p
  cases hr : jaxAdamWrapper main (if finite pw then pw else p) n with
  | none => exact absurd ((C45_raises_iff_no_steps main _ n).1 hr) (by omega)
  | some r =>
    obtain ⟨h1, h2⟩ := adam_full_iff main _ n r hr
    refine ⟨pw, r, if r.lossArr.length < n then 0 else 1, hpw, hr, ?_, ?_, ?_⟩
    · simp [jaxAdamWrapperV2, hpw, hr]
    · split_ifs <;> simp
    · rw [← h2]
      split_ifs with h3
      · constructor
        · intro h; exact absurd h (by norm_num)
        · intro h; exact absurd h (by omega)
      · constructor
        · intro _; omega
        · intro _; rfl

/-- A concrete optimiser: the loss of step `i` is `(p - i)^2` up to step 4, then NaN; the hypotheses of
`C45_reports_best_step` hold with `k = 5`. -/
noncomputable def exampleAdam : Adam (ℕ × ℝ) ℝ where
  init p := (0, p)
  getParams s := s.2 - s.1
  loss s := if s.1 < 5 then some ((s.2 - s.1) ^ 2) else none
  update _ s := (s.1 + 1, s.2)

theorem exampleAdam_traj (p : ℝ) (i : ℕ) : traj exampleAdam p i = (i, p) := by
  induction i with
  | zero => rfl
  | succ i ih => rw [traj, ih]; rfl

example : (∀ i < 5, exampleAdam.loss (traj exampleAdam 3 i) = some ((3 - (i : ℝ)) ^ 2)) ∧
    exampleAdam.loss (traj exampleAdam 3 5) = none := by
  constructor
  · intro i hi
    rw [exampleAdam_traj]
    simp [exampleAdam, hi]
  · rw [exampleAdam_traj]
    simp [exampleAdam]

/-! ### C66 -/

/-- **C66** (partial: no extra positional arguments): the flag of `minimizer` is 1 exactly if L-BFGS-B reported
success, and then scipy's parameters and loss are returned unchanged; otherwise it is 0 or -1, 0 exactly if all
main Adam steps were free of NaN/inf. Missing: calls with extra positional arguments, see
`C66_extra_args_violated`. -/
theorem C66_success_codes_partial {S P : Type} [Zero P] (warm main : Adam S P) (finite : P → Bool)
    (scipy : P → ScipyResult P) (p : P) (nstep : ℕ) (hn : 0 < nstep) :
    ∃ q l flag, minimizer warm main finite scipy p nstep 0 = some (q, l, flag) ∧
      (flag = 1 ↔ (scipy p).success = true) ∧
      ((scipy p).success = true → q = (scipy p).x ∧ l = (scipy p).fun') ∧
      ((scipy p).success = false → ∃ pw, adamWarmup warm 50 2 p = some pw ∧
        (flag = 0 ∨ flag = -1) ∧
        (flag = 0 ↔ ∀ i < nstep, main.loss (traj main (if finite pw then pw else p) i) ≠ none) ∧
        ∃ r, jaxAdamWrapper main (if finite pw then pw else p) nstep = some r ∧
          q = r.params ∧ l = some ((r.loss : ℝ) : EReal)) := by
  cases hs : (scipy p).success with
  | true =>
    exact ⟨(scipy p).x, (scipy p).fun', 1, by simp [minimizer, hs], by simp, by simp, by simp⟩
  | false =>
    obtain ⟨pw, r, flag, h1, h2, h3, h4, h5⟩ :=
      C45_fit_terminates_flag warm main finite p nstep 2 50 hn (by norm_num)
    refine ⟨r.params, some ((r.loss : ℝ) : EReal), if flag ≠ 0 then 0 else -1, ?_, ?_, by simp, ?_⟩
    · simp [minimizer, hs, h3]
    · rcases h4 with h4 | h4 <;> simp [h4]
    · intro _
      refine ⟨pw, h1, ?_, ?_, r, h2, rfl, rfl⟩
      · rcases h4 with h4 | h4 <;> simp [h4]
      · rw [← h5]
        rcases h4 with h4 | h4 <;> simp [h4]

/-- **C66** is false with extra positional arguments: if L-BFGS-B does not report success the call raises. -/
theorem C66_extra_args_violated {S P : Type} [Zero P] (warm main : Adam S P) (finite : P → Bool)
    (scipy : P → ScipyResult P) (p : P) (nstep extraArgs : ℕ) (he : 0 < extraArgs)
    (hs : (scipy p).success = false) :
    minimizer warm main finite scipy p nstep extraArgs = none := by
  simp [minimizer, hs, he]

example : ∃ (scipy : ℝ → ScipyResult ℝ), (scipy 3).success = false := ⟨fun p => ⟨p, none, false⟩, rfl⟩

end Diffstar.Props
