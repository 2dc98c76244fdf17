import Verif.Model.PopFit
import Mathlib.Data.Finset.Max
import Mathlib.Data.List.GetD
import Mathlib.Tactic.NormNum
import Mathlib.Tactic.Linarith

/-!
Property C82: the parameters written by `fit_mstar_ssfr_pdfs_mgash.py`.
-/

namespace Diffstar.Props

open Diffstar.PopFit

/-! ### Specification -/

/-- Optimiser states of plain gradient descent with `o`: state `k + 1` is the update of state `k` with the gradient at
its own parameters. -/
def Spec.optState {S : Type} (o : Optimizer S) (kernel : Vec → Option ℝ × Vec) (p0 : Vec) : ℕ → S
  | 0 => o.init p0
  | k + 1 => o.update k (kernel (o.params (Spec.optState o kernel p0 k))).2 (Spec.optState o kernel p0 k)

/-- Everything is finite at the point `p`, and the loss there is `L`. -/
def Spec.FiniteAt (kernel : Vec → Option ℝ × Vec) (p : Vec) (L : ℝ) : Prop :=
  (∀ x ∈ p, x ≠ none) ∧ (kernel p).1 = some L ∧ ∀ x ∈ (kernel p).2, x ≠ none

/-! ### Lemmas -/

theorem allFinite_iff (v : Vec) : allFinite v = true ↔ ∀ x ∈ v, x ≠ none := by
  unfold allFinite
  rw [List.all_eq_true]
  exact forall₂_congr fun x _ => Option.isSome_iff_ne_none

theorem argmin_some {l : List (Option ℝ)} {i : ℕ} (h : argmin l = some i) :
    i < l.length ∧ (∀ y ∈ l, lossLe (l.getD i none) y) ∧ ∀ j < i, ∃ y ∈ l, ¬ lossLe (l.getD j none) y := by
  unfold argmin at h
  rw [List.find?_range_eq_some] at h
  obtain ⟨h1, h2, h3⟩ := h
  refine ⟨List.mem_range.1 h2, by simpa using h1, ?_⟩
  intro j hj
  have := h3 j hj
  simpa using this

theorem lossLe_total (a b : Option ℝ) : lossLe a b ∨ lossLe b a := by
  cases a <;> cases b <;> simp [lossLe, le_total]

theorem lossLe_trans {a b c : Option ℝ} (h1 : lossLe a b) (h2 : lossLe b c) : lossLe a c := by
  cases a <;> cases b <;> cases c <;> simp_all [lossLe]
  linarith

theorem exists_min_entry : ∀ l : List (Option ℝ), l ≠ [] → ∃ x ∈ l, ∀ y ∈ l, lossLe x y := by
  intro l
  induction l with
  | nil => intro h; exact absurd rfl h
  | cons a l ih =>
    intro _
    have hself : lossLe a a := (lossLe_total a a).elim id id
    by_cases hl : l = []
    · subst hl; exact ⟨a, by simp, by simpa using hself⟩
    · obtain ⟨x, hx, hmin⟩ := ih hl
      rcases lossLe_total a x with h | h
      · refine ⟨a, by simp, fun y hy => ?_⟩
        rcases List.mem_cons.1 hy with rfl | hy
        · exact hself
        · exact lossLe_trans h (hmin y hy)
      · refine ⟨x, by simp [hx], fun y hy => ?_⟩
        rcases List.mem_cons.1 hy with rfl | hy
        · exact h
        · exact hmin y hy

theorem argmin_ne_none {l : List (Option ℝ)} (h : l ≠ []) : ∃ i, argmin l = some i := by
  classical
  obtain ⟨x, hx, hmin⟩ := exists_min_entry l h
  obtain ⟨i, hi, rfl⟩ := List.getElem_of_mem hx
  rw [← Option.isSome_iff_exists]
  unfold argmin
  rw [List.find?_isSome]
  refine ⟨i, List.mem_range.2 hi, ?_⟩
  rw [List.all_eq_true]
  intro y hy
  rw [List.getD_eq_getElem l none hi]
  simpa using hmin y hy

/-- The arrays have `n` entries and a recorded loss belongs to the recorded parameters. -/
structure Recorded {S : Type} (o : Optimizer S) (kernel : Vec → Option ℝ × Vec) (n : ℕ) (st : St S) : Prop where
  loss : st.lossArr.length = n
  params : st.paramsArr.length = n
  point : ∀ (j : ℕ) L, st.lossArr[j]? = some (some L) → ∃ p, st.paramsArr[j]? = some p ∧ Spec.FiniteAt kernel p L ∧
    ∃ s, p = o.params s

theorem finishStep_spec {S : Type} (o : Optimizer S) (kernel : Vec → Option ℝ × Vec) (n i : ℕ) (st : St S) (p : Vec)
    (h : Recorded o kernel n st) (hi : i < n) (hs : ∃ s, p = o.params s) :
    ∃ st', (finishStep o i st p (kernel p).1 (kernel p).2 = .next st' ∨
        finishStep o i st p (kernel p).1 (kernel p).2 = .stop st') ∧ Recorded o kernel n st' ∧
      (∀ j ≠ i, st'.lossArr[j]? = st.lossArr[j]?) ∧ st'.currentGrads ≠ none := by
  unfold finishStep
  by_cases hok : (allFinite p && (kernel p).1.isSome && allFinite (kernel p).2) = true
  · obtain ⟨⟨hp, hL⟩, hg⟩ : (allFinite p = true ∧ (kernel p).1.isSome = true) ∧ allFinite (kernel p).2 = true := by
      simpa using hok
    simp only [hp, hL, hg, Bool.and_self, if_true]
    refine ⟨_, Or.inl rfl, ⟨by simpa using h.loss, by simpa using h.params, ?_⟩, ?_, by simp⟩
    · intro j L hj
      simp only [List.getElem?_set] at hj ⊢
      by_cases hij : i = j
      · subst hij
        rw [if_pos rfl, if_pos (by rw [h.loss]; exact hi), Option.some.injEq] at hj
        refine ⟨p, by rw [if_pos rfl, if_pos (by rw [h.params]; exact hi)], ⟨?_, hj, ?_⟩, hs⟩
        · exact (allFinite_iff p).1 hp
        · exact (allFinite_iff _).1 hg
      · rw [if_neg hij] at hj ⊢
        exact h.point j L hj
    · intro j hj
      simp only [List.getElem?_set]
      rw [if_neg (Ne.symm hj)]
  · simp only [hok]
    by_cases hg : allFinite (kernel p).2 = true
    · rw [if_pos hg]
      exact ⟨_, Or.inl rfl, ⟨h.loss, h.params, h.point⟩, fun _ _ => rfl, by simp⟩
    · rw [if_neg hg]
      exact ⟨_, Or.inr rfl, ⟨h.loss, h.params, h.point⟩, fun _ _ => rfl, by simp⟩

theorem step_spec {S : Type} (o : Optimizer S) (kernel : Vec → Option ℝ × Vec) (n i : ℕ) (st : St S)
    (h : Recorded o kernel n st) (hi : i < n) (hc : st.currentGrads ≠ none) :
    ∃ st', (step o kernel i st = .next st' ∨ step o kernel i st = .stop st') ∧ Recorded o kernel n st' ∧
      (∀ j ≠ i, st'.lossArr[j]? = st.lossArr[j]?) ∧ st'.currentGrads ≠ none := by
  unfold step
  by_cases hL : (kernel (o.params st.opt)).1.isSome = true
  · simp only [hL, if_true]
    exact finishStep_spec o kernel n i st _ h hi ⟨_, rfl⟩
  · obtain ⟨cg, hcg⟩ := Option.ne_none_iff_exists'.1 hc
    simp only [hL, hcg]
    by_cases h2 : (allFinite (o.params (o.update i cg st.opt)) &&
        (kernel (o.params (o.update i cg st.opt))).1.isSome &&
        allFinite (kernel (o.params (o.update i cg st.opt))).2) = true
    · simp only [h2, if_true]
      exact finishStep_spec o kernel n i st _ h hi ⟨_, rfl⟩
    · simp only [h2]
      exact ⟨st, Or.inl rfl, h, fun _ _ => rfl, hc⟩

theorem loop_spec {S : Type} (o : Optimizer S) (kernel : Vec → Option ℝ × Vec) (n : ℕ) :
    ∀ (is : List ℕ) (st : St S), Recorded o kernel n st → (∀ i ∈ is, i < n) → st.currentGrads ≠ none →
      ∃ st', loop o kernel is st = some st' ∧ Recorded o kernel n st' ∧
        ∀ j ∉ is, st'.lossArr[j]? = st.lossArr[j]? := by
  intro is
  induction is with
  | nil => intro st h _ _; exact ⟨st, rfl, h, fun _ _ => rfl⟩
  | cons i is ih =>
    intro st h hi hc
    obtain ⟨st', hst, hr, hj, hc'⟩ := step_spec o kernel n i st h (hi i (by simp)) hc
    unfold loop
    rcases hst with hst | hst
    · rw [hst]
      obtain ⟨st'', h1, h2, h3⟩ := ih st' hr (fun k hk => hi k (by simp [hk])) hc'
      refine ⟨st'', h1, h2, fun j hj' => ?_⟩
      rw [h3 j (fun h => hj' (by simp [h])), hj j (fun h => hj' (by simp [h]))]
    · rw [hst]
      exact ⟨st', rfl, hr, fun j hj' => hj j fun h => hj' (by simp [h])⟩

/-! ### C82 -/

/-- C82 (partial: loss, gradient and parameters are finite at the starting point): the run ends without an exception,
and the saved parameters are finite, have a finite loss and gradient, and their loss is at most that of the starting
point; they are the parameters of an optimiser state. -/
theorem C82_saved_no_worse_than_start_partial {S : Type} (o : Optimizer S) (kernel : Vec → Option ℝ × Vec) (n : ℕ)
    (hn : 0 < n) (p0 : Vec) (L0 : ℝ) (h0 : Spec.FiniteAt kernel (o.params (o.init p0)) L0) :
    ∃ p L, runFit o kernel n p0 = some p ∧ Spec.FiniteAt kernel p L ∧ L ≤ L0 ∧ ∃ s, p = o.params s := by
  obtain ⟨m, rfl⟩ : ∃ m, n = m + 1 := ⟨n - 1, by omega⟩
  set st0 : St S := ⟨o.init p0, none, List.replicate (m + 1) none,
    List.replicate (m + 1) (List.replicate p0.length (some 0))⟩ with hst0
  have hr0 : Recorded o kernel (m + 1) st0 := by
    refine ⟨by simp [hst0], by simp [hst0], ?_⟩
    intro j L hj
    simp only [hst0, List.getElem?_replicate] at hj
    split_ifs at hj
    simp at hj
  have hp : allFinite (o.params (o.init p0)) = true := (allFinite_iff _).2 h0.1
  have hg : allFinite (kernel (o.params (o.init p0))).2 = true := (allFinite_iff _).2 h0.2.2
  obtain ⟨st1, hs1, hr1, hc1, hl1⟩ : ∃ st1, step o kernel 0 st0 = .next st1 ∧ Recorded o kernel (m + 1) st1 ∧
      st1.currentGrads ≠ none ∧ st1.lossArr[0]? = some (some L0) := by
    obtain ⟨st', hst, hr, _, hc⟩ := finishStep_spec o kernel (m + 1) 0 st0 (o.params st0.opt) hr0 (by omega) ⟨_, rfl⟩
    have e : step o kernel 0 st0 = finishStep o 0 st0 (o.params st0.opt) (kernel (o.params st0.opt)).1
        (kernel (o.params st0.opt)).2 := by
      unfold step
      simp only
      rw [if_pos]
      rw [show st0.opt = o.init p0 from rfl, h0.2.1]
      rfl
    have e2 : finishStep o 0 st0 (o.params st0.opt) (kernel (o.params st0.opt)).1 (kernel (o.params st0.opt)).2 =
        .next ⟨o.update 0 (kernel (o.params st0.opt)).2 st0.opt, some (kernel (o.params st0.opt)).2,
          st0.lossArr.set 0 (kernel (o.params st0.opt)).1, st0.paramsArr.set 0 (o.params st0.opt)⟩ := by
      unfold finishStep
      rw [show st0.opt = o.init p0 from rfl]
      simp only [hp, hg, h0.2.1, Option.isSome_some, Bool.and_self, if_true]
    rcases hst with hst | hst
    · rw [e2] at hst
      injection hst with hst
      refine ⟨st', by rw [e, e2, hst], hr, hc, ?_⟩
      rw [← hst, show st0.opt = o.init p0 from rfl, h0.2.1]
      simp [hst0, List.replicate_succ]
    · rw [e2] at hst; exact absurd hst (by simp)
  have hrange : List.range (m + 1) = 0 :: (List.range m).map (· + 1) := by
    rw [List.range_succ_eq_map]
  obtain ⟨st, hloop, hr, hj⟩ := loop_spec o kernel (m + 1) ((List.range m).map (· + 1)) st1 hr1
    (by intro i hi; obtain ⟨k, hk, rfl⟩ := List.mem_map.1 hi; have := List.mem_range.1 hk; omega) hc1
  have hl : st.lossArr[0]? = some (some L0) := by
    rw [hj 0 (by simp), hl1]
  have hloop' : loop o kernel (List.range (m + 1)) st0 = some st := by
    rw [hrange]
    unfold loop
    rw [hs1]
    exact hloop
  have hne : st.lossArr ≠ [] := by
    intro h; rw [h] at hl; simp at hl
  obtain ⟨i, hi⟩ := argmin_ne_none hne
  obtain ⟨hilt, hmin, _⟩ := argmin_some hi
  have hle := hmin (some L0) (List.mem_of_getElem? hl)
  have hge : st.lossArr[i]? = some (st.lossArr.getD i none) := by
    rw [List.getElem?_eq_getElem hilt, List.getD_eq_getElem _ _ hilt]
  obtain ⟨L, hL⟩ : ∃ L, st.lossArr.getD i none = some L := by
    cases h : st.lossArr.getD i none with
    | none => rw [h] at hle; exact absurd hle (by simp [lossLe])
    | some L => exact ⟨L, rfl⟩
  rw [hL] at hle hge
  obtain ⟨p, hp', hfin, hs⟩ := hr.point i L hge
  refine ⟨p, L, ?_, hfin, hle, hs⟩
  unfold runFit
  simp only [← hst0, hloop', hi, Option.bind_eq_bind, Option.bind_some, Option.pure_def, List.getD_eq_getElem?_getD, hp',
    Option.getD_some]

theorem loop_all_finite {S : Type} (o : Optimizer S) (kernel : Vec → Option ℝ × Vec) (p0 : Vec) (n : ℕ) (L : ℕ → ℝ)
    (h : ∀ k < n, Spec.FiniteAt kernel (o.params (Spec.optState o kernel p0 k)) (L k)) :
    ∀ (m k : ℕ) (st : St S), k + m = n → st.opt = Spec.optState o kernel p0 k → st.lossArr.length = n →
      st.paramsArr.length = n → (∀ j < k, st.lossArr[j]? = some (some (L j)) ∧
        st.paramsArr[j]? = some (o.params (Spec.optState o kernel p0 j))) →
      ∃ st', loop o kernel (List.range' k m) st = some st' ∧ st'.lossArr.length = n ∧
        ∀ j < n, st'.lossArr[j]? = some (some (L j)) ∧
          st'.paramsArr[j]? = some (o.params (Spec.optState o kernel p0 j)) := by
  intro m
  induction m with
  | zero =>
    intro k st hk _ hl _ hj
    refine ⟨st, rfl, hl, ?_⟩
    rw [← show k = n by omega]
    exact hj
  | succ m ih =>
    intro k st hk hopt hl hp hj
    obtain ⟨h1, h2, h3⟩ := h k (by omega)
    have h1' := (allFinite_iff _).2 h1
    have h3' := (allFinite_iff _).2 h3
    rw [List.range'_succ]
    unfold loop
    have e : step o kernel k st = .next ⟨Spec.optState o kernel p0 (k + 1),
        some (kernel (o.params (Spec.optState o kernel p0 k))).2,
        st.lossArr.set k (some (L k)), st.paramsArr.set k (o.params (Spec.optState o kernel p0 k))⟩ := by
      unfold step finishStep
      simp only [hopt, h1', h2, h3', Option.isSome_some, Bool.and_self, if_true]
      rfl
    rw [e]
    refine ih (k + 1) _ (by omega) rfl (by simpa using hl) (by simpa using hp) ?_
    intro j hjk
    simp only [List.getElem?_set]
    by_cases hjk' : k = j
    · subst hjk'
      rw [if_pos rfl, if_pos (by omega), if_pos rfl, if_pos (by omega)]
      exact ⟨rfl, rfl⟩
    · rw [if_neg hjk', if_neg hjk']
      exact hj j (by omega)

/-- C82 (partial: everything is finite at the first `n` optimiser iterates): the saved parameters are the first of
these iterates with the least loss. The parameters after the last update are not among them. -/
theorem C82_saved_is_best_iterate_partial {S : Type} (o : Optimizer S) (kernel : Vec → Option ℝ × Vec) (p0 : Vec) (n : ℕ)
    (hn : 0 < n) (L : ℕ → ℝ) (h : ∀ k < n, Spec.FiniteAt kernel (o.params (Spec.optState o kernel p0 k)) (L k)) :
    ∃ k < n, runFit o kernel n p0 = some (o.params (Spec.optState o kernel p0 k)) ∧ (∀ j < n, L k ≤ L j) ∧
      ∀ j < k, L k < L j := by
  obtain ⟨st, hloop, hlen, hst⟩ := loop_all_finite o kernel p0 n L h n 0
    ⟨o.init p0, none, List.replicate n none, List.replicate n (List.replicate p0.length (some 0))⟩ (by omega) rfl
    (by simp) (by simp) (by simp)
  rw [← List.range_eq_range'] at hloop
  obtain ⟨i, hi⟩ := argmin_ne_none (l := st.lossArr) (by intro h0; rw [h0] at hlen; simp at hlen; omega)
  obtain ⟨hilt, hmin, hfirst⟩ := argmin_some hi
  rw [hlen] at hilt
  have hget : ∀ j < n, st.lossArr.getD j none = some (L j) := by
    intro j hj
    rw [List.getD_eq_getElem?_getD, (hst j hj).1]; rfl
  have hminL : ∀ j < n, L i ≤ L j := by
    intro j hj
    have := hmin _ (List.mem_of_getElem? (hst j hj).1)
    rw [hget i hilt] at this
    exact this
  refine ⟨i, hilt, ?_, hminL, ?_⟩
  · unfold runFit
    simp only [hloop, hi, Option.bind_eq_bind, Option.bind_some, Option.pure_def, List.getD_eq_getElem?_getD,
      (hst i hilt).2, Option.getD_some]
  · intro j hj
    obtain ⟨y, hy, hlt⟩ := hfirst j hj
    obtain ⟨k, hk, rfl⟩ := List.getElem_of_mem hy
    have hk' : st.lossArr[k]? = some st.lossArr[k] := List.getElem?_eq_getElem hk
    rw [hlen] at hk
    rw [(hst k hk).1, Option.some.injEq] at hk'
    rw [hget j (by omega), ← hk'] at hlt
    have : ¬ L j ≤ L k := hlt
    exact lt_of_le_of_lt (hminL k hk) (not_le.1 this)

/-- Plain gradient descent with unit steps. -/
noncomputable def unitDescent : Optimizer Vec where
  init := id
  update := fun _ g p => List.zipWith (fun x y => x.bind fun x => y.map fun y => x - y) p g
  params := id

/-- A quadratic loss of one parameter. -/
noncomputable def quadratic : Vec → Option ℝ × Vec
  | [some x] => (some (x ^ 2), [some (x / 2)])
  | _ => (none, [])

example : ∀ k < 5, ∃ x : ℝ, unitDescent.params (Spec.optState unitDescent quadratic [some 8] k) = [some x] ∧
    Spec.FiniteAt quadratic (unitDescent.params (Spec.optState unitDescent quadratic [some 8] k)) (x ^ 2) := by
  intro k _
  have : ∀ k, ∃ x : ℝ, Spec.optState unitDescent quadratic [some 8] k = [some x] := by
    intro k
    induction k with
    | zero => exact ⟨8, rfl⟩
    | succ k ih => obtain ⟨x, hx⟩ := ih; exact ⟨x - x / 2, by rw [Spec.optState, hx]; simp [unitDescent, quadratic]⟩
  obtain ⟨x, hx⟩ := this k
  refine ⟨x, hx, ?_⟩
  rw [hx]
  simp [Spec.FiniteAt, unitDescent, quadratic]

/-- C82 fails if the loss is not finite at the starting point: the extra step uses `current_grads` before it is set,
`UnboundLocalError`. -/
theorem C82_nan_loss_at_start_violated {S : Type} (o : Optimizer S) (kernel : Vec → Option ℝ × Vec) (n : ℕ) (hn : 0 < n)
    (p0 : Vec) (h0 : (kernel (o.params (o.init p0))).1 = none) : runFit o kernel n p0 = none := by
  obtain ⟨m, rfl⟩ : ∃ m, n = m + 1 := ⟨n - 1, by omega⟩
  unfold runFit
  rw [List.range_succ_eq_map]
  simp only [loop, step, h0, Option.isSome_none]
  rfl

example : (quadratic (unitDescent.params (unitDescent.init [none]))).1 = none := rfl

/-- C82 fails if the gradient is not finite at the starting point: the run ends at once and zeros are saved, whatever
the starting point. -/
theorem C82_nan_gradient_at_start_violated {S : Type} (o : Optimizer S) (kernel : Vec → Option ℝ × Vec) (n : ℕ)
    (hn : 0 < n) (p0 : Vec) (L0 : ℝ) (h0 : (kernel (o.params (o.init p0))).1 = some L0)
    (hg : ∃ x ∈ (kernel (o.params (o.init p0))).2, x = none) :
    runFit o kernel n p0 = some (List.replicate p0.length (some 0)) := by
  obtain ⟨m, rfl⟩ : ∃ m, n = m + 1 := ⟨n - 1, by omega⟩
  have hg' : allFinite (kernel (o.params (o.init p0))).2 = false := by
    rw [← Bool.not_eq_true, allFinite_iff]
    push Not
    exact hg
  have hloop : ∀ st : St S, st.opt = o.init p0 → ∃ st', loop o kernel (List.range (m + 1)) st = some st' ∧
      st'.lossArr = st.lossArr ∧ st'.paramsArr = st.paramsArr := by
    intro st hopt
    rw [List.range_succ_eq_map]
    refine ⟨{ st with currentGrads := some (kernel (o.params (o.init p0))).2 }, ?_, rfl, rfl⟩
    simp [loop, step, finishStep, hopt, h0, hg']
  obtain ⟨st', h1, h2, h3⟩ := hloop ⟨o.init p0, none, List.replicate (m + 1) none,
    List.replicate (m + 1) (List.replicate p0.length (some 0))⟩ rfl
  obtain ⟨i, hi⟩ := argmin_ne_none (l := st'.lossArr) (by rw [h2]; simp)
  have hilt := (argmin_some hi).1
  rw [h2, List.length_replicate] at hilt
  unfold runFit
  simp only [h1, hi, Option.bind_eq_bind, Option.bind_some, Option.pure_def, h3, List.getD_eq_getElem?_getD,
    List.getElem?_replicate]
  rw [if_pos hilt]
  rfl

example : ∃ kernel : Vec → Option ℝ × Vec, (kernel (unitDescent.params (unitDescent.init [some 3, some 4]))).1 = some 2 ∧
    ∃ x ∈ (kernel (unitDescent.params (unitDescent.init [some 3, some 4]))).2, x = none :=
  ⟨fun _ => (some 2, [some 1, none]), rfl, none, by simp, rfl⟩

/-- A loss of one parameter which is not finite at 1: 9, 7, 5 at 0, 2, 3, with gradient -1. -/
noncomputable def gapLoss : Vec → Option ℝ × Vec := fun p =>
  open Classical in
  if p = [some 0] then (some 9, [some (-1)])
  else if p = [some 1] then (none, [some (-1)])
  else if p = [some 2] then (some 7, [some (-1)])
  else (some 5, [some (-1)])

/-- C82 fails after an extra step: the point 2 is accepted, but the next update starts again from the rejected point 1
and gives 2 a second time. The update of the accepted point, 3, has a lower loss and is never reached. -/
theorem C82_extra_step_violated :
    runFit unitDescent gapLoss 3 [some 0] = some [some 2] ∧
    unitDescent.params (unitDescent.update 1 (gapLoss [some 2]).2 [some 2]) = [some 3] ∧
    (gapLoss [some 2]).1 = some 7 ∧ (gapLoss [some 3]).1 = some 5 := by
  have g0 : gapLoss [some 0] = (some 9, [some (-1)]) := by simp [gapLoss]
  have g1 : gapLoss [some 1] = (none, [some (-1)]) := by simp [gapLoss]
  have g2 : gapLoss [some 2] = (some 7, [some (-1)]) := by simp [gapLoss]
  have g3 : gapLoss [some 3] = (some 5, [some (-1)]) := by simp [gapLoss]
  have u : ∀ (k : ℕ) (x : ℝ), unitDescent.update k [some (-1)] [some x] = [some (x + 1)] := by
    intro k x; simp [unitDescent]
  have p : ∀ v, unitDescent.params v = v := fun v => rfl
  have hz : unitDescent.init [some 0] = [some 0] := rfl
  have n1 : ((0 : ℝ) + 1) = 1 := by norm_num
  have n2 : ((1 : ℝ) + 1) = 2 := by norm_num
  have n3 : ((2 : ℝ) + 1) = 3 := by norm_num
  refine ⟨?_, by rw [g2, u, p, n3], by rw [g2], by rw [g3]⟩
  have hloop : loop unitDescent gapLoss (List.range 3) ⟨unitDescent.init [some 0], none, List.replicate 3 none,
      List.replicate 3 (List.replicate 1 (some 0))⟩ =
      some ⟨[some 3], some [some (-1)], [some 9, some 7, some 7], [[some 0], [some 2], [some 2]]⟩ := by
    simp [List.range_succ, loop, step, finishStep, hz, p, u, g0, g1, g2, n1, n2, n3, allFinite, List.replicate_succ]
  have harg : argmin [some (9 : ℝ), some 7, some 7] = some 1 := by
    simp [argmin, List.range_succ, lossLe]
    norm_num
  unfold runFit
  have hloop' := hloop
  simp only [List.length_singleton] at hloop' ⊢
  rw [hloop']
  simp [harg]

end Diffstar.Props
