import Verif.Model.GalacticusMah
import Verif.Props.Loaders

/-!
C86: halo histories handed to the diffmah fitter by the Galacticus script.
-/

namespace Diffstar.Props

open Diffstar Diffstar.Load Diffstar.GalMah

theorem mapM_getLast {ts : List (List ℝ)} {l : List ℝ} (h : ts.mapM List.getLast? = some l) :
    ∀ t ∈ ts, ∃ x, t.getLast? = some x ∧ x ∈ l := by
  induction ts generalizing l with
  | nil => simp
  | cons t ts ih =>
    rw [List.mapM_cons] at h
    simp only [Option.bind_eq_bind, Option.bind_eq_some_iff, Option.pure_def, Option.some.injEq] at h
    obtain ⟨x, hx, l', hl', rfl⟩ := h
    intro t' ht'
    rcases List.mem_cons.1 ht' with rfl | ht'
    · exact ⟨x, hx, List.mem_cons_self⟩
    · obtain ⟨y, hy, hm⟩ := ih hl' t' ht'
      exact ⟨y, hy, List.mem_cons_of_mem _ hm⟩

theorem mapM_rankTmax {rs : List (List (List ℝ))} {l : List ℝ} (h : rs.mapM rankTmax = some l) :
    ∀ r ∈ rs, ∃ x, rankTmax r = some x ∧ x ∈ l := by
  induction rs generalizing l with
  | nil => simp
  | cons t ts ih =>
    rw [List.mapM_cons] at h
    simp only [Option.bind_eq_bind, Option.bind_eq_some_iff, Option.pure_def, Option.some.injEq] at h
    obtain ⟨x, hx, l', hl', rfl⟩ := h
    intro t' ht'
    rcases List.mem_cons.1 ht' with rfl | ht'
    · exact ⟨x, hx, List.mem_cons_self⟩
    · obtain ⟨y, hy, hm⟩ := ih hl' t' ht'
      exact ⟨y, hy, List.mem_cons_of_mem _ hm⟩

/-- C86: no halo of any rank has a time after `T0`, the common last time. -/
theorem C86_common_last_time (ranks : List (List (List ℝ))) (T0 : ℝ) (h : globalT0 ranks = some T0) :
    ∀ r ∈ ranks, ∀ t ∈ r, ∃ x, t.getLast? = some x ∧ x ≤ T0 := by
  intro r hr t ht
  unfold globalT0 at h
  obtain ⟨l, hl, hmax⟩ := Option.bind_eq_some_iff.1 h
  obtain ⟨x, hx, hxl⟩ := mapM_rankTmax hl r hr
  unfold rankTmax at hx
  obtain ⟨l', hl', hmax'⟩ := Option.bind_eq_some_iff.1 hx
  obtain ⟨y, hy, hyl⟩ := mapM_getLast hl' t ht
  exact ⟨y, hy, ((List.max?_eq_some_iff.1 hmax').2 y hyl).trans ((List.max?_eq_some_iff.1 hmax).2 x hxl)⟩

example : globalT0 [[[1, 2], [3]], [[0, 5]]] = some 5 := by
  norm_num [globalT0, rankTmax, List.max?]

theorem accMax_pairwise (l : List ℝ) : (accMax l).Pairwise (· ≤ ·) := by
  rw [List.pairwise_iff_getElem]
  intro i j hi hj hij
  rw [accMax_length] at hi hj
  obtain ⟨v, hv, hg⟩ := accMax_greatest l i hi
  obtain ⟨w, hw, hg'⟩ := accMax_greatest l j hj
  have e1 : (accMax l)[i]'(by rwa [accMax_length]) = v := by
    rw [List.getElem?_eq_getElem (by rwa [accMax_length])] at hv; exact Option.some_inj.1 hv
  have e2 : (accMax l)[j]'(by rwa [accMax_length]) = w := by
    rw [List.getElem?_eq_getElem (by rwa [accMax_length])] at hw; exact Option.some_inj.1 hw
  rw [e1, e2]
  obtain ⟨k, hk, hlk⟩ := hg.1
  exact hg'.2 ⟨k, hk.trans hij.le, hlk⟩

theorem pairwise_append_last {R : ℝ → ℝ → Prop} {l : List ℝ} {x y : ℝ} (h : l.Pairwise R) (hx : l.getLast? = some x)
    (hxy : R x y) (htr : ∀ a b c, R a b → R b c → R a c) : (l ++ [y]).Pairwise R := by
  rw [List.pairwise_append]
  refine ⟨h, List.pairwise_singleton _ _, ?_⟩
  intro a ha b hb
  rw [List.mem_singleton] at hb
  subst hb
  obtain ⟨l', rfl⟩ := List.getLast?_eq_some_iff.1 hx
  rw [List.pairwise_append] at h
  rcases List.mem_append.1 ha with ha | ha
  · exact htr a x b (h.2.2 a ha x (by simp)) hxy
  · rw [List.mem_singleton] at ha; subst ha; exact hxy

/-- C86: for a halo with increasing times up to at most `T0` and one mass per time, the fitter gets increasing times
that end exactly at `T0`, a history of the same length that never decreases, whose entry `i` is the greatest mass up to
time `i` (and the greatest mass of all at an added time `T0`); the fit is skipped exactly if the halo lives less than
the minimum. -/
theorem C86_prepared_history (T0 dtMin : ℝ) (t mah : List ℝ) (hlen : t.length = mah.length) (ht : t.Pairwise (· < ·))
    (first last : ℝ) (hfirst : t.head? = some first) (hlast : t.getLast? = some last) (hT0 : last ≤ T0) :
    ∃ t' m' skip, prepare T0 dtMin t mah = some (t', m', skip) ∧ t'.Pairwise (· < ·) ∧ t'.getLast? = some T0 ∧
      m'.length = t'.length ∧ m'.Pairwise (· ≤ ·) ∧ (t' = t ∨ t' = t ++ [T0]) ∧
      (∀ i < m'.length, ∃ v, m'[i]? = some v ∧ IsGreatest {y | ∃ j ≤ i, mah[j]? = some y} v) ∧
      (skip = true ↔ last - first < dtMin) := by
  have hne : mah ≠ [] := by
    rintro rfl
    rw [List.length_nil, List.length_eq_zero_iff] at hlen
    subst hlen
    simp at hlast
  have hpos : 0 < mah.length := List.length_pos_iff.2 hne
  obtain ⟨v, hv, hg⟩ := accMax_greatest mah (mah.length - 1) (by omega)
  have hmlast : (accMax mah).getLast? = some v := by
    rw [List.getLast?_eq_getElem?, accMax_length]; exact hv
  have hgr : ∀ i < mah.length, ∃ v, (accMax mah)[i]? = some v ∧ IsGreatest {y | ∃ j ≤ i, mah[j]? = some y} v :=
    fun i hi => accMax_greatest mah i hi
  unfold prepare
  simp only [hlast, hfirst, hmlast]
  by_cases hlt : last < T0
  · rw [if_pos hlt]
    refine ⟨_, _, _, rfl, pairwise_append_last ht hlast hlt fun a b c => lt_trans, by simp, by simp [accMax_length, hlen],
      pairwise_append_last (accMax_pairwise mah) hmlast le_rfl fun a b c => le_trans, .inr rfl, ?_, by simp⟩
    intro i hi
    rw [List.length_append, List.length_singleton, accMax_length] at hi
    by_cases hi' : i < mah.length
    · obtain ⟨w, hw, hgw⟩ := hgr i hi'
      exact ⟨w, by rw [List.getElem?_append_left (by rwa [accMax_length])]; exact hw, hgw⟩
    · have hieq : i = mah.length := by omega
      subst hieq
      refine ⟨v, by rw [List.getElem?_append_right (by rw [accMax_length])]; simp [accMax_length], ?_⟩
      have : {y | ∃ j ≤ mah.length, mah[j]? = some y} = {y | ∃ j ≤ mah.length - 1, mah[j]? = some y} := by
        ext y
        constructor
        · rintro ⟨j, hj, hy⟩
          obtain ⟨hj', -⟩ := List.getElem?_eq_some_iff.1 hy
          exact ⟨j, by omega, hy⟩
        · rintro ⟨j, hj, hy⟩
          exact ⟨j, by omega, hy⟩
      rw [this]
      exact hg
  · rw [if_neg hlt]
    have : last = T0 := le_antisymm hT0 (not_lt.1 hlt)
    refine ⟨_, _, _, rfl, ht, by rw [hlast, this], by rw [accMax_length, hlen], accMax_pairwise mah, .inl rfl, ?_, by simp⟩
    intro i hi
    exact hgr i (by rwa [accMax_length] at hi)

example : ∃ t mah : List ℝ, t.length = mah.length ∧ t.Pairwise (· < ·) ∧ t.head? = some 1 ∧ t.getLast? = some 3 ∧
    (3 : ℝ) ≤ 13.8 ∧ ¬ mah.Pairwise (· ≤ ·) :=
  ⟨[1, 2, 3], [5, 4, 6], rfl, by norm_num, rfl, rfl, by norm_num, by norm_num⟩

end Diffstar.Props
