import Verif.Spec
import Mathlib.Analysis.SpecialFunctions.Integrals.Basic

/-! Facts about the trapezoid scan and `cumulativeMstarFormed`. -/

namespace Diffstar

open Diffstar.Spec

/-- Running trapezoid masses after a starting point `(a, fa)` with accumulated value `c`. -/
noncomputable abbrev trapFrom (a fa c : ℝ) (l : List (ℝ × ℝ)) : List ℝ :=
  scanOut cumtrapzScanFunc (a, fa, c) l

@[simp] theorem trapFrom_nil (a fa c : ℝ) : trapFrom a fa c [] = [] := rfl

@[simp] theorem trapFrom_cons (a fa c b fb : ℝ) (l : List (ℝ × ℝ)) :
    trapFrom a fa c ((b, fb) :: l) =
      (c + (b - a) * (fb + fa) / 2) :: trapFrom b fb (c + (b - a) * (fb + fa) / 2) l := rfl

theorem cmf_eq (t s : List ℝ) :
    cumulativeMstarFormed t s =
      (trapFrom 0.001 (1 / 10 ^ 14) 0 (t.zip s)).map fun m => m * 10 ^ 9 := by
  simp [cumulativeMstarFormed, cumtrapz, T_BIRTH_MIN, SFR_MIN, YEAR_PER_GYR, trapFrom]

@[simp] theorem trapFrom_length (a fa c : ℝ) (l : List (ℝ × ℝ)) :
    (trapFrom a fa c l).length = l.length := by
  induction l generalizing a fa c with
  | nil => rfl
  | cons x l ih => obtain ⟨b, fb⟩ := x; simp [ih]

theorem cmf_length (t s : List ℝ) (h : s.length = t.length) :
    (cumulativeMstarFormed t s).length = t.length := by
  simp [cmf_eq, h]

theorem trapFrom_append (a fa c : ℝ) (l l' : List (ℝ × ℝ)) :
    ∃ st : ℝ × ℝ × ℝ, trapFrom a fa c (l ++ l') = trapFrom a fa c l ++ trapFrom st.1 st.2.1 st.2.2 l' := by
  induction l generalizing a fa c with
  | nil => exact ⟨(a, fa, c), rfl⟩
  | cons x l ih =>
    obtain ⟨b, fb⟩ := x
    obtain ⟨st, h⟩ := ih b fb (c + (b - a) * (fb + fa) / 2)
    exact ⟨st, by simp [h]⟩

theorem trapFrom_take (a fa c : ℝ) (l : List (ℝ × ℝ)) (k : ℕ) :
    trapFrom a fa c (l.take k) = (trapFrom a fa c l).take k := by
  induction l generalizing a fa c k with
  | nil => simp
  | cons x l ih =>
    obtain ⟨b, fb⟩ := x
    cases k with
    | zero => simp
    | succ k => simp [ih]

/-- Masses never decrease when the rates are non-negative. -/
theorem trapFrom_mono (a fa c : ℝ) (l : List (ℝ × ℝ)) (hfa : 0 ≤ fa)
    (ha : ∀ p ∈ l, a ≤ p.1) (hl : l.Pairwise fun p q => p.1 ≤ q.1) (hp : ∀ p ∈ l, 0 ≤ p.2) :
    (∀ m ∈ trapFrom a fa c l, c ≤ m) ∧ (trapFrom a fa c l).Pairwise (· ≤ ·) := by
  induction l generalizing a fa c with
  | nil => simp
  | cons x l ih =>
    obtain ⟨b, fb⟩ := x
    have hab : a ≤ b := ha (b, fb) List.mem_cons_self
    have hfb : 0 ≤ fb := hp (b, fb) List.mem_cons_self
    rw [List.pairwise_cons] at hl
    obtain ⟨h1, h2⟩ := ih b fb (c + (b - a) * (fb + fa) / 2) hfb (fun p hpm => hl.1 p hpm) hl.2
      (fun p hpm => hp p (List.mem_cons_of_mem _ hpm))
    have hc : c ≤ c + (b - a) * (fb + fa) / 2 := by
      have : 0 ≤ (b - a) * (fb + fa) := mul_nonneg (by linarith) (by linarith)
      linarith
    simp only [trapFrom_cons]
    refine ⟨?_, List.pairwise_cons.2 ⟨h1, h2⟩⟩
    intro m hm
    rcases List.mem_cons.1 hm with rfl | hm
    · exact hc
    · exact hc.trans (h1 m hm)

/-- Masses strictly increase when the rates are positive and the times increase. -/
theorem trapFrom_strictMono (a fa c : ℝ) (l : List (ℝ × ℝ)) (hfa : 0 < fa)
    (ha : ∀ p ∈ l, a < p.1) (hl : l.Pairwise fun p q => p.1 < q.1) (hp : ∀ p ∈ l, 0 < p.2) :
    (∀ m ∈ trapFrom a fa c l, c < m) ∧ (trapFrom a fa c l).Pairwise (· < ·) := by
  induction l generalizing a fa c with
  | nil => simp
  | cons x l ih =>
    obtain ⟨b, fb⟩ := x
    have hab : a < b := ha (b, fb) List.mem_cons_self
    have hfb : 0 < fb := hp (b, fb) List.mem_cons_self
    rw [List.pairwise_cons] at hl
    obtain ⟨h1, h2⟩ := ih b fb (c + (b - a) * (fb + fa) / 2) hfb (fun p hpm => hl.1 p hpm) hl.2
      (fun p hpm => hp p (List.mem_cons_of_mem _ hpm))
    have hc : c < c + (b - a) * (fb + fa) / 2 := by
      have : 0 < (b - a) * (fb + fa) := mul_pos (by linarith) (by linarith)
      linarith
    simp only [trapFrom_cons]
    refine ⟨?_, List.pairwise_cons.2 ⟨h1, h2⟩⟩
    intro m hm
    rcases List.mem_cons.1 hm with rfl | hm
    · exact hc
    · exact hc.trans (h1 m hm)

/-- Comparison: larger rates give larger masses. -/
theorem trapFrom_le (a fa fa' c c' : ℝ) (t s s' : List ℝ) (hs : s.length = t.length)
    (hs' : s'.length = t.length) (hfa : fa ≤ fa') (hc : c ≤ c')
    (ha : ∀ x ∈ t, a ≤ x) (ht : t.Pairwise (· ≤ ·))
    (hle : ∀ i (h : i < t.length), s[i] ≤ s'[i]) (i : ℕ) (hi : i < t.length) :
    (trapFrom a fa c (t.zip s))[i]'(by simp [hs, hi]) ≤ (trapFrom a fa' c' (t.zip s'))[i]'(by simp [hs', hi]) := by
  induction t generalizing a fa fa' c c' s s' i with
  | nil => simp at hi
  | cons b t ih =>
    match s, s', hs, hs' with
    | y :: ys, y' :: ys', hs, hs' =>
      have hy : y ≤ y' := hle 0 (by simp)
      have hab : a ≤ b := ha b (by simp)
      rw [List.pairwise_cons] at ht
      have hcc : c + (b - a) * (y + fa) / 2 ≤ c' + (b - a) * (y' + fa') / 2 := by
        have : 0 ≤ (b - a) * ((y' + fa') - (y + fa)) := mul_nonneg (by linarith) (by linarith)
        linarith
      cases i with
      | zero => simpa using hcc
      | succ i =>
        simp only [List.zip_cons_cons, trapFrom_cons, List.getElem_cons_succ]
        exact ih b y y' _ _ ys ys' (by simpa using hs) (by simpa using hs') hy hcc ht.1 ht.2
          (fun j hj => by simpa using hle (j + 1) (by simpa using hj)) i (by simpa using hi)

/-- The trapezoid masses are linear in the rates. -/
theorem trapFrom_sub (a fa fa' c c' : ℝ) (t s s' : List ℝ) :
    List.zipWith (fun x y => x - y) (trapFrom a fa c (t.zip s)) (trapFrom a fa' c' (t.zip s')) =
      trapFrom a (fa - fa') (c - c') (t.zip (List.zipWith (fun x y => x - y) s s')) := by
  induction t generalizing a fa fa' c c' s s' with
  | nil => simp
  | cons b t ih =>
    match s, s' with
    | [], _ => simp
    | _ :: _, [] => simp
    | y :: ys, y' :: ys' =>
      simp only [List.zip_cons_cons, trapFrom_cons, List.zipWith_cons_cons]
      rw [ih]
      have : c + (b - a) * (y + fa) / 2 - (c' + (b - a) * (y' + fa') / 2)
          = c - c' + (b - a) * (y - y' + (fa - fa')) / 2 := by ring
      rw [this]

open MeasureTheory intervalIntegral in
theorem affine_segment (a b ya yb : ℝ) (hab : a < b) (f : ℝ → ℝ)
    (hf : ∀ s ∈ Set.Icc a b, f s = ya + (yb - ya) * ((s - a) / (b - a))) :
    IntervalIntegrable f volume a b ∧ ∫ s in a..b, f s = (b - a) * (yb + ya) / 2 := by
  have hab' : b - a ≠ 0 := by linarith [sub_pos.2 hab] |> fun h : 0 < b - a => h.ne'
  have hcont : Continuous fun s : ℝ => ya + (yb - ya) * ((s - a) / (b - a)) := by fun_prop
  have hEq : Set.EqOn f (fun s => ya + (yb - ya) * ((s - a) / (b - a))) (Set.uIcc a b) := by
    rw [Set.uIcc_of_le hab.le]; exact hf
  refine ⟨?_, ?_⟩
  · refine (hcont.intervalIntegrable a b).congr ?_
    intro x hx
    exact (hEq (Set.uIoc_subset_uIcc hx)).symm
  · rw [integral_congr hEq]
    have e : ∀ s : ℝ, ya + (yb - ya) * ((s - a) / (b - a))
        = (ya - (yb - ya) / (b - a) * a) + (yb - ya) / (b - a) * s := by
      intro s; field_simp; ring
    simp only [e]
    rw [intervalIntegral.integral_add (by simp) (by
      apply Continuous.intervalIntegrable; fun_prop), intervalIntegral.integral_const, intervalIntegral.integral_const_mul, integral_id]
    simp only [smul_eq_mul]
    field_simp
    ring

open MeasureTheory intervalIntegral in
theorem trapFrom_integral (a fa c : ℝ) (t s : List ℝ) (hs : s.length = t.length)
    (hinc : Increasing (a :: t)) (f : ℝ → ℝ) (hf : IsLinInterp (a :: t) (fa :: s) f)
    (i : ℕ) (hi : i < t.length) :
    IntervalIntegrable f volume a t[i] ∧
      (trapFrom a fa c (t.zip s))[i]? = some (c + ∫ x in a..t[i], f x) := by
  induction t generalizing a fa c s i with
  | nil => simp at hi
  | cons b t ih =>
    match s, hs with
    | y :: ys, hs =>
      have hinc' := hinc
      unfold Increasing at hinc'
      rw [List.pairwise_cons] at hinc'
      have hab : a < b := hinc'.1 b (by simp)
      obtain ⟨hI, hv⟩ := affine_segment a b fa y hab f (fun x hx => hf 0 (by simp) (by simp) x hx)
      cases i with
      | zero =>
        refine ⟨hI, ?_⟩
        simp [hv]
      | succ i =>
        have hf' : IsLinInterp (b :: t) (y :: ys) f := fun j hx hy x hxm =>
          hf (j + 1) (by simpa using hx) (by simpa using hy) x hxm
        obtain ⟨hI2, hv2⟩ := ih b y (c + (b - a) * (y + fa) / 2) ys (by simpa using hs) hinc'.2 hf' i
          (by simpa using hi)
        simp only [List.getElem_cons_succ]
        refine ⟨hI.trans hI2, ?_⟩
        simp only [List.zip_cons_cons, trapFrom_cons, List.getElem?_cons_succ]
        rw [hv2, ← integral_add_adjacent_intervals hI hI2, hv]
        congr 1
        ring

/-- A linear interpolant exists for every increasing table, so the spec is not vacuous. -/
theorem exists_linInterp (xs ys : List ℝ) (h : Increasing xs) : ∃ f, IsLinInterp xs ys f := by
  classical
  induction xs generalizing ys with
  | nil => exact ⟨fun _ => 0, fun j hx => by simp at hx⟩
  | cons a xs ih =>
    cases ys with
    | nil => exact ⟨fun _ => 0, fun j hx hy => by simp at hy⟩
    | cons ya ys =>
      cases xs with
      | nil => exact ⟨fun _ => 0, fun j hx => by simp at hx⟩
      | cons b xs =>
        cases ys with
        | nil => exact ⟨fun _ => 0, fun j hx hy => by simp at hy⟩
        | cons yb ys =>
          unfold Increasing at h
          rw [List.pairwise_cons] at h
          obtain ⟨f, hf⟩ := ih (yb :: ys) h.2
          have hab : a < b := h.1 b (by simp)
          refine ⟨fun x => if x < b then ya + (yb - ya) * ((x - a) / (b - a)) else
            if x = b then yb else f x, ?_⟩
          intro j hx hy x hxm
          cases j with
          | zero =>
            simp only [List.getElem_cons_zero, List.getElem_cons_succ, zero_add] at hxm ⊢
            rcases hxm.2.lt_or_eq with hlt | rfl
            · rw [if_pos hlt]
            · rw [if_neg (lt_irrefl _), if_pos rfl, div_self (by linarith [sub_pos.2 hab] |> fun h : 0 < x - a => h.ne')]
              ring
          | succ j =>
            simp only [List.getElem_cons_succ] at hxm ⊢
            have hbx : b ≤ x := by
              refine le_trans ?_ hxm.1
              cases j with
              | zero => simp
              | succ j =>
                have := (List.pairwise_cons.1 h.2).1 ((xs)[j]'(by simp at hx; omega)) (List.getElem_mem _)
                simpa using this.le
            rw [if_neg (not_lt.2 hbx)]
            have hfx := hf j (by simpa using hx) (by simpa using hy) x (by simpa using hxm)
            split_ifs with hxb
            · subst hxb
              cases j with
              | zero =>
                simp
              | succ j =>
                exfalso
                have := (List.pairwise_cons.1 h.2).1 ((xs)[j]'(by simp at hx; omega)) (List.getElem_mem _)
                simp only [List.getElem_cons_succ] at hxm
                linarith [hxm.1]
            · exact hfx

end Diffstar
