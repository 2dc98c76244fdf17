import Verif.Lemmas.Interp
import Verif.Lemmas.Cumtrapz

/-! Facts used for the time-averaged SFR. -/

namespace Diffstar

open Diffstar.Spec

theorem trapFrom_slopes {S : ℝ} (a fa c : ℝ) (t s : List ℝ) (hs : s.length = t.length)
    (hinc : Increasing t) (h0 : ∀ x ∈ s, 0 ≤ x) (hS : ∀ x ∈ s, x ≤ S) :
    SlopesIn S t (trapFrom a fa c (t.zip s)) := by
  induction t generalizing a fa c s with
  | nil => simp [SlopesIn]
  | cons b t ih =>
    match s, hs with
    | sb :: s, hs =>
      have hih := ih b sb (c + (b - a) * (sb + fa) / 2) s (by simpa using hs)
        (List.pairwise_cons.1 hinc).2 (fun x hx => h0 x (by simp [hx])) (fun x hx => hS x (by simp [hx]))
      match t, s, hs with
      | [], [], _ => simp [SlopesIn]
      | b' :: t, sb' :: s, _ =>
        have hb : b < b' := (List.pairwise_cons.1 hinc).1 b' (by simp)
        have p1 := h0 sb (by simp)
        have p2 := h0 sb' (by simp)
        have q1 := hS sb (by simp)
        have q2 := hS sb' (by simp)
        simp only [List.zip_cons_cons, trapFrom_cons] at hih ⊢
        refine ⟨?_, ?_, hih⟩
        · nlinarith
        · nlinarith

theorem computeFstar_getElem (t m : List ℝ) (τ : ℝ) (i : ℕ)
    (h : i < (computeFstar t m τ).length) (hi : i < t.length) (hi' : i < m.length) :
    (computeFstar t m τ)[i] =
      if (m[i] - npInterp (t[i] - τ) t m) / τ / 10 ^ 9 > 0 then
        (m[i] - npInterp (t[i] - τ) t m) / τ / 10 ^ 9 else 0 := by
  simp [computeFstar]

theorem computeFstar_length (t m : List ℝ) (hm : m.length = t.length) (τ : ℝ) :
    (computeFstar t m τ).length = t.length := by
  simp [computeFstar, hm]

/-- At a table abscissa the interpolant returns the table ordinate. -/
theorem npInterp_grid : ∀ (x0 y0 : ℝ) (xs ys : List ℝ), ys.length = xs.length →
    Increasing (x0 :: xs) → ∀ j (h : j < (x0 :: xs).length) (h' : j < (y0 :: ys).length),
      npInterp (x0 :: xs)[j] (x0 :: xs) (y0 :: ys) = (y0 :: ys)[j] := by
  intro x0 y0 xs
  induction xs generalizing x0 y0 with
  | nil =>
    intro ys hl _ j h h'
    match ys, hl with
    | [], _ =>
      obtain rfl : j = 0 := by simp at h; exact h
      rfl
  | cons x1 xs ih =>
    intro ys hl hinc j h h'
    match ys, hl with
    | y1 :: ys, hl =>
      have hinc' := List.pairwise_cons.1 hinc
      have h01 : x0 < x1 := hinc'.1 x1 (by simp)
      match j with
      | 0 => simp [npInterp]
      | 1 =>
        simp only [List.getElem_cons_succ, List.getElem_cons_zero, npInterp, not_le.2 h01, if_false,
          le_refl, if_true]
        have hd : x1 - x0 ≠ 0 := (sub_pos.2 h01).ne'
        field_simp
        ring
      | j + 2 =>
        have hlt : x1 < (x0 :: x1 :: xs)[j + 2] := by
          simpa using (List.pairwise_cons.1 hinc'.2).1 (xs[j]'(by simpa using h)) (List.getElem_mem _)
        have := ih x1 y1 ys (by simpa using hl) hinc'.2 (j + 1) (by simpa using h) (by simpa using h')
        simp only [npInterp, not_le.2 hlt, not_le.2 (h01.trans hlt), if_false]
        simpa using this

theorem trapFrom_const (a fa c k : ℝ) (b : ℝ) (t : List ℝ) :
    trapFrom a fa c ((b :: t).zip (List.replicate (t.length + 1) k)) =
      (b :: t).map fun x => (c + (b - a) * (k + fa) / 2 - k * b) + k * x := by
  induction t generalizing a fa c b with
  | nil => simp [trapFrom_cons]
  | cons b' t ih =>
    have := ih b k (c + (b - a) * (k + fa) / 2) b'
    have e : (fun x => c + (b - a) * (k + fa) / 2 + (b' - b) * (k + k) / 2 - k * b' + k * x) =
        fun x => c + (b - a) * (k + fa) / 2 - k * b + k * x := by
      funext x; ring
    rw [e] at this
    rw [List.length_cons, List.replicate_succ, List.zip_cons_cons, trapFrom_cons, this,
      List.map_cons (a := b)]
    congr 1
    ring

end Diffstar
