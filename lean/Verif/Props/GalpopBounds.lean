import Verif.Model.GalpopBounds
import Verif.Props.Params

/-! C91: array versions of the parameter transforms. -/

namespace Diffstar.Props

open Diffstar Diffstar.Spec

theorem mapM_some_map {α β : Type*} (f : α → Option β) (g : α → β) (l : List α) (h : ∀ x ∈ l, f x = some (g x)) :
    l.mapM f = some (l.map g) := by
  induction l with
  | nil => rfl
  | cons a l ih =>
    rw [List.mapM_cons, h a List.mem_cons_self, ih fun x hx => h x (List.mem_cons_of_mem _ hx)]
    rfl

/-- Row of the array made of the eight parameters of galaxies: main-sequence part. -/
theorem ms_row (u : DiffstarParams ℝ) :
    getBoundedSfrParamsGalpopKern [u.lgmcrit, u.lgyAtMcrit, u.indxLo, u.indxHi] =
      some [(getBoundedDiffstarParams u).lgmcrit, (getBoundedDiffstarParams u).lgyAtMcrit,
        (getBoundedDiffstarParams u).indxLo, (getBoundedDiffstarParams u).indxHi] := rfl

theorem q_row (u : DiffstarParams ℝ) :
    getBoundedQParamsGalpopKern [u.lgQt, u.qlglgdt, u.lgDrop, u.lgRejuv] =
      some [(getBoundedDiffstarParams u).lgQt, (getBoundedDiffstarParams u).qlglgdt,
        (getBoundedDiffstarParams u).lgDrop, (getBoundedDiffstarParams u).lgRejuv] := rfl

theorem ms_row' (u : DiffstarParams ℝ) :
    getUnboundedSfrParamsGalpopKern [u.lgmcrit, u.lgyAtMcrit, u.indxLo, u.indxHi] =
      some [(getUnboundedDiffstarParams u).lgmcrit, (getUnboundedDiffstarParams u).lgyAtMcrit,
        (getUnboundedDiffstarParams u).indxLo, (getUnboundedDiffstarParams u).indxHi] := rfl

theorem q_row' (u : DiffstarParams ℝ) :
    getUnboundedQParamsGalpopKern [u.lgQt, u.qlglgdt, u.lgDrop, u.lgRejuv] =
      some [(getUnboundedDiffstarParams u).lgQt, (getUnboundedDiffstarParams u).qlglgdt,
        (getUnboundedDiffstarParams u).lgDrop, (getUnboundedDiffstarParams u).lgRejuv] := rfl

/-- C91: for every population, transforming the arrays of main-sequence and quenching parameters gives row by row the
parameters of each galaxy transformed on its own, in both directions. -/
theorem C91_rows (us : List (DiffstarParams ℝ)) :
    getBoundedSfrParamsVmap (us.map fun u => [u.lgmcrit, u.lgyAtMcrit, u.indxLo, u.indxHi]) =
      some (us.map fun u => let p := getBoundedDiffstarParams u; [p.lgmcrit, p.lgyAtMcrit, p.indxLo, p.indxHi]) ∧
    getBoundedQParamsVmap (us.map fun u => [u.lgQt, u.qlglgdt, u.lgDrop, u.lgRejuv]) =
      some (us.map fun u => let p := getBoundedDiffstarParams u; [p.lgQt, p.qlglgdt, p.lgDrop, p.lgRejuv]) ∧
    getUnboundedSfrParamsVmap (us.map fun u => [u.lgmcrit, u.lgyAtMcrit, u.indxLo, u.indxHi]) =
      some (us.map fun u => let p := getUnboundedDiffstarParams u; [p.lgmcrit, p.lgyAtMcrit, p.indxLo, p.indxHi]) ∧
    getUnboundedQParamsVmap (us.map fun u => [u.lgQt, u.qlglgdt, u.lgDrop, u.lgRejuv]) =
      some (us.map fun u => let p := getUnboundedDiffstarParams u; [p.lgQt, p.qlglgdt, p.lgDrop, p.lgRejuv]) := by
  refine ⟨?_, ?_, ?_, ?_⟩ <;>
  · simp only [getBoundedSfrParamsVmap, getBoundedQParamsVmap, getUnboundedSfrParamsVmap, getUnboundedQParamsVmap,
      List.mapM_map]
    exact mapM_some_map _ _ _ fun u _ => rfl

theorem row_four {r : List ℝ} (h : r.length = 4) : ∃ a b c d, r = [a, b, c, d] := by
  match r, h with
  | [a, b, c, d], _ => exact ⟨a, b, c, d, rfl⟩

/-- C91: every array with four columns is bounded, all its entries are then in their bounds, and unbounding the result
gives the array back. -/
theorem C91_round_trip (arr : List (List ℝ)) (h : ∀ r ∈ arr, r.length = 4) :
    (∃ b, getBoundedSfrParamsVmap arr = some b ∧ b.length = arr.length ∧ getUnboundedSfrParamsVmap b = some arr ∧
      ∀ r ∈ b, ∃ x y z w, r = [x, y, z, w] ∧ 9 < x ∧ x < 13.5 ∧ -12 < y ∧ y < -8 ∧ 0 < z ∧ z < 5 ∧ -5 < w ∧ w < 0) ∧
    (∃ b, getBoundedQParamsVmap arr = some b ∧ b.length = arr.length ∧ getUnboundedQParamsVmap b = some arr ∧
      ∀ r ∈ b, ∃ x y z w, r = [x, y, z, w] ∧ 0.1 < x ∧ x < 2 ∧ -3 < y ∧ y < -0.01 ∧ -3 < z ∧ z < 0 ∧ z < w ∧ w < 0) := by
  have hms : ∀ arr : List (List ℝ), (∀ r ∈ arr, r.length = 4) → ∃ us : List (DiffstarParams ℝ),
      arr = us.map fun u => [u.lgmcrit, u.lgyAtMcrit, u.indxLo, u.indxHi] := by
    intro arr h
    refine ⟨arr.map fun r => ⟨r.getD 0 0, r.getD 1 0, r.getD 2 0, r.getD 3 0, 0, 0, 0, 0⟩, ?_⟩
    rw [List.map_map]
    refine ((List.map_congr_left fun r hr => ?_).trans (List.map_id arr)).symm
    obtain ⟨a, b, c, d, rfl⟩ := row_four (h r hr)
    rfl
  have hq : ∀ arr : List (List ℝ), (∀ r ∈ arr, r.length = 4) → ∃ us : List (DiffstarParams ℝ),
      arr = us.map fun u => [u.lgQt, u.qlglgdt, u.lgDrop, u.lgRejuv] := by
    intro arr h
    refine ⟨arr.map fun r => ⟨0, 0, 0, 0, r.getD 0 0, r.getD 1 0, r.getD 2 0, r.getD 3 0⟩, ?_⟩
    rw [List.map_map]
    refine ((List.map_congr_left fun r hr => ?_).trans (List.map_id arr)).symm
    obtain ⟨a, b, c, d, rfl⟩ := row_four (h r hr)
    rfl
  constructor
  · obtain ⟨us, rfl⟩ := hms arr h
    refine ⟨_, (C91_rows us).1, by simp, ?_, ?_⟩
    · have := (C91_rows (us.map getBoundedDiffstarParams)).2.2.1
      simp only [List.map_map, Function.comp_def, C02_unbounded_of_bounded] at this
      exact this
    · intro r hr
      obtain ⟨u, -, rfl⟩ := List.mem_map.1 hr
      have b := C01_bounded_params_in_bounds u
      exact ⟨_, _, _, _, rfl, b.lgmcrit.1, b.lgmcrit.2, b.lgyAtMcrit.1, b.lgyAtMcrit.2, b.indxLo.1, b.indxLo.2,
        b.indxHi.1, b.indxHi.2⟩
  · obtain ⟨us, rfl⟩ := hq arr h
    refine ⟨_, (C91_rows us).2.1, by simp, ?_, ?_⟩
    · have := (C91_rows (us.map getBoundedDiffstarParams)).2.2.2
      simp only [List.map_map, Function.comp_def, C02_unbounded_of_bounded] at this
      exact this
    · intro r hr
      obtain ⟨u, -, rfl⟩ := List.mem_map.1 hr
      have b := C01_bounded_params_in_bounds u
      exact ⟨_, _, _, _, rfl, b.lgQt.1, b.lgQt.2, b.qlglgdt.1, b.qlglgdt.2, b.lgDrop.1, b.lgDrop.2,
        b.lgRejuv.1, b.lgRejuv.2⟩

example : ∀ r ∈ ([[0, 1, -2, 3], [100, -100, 0.5, 7]] : List (List ℝ)), r.length = 4 := by simp

/-- C91: an array that is not of four columns is rejected. -/
theorem C91_wrong_columns (arr : List (List ℝ)) (h : ∃ r ∈ arr, r.length ≠ 4) :
    getBoundedSfrParamsVmap arr = none ∧ getUnboundedSfrParamsVmap arr = none ∧
    getBoundedQParamsVmap arr = none ∧ getUnboundedQParamsVmap arr = none := by
  have key : ∀ (f : List ℝ → Option (List ℝ)), (∀ r, r.length ≠ 4 → f r = none) → arr.mapM f = none := by
    intro f hf
    obtain ⟨r, hr, hl⟩ := h
    induction arr with
    | nil => simp at hr
    | cons a l ih =>
      rw [List.mapM_cons]
      rcases List.mem_cons.1 hr with rfl | hr
      · rw [hf _ hl]; rfl
      · rw [ih hr]
        cases f a <;> rfl
  refine ⟨key _ ?_, key _ ?_, key _ ?_, key _ ?_⟩ <;>
  · intro r hr
    match r, hr with
    | [], _ => rfl
    | [_], _ => rfl
    | [_, _], _ => rfl
    | [_, _, _], _ => rfl
    | [_, _, _, _], h => exact absurd rfl h
    | _ :: _ :: _ :: _ :: _ :: _, _ => rfl

example : ∃ r ∈ ([[0, 1, -2]] : List (List ℝ)), r.length ≠ 4 := ⟨_, List.mem_singleton.2 rfl, by simp⟩

/-- C91: the transforms of single parameters agree with those of the whole tuple. -/
theorem C91_single_parameters (u : DiffstarParams ℝ) :
    getBoundedLgDrop u.lgDrop = (getBoundedDiffstarParams u).lgDrop ∧
    getBoundedQt u.lgQt = (getBoundedDiffstarParams u).lgQt ∧
    getUnboundedLgDrop (getBoundedLgDrop u.lgDrop) = u.lgDrop := by
  refine ⟨rfl, rfl, ?_⟩
  have := congrArg DiffstarParams.lgDrop (C02_unbounded_of_bounded u)
  exact this

end Diffstar.Props
