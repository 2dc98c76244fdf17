import Verif.Model.Quality
import Mathlib.Tactic.Linarith
import Mathlib.Tactic.NormNum
import Mathlib.Tactic.FieldSimp

/-!
C85: mean histories of data and fits in bins of halo mass (quality script).
-/

namespace Diffstar.Props

open Diffstar Diffstar.Quality

/-- The galaxies of all subvolumes in the open mass bin. -/
noncomputable def Spec.galsIn (lo hi : ℝ) (subvols : List (List Gal)) : List Gal :=
  open Classical in subvols.flatten.filter fun g => decide (lo < g.logmp0 ∧ g.logmp0 < hi)

/-- Average of `f` over a non-empty list. -/
noncomputable def Spec.average {α : Type*} (f : α → ℝ) (l : List α) : ℝ := (l.map f).sum / l.length

theorem nansum_append (a b : List (Option ℝ)) : nansum (a ++ b) = nansum a + nansum b := by
  simp [nansum]

theorem accumulate_aux (lo hi : ℝ) : ∀ (subvols : List (List Gal)) (acc : Acc),
    subvols.foldl (Acc.step lo hi) acc = Acc.step lo hi acc subvols.flatten
  | [], acc => by simp [Acc.step, nansum]
  | s :: ss, acc => by
    rw [List.foldl_cons, accumulate_aux lo hi ss]
    simp only [Acc.step, List.flatten_cons, List.filter_append, List.map_append, nansum_append, List.length_append]
    simp only [add_assoc]

theorem nansum_eq {l : List Gal} {F : Gal → Option ℝ} {f : Gal → ℝ} (h : ∀ g ∈ l, F g = some (f g)) :
    nansum (l.map F) = (l.map f).sum := by
  unfold nansum
  rw [List.map_map]
  congr 1
  apply List.map_congr_left
  intro g hg
  simp [h g hg]

theorem unlog_of_ne {x : ℝ} (h : x ≠ 0) : unlog x = some ((10 : ℝ) ^ x) := if_neg h

theorem unlog_logSfr {s : ℝ} (h0 : 0 < s) (h1 : s ≠ 1) : unlog (logSfr s) = some s := by
  have h10 : (0 : ℝ) < 10 := by norm_num
  have hne : logSfr s ≠ 0 := by
    unfold logSfr
    rw [if_pos h0]
    intro h
    rcases Real.logb_eq_zero.1 h with h | h | h | h | h | h <;> first | linarith | (exact h1 h)
  rw [unlog_of_ne hne, logSfr, if_pos h0, Real.rpow_logb h10 (by norm_num) h0]

theorem max_mul_of_pos {a b m : ℝ} (hm : 0 < m) : max (a / m) b * m = max a (b * m) := by
  rw [max_mul_of_nonneg _ _ hm.le, div_mul_cancel₀ _ hm.ne']

/-- C85 (partial: no SFR is exactly 0 or 1 and no logarithm exactly 0): for every mass bin with galaxies the saved
values are the averages over the galaxies of the bin, over all subvolumes, of the stellar mass and of the SFR with
specific rates below `1e-12` raised to `1e-12`, for data and fits. -/
theorem C85_means_partial (lo hi : ℝ) (subvols : List (List Gal)) (hne : Spec.galsIn lo hi subvols ≠ [])
    (h : ∀ g ∈ Spec.galsIn lo hi subvols, 0 < g.sfr ∧ g.sfr ≠ 1 ∧ g.logSmah ≠ 0 ∧ g.logSmhFit ≠ 0 ∧ g.logSfhFit ≠ 0) :
    means lo hi subvols = some
      (Spec.average (fun g => (10 : ℝ) ^ g.logSmah) (Spec.galsIn lo hi subvols),
       Spec.average (fun g => (10 : ℝ) ^ g.logSmhFit) (Spec.galsIn lo hi subvols),
       Spec.average (fun g => max g.sfr (1e-12 * (10 : ℝ) ^ g.logSmah)) (Spec.galsIn lo hi subvols),
       Spec.average (fun g => max ((10 : ℝ) ^ g.logSfhFit) (1e-12 * (10 : ℝ) ^ g.logSmhFit))
        (Spec.galsIn lo hi subvols)) := by
  have hsel : (subvols.flatten.filter fun g => open Classical in decide (g.logmp0 > lo ∧ g.logmp0 < hi)) =
      Spec.galsIn lo hi subvols := List.filter_congr fun _ _ => decide_eq_decide.2 Iff.rfl
  have e1 : nansum ((Spec.galsIn lo hi subvols).map smahData) =
      ((Spec.galsIn lo hi subvols).map fun g => (10 : ℝ) ^ g.logSmah).sum :=
    nansum_eq fun g hg => unlog_of_ne (h g hg).2.2.1
  have e2 : nansum ((Spec.galsIn lo hi subvols).map smahFit) =
      ((Spec.galsIn lo hi subvols).map fun g => (10 : ℝ) ^ g.logSmhFit).sum :=
    nansum_eq fun g hg => unlog_of_ne (h g hg).2.2.2.1
  have e3 : nansum ((Spec.galsIn lo hi subvols).map sfrData) =
      ((Spec.galsIn lo hi subvols).map fun g => max g.sfr (1e-12 * (10 : ℝ) ^ g.logSmah)).sum := by
    refine nansum_eq fun g hg => ?_
    obtain ⟨h1, h2, h3, -, -⟩ := h g hg
    have hp : (0 : ℝ) < (10 : ℝ) ^ g.logSmah := Real.rpow_pos_of_pos (by norm_num) _
    simp only [sfrData, smahData, unlog_of_ne h3, unlog_logSfr h1 h2, ssfr, Option.bind_some, Option.map_some]
    rw [if_pos hp, max_mul_of_pos hp]
  have e4 : nansum ((Spec.galsIn lo hi subvols).map sfrFit) = ((Spec.galsIn lo hi subvols).map fun g =>
      max ((10 : ℝ) ^ g.logSfhFit) (1e-12 * (10 : ℝ) ^ g.logSmhFit)).sum := by
    refine nansum_eq fun g hg => ?_
    obtain ⟨-, -, -, h4, h5⟩ := h g hg
    have hp : (0 : ℝ) < (10 : ℝ) ^ g.logSmhFit := Real.rpow_pos_of_pos (by norm_num) _
    simp only [sfrFit, smahFit, unlog_of_ne h4, unlog_of_ne h5, ssfr, Option.bind_some, Option.map_some]
    rw [max_mul_of_pos hp]
  have hlen : (Spec.galsIn lo hi subvols).length ≠ 0 := by simpa [List.length_eq_zero_iff] using hne
  unfold means accumulate
  rw [accumulate_aux]
  simp only [Acc.step, hsel, zero_add, e1, e2, e3, e4]
  rw [if_neg hlen]
  rfl

/-- A galaxy for the examples. -/
def Spec.galExample (sfr : ℝ) : Gal := ⟨10, sfr, 10, 0.3, 12⟩

theorem galsIn_example (sfr : ℝ) : Spec.galsIn 11.75 12.25 [[Spec.galExample sfr]] = [Spec.galExample sfr] := by
  unfold Spec.galsIn
  simp only [List.flatten_cons, List.flatten_nil, List.append_nil, List.filter_cons, List.filter_nil]
  rw [if_pos]
  simp only [Spec.galExample]
  norm_num

example : Spec.galsIn 11.75 12.25 [[Spec.galExample 2]] ≠ [] ∧
    ∀ g ∈ Spec.galsIn 11.75 12.25 [[Spec.galExample 2]],
      0 < g.sfr ∧ g.sfr ≠ 1 ∧ g.logSmah ≠ 0 ∧ g.logSmhFit ≠ 0 ∧ g.logSfhFit ≠ 0 := by
  rw [galsIn_example]
  refine ⟨by simp, ?_⟩
  intro g hg
  rw [List.mem_singleton] at hg
  subst hg
  norm_num [Spec.galExample]

theorem sfrMean_single (sfr v : ℝ) (hv : (Quality.sfrData (Spec.galExample sfr)).getD 0 = v) :
    ∃ a b d, means 11.75 12.25 [[Spec.galExample sfr]] = some (a, b, v, d) := by
  have hsel : ([[Spec.galExample sfr]].flatten.filter fun g =>
      open Classical in decide (g.logmp0 > 11.75 ∧ g.logmp0 < 12.25)) = [Spec.galExample sfr] := by
    exact (List.filter_congr fun _ _ => decide_eq_decide.2 Iff.rfl).trans (galsIn_example sfr)
  unfold means accumulate
  rw [accumulate_aux]
  simp only [Acc.step, hsel]
  rw [if_neg (by simp)]
  refine ⟨_, _, _, Option.some_inj.2 (Prod.ext rfl (Prod.ext rfl (Prod.ext ?_ rfl)))⟩
  simp [nansum, hv]

/-- C85 fails for an SFR of exactly 1: its logarithm 0 marks missing values, so the mean SFR of a bin with one galaxy
forming one solar mass per year is 0. -/
theorem C85_unit_sfr_violated : ∃ a b d, means 11.75 12.25 [[Spec.galExample 1]] = some (a, b, 0, d) := by
  apply sfrMean_single
  simp [sfrData, smahData, Spec.galExample, unlog, logSfr, ssfr]

/-- C85 fails for an SFR of exactly 0: the floor of `1e-12` per year is not applied. -/
theorem C85_zero_sfr_violated : ∃ a b d, means 11.75 12.25 [[Spec.galExample 0]] = some (a, b, 0, d) := by
  apply sfrMean_single
  simp [sfrData, smahData, Spec.galExample, unlog, logSfr, ssfr]

/-- C85: a galaxy with a mass exactly on an edge of the bins is in no bin; a bin without galaxies has no mean. -/
theorem C85_empty_bin (lo hi : ℝ) (subvols : List (List Gal)) (h : Spec.galsIn lo hi subvols = []) :
    means lo hi subvols = none := by
  have hsel : (subvols.flatten.filter fun g => open Classical in decide (g.logmp0 > lo ∧ g.logmp0 < hi)) = [] := by
    rw [← h]
    exact List.filter_congr fun _ _ => decide_eq_decide.2 Iff.rfl
  unfold means accumulate
  rw [accumulate_aux]
  simp only [Acc.step, hsel]
  simp

example : Spec.galsIn 11.75 12 [[Spec.galExample 2]] = [] := by
  unfold Spec.galsIn
  simp only [List.flatten_cons, List.flatten_nil, List.append_nil, List.filter_cons, List.filter_nil]
  rw [if_neg]
  simp only [Spec.galExample]
  norm_num

end Diffstar.Props
