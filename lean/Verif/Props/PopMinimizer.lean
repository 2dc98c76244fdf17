import Verif.Model.PopMinimizer
import Verif.Props.FitDrivers

/-! C107: the minimizer of the population model. -/

namespace Diffstar.Props

open Diffstar.Fit

/-- The documented meaning of the flag, `diffstar/diffstarpop/utils.py` L69-72, as far as it can be read off the run of
L-BFGS-B: 1 exactly if L-BFGS-B terminates without problems and without a NaN or infinite loss, else 0 or -1. -/
def Spec.FlagMeans {P : Type} (res : ScipyResult P) (flag : ℤ) : Prop :=
  (flag = 1 ↔ res.success = true ∧ ∃ l : ℝ, res.fun' = some (l : EReal)) ∧ (flag = 1 ∨ flag = 0 ∨ flag = -1)

/-- C107 (partial: runs of L-BFGS-B which succeed with a finite loss): the parameters and the loss of L-BFGS-B are
returned with the flag 1. Missing: the other runs, see `C107_failure_violated`. -/
theorem C107_success_partial {P : Type} (scipy : P → ScipyResult P) (p : P) (hs : (scipy p).success = true) (l : ℝ)
    (hl : (scipy p).fun' = some (l : EReal)) :
    ∃ flag, PopFit.minimizer scipy p = ((scipy p).x, some (l : EReal), flag) ∧ Spec.FlagMeans (scipy p) flag := by
  refine ⟨1, by simp [PopFit.minimizer, hl], ?_⟩
  exact ⟨by simp [hs, hl], Or.inl rfl⟩

/-- C107 is false for every run of L-BFGS-B which fails or ends with a NaN or infinite loss: the flag is 1 all the same
and the parameters are those of the failed run. The function of the same name in `fitting_helpers` reports 0 or -1 for a
failed run (C66). -/
theorem C107_failure_violated {P : Type} (scipy : P → ScipyResult P) (p : P)
    (hs : (scipy p).success = false ∨ ¬ ∃ l : ℝ, (scipy p).fun' = some (l : EReal)) :
    PopFit.minimizer scipy p = ((scipy p).x, (scipy p).fun', 1) ∧ ¬ Spec.FlagMeans (scipy p) 1 := by
  refine ⟨rfl, ?_⟩
  rintro ⟨h, -⟩
  obtain ⟨h1, h2⟩ := h.1 rfl
  rcases hs with hs | hs
  · rw [hs] at h1; exact absurd h1 (by decide)
  · exact hs h2

/-- C107: the two minimizers disagree on every failed run. -/
theorem C107_minimizers_disagree_violated {S P : Type} [Zero P] (warm main : Adam S P) (finite : P → Bool)
    (scipy : P → ScipyResult P) (p : P) (nstep : ℕ) (hn : 0 < nstep) (hs : (scipy p).success = false) :
    ∃ q l flag, minimizer warm main finite scipy p nstep 0 = some (q, l, flag) ∧
      (PopFit.minimizer scipy p).2.2 ≠ flag := by
  obtain ⟨q, l, flag, h1, h2, -⟩ := C66_success_codes_partial warm main finite scipy p nstep hn
  refine ⟨q, l, flag, h1, fun h => ?_⟩
  rw [h2.1 h.symm] at hs
  exact absurd hs (by decide)

example : ∃ scipy : ℝ → ScipyResult ℝ, (scipy 3).success = true ∧ (scipy 3).fun' = some ((2 : ℝ) : EReal) :=
  ⟨fun p => ⟨p, some ((2 : ℝ) : EReal), true⟩, rfl, rfl⟩

example : ∃ scipy : ℝ → ScipyResult ℝ, (scipy 3).success = false ∧ (scipy 3).fun' = none :=
  ⟨fun p => ⟨p, none, false⟩, rfl, rfl⟩

end Diffstar.Props
