import Verif.Model.PopKernel
import Verif.Lemmas.Sigmoid
import Verif.Lemmas.Line
import Mathlib.Data.List.GetD
import Mathlib.Data.Rat.Cast.Order
import Mathlib.Algebra.Order.Archimedean.Real.Basic
import Mathlib.LinearAlgebra.Matrix.PosDef
import Mathlib.Tactic.FinCases

/-! Helper lemmas about the DiffstarPop model. -/

namespace Diffstar.Pop

theorem QF.mem_fields (f : QF) : f ∈ QF.fields := by cases f <;> decide

theorem SF.mem_fields (f : SF) : f ∈ SF.fields := by cases f <;> decide

theorem QF.boundsQ_lt (f : QF) : f.boundsQ.1 < f.boundsQ.2 := by cases f <;> decide +kernel

theorem SF.boundsQ_lt (f : SF) : f.boundsQ.1 < f.boundsQ.2 := by cases f <;> decide +kernel

theorem QF.bounds_lt (f : QF) : f.bounds.1 < f.bounds.2 := by
  simp only [QF.bounds]; exact_mod_cast f.boundsQ_lt

theorem SF.bounds_lt (f : SF) : f.bounds.1 < f.bounds.2 := by
  simp only [SF.bounds]; exact_mod_cast f.boundsQ_lt

theorem PF.bounds_lt (f : PF) : (PF.bounds f).1 < (PF.bounds f).2 := by
  cases f with
  | inl f => exact f.bounds_lt
  | inr f => exact f.bounds_lt

theorem PF.mem_fields (f : PF) : f ∈ PF.fields := by
  cases f with
  | inl f => simp [PF.fields, QF.mem_fields]
  | inr f => simp [PF.fields, SF.mem_fields]

theorem makeTuple_map {F : Type} [DecidableEq F] (fields : List F) (g : F → ℝ) (f : F)
    (h : f ∈ fields) : makeTuple fields (fields.map g) f = g f := by
  have h1 : fields.idxOf f < fields.length := List.idxOf_lt_length_of_mem h
  simp only [makeTuple]
  rw [List.getD_eq_getElem _ _ (by simpa using h1)]
  simp

theorem zipWith_map_same {α β γ δ : Type} (g : β → γ → δ) (a : α → β) (b : α → γ) (l : List α) :
    List.zipWith g (l.map a) (l.map b) = l.map fun x => g (a x) (b x) := by
  induction l with
  | nil => rfl
  | cons x l ih => simp [ih]

theorem getBoundedSfhPdfParams_apply (u : QF → ℝ) (f : QF) :
    getBoundedSfhPdfParams u f = getPFromUPScalar (u f) f.bounds := by
  simp only [getBoundedSfhPdfParams]
  rw [zipWith_map_same, makeTuple_map _ _ _ f.mem_fields]

theorem getUnboundedSfhPdfParams_apply (u : QF → ℝ) (f : QF) :
    getUnboundedSfhPdfParams u f = getUPFromPScalar (u f) f.bounds := by
  simp only [getUnboundedSfhPdfParams]
  rw [zipWith_map_same, makeTuple_map _ _ _ f.mem_fields]

theorem getBoundedSatquenchpopParams_apply (u : SF → ℝ) (f : SF) :
    getBoundedSatquenchpopParams u f = getBoundedSatqParam (u f) f.bounds := by
  simp only [getBoundedSatquenchpopParams]
  rw [zipWith_map_same, makeTuple_map _ _ _ f.mem_fields]

theorem getUnboundedSatquenchpopParams_apply (u : SF → ℝ) (f : SF) :
    getUnboundedSatquenchpopParams u f = getUnboundedSatqParam (u f) f.bounds := by
  simp only [getUnboundedSatquenchpopParams]
  rw [zipWith_map_same, makeTuple_map _ _ _ f.mem_fields]

theorem sfhPdfPart_apply (p : PF → ℝ) (f : QF) : sfhPdfPart p f = p (.inl f) := by
  rw [sfhPdfPart, makeTuple_map _ _ _ f.mem_fields]

theorem satquenchPart_apply (p : PF → ℝ) (f : SF) : satquenchPart p f = p (.inr f) := by
  rw [satquenchPart, makeTuple_map _ _ _ f.mem_fields]

theorem joinPop_eq (q : QF → ℝ) (s : SF → ℝ) : joinPop q s = Sum.elim q s := by
  funext f
  have e : QF.fields.map q ++ SF.fields.map s = PF.fields.map (Sum.elim q s) := by
    simp [PF.fields, Function.comp_def]
  rw [joinPop, e, makeTuple_map _ _ _ (PF.mem_fields f)]

theorem getBounded_apply (u : PF → ℝ) (f : PF) :
    getBoundedDiffstarpopParams u f =
      sigmoid (u f) (0.5 * ((PF.bounds f).1 + (PF.bounds f).2)) 0.1 (PF.bounds f).1 (PF.bounds f).2 := by
  rw [getBoundedDiffstarpopParams, joinPop_eq]
  cases f with
  | inl f =>
    simp only [Sum.elim_inl, getBoundedSfhPdfParams_apply, sfhPdfPart_apply, getPFromUPScalar, BOUNDING_K,
      PF.bounds]
  | inr f =>
    simp only [Sum.elim_inr, getBoundedSatquenchpopParams_apply, satquenchPart_apply,
      getBoundedSatqParam, PF.bounds]

theorem getUnbounded_apply (p : PF → ℝ) (f : PF) :
    getUnboundedDiffstarpopParams p f =
      inverseSigmoid (p f) (0.5 * ((PF.bounds f).1 + (PF.bounds f).2)) 0.1 (PF.bounds f).1
        (PF.bounds f).2 := by
  rw [getUnboundedDiffstarpopParams, joinPop_eq]
  cases f with
  | inl f =>
    simp only [Sum.elim_inl, getUnboundedSfhPdfParams_apply, sfhPdfPart_apply, getUPFromPScalar,
      BOUNDING_K, PF.bounds]
  | inr f =>
    simp only [Sum.elim_inr, getUnboundedSatquenchpopParams_apply, satquenchPart_apply,
      getUnboundedSatqParam, PF.bounds]

/-- Strictly inside the published bounds. -/
def InPBounds (p : PF → ℝ) : Prop := ∀ f, (PF.bounds f).1 < p f ∧ p f < (PF.bounds f).2

theorem getBounded_in (u : PF → ℝ) : InPBounds (getBoundedDiffstarpopParams u) := by
  intro f
  rw [getBounded_apply]
  exact ⟨sigmoid_gt (PF.bounds_lt f), sigmoid_lt (PF.bounds_lt f)⟩

theorem sigmoid_mem_Ioo {x x0 k a b lo hi : ℝ} (ha : lo < a ∧ a < hi) (hb : lo < b ∧ b < hi) :
    lo < sigmoid x x0 k a b ∧ sigmoid x x0 k a b < hi := by
  have h0 := nnSigmoid_pos (k * (x - x0))
  have h1 := nnSigmoid_lt_one (k * (x - x0))
  simp only [sigmoid]
  constructor <;> nlinarith

theorem sigmoid_mem_Icc {x x0 k a b lo hi : ℝ} (ha : lo ≤ a ∧ a ≤ hi) (hb : lo ≤ b ∧ b ≤ hi) :
    lo ≤ sigmoid x x0 k a b ∧ sigmoid x x0 k a b ≤ hi := by
  have h0 := nnSigmoid_pos (k * (x - x0))
  have h1 := nnSigmoid_lt_one (k * (x - x0))
  simp only [sigmoid]
  constructor <;> nlinarith

theorem prob_field {p : PF → ℝ} (hp : InPBounds p) (f : PF) (h : PF.bounds f = (0, 1)) :
    0 < p f ∧ p f < 1 := by
  have := hp f
  rw [h] at this
  exact this

theorem fracQuenchCen_mem {p : PF → ℝ} (hp : InPBounds p) (m t : ℝ) :
    0 < fracQuenchCen (sfhPdfPart p) m t ∧ fracQuenchCen (sfhPdfPart p) m t < 1 := by
  simp only [fracQuenchCen, sfhPdfPart_apply]
  refine sigmoid_mem_Ioo (sigmoid_mem_Ioo (prob_field hp _ ?_) (prob_field hp _ ?_))
    (prob_field hp _ ?_) <;> norm_num [PF.bounds, QF.bounds, QF.boundsQ]

theorem fracQuenchSat_mem {p : PF → ℝ} (hp : InPBounds p) (m t : ℝ) :
    0 < fracQuenchSat (sfhPdfPart p) m t ∧ fracQuenchSat (sfhPdfPart p) m t < 1 := by
  simp only [fracQuenchSat, sfhPdfPart_apply]
  refine sigmoid_mem_Ioo (sigmoid_mem_Ioo (prob_field hp _ ?_) (prob_field hp _ ?_))
    (prob_field hp _ ?_) <;> norm_num [PF.bounds, QF.bounds, QF.boundsQ]

/-- Strictly inside the satellite parameter bounds. -/
def InSBounds (p : SF → ℝ) : Prop := ∀ f, (SF.bounds f).1 < p f ∧ p f < (SF.bounds f).2

theorem sprob_field {p : SF → ℝ} (hp : InSBounds p) (f : SF) (h : SF.bounds f = (0, 1)) :
    0 < p f ∧ p f < 1 := by
  have := hp f
  rw [h] at this
  exact this

theorem qprobHi_mem {p : SF → ℝ} (hp : InSBounds p) (mu mh : ℝ) :
    0 < qprobHiVsSubHostMass p mu mh ∧ qprobHiVsSubHostMass p mu mh < 1 := by
  simp only [qprobHiVsSubHostMass]
  refine sigmoid_mem_Ioo (sigmoid_mem_Ioo (sprob_field hp _ ?_) (sprob_field hp _ ?_))
    (sigmoid_mem_Ioo (sprob_field hp _ ?_) (sprob_field hp _ ?_)) <;> norm_num [SF.bounds, SF.boundsQ]

theorem tDelay_mem {p : SF → ℝ} (hp : InSBounds p) (mh : ℝ) :
    -5 < tDelayVsLogmhost p mh ∧ tDelayVsLogmhost p mh < 10 := by
  simp only [tDelayVsLogmhost]
  have h1 := hp .td_mlo
  have h2 := hp .td_mhi
  norm_num [SF.bounds, SF.boundsQ] at h1 h2
  exact sigmoid_mem_Ioo h1 h2

theorem fracDelta_eq (p : SF → ℝ) (mu mh t : ℝ) :
    predictSatFracDeltaQprob p mu mh t =
      qprobHiVsSubHostMass p mu mh * nnSigmoid (5 * (t - tDelayVsLogmhost p mh)) := by
  simp only [predictSatFracDeltaQprob, satquenchKernel, sigmoid, DEFAULT_Q_SPEED]
  ring

theorem fracDelta_mem {p : SF → ℝ} (hp : InSBounds p) (mu mh t : ℝ) :
    0 < predictSatFracDeltaQprob p mu mh t ∧ predictSatFracDeltaQprob p mu mh t < 1 := by
  rw [fracDelta_eq]
  have h := qprobHi_mem hp mu mh
  have h0 := nnSigmoid_pos (5 * (t - tDelayVsLogmhost p mh))
  have h1 := nnSigmoid_lt_one (5 * (t - tDelayVsLogmhost p mh))
  constructor
  · exact mul_pos h.1 h0
  · nlinarith

theorem satquenchPart_in {p : PF → ℝ} (hp : InPBounds p) : InSBounds (satquenchPart p) := by
  intro f
  rw [satquenchPart_apply]
  exact hp (.inr f)

theorem covarianceFromCovParams_zero (s : Fin 4 → ℝ) :
    covarianceFromCovParams s (fun _ => 0) = Matrix.diagonal fun i => s i ^ 2 := by
  ext i j
  unfold covarianceFromCovParams
  refine (cov_apply _ s i j).trans ?_
  by_cases h : i = j
  · subst h
    simp [getCholeskyFromParams]
    ring
  · simp [getCholeskyFromParams, h]
    intro h'; exact absurd h'.symm h

theorem lineModel_some {x y0 m : ℝ} {b : ℝ × ℝ} (hm : m ≠ 0) (h1 : b.1 < y0) (h2 : y0 < b.2) :
    ∃ v, lineModel x y0 m b = some v ∧ b.1 < v := by
  refine ⟨_, smoothlyClippedLine_eq hm h1, ?_⟩
  have := clipOf_gt (D := y0 - b.1) (U := b.2 - y0) (y0 := y0) (by linarith) (by linarith)
    (y0 + m * (x - LGM_X0))
  linarith

theorem lineModel_zero {x y0 : ℝ} {b : ℝ × ℝ} : lineModel x y0 0 b = none := by
  simp [lineModel, smoothlyClippedLine]

end Diffstar.Pop
