import Verif.Props.FitLoss
import Mathlib.Algebra.BigOperators.Ring.Finset
import Mathlib.Algebra.Order.BigOperators.Group.Finset

/-!
Properties of the fit loss: C49.
-/

namespace Diffstar.Spec

open Finset

/-- Averaged SFR (or SFR) `x` raised to at least a tenth of the specific floor times the stellar mass `m`. -/
noncomputable def floored (floor x m : ℝ) : ℝ := max x (m * (floor / 10))

/-- SFR mismatch in units of `1e-8` of the target mass per year, limited to `[-1, 1]`. -/
noncomputable def sfrMismatch (floor s m sT mT : ℝ) : ℝ := max (-1) (min 1 (10 ^ 8 * (floored floor s m - sT) / mT))

/-- Penalty for quenching before the peak of the target. -/
noncomputable def ridge (lgQt lgtMax : ℝ) : ℝ := 100 / (1 + Real.exp (50 * (lgQt - lgtMax)))

end Diffstar.Spec

namespace Diffstar.Props

open Diffstar.Fit Diffstar.Spec Finset

theorem sum_eq_range (l : List ℝ) : l.sum = ∑ i ∈ range l.length, l.getD i 0 := by
  induction l with
  | nil => simp
  | cons a l ih => rw [List.sum_cons, List.length_cons, Finset.sum_range_succ', ih]; simp [add_comm]

theorem getD_zipWith (g : ℝ → ℝ → ℝ) (a b : List ℝ) (i : ℕ) (ha : i < a.length) (hb : i < b.length) :
    (List.zipWith g a b).getD i 0 = g (a.getD i 0) (b.getD i 0) := by
  rw [List.getD_eq_getElem _ _ (by simp [ha, hb]), List.getD_eq_getElem _ _ ha, List.getD_eq_getElem _ _ hb,
    List.getElem_zipWith]

theorem getD_map (g : ℝ → ℝ) (a : List ℝ) (i : ℕ) (ha : i < a.length) :
    (a.map g).getD i 0 = g (a.getD i 0) := by
  rw [List.getD_eq_getElem _ _ (by simp [ha]), List.getD_eq_getElem _ _ ha, List.getElem_map]

theorem mean_zip (a w : List ℝ) (n : ℕ) (ha : a.length = n) (hw : w.length = n) :
    mean (List.zipWith (fun x w => (x / w) ^ 2) a w) = (∑ i ∈ range n, (a.getD i 0 / w.getD i 0) ^ 2) / n := by
  have hl : (List.zipWith (fun x w => (x / w) ^ 2) a w).length = n := by simp [ha, hw]
  rw [mean, sum_eq_range, hl]
  congr 1
  refine Finset.sum_congr rfl fun i hi => ?_
  rw [Finset.mem_range] at hi
  rw [getD_zipWith _ _ _ _ (by omega) (by omega)]

theorem ridge_eq (x y : ℝ) : sigmoid (x - y) 0 50 100 0 = ridge x y := by
  simp only [sigmoid, nnSigmoid, ridge, sub_zero]
  have h : Real.exp (-(50 * (x - y))) * Real.exp (50 * (x - y)) = 1 := by rw [← Real.exp_add]; simp
  have h1 := Real.exp_pos (50 * (x - y))
  have h2 := Real.exp_pos (-(50 * (x - y)))
  rw [eq_div_iff (by positivity)]
  field_simp
  nlinarith

/-- **C49**, the value of the loss in full: `m`, `s` are the stellar mass and SFR histories of the parameters under
test, `f` the averaged SFR of `m`; `n` is the number of snapshots. -/
theorem C49_loss_formula {M : Type} (logMah : M → ℝ → ℝ → ℝ) (u : DiffstarParams ℝ) (d : LossData M)
    (hd : WellFormed d) :
    let n := d.t.length
    let h := calcSfhSinglegalSmh logMah (getBoundedDiffstarParams u) d.mah d.t d.lgt0 d.fb
    let m := fun i => h.smh.getD i 0
    let s := fun i => h.sfh.getD i 0
    let f := fun i => floored d.ssfrhFloor ((computeFstar d.t h.smh d.fstarTdelay).getD i 0) (m i)
    lossDefaultClipssfrh logMah u d =
      30 * ((∑ i ∈ range n, ((Real.logb 10 (m i) - d.logmstarTarget.getD i 0) / d.weight.getD i 0) ^ 2) / n) +
      (∑ i ∈ range n, ((Real.logb 10 (f i) - d.logFstarTarget.getD i 0) / d.weightFstar.getD i 0) ^ 2) / n +
      (∑ i ∈ range n, (sfrMismatch d.ssfrhFloor (s i) (m i) (d.sfhTarget.getD i 0) (d.mstarTarget.getD i 0) /
        d.weight.getD i 0) ^ 2) / n +
      (Real.logb 10 (f (n - 1)) - d.logFstarTarget.getD (n - 1) 0) ^ 2 / 2 +
      ridge (getBoundedDiffstarParams u).lgQt d.lgtFstarMax := by
  have hpos : 0 < d.t.length := List.length_pos_iff.2 hd.nonempty
  have hsfh : (calcSfhSinglegalSmh logMah (getBoundedDiffstarParams u) d.mah d.t d.lgt0 d.fb).sfh.length =
      d.t.length := by simp [calcSfhSinglegalSmh, sfhSinglegalKern]
  have hsmh : (calcSfhSinglegalSmh logMah (getBoundedDiffstarParams u) d.mah d.t d.lgt0 d.fb).smh.length =
      d.t.length := cmf_length _ _ (by simp [sfhSinglegalKern])
  simp only [lossDefaultClipssfrh]
  set h := calcSfhSinglegalSmh logMah (getBoundedDiffstarParams u) d.mah d.t d.lgt0 d.fb
  have hf := computeFstar_length d.t h.smh hsmh d.fstarTdelay
  have l1 := hd.lenMstar
  have l2 := hd.lenLogmstar
  have l3 := hd.lenSfh
  have l4 := hd.lenFstar
  have l5 := hd.lenWeight
  have l6 := hd.lenWeightFstar
  rw [mean_zip _ _ d.t.length (by simp [hsmh, l2]) l5, mean_zip _ _ d.t.length (by simp [hsmh, hf, l4]) l6,
    mean_zip _ _ d.t.length (by simp [hsmh, hsfh, l1, l3]) l5, ridge_eq]
  congr 1
  congr 1
  congr 1
  congr 1
  · congr 2
    refine Finset.sum_congr rfl fun i hi => ?_
    rw [Finset.mem_range] at hi
    rw [getD_zipWith _ _ _ _ (by simp; omega) (by omega), getD_map _ _ _ (by omega)]
  · congr 1
    refine Finset.sum_congr rfl fun i hi => ?_
    rw [Finset.mem_range] at hi
    rw [getD_zipWith _ _ _ _ (by simp; omega) (by omega), getD_map _ _ _ (by simp; omega),
      getD_zipWith _ _ _ _ (by omega) (by omega)]
    rfl
  · congr 1
    refine Finset.sum_congr rfl fun i hi => ?_
    rw [Finset.mem_range] at hi
    rw [getD_map _ _ _ (by simp; omega), getD_zipWith _ _ _ _ (by simp; omega) (by omega),
      getD_zipWith _ _ _ _ (by simp; omega) (by omega), getD_zipWith _ _ _ _ (by omega) (by omega)]
    simp only [clip, sfrMismatch, floored]
    congr 2
    rw [max_min_distrib_left, max_eq_right (by norm_num : (-1 : ℝ) ≤ 1), min_comm, max_comm (-1 : ℝ)]
  · rw [List.getLastD_eq_getLast?, List.getLast?_eq_getElem?, ← List.getD_eq_getElem?_getD]
    have hl : (List.zipWith (fun a b : ℝ => a - b)
        ((List.zipWith (fun f m => max f (m * (d.ssfrhFloor / 10))) (computeFstar d.t h.smh d.fstarTdelay)
          h.smh).map (Real.logb 10)) d.logFstarTarget).length = d.t.length := by simp [hsmh, hf, l4]
    rw [hl, getD_zipWith _ _ _ _ (by simp; omega) (by omega), getD_map _ _ _ (by simp; omega),
      getD_zipWith _ _ _ _ (by omega) (by omega)]
    simp only [floored]
    ring

theorem ridge_pos (x y : ℝ) : 0 < ridge x y ∧ ridge x y < 100 := by
  have h := Real.exp_pos (50 * (x - y))
  unfold ridge
  refine ⟨by positivity, ?_⟩
  rw [div_lt_iff₀ (by positivity)]
  linarith

theorem getD_pos_of_forall {l : List ℝ} {c : ℝ} (h : ∀ x ∈ l, c ≤ x) (i : ℕ) (hi : i < l.length) :
    c ≤ l.getD i 0 := by
  rw [List.getD_eq_getElem _ _ hi]
  exact h _ (List.getElem_mem _)

theorem sfrMismatch_sq_le (a b c e g : ℝ) : sfrMismatch a b c e g ^ 2 ≤ 1 := by
  have h1 : -1 ≤ sfrMismatch a b c e g := le_max_left _ _
  have h2 : sfrMismatch a b c e g ≤ 1 := max_le (by norm_num) (min_le_left _ _)
  nlinarith

/-- **C49**: no logarithm in the loss is taken of a non-positive number: the stellar mass history and the floored
averaged SFR are positive. -/
theorem C49_logs_defined {M : Type} (logMah : M → ℝ → ℝ → ℝ) (u : DiffstarParams ℝ) (d : LossData M)
    (hd : WellFormed d) (i : ℕ) (hi : i < d.t.length) :
    let h := calcSfhSinglegalSmh logMah (getBoundedDiffstarParams u) d.mah d.t d.lgt0 d.fb
    0 < h.smh.getD i 0 ∧
    0 < floored d.ssfrhFloor ((computeFstar d.t h.smh d.fstarTdelay).getD i 0) (h.smh.getD i 0) := by
  have hl : (sfhSinglegalKern logMah d.t d.mah (getBoundedDiffstarParams u).ms (getBoundedDiffstarParams u).q
      d.lgt0 d.fb).length = d.t.length := by simp [sfhSinglegalKern]
  have hpos := mstar_pos_of_nonneg d.t _ hl hd.increasing (by
    intro x hx
    simp only [sfhSinglegalKern, List.mem_map] at hx
    obtain ⟨t, _, rfl⟩ := hx
    rw [sfhSinglegalScalar_eq]
    exact le_trans (by positivity) (le_max_left _ _))
  have h1 : 0 < (calcSfhSinglegalSmh logMah (getBoundedDiffstarParams u) d.mah d.t d.lgt0 d.fb).smh.getD i 0 := by
    have hl' := cmf_length d.t _ hl
    rw [List.getD_eq_getElem _ _ (by simp only [calcSfhSinglegalSmh]; omega)]
    exact hpos _ (List.getElem_mem _)
  refine ⟨h1, ?_⟩
  have := hd.floorPos
  exact lt_of_lt_of_le (by positivity) (le_max_right _ _)

/-- **C49**: the loss is at least the ridge penalty, which lies in (0, 100), so it is positive; it exceeds the ridge
by at least the individual mismatch of every snapshot. -/
theorem C49_loss_positive {M : Type} (logMah : M → ℝ → ℝ → ℝ) (u : DiffstarParams ℝ) (d : LossData M)
    (hd : WellFormed d) :
    let h := calcSfhSinglegalSmh logMah (getBoundedDiffstarParams u) d.mah d.t d.lgt0 d.fb
    let r := ridge (getBoundedDiffstarParams u).lgQt d.lgtFstarMax
    0 < r ∧ r < 100 ∧ r ≤ lossDefaultClipssfrh logMah u d ∧
    ∀ i, i < d.t.length →
      r + 30 * ((Real.logb 10 (h.smh.getD i 0) - d.logmstarTarget.getD i 0) / d.weight.getD i 0) ^ 2 /
          d.t.length +
        ((Real.logb 10 (floored d.ssfrhFloor ((computeFstar d.t h.smh d.fstarTdelay).getD i 0) (h.smh.getD i 0)) -
          d.logFstarTarget.getD i 0) / d.weightFstar.getD i 0) ^ 2 / d.t.length ≤
      lossDefaultClipssfrh logMah u d := by
  have hpos : 0 < d.t.length := List.length_pos_iff.2 hd.nonempty
  have hn : (0 : ℝ) < d.t.length := by exact_mod_cast hpos
  simp only
  set h := calcSfhSinglegalSmh logMah (getBoundedDiffstarParams u) d.mah d.t d.lgt0 d.fb
  obtain ⟨r1, r2⟩ := ridge_pos (getBoundedDiffstarParams u).lgQt d.lgtFstarMax
  have key : ∀ i, i < d.t.length →
      ridge (getBoundedDiffstarParams u).lgQt d.lgtFstarMax +
        30 * ((Real.logb 10 (h.smh.getD i 0) - d.logmstarTarget.getD i 0) / d.weight.getD i 0) ^ 2 /
          d.t.length +
        ((Real.logb 10 (floored d.ssfrhFloor ((computeFstar d.t h.smh d.fstarTdelay).getD i 0) (h.smh.getD i 0)) -
          d.logFstarTarget.getD i 0) / d.weightFstar.getD i 0) ^ 2 / d.t.length ≤
      lossDefaultClipssfrh logMah u d := by
    intro i hi
    rw [C49_loss_formula logMah u d hd]
    have a1 := Finset.single_le_sum (f := fun i => ((Real.logb 10 (h.smh.getD i 0) - d.logmstarTarget.getD i 0) /
      d.weight.getD i 0) ^ 2) (fun j _ => sq_nonneg _) (Finset.mem_range.2 hi)
    have a2 := Finset.single_le_sum (f := fun i => ((Real.logb 10 (floored d.ssfrhFloor
      ((computeFstar d.t h.smh d.fstarTdelay).getD i 0) (h.smh.getD i 0)) -
      d.logFstarTarget.getD i 0) / d.weightFstar.getD i 0) ^ 2) (fun j _ => sq_nonneg _) (Finset.mem_range.2 hi)
    have a3 : 0 ≤ (∑ i ∈ range d.t.length, (sfrMismatch d.ssfrhFloor (h.sfh.getD i 0) (h.smh.getD i 0)
        (d.sfhTarget.getD i 0) (d.mstarTarget.getD i 0) / d.weight.getD i 0) ^ 2) / (d.t.length : ℝ) := by positivity
    have a4 : 0 ≤ (Real.logb 10 (floored d.ssfrhFloor
      ((computeFstar d.t h.smh d.fstarTdelay).getD (d.t.length - 1) 0) (h.smh.getD (d.t.length - 1) 0)) -
      d.logFstarTarget.getD (d.t.length - 1) 0) ^ 2 / 2 := by positivity
    have b1 := div_le_div_of_nonneg_right a1 hn.le
    have b2 := div_le_div_of_nonneg_right a2 hn.le
    rw [mul_div_assoc]
    linarith
  refine ⟨r1, r2, ?_, key⟩
  refine le_trans ?_ (key 0 hpos)
  have c1 : 0 ≤ 30 * ((Real.logb 10 (h.smh.getD 0 0) - d.logmstarTarget.getD 0 0) / d.weight.getD 0 0) ^ 2 /
          (d.t.length : ℝ) := by positivity
  have c2 : 0 ≤ ((Real.logb 10 (floored d.ssfrhFloor ((computeFstar d.t h.smh d.fstarTdelay).getD 0 0)
    (h.smh.getD 0 0)) - d.logFstarTarget.getD 0 0) / d.weightFstar.getD 0 0) ^ 2 / (d.t.length : ℝ) := by positivity
  linarith

/-- **C49**: quenching at or before the peak of the target costs at least 50, and the penalty decreases strictly as
the quenching time moves later. -/
theorem C49_early_quenching_penalised {M : Type} (logMah : M → ℝ → ℝ → ℝ) (u : DiffstarParams ℝ) (d : LossData M)
    (hd : WellFormed d) :
    ((getBoundedDiffstarParams u).lgQt ≤ d.lgtFstarMax → 50 ≤ lossDefaultClipssfrh logMah u d) ∧
    ∀ x y : ℝ, x < y → ridge y d.lgtFstarMax < ridge x d.lgtFstarMax := by
  constructor
  · intro h
    obtain ⟨_, _, h1, _⟩ := C49_loss_positive logMah u d hd
    refine le_trans ?_ h1
    unfold ridge
    have : Real.exp (50 * ((getBoundedDiffstarParams u).lgQt - d.lgtFstarMax)) ≤ 1 :=
      Real.exp_le_one_iff.2 (by linarith)
    rw [le_div_iff₀ (by positivity)]
    linarith
  · intro x y hxy
    unfold ridge
    have : Real.exp (50 * (x - d.lgtFstarMax)) < Real.exp (50 * (y - d.lgtFstarMax)) :=
      Real.exp_lt_exp.2 (by linarith)
    exact div_lt_div_of_pos_left (by norm_num) (by positivity) (by linarith)

/-- **C49**: if the log stellar masses and log averaged SFRs match at every snapshot, the remaining SFR term adds at
most 4. -/
theorem C49_sfr_term_bounded {M : Type} (logMah : M → ℝ → ℝ → ℝ) (u : DiffstarParams ℝ) (d : LossData M)
    (hd : WellFormed d) :
    let h := calcSfhSinglegalSmh logMah (getBoundedDiffstarParams u) d.mah d.t d.lgt0 d.fb
    (∀ i, i < d.t.length → Real.logb 10 (h.smh.getD i 0) = d.logmstarTarget.getD i 0) →
    (∀ i, i < d.t.length → Real.logb 10 (floored d.ssfrhFloor
      ((computeFstar d.t h.smh d.fstarTdelay).getD i 0) (h.smh.getD i 0)) = d.logFstarTarget.getD i 0) →
    lossDefaultClipssfrh logMah u d ≤ ridge (getBoundedDiffstarParams u).lgQt d.lgtFstarMax + 4 := by
  have hpos : 0 < d.t.length := List.length_pos_iff.2 hd.nonempty
  have hn : (0 : ℝ) < d.t.length := by exact_mod_cast hpos
  intro h e1 e2
  rw [C49_loss_formula logMah u d hd]
  simp only
  have s1 : ∑ i ∈ range d.t.length, ((Real.logb 10 (h.smh.getD i 0) - d.logmstarTarget.getD i 0) /
      d.weight.getD i 0) ^ 2 = 0 := by
    refine Finset.sum_eq_zero fun i hi => ?_
    rw [e1 i (Finset.mem_range.1 hi)]; simp
  have s2 : ∑ i ∈ range d.t.length, ((Real.logb 10 (floored d.ssfrhFloor
      ((computeFstar d.t h.smh d.fstarTdelay).getD i 0) (h.smh.getD i 0)) -
      d.logFstarTarget.getD i 0) / d.weightFstar.getD i 0) ^ 2 = 0 := by
    refine Finset.sum_eq_zero fun i hi => ?_
    rw [e2 i (Finset.mem_range.1 hi)]; simp
  have s3 : ∑ i ∈ range d.t.length, (sfrMismatch d.ssfrhFloor (h.sfh.getD i 0) (h.smh.getD i 0)
      (d.sfhTarget.getD i 0) (d.mstarTarget.getD i 0) / d.weight.getD i 0) ^ 2 ≤ d.t.length * 4 := by
    have : ∀ i ∈ range d.t.length, (sfrMismatch d.ssfrhFloor (h.sfh.getD i 0) (h.smh.getD i 0)
      (d.sfhTarget.getD i 0) (d.mstarTarget.getD i 0) / d.weight.getD i 0) ^ 2 ≤ 4 := by
      intro i hi
      have hw := getD_pos_of_forall hd.weightPos i (by rw [hd.lenWeight]; exact Finset.mem_range.1 hi)
      have hq := sfrMismatch_sq_le d.ssfrhFloor (h.sfh.getD i 0) (h.smh.getD i 0)
        (d.sfhTarget.getD i 0) (d.mstarTarget.getD i 0)
      rw [div_pow, div_le_iff₀ (by nlinarith)]
      nlinarith
    have := Finset.sum_le_card_nsmul _ _ _ this
    simpa using this
  have s3' : (∑ i ∈ range d.t.length, (sfrMismatch d.ssfrhFloor (h.sfh.getD i 0) (h.smh.getD i 0)
      (d.sfhTarget.getD i 0) (d.mstarTarget.getD i 0) / d.weight.getD i 0) ^ 2) / (d.t.length : ℝ) ≤ 4 := by
    rw [div_le_iff₀ hn]; linarith
  rw [s1, s2, e2 (d.t.length - 1) (by omega)]
  simp only [zero_div, mul_zero, sub_self, ne_eq, OfNat.ofNat_ne_zero, not_false_eq_true, zero_pow]
  linarith

/-- **C49**: the loss equals the ridge penalty exactly if the (floored) model reproduces the target at every
snapshot: log mass, log averaged SFR and SFR. -/
theorem C49_loss_is_ridge_iff {M : Type} (logMah : M → ℝ → ℝ → ℝ) (u : DiffstarParams ℝ) (d : LossData M)
    (hd : WellFormed d) :
    let h := calcSfhSinglegalSmh logMah (getBoundedDiffstarParams u) d.mah d.t d.lgt0 d.fb
    lossDefaultClipssfrh logMah u d = ridge (getBoundedDiffstarParams u).lgQt d.lgtFstarMax ↔
      ∀ i, i < d.t.length → Real.logb 10 (h.smh.getD i 0) = d.logmstarTarget.getD i 0 ∧
        Real.logb 10 (floored d.ssfrhFloor ((computeFstar d.t h.smh d.fstarTdelay).getD i 0) (h.smh.getD i 0)) =
          d.logFstarTarget.getD i 0 ∧
        floored d.ssfrhFloor (h.sfh.getD i 0) (h.smh.getD i 0) = d.sfhTarget.getD i 0 := by
  have hpos : 0 < d.t.length := List.length_pos_iff.2 hd.nonempty
  have hn : (0 : ℝ) < d.t.length := by exact_mod_cast hpos
  intro h
  rw [C49_loss_formula logMah u d hd]
  simp only
  have hw : ∀ i, i < d.t.length → d.weight.getD i 0 ≠ 0 := by
    intro i hi
    have := getD_pos_of_forall hd.weightPos i (by rw [hd.lenWeight]; exact hi)
    intro e; rw [e] at this; norm_num at this
  have hwf : ∀ i, i < d.t.length → d.weightFstar.getD i 0 ≠ 0 := by
    intro i hi
    have := getD_pos_of_forall hd.weightFstarPos i (by rw [hd.lenWeightFstar]; exact hi)
    intro e; rw [e] at this; norm_num at this
  have hmt : ∀ i, i < d.t.length → 0 < d.mstarTarget.getD i 0 := by
    intro i hi
    rw [List.getD_eq_getElem _ _ (by rw [hd.lenMstar]; exact hi)]
    exact hd.mstarPos _ (List.getElem_mem _)
  have hzero : ∀ i, i < d.t.length → (sfrMismatch d.ssfrhFloor (h.sfh.getD i 0) (h.smh.getD i 0)
      (d.sfhTarget.getD i 0) (d.mstarTarget.getD i 0) = 0 ↔
      floored d.ssfrhFloor (h.sfh.getD i 0) (h.smh.getD i 0) = d.sfhTarget.getD i 0) := by
    intro i hi
    have h0 := hmt i hi
    set x := floored d.ssfrhFloor (h.sfh.getD i 0) (h.smh.getD i 0)
    set y := d.sfhTarget.getD i 0
    have e : (10 : ℝ) ^ 8 * (x - y) / d.mstarTarget.getD i 0 = 0 ↔ x = y := by
      rw [div_eq_zero_iff]
      constructor
      · rintro (h1 | h1)
        · have := (mul_eq_zero.1 h1).resolve_left (by norm_num)
          linarith
        · exact absurd h1 h0.ne'
      · intro h1; left; rw [h1]; ring
    rw [← e]
    show max (-1) (min 1 ((10 : ℝ) ^ 8 * (x - y) / d.mstarTarget.getD i 0)) = 0 ↔ _
    set z := (10 : ℝ) ^ 8 * (x - y) / d.mstarTarget.getD i 0
    constructor
    · intro h1
      rcases max_choice (-1) (min 1 z) with h2 | h2
      · rw [h2] at h1; norm_num at h1
      · rw [h2] at h1
        rcases min_choice 1 z with h3 | h3
        · rw [h3] at h1; norm_num at h1
        · rw [h3] at h1; exact h1
    · intro h1; rw [h1]; norm_num
  set A := ∑ i ∈ range d.t.length, ((Real.logb 10 (h.smh.getD i 0) - d.logmstarTarget.getD i 0) /
      d.weight.getD i 0) ^ 2 with hA
  set B := ∑ i ∈ range d.t.length, ((Real.logb 10 (floored d.ssfrhFloor
      ((computeFstar d.t h.smh d.fstarTdelay).getD i 0) (h.smh.getD i 0)) -
      d.logFstarTarget.getD i 0) / d.weightFstar.getD i 0) ^ 2 with hB
  set C := ∑ i ∈ range d.t.length, (sfrMismatch d.ssfrhFloor (h.sfh.getD i 0) (h.smh.getD i 0)
      (d.sfhTarget.getD i 0) (d.mstarTarget.getD i 0) / d.weight.getD i 0) ^ 2 with hC
  have pA : 0 ≤ A := Finset.sum_nonneg fun _ _ => sq_nonneg _
  have pB : 0 ≤ B := Finset.sum_nonneg fun _ _ => sq_nonneg _
  have pC : 0 ≤ C := Finset.sum_nonneg fun _ _ => sq_nonneg _
  have zA : A = 0 ↔ ∀ i, i < d.t.length → Real.logb 10 (h.smh.getD i 0) = d.logmstarTarget.getD i 0 := by
    rw [hA, Finset.sum_eq_zero_iff_of_nonneg fun _ _ => sq_nonneg _]
    refine forall_congr' fun i => ?_
    rw [Finset.mem_range]
    refine imp_congr_right fun hi => ?_
    rw [sq_eq_zero_iff, div_eq_zero_iff, sub_eq_zero]
    exact or_iff_left (hw i hi)
  have zB : B = 0 ↔ ∀ i, i < d.t.length → Real.logb 10 (floored d.ssfrhFloor
      ((computeFstar d.t h.smh d.fstarTdelay).getD i 0) (h.smh.getD i 0)) = d.logFstarTarget.getD i 0 := by
    rw [hB, Finset.sum_eq_zero_iff_of_nonneg fun _ _ => sq_nonneg _]
    refine forall_congr' fun i => ?_
    rw [Finset.mem_range]
    refine imp_congr_right fun hi => ?_
    rw [sq_eq_zero_iff, div_eq_zero_iff, sub_eq_zero]
    exact or_iff_left (hwf i hi)
  have zC : C = 0 ↔ ∀ i, i < d.t.length →
      floored d.ssfrhFloor (h.sfh.getD i 0) (h.smh.getD i 0) = d.sfhTarget.getD i 0 := by
    rw [hC, Finset.sum_eq_zero_iff_of_nonneg fun _ _ => sq_nonneg _]
    refine forall_congr' fun i => ?_
    rw [Finset.mem_range]
    refine imp_congr_right fun hi => ?_
    rw [sq_eq_zero_iff, div_eq_zero_iff, hzero i hi]
    exact or_iff_left (hw i hi)
  constructor
  · intro he
    have q1 : 0 ≤ A / d.t.length := by positivity
    have q2 : 0 ≤ B / d.t.length := by positivity
    have q3 : 0 ≤ C / d.t.length := by positivity
    have q4 := sq_nonneg (Real.logb 10 (floored d.ssfrhFloor ((computeFstar d.t h.smh d.fstarTdelay).getD
      (d.t.length - 1) 0) (h.smh.getD (d.t.length - 1) 0)) - d.logFstarTarget.getD (d.t.length - 1) 0)
    have r1 : A / d.t.length = 0 := by linarith
    have r2 : B / d.t.length = 0 := by linarith
    have r3 : C / d.t.length = 0 := by linarith
    rw [div_eq_zero_iff] at r1 r2 r3
    have t1 := zA.1 (r1.resolve_right hn.ne')
    have t2 := zB.1 (r2.resolve_right hn.ne')
    have t3 := zC.1 (r3.resolve_right hn.ne')
    exact fun i hi => ⟨t1 i hi, t2 i hi, t3 i hi⟩
  · intro he
    rw [zA.2 fun i hi => (he i hi).1, zB.2 fun i hi => (he i hi).2.1, zC.2 fun i hi => (he i hi).2.2,
      (he (d.t.length - 1) (by omega)).2.1]
    simp

/-- Well-formed loss data exist: the data built for a constant SFH (see C67). -/
example : ∃ d : LossData Unit, WellFormed d := by
  obtain ⟨_, d, _, h, _⟩ := C67_loss_data_well_formed (M := Unit) (fun _ _ _ => 11) [1, 2, 3] [1, 1, 1] ()
    3.5 1 7 1 (1 / 10 ^ 12) 1.14 0.156 rfl (by simp) (by unfold Increasing; norm_num)
    (by norm_num) (by norm_num) (by norm_num)
  exact ⟨d, h⟩

end Diffstar.Props
