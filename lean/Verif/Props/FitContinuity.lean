import Verif.Props.FitLossValue
import Verif.Props.Smooth

/-!
C109: the fit loss as a function of the eight unbounded parameters: continuous, bounded, and smooth off its kinks.
-/

namespace Diffstar.Props

open Diffstar Diffstar.Fit Diffstar.Spec Finset Filter Topology

/-- Interpolation is linear in the table values. -/
theorem npInterp_linear (x : ℝ) (xs : List ℝ) :
    ∃ c : ℕ → ℝ, ∀ ys : List ℝ, ys.length = xs.length → npInterp x xs ys = ∑ i ∈ range xs.length, c i * ys.getD i 0 := by
  induction xs with
  | nil => exact ⟨fun _ => 0, fun ys h => by
      have := List.length_eq_zero_iff.1 h; subst this; simp [npInterp]⟩
  | cons x0 xs ih =>
    cases xs with
    | nil =>
      refine ⟨fun _ => 1, fun ys h => ?_⟩
      match ys, h with
      | [y], _ => simp [npInterp]
    | cons x1 xs =>
      by_cases h0 : x ≤ x0
      · refine ⟨fun i => if i = 0 then 1 else 0, fun ys h => ?_⟩
        match ys, h with
        | y0 :: y1 :: ys, _ =>
          rw [npInterp, if_pos h0, Finset.sum_eq_single 0 (by intro i _ hi; simp [hi]) (by simp)]
          simp
      · by_cases h1 : x ≤ x1
        · refine ⟨fun i => if i = 0 then 1 - (x - x0) / (x1 - x0) else if i = 1 then (x - x0) / (x1 - x0) else 0,
            fun ys h => ?_⟩
          match ys, h with
          | y0 :: y1 :: ys, _ =>
            rw [npInterp, if_neg h0, if_pos h1, List.length_cons, List.length_cons, Finset.sum_range_succ',
              Finset.sum_range_succ', Finset.sum_eq_zero (by intro i _; simp)]
            simp
            ring
        · obtain ⟨c, hc⟩ := ih
          refine ⟨fun i => if i = 0 then 0 else c (i - 1), fun ys h => ?_⟩
          match ys, h with
          | y0 :: y1 :: ys, h =>
            rw [npInterp, if_neg h0, if_neg h1, hc (y1 :: ys) (by simpa using h), List.length_cons (a := x0),
              Finset.sum_range_succ']
            simp

/-- The running masses are affine in the rates. -/
theorem cmf_affine (t : List ℝ) (i : ℕ) :
    ∃ (c0 : ℝ) (c : ℕ → ℝ), ∀ s : List ℝ, s.length = t.length →
      (cumulativeMstarFormed t s).getD i 0 = c0 + ∑ j ∈ range t.length, c j * s.getD j 0 := by
  have key : ∀ (t : List ℝ) (i : ℕ) (a : ℝ), ∃ (k0 kf kc : ℝ) (k : ℕ → ℝ), ∀ (fa c : ℝ) (s : List ℝ), s.length = t.length →
      (trapFrom a fa c (t.zip s)).getD i 0 = k0 + kf * fa + kc * c + ∑ j ∈ range t.length, k j * s.getD j 0 := by
    intro t
    induction t with
    | nil => exact fun i a => ⟨0, 0, 0, fun _ => 0, fun fa c s h => by simp⟩
    | cons b t ih =>
      intro i a
      cases i with
      | zero =>
        refine ⟨0, (b - a) / 2, 1, fun j => if j = 0 then (b - a) / 2 else 0, fun fa c s h => ?_⟩
        match s, h with
        | y :: s, h =>
          rw [List.length_cons, Finset.sum_range_succ', Finset.sum_eq_zero (by intro i _; simp)]
          simp
          ring
      | succ i =>
        obtain ⟨k0, kf, kc, k, hk⟩ := ih i b
        refine ⟨k0, kc * ((b - a) / 2), kc, fun j => if j = 0 then kf + kc * ((b - a) / 2) else k (j - 1), fun fa c s h => ?_⟩
        match s, h with
        | y :: s, h =>
          rw [List.length_cons, Finset.sum_range_succ', List.zip_cons_cons, trapFrom_cons, List.getD_cons_succ,
            hk y _ s (by simpa using h)]
          simp
          ring
  obtain ⟨k0, kf, kc, k, hk⟩ := key t i 0.001
  by_cases hi : i < t.length
  · refine ⟨(k0 + kf * (1 / 10 ^ 14) + kc * 0) * 10 ^ 9, fun j => k j * 10 ^ 9, fun s hs => ?_⟩
    rw [cmf_eq, getD_map _ _ _ (by simp [hs, hi]), hk _ _ s hs, add_mul, Finset.sum_mul]
    congr 1
    exact Finset.sum_congr rfl fun j _ => by ring
  · refine ⟨0, fun _ => 0, fun s hs => ?_⟩
    rw [List.getD_eq_default _ _ (by rw [cmf_length t s hs]; omega)]
    simp

/-- The loss as a function of the bounded parameters: the formula of C49. -/
noncomputable def lossOf {M : Type} (logMah : M → ℝ → ℝ → ℝ) (d : LossData M) (p : DiffstarParams ℝ) : ℝ :=
  let n := d.t.length
  let h := calcSfhSinglegalSmh logMah p d.mah d.t d.lgt0 d.fb
  let m := fun i => h.smh.getD i 0
  let s := fun i => h.sfh.getD i 0
  let f := fun i => floored d.ssfrhFloor ((computeFstar d.t h.smh d.fstarTdelay).getD i 0) (m i)
  30 * ((∑ i ∈ range n, ((Real.logb 10 (m i) - d.logmstarTarget.getD i 0) / d.weight.getD i 0) ^ 2) / n) +
    (∑ i ∈ range n, ((Real.logb 10 (f i) - d.logFstarTarget.getD i 0) / d.weightFstar.getD i 0) ^ 2) / n +
    (∑ i ∈ range n, (sfrMismatch d.ssfrhFloor (s i) (m i) (d.sfhTarget.getD i 0) (d.mstarTarget.getD i 0) /
      d.weight.getD i 0) ^ 2) / n +
    (Real.logb 10 (f (n - 1)) - d.logFstarTarget.getD (n - 1) 0) ^ 2 / 2 +
    ridge p.lgQt d.lgtFstarMax

/-- The rate at a tabulated time, before the floor. -/
noncomputable def rawSfr {M : Type} (logMah : M → ℝ → ℝ → ℝ) (mah : M) (lgt0 fb : ℝ) (p : DiffstarParams ℝ) (t : ℝ) : ℝ :=
  (10 : ℝ) ^ qExp (Real.logb 10 t) p.lgQt ((10 : ℝ) ^ p.qlglgdt) p.lgDrop p.lgRejuv * msSfr p fb (logMah mah t lgt0)

theorem sfh_eq {M : Type} (logMah : M → ℝ → ℝ → ℝ) (mah : M) (t : List ℝ) (lgt0 fb : ℝ) (p : DiffstarParams ℝ) :
    (calcSfhSinglegalSmh logMah p mah t lgt0 fb).sfh = t.map fun x => max (1 / 10 ^ 14) (rawSfr logMah mah lgt0 fb p x) := by
  change calcSfhSinglegal logMah p mah t lgt0 fb = _
  rw [calcSfhSinglegal_eq]
  rfl

theorem smh_eq {M : Type} (logMah : M → ℝ → ℝ → ℝ) (mah : M) (t : List ℝ) (lgt0 fb : ℝ) (p : DiffstarParams ℝ) :
    (calcSfhSinglegalSmh logMah p mah t lgt0 fb).smh =
      cumulativeMstarFormed t (calcSfhSinglegalSmh logMah p mah t lgt0 fb).sfh := rfl

theorem smh_length {M : Type} (logMah : M → ℝ → ℝ → ℝ) (mah : M) (t : List ℝ) (lgt0 fb : ℝ) (p : DiffstarParams ℝ) :
    (calcSfhSinglegalSmh logMah p mah t lgt0 fb).smh.length = t.length := by
  rw [smh_eq, cmf_length]
  simp [sfh_eq]

theorem smh_pos {M : Type} (logMah : M → ℝ → ℝ → ℝ) (mah : M) (t : List ℝ) (hinc : Increasing (0.001 :: t)) (lgt0 fb : ℝ)
    (p : DiffstarParams ℝ) (i : ℕ) (hi : i < t.length) :
    0 < (calcSfhSinglegalSmh logMah p mah t lgt0 fb).smh.getD i 0 := by
  have h := mstar_pos_of_nonneg t (calcSfhSinglegalSmh logMah p mah t lgt0 fb).sfh (by simp [sfh_eq]) hinc (by
    intro x hx
    rw [sfh_eq, List.mem_map] at hx
    obtain ⟨y, -, rfl⟩ := hx
    exact le_trans (by positivity) (le_max_left _ _))
  rw [List.getD_eq_getElem _ _ (by rw [smh_length]; exact hi)]
  exact h _ (List.getElem_mem _)

section cont

variable {M : Type} (logMah : M → ℝ → ℝ → ℝ) {X : Type*} [TopologicalSpace X] {P : X → DiffstarParams ℝ}

/-- Averaged rate at index `i` in terms of masses. -/
theorem fstar_getD (t m : List ℝ) (τ : ℝ) (hm : m.length = t.length) (i : ℕ) (hi : i < t.length) :
    (computeFstar t m τ).getD i 0 = max ((m.getD i 0 - npInterp (t.getD i 0 - τ) t m) / τ / 10 ^ 9) 0 := by
  simp only [computeFstar]
  rw [getD_map _ _ _ (by simp [hm, hi]), getD_zipWith _ _ _ _ (by omega) (by simp [hi])]
  rw [List.getD_eq_getElem (t.map _) _ (by simpa using hi), List.getElem_map, List.getD_eq_getElem t _ hi]
  split_ifs with h
  · exact (max_eq_left h.le).symm
  · exact (max_eq_right (not_lt.1 h)).symm

theorem continuous_lossOf (d : LossData M) (hd : WellFormed d)
    (hs : ∀ t ∈ d.t, Continuous fun x => rawSfr logMah d.mah d.lgt0 d.fb (P x) t) (hq : Continuous fun x => (P x).lgQt) :
    Continuous fun x => lossOf logMah d (P x) := by
  have hS : ∀ i, Continuous fun x => (calcSfhSinglegalSmh logMah (P x) d.mah d.t d.lgt0 d.fb).sfh.getD i 0 := by
    intro i
    by_cases hi : i < d.t.length
    · have e : (fun x => (calcSfhSinglegalSmh logMah (P x) d.mah d.t d.lgt0 d.fb).sfh.getD i 0) =
          fun x => max (1 / 10 ^ 14) (rawSfr logMah d.mah d.lgt0 d.fb (P x) d.t[i]) := by
        funext x
        rw [sfh_eq, List.getD_eq_getElem _ _ (by simpa using hi), List.getElem_map]
      rw [e]
      exact continuous_const.max (hs _ (List.getElem_mem _))
    · have e : (fun x => (calcSfhSinglegalSmh logMah (P x) d.mah d.t d.lgt0 d.fb).sfh.getD i 0) = fun _ => 0 := by
        funext x
        rw [List.getD_eq_default _ _ (by simp [sfh_eq]; omega)]
      rw [e]
      exact continuous_const
  have hM : ∀ i, Continuous fun x => (calcSfhSinglegalSmh logMah (P x) d.mah d.t d.lgt0 d.fb).smh.getD i 0 := by
    intro i
    obtain ⟨c0, c, hc⟩ := cmf_affine d.t i
    have e : (fun x => (calcSfhSinglegalSmh logMah (P x) d.mah d.t d.lgt0 d.fb).smh.getD i 0) = fun x => c0 +
        ∑ j ∈ range d.t.length, c j * (calcSfhSinglegalSmh logMah (P x) d.mah d.t d.lgt0 d.fb).sfh.getD j 0 := by
      funext x
      rw [smh_eq, hc _ (by simp [sfh_eq])]
    rw [e]
    exact continuous_const.add (continuous_finsetSum _ fun j _ => continuous_const.mul (hS j))
  have hF : ∀ i, i < d.t.length → Continuous fun x =>
      (computeFstar d.t (calcSfhSinglegalSmh logMah (P x) d.mah d.t d.lgt0 d.fb).smh d.fstarTdelay).getD i 0 := by
    intro i hi
    obtain ⟨c, hc⟩ := npInterp_linear (d.t.getD i 0 - d.fstarTdelay) d.t
    have e : (fun x => (computeFstar d.t (calcSfhSinglegalSmh logMah (P x) d.mah d.t d.lgt0 d.fb).smh
        d.fstarTdelay).getD i 0) = fun x => max (((calcSfhSinglegalSmh logMah (P x) d.mah d.t d.lgt0 d.fb).smh.getD i 0 -
          ∑ j ∈ range d.t.length, c j * (calcSfhSinglegalSmh logMah (P x) d.mah d.t d.lgt0 d.fb).smh.getD j 0) /
            d.fstarTdelay / 10 ^ 9) 0 := by
      funext x
      rw [fstar_getD _ _ _ (smh_length ..) i hi, hc _ (smh_length ..)]
    rw [e]
    exact ((((hM i).sub (continuous_finsetSum _ fun j _ => continuous_const.mul (hM j))).div_const _).div_const _).max
      continuous_const
  have hfl := hd.floorPos
  have hG : ∀ i, i < d.t.length → Continuous fun x => Real.logb 10 (floored d.ssfrhFloor
      ((computeFstar d.t (calcSfhSinglegalSmh logMah (P x) d.mah d.t d.lgt0 d.fb).smh d.fstarTdelay).getD i 0)
      ((calcSfhSinglegalSmh logMah (P x) d.mah d.t d.lgt0 d.fb).smh.getD i 0)) := by
    intro i hi
    refine Continuous.div_const (Continuous.log ((hF i hi).max ((hM i).mul_const _)) fun x => ?_) _
    have := smh_pos logMah d.mah d.t hd.increasing d.lgt0 d.fb (P x) i hi
    exact (lt_of_lt_of_le (by positivity) (le_max_right _ _)).ne'
  have hL : ∀ i, i < d.t.length → Continuous fun x => Real.logb 10
      ((calcSfhSinglegalSmh logMah (P x) d.mah d.t d.lgt0 d.fb).smh.getD i 0) := fun i hi =>
    Continuous.div_const (Continuous.log (hM i) fun x => (smh_pos logMah d.mah d.t hd.increasing d.lgt0 d.fb (P x) i hi).ne') _
  have hn : d.t.length - 1 < d.t.length := by
    have := List.length_pos_iff.2 hd.nonempty
    omega
  unfold lossOf
  refine Continuous.add (Continuous.add (Continuous.add (Continuous.add ?_ ?_) ?_) ?_) ?_
  · refine continuous_const.mul (Continuous.div_const (continuous_finsetSum _ fun i hi => ?_) _)
    exact (((hL i (Finset.mem_range.1 hi)).sub continuous_const).div_const _).pow 2
  · refine Continuous.div_const (continuous_finsetSum _ fun i hi => ?_) _
    exact (((hG i (Finset.mem_range.1 hi)).sub continuous_const).div_const _).pow 2
  · refine Continuous.div_const (continuous_finsetSum _ fun i hi => ?_) _
    unfold sfrMismatch floored
    exact ((continuous_const.max (continuous_const.min ((continuous_const.mul (((hS i).max ((hM i).mul_const _)).sub
      continuous_const)).div_const _))).div_const _).pow 2
  · exact (((hG _ hn).sub continuous_const).pow 2).div_const _
  · unfold ridge
    exact continuous_const.div (continuous_const.add (Real.continuous_exp.comp
      (continuous_const.mul (hq.sub continuous_const)))) fun x => by positivity

end cont

theorem lossOf_eq {M : Type} (logMah : M → ℝ → ℝ → ℝ) (d : LossData M) (hd : WellFormed d) (u : DiffstarParams ℝ) :
    lossDefaultClipssfrh logMah u d = lossOf logMah d (getBoundedDiffstarParams u) := C49_loss_formula logMah u d hd

theorem contDiff_bounded_lgQt : ContDiff ℝ 3 fun v : Fin 8 → ℝ => (getBoundedDiffstarParams (paramsOfVec v)).lgQt := by
  simp only [getBoundedDiffstarParams, DiffstarParams.join, getBoundedQParams, sigmoidB, DiffstarParams.q, paramsOfVec]
  have h4 : ContDiff ℝ 3 fun v : Fin 8 → ℝ => v 4 := by fun_prop
  exact h4.sigmoid' contDiff_const

/-- **C109**: the loss which the fitter minimises is a continuous function of the eight unbounded parameters. -/
theorem C109_loss_continuous {M : Type} (logMah : M → ℝ → ℝ → ℝ) (d : LossData M) (hd : WellFormed d) :
    Continuous fun v : Fin 8 → ℝ => lossDefaultClipssfrh logMah (paramsOfVec v) d := by
  simp only [lossOf_eq logMah d hd]
  exact continuous_lossOf logMah d hd (fun t _ => (contDiff_rawSfr_unbounded _ _ _).continuous)
    contDiff_bounded_lgQt.continuous

/-- **C109**: the loss is bounded: however far the optimiser wanders, in whatever direction, the loss stays below one
number, which depends on the data only. -/
theorem C109_loss_bounded {M : Type} (logMah : M → ℝ → ℝ → ℝ) (d : LossData M) (hd : WellFormed d) :
    ∃ B : ℝ, ∀ u : DiffstarParams ℝ, 0 < lossDefaultClipssfrh logMah u d ∧ lossDefaultClipssfrh logMah u d ≤ B := by
  have hc : Continuous fun v : Fin 8 → ℝ => lossOf logMah d (paramsOfVec v) :=
    continuous_lossOf logMah d hd (fun t _ => (contDiff_rawSfr_bounded _ _ _).continuous)
      (by simp only [paramsOfVec]; fun_prop)
  obtain ⟨B, hB⟩ := (isCompact_Icc (a := (![9, -12, 0, -5, 0.1, -3, -3, -3] : Fin 8 → ℝ))
    (b := ![13.5, -8, 5, 0, 2, -0.01, 0, 0])).bddAbove_image hc.continuousOn
  refine ⟨B, fun u => ⟨?_, ?_⟩⟩
  · obtain ⟨h1, -, h2, -⟩ := C49_loss_positive logMah u d hd
    exact lt_of_lt_of_le h1 h2
  · rw [lossOf_eq logMah d hd]
    obtain ⟨h1, h2, h3, h4, h5, h6, h7, h8⟩ := C01_bounded_params_in_bounds u
    set p := getBoundedDiffstarParams u
    refine hB ⟨![p.lgmcrit, p.lgyAtMcrit, p.indxLo, p.indxHi, p.lgQt, p.qlglgdt, p.lgDrop, p.lgRejuv], ⟨?_, ?_⟩, rfl⟩
    · intro i
      fin_cases i <;> simp <;> linarith
    · intro i
      fin_cases i <;> simp <;> linarith

section smooth

variable {M : Type} (logMah : M → ℝ → ℝ → ℝ) {E : Type*} [NormedAddCommGroup E] [NormedSpace ℝ E] {u : E}

theorem contDiffAt_max {f g : E → ℝ} (hf : ContDiffAt ℝ 3 f u) (hg : ContDiffAt ℝ 3 g u) (h : f u ≠ g u) :
    ContDiffAt ℝ 3 (fun v => max (f v) (g v)) u := by
  rcases lt_or_gt_of_ne h with h | h
  · refine hg.congr_of_eventuallyEq ?_
    filter_upwards [hf.continuousAt.eventually_lt hg.continuousAt h] with v hv
    exact max_eq_right hv.le
  · refine hf.congr_of_eventuallyEq ?_
    filter_upwards [hg.continuousAt.eventually_lt hf.continuousAt h] with v hv
    exact max_eq_left hv.le

theorem contDiffAt_clip {f : E → ℝ} (hf : ContDiffAt ℝ 3 f u) (h : |f u| ≠ 1) :
    ContDiffAt ℝ 3 (fun v => max (-1) (min 1 (f v))) u := by
  have e0 : ∀ x : ℝ, -max (-1) (-x) = min 1 x := fun x => by rw [max_neg_neg, neg_neg]
  have e : (fun v => max (-1) (min 1 (f v))) = fun v => max (-1) (-max (-1) (-f v)) := by
    funext v
    rw [e0]
  rw [e]
  have h1 : f u ≠ 1 := fun x => h (by rw [x]; simp)
  have h2 : f u ≠ -1 := fun x => h (by rw [x]; simp)
  refine contDiffAt_max contDiffAt_const (contDiffAt_max contDiffAt_const hf.neg ?_).neg ?_
  · intro x
    exact h1 (by linarith)
  · rw [e0]
    intro x
    rcases min_choice 1 (f u) with y | y <;> rw [y] at x
    · norm_num at x
    · exact h2 x.symm

theorem contDiffAt_lossOf {P : E → DiffstarParams ℝ} (d : LossData M) (hd : WellFormed d)
    (hs : ∀ t ∈ d.t, ContDiff ℝ 3 fun x => rawSfr logMah d.mah d.lgt0 d.fb (P x) t)
    (hq : ContDiff ℝ 3 fun x => (P x).lgQt)
    (hk : let h := calcSfhSinglegalSmh logMah (P u) d.mah d.t d.lgt0 d.fb
      ∀ i, i < d.t.length → h.sfh.getD i 0 ≠ 1 / 10 ^ 14 ∧
        (computeFstar d.t h.smh d.fstarTdelay).getD i 0 ≠ h.smh.getD i 0 * (d.ssfrhFloor / 10) ∧
        h.sfh.getD i 0 ≠ h.smh.getD i 0 * (d.ssfrhFloor / 10) ∧
        |10 ^ 8 * (floored d.ssfrhFloor (h.sfh.getD i 0) (h.smh.getD i 0) - d.sfhTarget.getD i 0) /
          d.mstarTarget.getD i 0| ≠ 1) :
    ContDiffAt ℝ 3 (fun x => lossOf logMah d (P x)) u := by
  have hS : ∀ i, i < d.t.length → ContDiffAt ℝ 3
      (fun x => (calcSfhSinglegalSmh logMah (P x) d.mah d.t d.lgt0 d.fb).sfh.getD i 0) u := by
    intro i hi
    have e : ∀ x, (calcSfhSinglegalSmh logMah (P x) d.mah d.t d.lgt0 d.fb).sfh.getD i 0 =
        max (1 / 10 ^ 14) (rawSfr logMah d.mah d.lgt0 d.fb (P x) d.t[i]) := by
      intro x
      rw [sfh_eq, List.getD_eq_getElem _ _ (by simpa using hi), List.getElem_map]
    have h0 := (hk i hi).1
    rw [e] at h0
    simp only [e]
    exact max_smooth (hs _ (List.getElem_mem _)) _ _ h0
  have hM : ∀ i, ContDiffAt ℝ 3 (fun x => (calcSfhSinglegalSmh logMah (P x) d.mah d.t d.lgt0 d.fb).smh.getD i 0) u := by
    intro i
    obtain ⟨c0, c, hc⟩ := cmf_affine d.t i
    have e : (fun x => (calcSfhSinglegalSmh logMah (P x) d.mah d.t d.lgt0 d.fb).smh.getD i 0) = fun x => c0 +
        ∑ j ∈ range d.t.length, c j * (calcSfhSinglegalSmh logMah (P x) d.mah d.t d.lgt0 d.fb).sfh.getD j 0 := by
      funext x
      rw [smh_eq, hc _ (by simp [sfh_eq])]
    rw [e]
    exact contDiffAt_const.add (ContDiffAt.sum fun j hj => contDiffAt_const.mul (hS j (Finset.mem_range.1 hj)))
  have hfl := hd.floorPos
  have hG : ∀ i, i < d.t.length → ContDiffAt ℝ 3 (fun x => Real.logb 10 (floored d.ssfrhFloor
      ((computeFstar d.t (calcSfhSinglegalSmh logMah (P x) d.mah d.t d.lgt0 d.fb).smh d.fstarTdelay).getD i 0)
      ((calcSfhSinglegalSmh logMah (P x) d.mah d.t d.lgt0 d.fb).smh.getD i 0))) u := by
    intro i hi
    obtain ⟨c, hc⟩ := npInterp_linear (d.t.getD i 0 - d.fstarTdelay) d.t
    have hmp : ∀ x, 0 < (calcSfhSinglegalSmh logMah (P x) d.mah d.t d.lgt0 d.fb).smh.getD i 0 := fun x =>
      smh_pos logMah d.mah d.t hd.increasing d.lgt0 d.fb (P x) i hi
    have e : ∀ x, floored d.ssfrhFloor
        ((computeFstar d.t (calcSfhSinglegalSmh logMah (P x) d.mah d.t d.lgt0 d.fb).smh d.fstarTdelay).getD i 0)
        ((calcSfhSinglegalSmh logMah (P x) d.mah d.t d.lgt0 d.fb).smh.getD i 0) =
        max (((calcSfhSinglegalSmh logMah (P x) d.mah d.t d.lgt0 d.fb).smh.getD i 0 -
          ∑ j ∈ range d.t.length, c j * (calcSfhSinglegalSmh logMah (P x) d.mah d.t d.lgt0 d.fb).smh.getD j 0) /
            d.fstarTdelay / 10 ^ 9)
          ((calcSfhSinglegalSmh logMah (P x) d.mah d.t d.lgt0 d.fb).smh.getD i 0 * (d.ssfrhFloor / 10)) := by
      intro x
      have := hmp x
      rw [floored, fstar_getD _ _ _ (smh_length ..) i hi, hc _ (smh_length ..), max_assoc,
        max_eq_right (a := (0 : ℝ)) (by positivity)]
    have hne : ((calcSfhSinglegalSmh logMah (P u) d.mah d.t d.lgt0 d.fb).smh.getD i 0 -
          ∑ j ∈ range d.t.length, c j * (calcSfhSinglegalSmh logMah (P u) d.mah d.t d.lgt0 d.fb).smh.getD j 0) /
            d.fstarTdelay / 10 ^ 9 ≠
          (calcSfhSinglegalSmh logMah (P u) d.mah d.t d.lgt0 d.fb).smh.getD i 0 * (d.ssfrhFloor / 10) := by
      intro x
      refine (hk i hi).2.1 ?_
      have := hmp u
      rw [fstar_getD _ _ _ (smh_length ..) i hi, hc _ (smh_length ..), x]
      exact max_eq_left (by positivity)
    simp only [e, Real.logb]
    refine (ContDiffAt.log (contDiffAt_max (((hM i).sub (ContDiffAt.sum fun j _ => contDiffAt_const.mul (hM j))).div_const _
      |>.div_const _) ((hM i).mul contDiffAt_const) hne) ?_).div_const _
    have := hmp u
    exact (lt_of_lt_of_le (by positivity) (le_max_right _ _)).ne'
  have hL : ∀ i, i < d.t.length → ContDiffAt ℝ 3 (fun x => Real.logb 10
      ((calcSfhSinglegalSmh logMah (P x) d.mah d.t d.lgt0 d.fb).smh.getD i 0)) u := fun i hi =>
    ContDiffAt.div_const (ContDiffAt.log (hM i) (smh_pos logMah d.mah d.t hd.increasing d.lgt0 d.fb (P u) i hi).ne') _
  have hn : d.t.length - 1 < d.t.length := by
    have := List.length_pos_iff.2 hd.nonempty
    omega
  unfold lossOf
  refine ContDiffAt.add (ContDiffAt.add (ContDiffAt.add (ContDiffAt.add ?_ ?_) ?_) ?_) ?_
  · refine contDiffAt_const.mul (ContDiffAt.div_const (ContDiffAt.sum fun i hi => ?_) _)
    exact (((hL i (Finset.mem_range.1 hi)).sub contDiffAt_const).div_const _).pow 2
  · refine ContDiffAt.div_const (ContDiffAt.sum fun i hi => ?_) _
    exact (((hG i (Finset.mem_range.1 hi)).sub contDiffAt_const).div_const _).pow 2
  · refine ContDiffAt.div_const (ContDiffAt.sum fun i hi => ?_) _
    have hi := Finset.mem_range.1 hi
    unfold sfrMismatch
    exact ((contDiffAt_clip ((contDiffAt_const.mul ((contDiffAt_max (hS i hi) ((hM i).mul contDiffAt_const)
      (hk i hi).2.2.1).sub contDiffAt_const)).div_const _) (hk i hi).2.2.2).div_const _).pow 2
  · exact (((hG _ hn).sub contDiffAt_const).pow 2).div_const _
  · unfold ridge
    refine contDiffAt_const.div (contDiffAt_const.add (ContDiffAt.exp ?_)) (by positivity)
    exact contDiffAt_const.mul (hq.contDiffAt.sub contDiffAt_const)

end smooth

/-- **C109**: the loss has derivatives (to third order, continuous) in the unbounded parameters at every point where no
clip of the model is exactly at its edge: at no snapshot is the SFR at `1e-14`, the averaged SFR or the SFR at a tenth of
the specific floor, or the SFR mismatch at `±1`. There the gradient used by the optimiser is the derivative of the
loss. -/
theorem C109_loss_smooth {M : Type} (logMah : M → ℝ → ℝ → ℝ) (d : LossData M) (hd : WellFormed d) (u : Fin 8 → ℝ)
    (hk : let h := calcSfhSinglegalSmh logMah (getBoundedDiffstarParams (paramsOfVec u)) d.mah d.t d.lgt0 d.fb
      ∀ i, i < d.t.length → h.sfh.getD i 0 ≠ 1 / 10 ^ 14 ∧
        (computeFstar d.t h.smh d.fstarTdelay).getD i 0 ≠ h.smh.getD i 0 * (d.ssfrhFloor / 10) ∧
        h.sfh.getD i 0 ≠ h.smh.getD i 0 * (d.ssfrhFloor / 10) ∧
        |10 ^ 8 * (max (h.sfh.getD i 0) (h.smh.getD i 0 * (d.ssfrhFloor / 10)) - d.sfhTarget.getD i 0) /
          d.mstarTarget.getD i 0| ≠ 1) :
    ContDiffAt ℝ 3 (fun v : Fin 8 → ℝ => lossDefaultClipssfrh logMah (paramsOfVec v) d) u := by
  simp only [lossOf_eq logMah d hd]
  exact contDiffAt_lossOf logMah d hd (fun t _ => contDiff_rawSfr_unbounded _ _ _) contDiff_bounded_lgQt hk

/-- A galaxy of one snapshot, at its critical halo mass, whose target is its own SFR, is at no edge. -/
example (u : Fin 8 → ℝ) : ∃ (logMah : Unit → ℝ → ℝ → ℝ) (d : LossData Unit), WellFormed d ∧
    let h := calcSfhSinglegalSmh logMah (getBoundedDiffstarParams (paramsOfVec u)) d.mah d.t d.lgt0 d.fb
    ∀ i, i < d.t.length → h.sfh.getD i 0 ≠ 1 / 10 ^ 14 ∧
      (computeFstar d.t h.smh d.fstarTdelay).getD i 0 ≠ h.smh.getD i 0 * (d.ssfrhFloor / 10) ∧
      h.sfh.getD i 0 ≠ h.smh.getD i 0 * (d.ssfrhFloor / 10) ∧
      |10 ^ 8 * (max (h.sfh.getD i 0) (h.smh.getD i 0 * (d.ssfrhFloor / 10)) - d.sfhTarget.getD i 0) /
        d.mstarTarget.getD i 0| ≠ 1 := by
  set p := getBoundedDiffstarParams (paramsOfVec u) with hp
  have hb : InBounds p := C01_bounded_params_in_bounds (paramsOfVec u)
  set s := max (1 / 10 ^ 14) (rawSfr (fun (_ : Unit) _ _ => p.lgmcrit) () 1 1 p 1) with hs
  have hsgt : 1 / 10 ^ 14 < s := by
    refine lt_max_of_lt_right ?_
    have h1 := qExp_ge_drop (lgt := Real.logb 10 1) (qt := p.lgQt) (dt := (10 : ℝ) ^ p.qlglgdt) hb.lgRejuv.1.le
      hb.lgRejuv.2.le
    have h2 := hb.lgDrop.1
    have h3 := hb.lgmcrit.1
    have h4 := hb.lgyAtMcrit.1
    simp only [rawSfr, msSfr, msLogEfficiency, sub_self, mul_zero, add_zero, one_mul]
    rw [← Real.rpow_add (by norm_num), ← Real.rpow_add (by norm_num),
      show (1 / 10 ^ 14 : ℝ) = (10 : ℝ) ^ (-14 : ℝ) by rw [Real.rpow_neg (by norm_num)]; norm_num]
    exact Real.rpow_lt_rpow_of_exponent_lt (by norm_num) (by linarith)
  have hs0 : 0 < s := lt_trans (by positivity) hsgt
  refine ⟨fun _ _ _ => p.lgmcrit, ⟨[1], (), [1], [0], [s], [0], 1, 1 / 10 ^ 12, [1], [1], 0, 1, 1⟩,
    ⟨by simp, by unfold Increasing; norm_num, rfl, rfl, rfl, rfl, rfl, rfl, by simp, by norm_num, by norm_num, by norm_num,
      by norm_num⟩, ?_⟩
  intro h i hi
  have hi0 : i = 0 := by simpa using hi
  subst hi0
  have e1 : h.sfh = [s] := by
    change (calcSfhSinglegalSmh _ p () [1] 1 1).sfh = _
    rw [sfh_eq]
    rfl
  have e2 : h.smh = [(0 + (1 - 0.001) * (s + 1 / 10 ^ 14) / 2) * 10 ^ 9] := by
    change cumulativeMstarFormed [1] h.sfh = _
    rw [e1, cmf_eq]
    rfl
  have e3 : (computeFstar [1] h.smh 1).getD 0 0 = 0 := by
    rw [e2]
    simp [computeFstar, npInterp]
  rw [e3, e1, e2]
  simp only [List.getD_cons_zero]
  have hlt : (0 + (1 - 0.001) * (s + 1 / 10 ^ 14) / 2) * 10 ^ 9 * (1 / 10 ^ 12 / 10) < s := by
    norm_num at hsgt ⊢
    linarith
  refine ⟨hsgt.ne', ?_, hlt.ne', ?_⟩
  · refine ne_of_lt ?_
    norm_num
    positivity
  · rw [max_eq_left hlt.le]
    simp

end Diffstar.Props
