import Verif.Lemmas.Smooth
import Verif.Props.Params

/-! C87: histories are smooth functions of the parameters. -/

namespace Diffstar.Props

open Diffstar Diffstar.Spec Set Filter Topology

/-- The SFR before the floor is applied. -/
theorem contDiff_rawSfr {P : (Fin 8 → ℝ) → DiffstarParams ℝ} (h1 : ContDiff ℝ 3 fun v => (P v).lgmcrit)
    (h2 : ContDiff ℝ 3 fun v => (P v).lgyAtMcrit) (h3 : ContDiff ℝ 3 fun v => (P v).indxLo)
    (h4 : ContDiff ℝ 3 fun v => (P v).indxHi) (h5 : ContDiff ℝ 3 fun v => (P v).lgQt)
    (h6 : ContDiff ℝ 3 fun v => (P v).qlglgdt) (h7 : ContDiff ℝ 3 fun v => (P v).lgDrop)
    (h8 : ContDiff ℝ 3 fun v => (P v).lgRejuv) (lgt fb lgm : ℝ) :
    ContDiff ℝ 3 fun v => (10 : ℝ) ^ qExp lgt (P v).lgQt ((10 : ℝ) ^ (P v).qlglgdt) (P v).lgDrop (P v).lgRejuv
        * msSfr (P v) fb lgm := by
  refine ((h5.qExp' lgt h6.ten_rpow h7 h8 fun v => (Real.rpow_pos_of_pos (by norm_num) _).ne').ten_rpow).mul ?_
  unfold msSfr
  refine contDiff_const.mul (ContDiff.ten_rpow ?_)
  unfold msLogEfficiency
  refine h2.add ((h3.add ((h4.sub h3).div ?_ fun v => (one_add_exp_pos _).ne')).mul (contDiff_const.sub h1))
  fun_prop

theorem contDiff_rawSfr_bounded (lgt fb lgm : ℝ) :
    ContDiff ℝ 3 fun v : Fin 8 → ℝ => (10 : ℝ) ^ qExp lgt (paramsOfVec v).lgQt ((10 : ℝ) ^ (paramsOfVec v).qlglgdt)
      (paramsOfVec v).lgDrop (paramsOfVec v).lgRejuv * msSfr (paramsOfVec v) fb lgm := by
  apply contDiff_rawSfr <;> simp only [paramsOfVec] <;> fun_prop

theorem contDiff_rawSfr_unbounded (lgt fb lgm : ℝ) :
    ContDiff ℝ 3 fun v : Fin 8 → ℝ => (10 : ℝ) ^ qExp lgt (getBoundedDiffstarParams (paramsOfVec v)).lgQt
      ((10 : ℝ) ^ (getBoundedDiffstarParams (paramsOfVec v)).qlglgdt)
      (getBoundedDiffstarParams (paramsOfVec v)).lgDrop (getBoundedDiffstarParams (paramsOfVec v)).lgRejuv *
        msSfr (getBoundedDiffstarParams (paramsOfVec v)) fb lgm := by
  have hv : ∀ i : Fin 8, ContDiff ℝ 3 fun v : Fin 8 → ℝ => v i := fun i => by fun_prop
  apply contDiff_rawSfr <;>
    simp only [getBoundedDiffstarParams, DiffstarParams.join, getBoundedSfrParams, getBoundedQParams, sigmoidB,
      getBoundedLgRejuv, DiffstarParams.ms, DiffstarParams.q, paramsOfVec]
  · exact (hv 0).sigmoid' contDiff_const
  · exact (hv 1).sigmoid' contDiff_const
  · exact (hv 2).sigmoid' contDiff_const
  · exact (hv 3).sigmoid' contDiff_const
  · exact (hv 4).sigmoid' contDiff_const
  · exact (hv 5).sigmoid' contDiff_const
  · exact (hv 6).sigmoid' contDiff_const
  · exact (hv 7).sigmoid' ((hv 6).sigmoid' contDiff_const)

theorem max_smooth {E : Type*} [NormedAddCommGroup E] [NormedSpace ℝ E] {r : E → ℝ} (hr : ContDiff ℝ 3 r) (c : ℝ)
    (u : E) (hu : max c (r u) ≠ c) : ContDiffAt ℝ 3 (fun v => max c (r v)) u := by
  have h : c < r u := by
    by_contra h
    exact hu (max_eq_left (not_lt.1 h))
  refine hr.contDiffAt.congr_of_eventuallyEq ?_
  filter_upwards [hr.continuous.continuousAt.eventually_const_lt h] with v hv
  exact max_eq_right hv.le

/-- C87: the star formation rate at any time of the table, as a function of the eight parameters or of the eight
unbounded parameters, is continuous, and three times continuously differentiable wherever it is not at its floor. -/
theorem C87_sfr_smooth {M : Type*} (logMah : M → ℝ → ℝ → ℝ) (mah : M) (tarr : List ℝ) (lgt0 fb : ℝ) (i : ℕ)
    (hi : i < tarr.length) (_ht : 0 < tarr[i]) :
    ∃ f g : (Fin 8 → ℝ) → ℝ,
      (∀ v, (calcSfhSinglegal logMah (paramsOfVec v) mah tarr lgt0 fb)[i]? = some (f v)) ∧
      (∀ v, (calcSfhSinglegal logMah (getBoundedDiffstarParams (paramsOfVec v)) mah tarr lgt0 fb)[i]? = some (g v)) ∧
      Continuous f ∧ Continuous g ∧ (∀ v, f v ≠ 1 / 10 ^ 14 → ContDiffAt ℝ 3 f v) ∧
      ∀ v, g v ≠ 1 / 10 ^ 14 → ContDiffAt ℝ 3 g v := by
  have e : ∀ p : DiffstarParams ℝ, (calcSfhSinglegal logMah p mah tarr lgt0 fb)[i]? = some (max (1 / 10 ^ 14)
      ((10 : ℝ) ^ qExp (Real.logb 10 tarr[i]) p.lgQt ((10 : ℝ) ^ p.qlglgdt) p.lgDrop p.lgRejuv
        * msSfr p fb (logMah mah tarr[i] lgt0))) := fun p => by
    rw [calcSfhSinglegal_eq, List.getElem?_map, List.getElem?_eq_getElem hi, Option.map_some]
  have hf := contDiff_rawSfr_bounded (Real.logb 10 tarr[i]) fb (logMah mah tarr[i] lgt0)
  have hg := contDiff_rawSfr_unbounded (Real.logb 10 tarr[i]) fb (logMah mah tarr[i] lgt0)
  exact ⟨_, _, fun v => e _, fun v => e _, continuous_const.max hf.continuous, continuous_const.max hg.continuous,
    fun v hv => max_smooth hf _ v hv, fun v hv => max_smooth hg _ v hv⟩

/-- A galaxy far above the floor: `fb = 1`, a halo of `10 ** 12`, default efficiency. -/
example : ∃ v : Fin 8 → ℝ, ∀ s, (calcSfhSinglegal (fun (_ : Unit) _ _ => (12 : ℝ)) (paramsOfVec v) () [1] 1 1)[0]? = some s →
    s ≠ 1 / 10 ^ 14 := by
  refine ⟨![12, -10, 1, -1, 1, -1, 0, 0], fun s hs => ?_⟩
  rw [calcSfhSinglegal_eq] at hs
  simp only [List.map_cons, List.getElem?_cons_zero, Option.some.injEq] at hs
  rw [← hs]
  simp only [paramsOfVec, msSfr, msLogEfficiency, qExp, Matrix.cons_val_zero, Matrix.cons_val_one, Matrix.cons_val]
  norm_num

theorem contDiffAt_trapFrom {E : Type*} [NormedAddCommGroup E] [NormedSpace ℝ E] (u : E) (a : ℝ) (fa c : E → ℝ)
    (hfa : ContDiffAt ℝ 3 fa u) (hc : ContDiffAt ℝ 3 c u) (ts : List ℝ) (r : ℝ → E → ℝ)
    (hr : ∀ t ∈ ts, ContDiffAt ℝ 3 (r t) u) (i : ℕ) (hi : i < ts.length) :
    ∃ f : E → ℝ, (∀ v, (trapFrom a (fa v) (c v) (ts.zip (ts.map fun t => r t v)))[i]? = some (f v)) ∧
      ContDiffAt ℝ 3 f u := by
  induction ts generalizing a fa c i with
  | nil => simp at hi
  | cons t ts ih =>
    have h1 := hr t List.mem_cons_self
    have h2 : ContDiffAt ℝ 3 (fun v => c v + (t - a) * (r t v + fa v) / 2) u := by fun_prop
    cases i with
    | zero => exact ⟨_, fun v => by simp, h2⟩
    | succ i =>
      obtain ⟨f, h3, h4⟩ := ih t (r t) _ h1 h2 (fun s hs => hr s (List.mem_cons_of_mem _ hs)) i (by simpa using hi)
      exact ⟨f, fun v => by simpa using h3 v, h4⟩

/-- C87: the stellar mass at any time of the table is three times continuously differentiable in the eight unbounded
parameters wherever no star formation rate of the table is at its floor. -/
theorem C87_smh_smooth {M : Type*} (logMah : M → ℝ → ℝ → ℝ) (mah : M) (tarr : List ℝ) (lgt0 fb : ℝ)
    (_ht : ∀ t ∈ tarr, 0 < t) (u : Fin 8 → ℝ)
    (hu : ∀ s ∈ calcSfhSinglegal logMah (getBoundedDiffstarParams (paramsOfVec u)) mah tarr lgt0 fb, s ≠ 1 / 10 ^ 14)
    (i : ℕ) (hi : i < tarr.length) :
    ∃ f : (Fin 8 → ℝ) → ℝ,
      (∀ v, (calcSfhSinglegalSmh logMah (getBoundedDiffstarParams (paramsOfVec v)) mah tarr lgt0 fb).smh[i]? =
        some (f v)) ∧ ContDiffAt ℝ 3 f u := by
  obtain ⟨f, h1, h2⟩ := contDiffAt_trapFrom u 0.001 (fun _ => 1 / 10 ^ 14) (fun _ => 0) contDiffAt_const
    contDiffAt_const tarr (fun t v => max (1 / 10 ^ 14) ((10 : ℝ) ^ qExp (Real.logb 10 t)
      (getBoundedDiffstarParams (paramsOfVec v)).lgQt ((10 : ℝ) ^ (getBoundedDiffstarParams (paramsOfVec v)).qlglgdt)
      (getBoundedDiffstarParams (paramsOfVec v)).lgDrop (getBoundedDiffstarParams (paramsOfVec v)).lgRejuv *
        msSfr (getBoundedDiffstarParams (paramsOfVec v)) fb (logMah mah t lgt0)))
    (fun t ht => max_smooth (contDiff_rawSfr_unbounded _ fb _) _ u (hu _ (by
      rw [calcSfhSinglegal_eq]; exact List.mem_map.2 ⟨t, ht, rfl⟩))) i hi
  refine ⟨fun v => f v * 10 ^ 9, fun v => ?_, by fun_prop⟩
  change (cumulativeMstarFormed tarr (calcSfhSinglegal logMah (getBoundedDiffstarParams (paramsOfVec v)) mah tarr lgt0 fb))[i]? = _
  rw [cmf_eq, calcSfhSinglegal_eq, List.getElem?_map, h1 v, Option.map_some]

/-- For any unbounded parameters, a halo at its critical mass forms stars above the floor. -/
example (u : Fin 8 → ℝ) : ∀ s ∈ calcSfhSinglegal
    (fun (_ : Unit) _ _ => (getBoundedDiffstarParams (paramsOfVec u)).lgmcrit)
    (getBoundedDiffstarParams (paramsOfVec u)) () [1] 1 1, s ≠ 1 / 10 ^ 14 := by
  intro s hs
  have hb := C01_bounded_params_in_bounds (paramsOfVec u)
  rw [calcSfhSinglegal_eq] at hs
  simp only [List.map_cons, List.map_nil, List.mem_singleton] at hs
  rw [hs]
  refine (lt_max_of_lt_right ?_).ne'
  have h1 := qExp_ge_drop (lgt := Real.logb 10 1) (qt := (getBoundedDiffstarParams (paramsOfVec u)).lgQt)
    (dt := (10 : ℝ) ^ (getBoundedDiffstarParams (paramsOfVec u)).qlglgdt) hb.lgRejuv.1.le hb.lgRejuv.2.le
  have h2 := hb.lgDrop.1
  have h3 := hb.lgmcrit.1
  have h4 := hb.lgyAtMcrit.1
  simp only [msSfr, msLogEfficiency, sub_self, mul_zero, add_zero, one_mul]
  rw [← Real.rpow_add (by norm_num), ← Real.rpow_add (by norm_num),
    show (1 / 10 ^ 14 : ℝ) = (10 : ℝ) ^ (-14 : ℝ) by rw [Real.rpow_neg (by norm_num)]; norm_num]
  exact Real.rpow_lt_rpow_of_exponent_lt (by norm_num) (by linarith)

end Diffstar.Props
