import Verif.Props.FitWindow
import Mathlib.Tactic.IntervalCases

/-!
C103: the loss at the true parameters of a galaxy that was made by the model.
-/

namespace Diffstar.Props

open Diffstar.Fit Diffstar.Spec Finset

/-- The averaged-SFR target: raised to the specific floor, then to a thousandth of the largest value. -/
theorem fstarTarget_values (t m : List ℝ) (hm : m.length = t.length) (hn : t ≠ []) (hpos : ∀ x ∈ m, 0 < x)
    (τ floor : ℝ) :
    ∃ top : ℝ, (∃ j, j < t.length ∧ top = max ((computeFstar t m τ).getD j 0) (floor * m.getD j 0)) ∧
      (∀ j, j < t.length → max ((computeFstar t m τ).getD j 0) (floor * m.getD j 0) ≤ top) ∧
      ∀ j, j < t.length → (fstarTarget t m τ floor)[j]? =
        some (max (max ((computeFstar t m τ).getD j 0) (floor * m.getD j 0)) (top / 1000)) := by
  have hl : (computeFstar t m τ).length = t.length := computeFstar_length t m hm τ
  set f0 := List.zipWith (fun x m => x * m)
    ((List.zipWith (fun f m => f / m) (computeFstar t m τ) m).map fun x => max x floor) m with hf0
  have hf0l : f0.length = t.length := by simp [hf0, hl, hm]
  have hv : ∀ j (hj : j < f0.length), f0[j] = max ((computeFstar t m τ).getD j 0) (floor * m.getD j 0) := by
    intro j hj
    have h1 : j < m.length := by omega
    have h2 : j < (computeFstar t m τ).length := by omega
    rw [List.getD_eq_getElem _ _ h1, List.getD_eq_getElem _ _ h2]
    simp only [hf0, List.getElem_zipWith, List.getElem_map]
    have hp := hpos _ (List.getElem_mem h1)
    rw [max_mul_of_nonneg _ _ hp.le, div_mul_cancel₀ _ hp.ne']
  have hf0n : f0 ≠ [] := by
    intro e; rw [e] at hf0l; simp at hf0l; exact hn (List.length_eq_zero_iff.1 hf0l.symm)
  obtain ⟨htop, hle⟩ := arrMax_mem hf0n
  have e : fstarTarget t m τ floor =
      f0.map fun f => if f < arrMax f0 / 1000 then arrMax f0 / 1000 else f := rfl
  refine ⟨arrMax f0, ?_, ?_, ?_⟩
  · obtain ⟨j, hj, hje⟩ := List.getElem_of_mem htop
    exact ⟨j, by omega, by rw [← hje]; exact hv j hj⟩
  · intro j hj
    rw [← hv j (by omega)]
    exact hle _ (List.getElem_mem _)
  · intro j hj
    rw [e, List.getElem?_map, List.getElem?_eq_getElem (by omega), ← hv j (by omega), Option.map_some]
    congr 1
    split_ifs with h
    · exact (max_eq_right h.le).symm
    · exact (max_eq_left (not_lt.1 h)).symm

/-- **C103**, the part that holds: let the target SFH be the history that the model gives for `u`. If at every snapshot
the SFR is at least a tenth of the specific floor times the mass, and at every snapshot from `fstar_tdelay + 0.01` on
(including the last) the averaged SFR `f i` is at least the floor times the mass and at least a thousandth of every
other averaged SFR and floor value, then the loss at `u` is the ridge penalty, up to `D^2 / 1e20` where `D` dex bounds the
averaged-SFR mismatch of the snapshots before `fstar_tdelay + 0.01`. Missing: galaxies below the floor
(`C103_quenched_galaxy_violated`); the penalty itself is large if quenching precedes the peak
(`C103_early_quenching_violated`). -/
theorem C103_truth_partial {M : Type} (logMah : M → ℝ → ℝ → ℝ) (u : DiffstarParams ℝ) (t : List ℝ) (mah : M)
    (dlogmCut tFitMin massFitMin τ floor lgt0 fb : ℝ) (hn : t ≠ []) (hinc : Increasing (0.001 :: t)) (hτ : 0 < τ)
    (hfl : 0 < floor) (init : DiffstarParams ℝ × DiffstarParams ℝ) (d : LossData M)
    (h : getLossDataDefault logMah t (calcSfhSinglegal logMah (getBoundedDiffstarParams u) mah t lgt0 fb) mah dlogmCut
      tFitMin massFitMin τ floor lgt0 fb = some (init, d)) (D : ℝ)
    (hgood : let s := calcSfhSinglegal logMah (getBoundedDiffstarParams u) mah t lgt0 fb
      let m := cumulativeMstarFormed t s
      let f := computeFstar t m τ
      (∀ i, i < t.length → floor / 10 * m.getD i 0 ≤ s.getD i 0) ∧
      (∀ i, i < t.length → τ + 0.01 ≤ t.getD i 0 → floor * m.getD i 0 ≤ f.getD i 0 ∧
        ∀ j, j < t.length → f.getD j 0 ≤ 1000 * f.getD i 0 ∧ floor * m.getD j 0 ≤ 1000 * f.getD i 0) ∧
      τ + 0.01 ≤ t.getD (t.length - 1) 0 ∧
      ∀ i, i < t.length → t.getD i 0 < τ + 0.01 →
        |Real.logb 10 (floored floor (f.getD i 0) (m.getD i 0)) - d.logFstarTarget.getD i 0| ≤ D) :
    let r := ridge (getBoundedDiffstarParams u).lgQt d.lgtFstarMax
    r ≤ lossDefaultClipssfrh logMah u d ∧ lossDefaultClipssfrh logMah u d ≤ r + D ^ 2 / 10 ^ 20 := by
  intro r
  obtain ⟨hsl, e1, e2, e3, e4, e5, e6, e7, e8, e9, e10, hw⟩ := lossData_unpack h
  set s := calcSfhSinglegal logMah (getBoundedDiffstarParams u) mah t lgt0 fb with hs
  have hsge : ∀ x ∈ s, 1 / 10 ^ 14 ≤ x := by
    intro x hx
    rw [hs, calcSfhSinglegal_eq, List.mem_map] at hx
    obtain ⟨y, -, rfl⟩ := hx
    exact le_max_left _ _
  have hnn : ∀ x ∈ s, 0 ≤ x := fun x hx => le_trans (by positivity) (hsge x hx)
  obtain ⟨init', d', h', hwf, -⟩ := C67_loss_data_well_formed logMah t s mah dlogmCut tFitMin massFitMin τ floor lgt0 fb
    hsl hn hinc hnn hτ hfl
  rw [h] at h'
  obtain ⟨-, rfl⟩ := Prod.mk.inj (Option.some.inj h')
  refine ⟨(C49_loss_positive logMah u d hwf).2.2.1, ?_⟩
  have hpos := mstar_pos_of_nonneg t s hsl hinc hnn
  have hlm := cmf_length t s hsl
  set m := cumulativeMstarFormed t s with hm
  obtain ⟨hg1, hg2, hg3, hg4⟩ := hgood
  have hn0 : 0 < t.length := List.length_pos_iff.2 hn
  have hnr : (0 : ℝ) < t.length := by exact_mod_cast hn0
  obtain ⟨top, ⟨jt, hjt, ejt⟩, -, hft⟩ := fstarTarget_values t m hlm hn hpos τ floor
  have hfT : ∀ i, i < t.length → d.logFstarTarget.getD i 0 =
      Real.logb 10 (max (max ((computeFstar t m τ).getD i 0) (floor * m.getD i 0)) (top / 1000)) := by
    intro i hi
    rw [e6, List.getD_eq_getElem?_getD, List.getElem?_map, hft i hi]
    rfl
  have hlate : ∀ i, i < t.length → τ + 0.01 ≤ t.getD i 0 →
      Real.logb 10 (floored floor ((computeFstar t m τ).getD i 0) (m.getD i 0)) = d.logFstarTarget.getD i 0 := by
    intro i hi hti
    obtain ⟨a1, a2⟩ := hg2 i hi hti
    have hmp : 0 < m.getD i 0 := by
      rw [List.getD_eq_getElem _ _ (by omega)]
      exact hpos _ (List.getElem_mem _)
    have htop : top ≤ 1000 * (computeFstar t m τ).getD i 0 := by
      rw [ejt]
      exact max_le (a2 jt hjt).1 (a2 jt hjt).2
    rw [hfT i hi, floored, max_eq_left (by nlinarith), max_eq_left a1, max_eq_left (by linarith)]
  have F := C49_loss_formula logMah u d hwf
  simp only at F
  have eh : calcSfhSinglegalSmh logMah (getBoundedDiffstarParams u) d.mah d.t d.lgt0 d.fb = ⟨s, m⟩ := by
    rw [e1, e2, e9, e10]
    rfl
  rw [eh, e1, e7, e8] at F
  simp only at F
  have s1 : ∑ i ∈ range t.length, ((Real.logb 10 (m.getD i 0) - d.logmstarTarget.getD i 0) /
      d.weight.getD i 0) ^ 2 = 0 := by
    refine Finset.sum_eq_zero fun i hi => ?_
    rw [e4, getD_map _ _ _ (by rw [hlm]; exact Finset.mem_range.1 hi)]
    simp
  have s3 : ∑ i ∈ range t.length, (sfrMismatch floor (s.getD i 0) (m.getD i 0) (d.sfhTarget.getD i 0)
      (d.mstarTarget.getD i 0) / d.weight.getD i 0) ^ 2 = 0 := by
    refine Finset.sum_eq_zero fun i hi => ?_
    have hi' := Finset.mem_range.1 hi
    have h1 := hg1 i hi'
    rw [← hm] at h1
    have h2 : 1 / 10 ^ 14 ≤ s.getD i 0 := by
      rw [List.getD_eq_getElem _ _ (by omega)]
      exact hsge _ (List.getElem_mem _)
    have h3 : max (s.getD i 0) (m.getD i 0 * (floor / 10)) = s.getD i 0 := max_eq_left (by linarith)
    rw [e5, getD_map _ _ _ (by omega), max_eq_left h2, sfrMismatch, floored, h3]
    simp
  have s2 : (∑ i ∈ range t.length, ((Real.logb 10 (floored floor ((computeFstar t m τ).getD i 0) (m.getD i 0)) -
      d.logFstarTarget.getD i 0) / d.weightFstar.getD i 0) ^ 2) / t.length ≤ D ^ 2 / 10 ^ 20 := by
    rw [div_le_iff₀ hnr]
    have : ∀ i ∈ range t.length, ((Real.logb 10 (floored floor ((computeFstar t m τ).getD i 0) (m.getD i 0)) -
      d.logFstarTarget.getD i 0) / d.weightFstar.getD i 0) ^ 2 ≤ D ^ 2 / 10 ^ 20 := by
      intro i hi
      have hi' := Finset.mem_range.1 hi
      by_cases hti : t.getD i 0 < τ + 0.01
      · have hwi : d.weightFstar[i]? = some (10 ^ 10) :=
          (C46_weight_values _ _ _ _ _ _ _ _ _ hw).2.2.2 i hi' (by rw [List.getD_eq_getElem _ _ hi'] at hti; exact hti)
        rw [List.getD_eq_getElem?_getD (l := d.weightFstar), hwi, Option.getD_some, div_pow, ← pow_mul]
        refine div_le_div_of_nonneg_right ?_ (by positivity)
        rw [← sq_abs]
        exact pow_le_pow_left₀ (abs_nonneg _) (hg4 i hi' hti) 2
      · rw [hlate i hi' (not_lt.1 hti), sub_self, zero_div, zero_pow (by norm_num)]
        positivity
    have := Finset.sum_le_card_nsmul _ _ _ this
    rw [Finset.card_range, nsmul_eq_mul] at this
    linarith
  rw [F, s1, s3, hlate (t.length - 1) (by omega) hg3]
  simp only [zero_div, mul_zero, sub_self, ne_eq, OfNat.ofNat_ne_zero, not_false_eq_true, zero_pow]
  linarith

/-- SFH of a halo of constant mass 1e12 at the critical mass, quenching within 0.1 dex: `S` before, `10^lgRejuv S` after. -/
theorem step_galaxy (lgQt lgDrop lgRejuv lgt0 : ℝ) (x : ℝ) :
    (Real.logb 10 x ≤ lgQt - 0.05 → calcSfhSinglegal (fun (_ : Unit) _ _ => 12)
      ⟨12, -10, 1, -1, lgQt, -1, lgDrop, lgRejuv⟩ () [x] lgt0 0.16 = [16]) ∧
    (lgQt + 0.05 ≤ Real.logb 10 x → -3 ≤ lgRejuv → calcSfhSinglegal (fun (_ : Unit) _ _ => 12)
      ⟨12, -10, 1, -1, lgQt, -1, lgDrop, lgRejuv⟩ () [x] lgt0 0.16 = [(10 : ℝ) ^ lgRejuv * 16]) := by
  have hS : msSfr ⟨12, -10, 1, -1, lgQt, -1, lgDrop, lgRejuv⟩ 0.16 12 = 16 := by
    norm_num [msSfr, msLogEfficiency]
  have hdt : (10 : ℝ) ^ (-1 : ℝ) = 1 / 10 := by norm_num
  rw [calcSfhSinglegal_eq]
  simp only [List.map_cons, List.map_nil, hS, hdt, List.cons.injEq, and_true]
  constructor
  · intro h
    rw [qExp_before (by norm_num) (by linarith)]
    norm_num
  · intro h h3
    rw [qExp_after (by norm_num) (by linarith)]
    apply max_eq_right
    have : (10 : ℝ) ^ (-3 : ℝ) ≤ (10 : ℝ) ^ lgRejuv := Real.rpow_le_rpow_of_exponent_le (by norm_num) h3
    norm_num at this ⊢
    linarith

theorem calcSfh_cons {M : Type} (logMah : M → ℝ → ℝ → ℝ) (p : DiffstarParams ℝ) (mah : M) (x y : ℝ) (t : List ℝ)
    (lgt0 fb : ℝ) : calcSfhSinglegal logMah p mah (x :: y :: t) lgt0 fb =
      calcSfhSinglegal logMah p mah [x] lgt0 fb ++ calcSfhSinglegal logMah p mah (y :: t) lgt0 fb := by
  simp [calcSfhSinglegal, sfhSinglegalKern]

theorem logb_two : 0.3 ≤ Real.logb 10 2 ∧ Real.logb 10 2 ≤ 0.31 := by
  constructor
  · rw [Real.le_logb_iff_rpow_le (by norm_num) (by norm_num)]
    have h : ((10 : ℝ) ^ (3 : ℕ)) ≤ 2 ^ (10 : ℕ) := by norm_num
    calc (10 : ℝ) ^ (0.3 : ℝ) = ((10 : ℝ) ^ (3 : ℕ)) ^ (0.1 : ℝ) := by
          rw [← Real.rpow_natCast, ← Real.rpow_mul (by norm_num)]; norm_num
      _ ≤ (2 ^ (10 : ℕ)) ^ (0.1 : ℝ) := Real.rpow_le_rpow (by norm_num) h (by norm_num)
      _ = 2 := by rw [← Real.rpow_natCast, ← Real.rpow_mul (by norm_num)]; norm_num
  · rw [Real.logb_le_iff_le_rpow (by norm_num) (by norm_num)]
    have h : (2 : ℝ) ^ (100 : ℕ) ≤ (10 : ℝ) ^ (31 : ℕ) := by norm_num
    calc (2 : ℝ) = (2 ^ (100 : ℕ)) ^ (0.01 : ℝ) := by
          rw [← Real.rpow_natCast, ← Real.rpow_mul (by norm_num)]; norm_num
      _ ≤ ((10 : ℝ) ^ (31 : ℕ)) ^ (0.01 : ℝ) := Real.rpow_le_rpow (by norm_num) h (by norm_num)
      _ = (10 : ℝ) ^ (0.31 : ℝ) := by rw [← Real.rpow_natCast, ← Real.rpow_mul (by norm_num)]; norm_num

theorem one_le_logb {x : ℝ} (h : 10 ≤ x) : 1 ≤ Real.logb 10 x := by
  rw [Real.le_logb_iff_rpow_le (by norm_num) (by linarith)]
  simpa using h

/-- The hypotheses of the partial statement are met (for some `D`) by a galaxy with constant SFR 16 on `[1, 2, 3]` Gyr
that quenches later, with the default floor and delay. -/
example : ∃ init d, getLossDataDefault (fun (_ : Unit) _ _ => 12) [1, 2, 3]
      (calcSfhSinglegal (fun (_ : Unit) _ _ => 12) (getBoundedDiffstarParams (getUnboundedDiffstarParams
        ⟨12, -10, 1, -1, 1.5, -1, -2, -1⟩)) () [1, 2, 3] 1.14 0.16) ()
      DLOGM_CUT T_FIT_MIN MIN_MASS_CUT 1 (1 / 10 ^ 12) 1.14 0.16 = some (init, d) ∧
    let s := calcSfhSinglegal (fun (_ : Unit) _ _ => 12) (getBoundedDiffstarParams (getUnboundedDiffstarParams
        ⟨12, -10, 1, -1, 1.5, -1, -2, -1⟩)) () [1, 2, 3] 1.14 0.16
    let m := cumulativeMstarFormed [1, 2, 3] s
    let f := computeFstar [1, 2, 3] m 1
    (∀ i, i < 3 → 1 / 10 ^ 12 / 10 * m.getD i 0 ≤ s.getD i 0) ∧
    (∀ i, i < 3 → (1 : ℝ) + 0.01 ≤ ([1, 2, 3] : List ℝ).getD i 0 → 1 / 10 ^ 12 * m.getD i 0 ≤ f.getD i 0 ∧
      ∀ j, j < 3 → f.getD j 0 ≤ 1000 * f.getD i 0 ∧ 1 / 10 ^ 12 * m.getD j 0 ≤ 1000 * f.getD i 0) := by
  have hp : InBounds ⟨12, -10, 1, -1, 1.5, -1, -2, -1⟩ := by constructor <;> norm_num
  rw [C02_bounded_of_unbounded _ hp]
  have hs : calcSfhSinglegal (fun (_ : Unit) _ _ => 12) ⟨12, -10, 1, -1, 1.5, -1, -2, -1⟩ () [1, 2, 3] 1.14 0.16 =
      [16, 16, 16] := by
    have st := step_galaxy 1.5 (-2) (-1) 1.14
    have h3 : Real.logb 10 3 ≤ 1 := by
      rw [Real.logb_le_iff_le_rpow (by norm_num) (by norm_num)]
      norm_num
    rw [calcSfh_cons, calcSfh_cons, (st 1).1 (by norm_num), (st 2).1 (by linarith [logb_two.2]),
      (st 3).1 (by linarith)]
    rfl
  rw [hs]
  obtain ⟨init, d, h, -⟩ := C67_loss_data_well_formed (fun (_ : Unit) _ _ => 12) [1, 2, 3]
    [16, 16, 16] () DLOGM_CUT T_FIT_MIN MIN_MASS_CUT 1 (1 / 10 ^ 12) 1.14 0.16 rfl (by simp)
    (by unfold Increasing; norm_num) (by norm_num) (by norm_num) (by norm_num)
  refine ⟨init, d, h, ?_⟩
  have hm : cumulativeMstarFormed [1, 2, 3] [16, 16, 16] = [(0.999 * (16 + 1 / 10 ^ 14) / 2) * 10 ^ 9,
      (0.999 * (16 + 1 / 10 ^ 14) / 2 + 16) * 10 ^ 9, (0.999 * (16 + 1 / 10 ^ 14) / 2 + 32) * 10 ^ 9] := by
    rw [cmf_eq]
    norm_num
  have hf : computeFstar [1, 2, 3] (cumulativeMstarFormed [1, 2, 3] [16, 16, 16]) 1 = [0, 16, 16] := by
    rw [hm]
    norm_num [computeFstar, npInterp]
  intro s m f
  have em : m = _ := hm
  have ef : f = _ := hf
  rw [em, ef]
  constructor
  · intro i hi
    interval_cases i <;> norm_num [s]
  · intro i hi hti
    interval_cases i
    · norm_num at hti
    · refine ⟨by norm_num, fun j hj => ?_⟩
      interval_cases j <;> norm_num
    · refine ⟨by norm_num, fun j hj => ?_⟩
      interval_cases j <;> norm_num

/-- **C103** is false for a strongly quenched galaxy: star formation drops by a factor 800 around 4.5 Gyr. The target is
raised to a specific SFR of 1e-12 while the model is only raised to 1e-13, so the true parameters have a loss above 0.18,
more than the tolerance 0.1 of the fitter. -/
theorem C103_quenched_galaxy_violated :
    let p : DiffstarParams ℝ := ⟨12, -10, 1, -1, 0.65, -1, -2.95, -2.9⟩
    InBounds p ∧ ∃ init d, getLossDataDefault (fun (_ : Unit) _ _ => 12) [1, 2, 11, 12, 13]
        (calcSfhSinglegal (fun (_ : Unit) _ _ => 12) p () [1, 2, 11, 12, 13] 1.14 0.16) ()
        DLOGM_CUT T_FIT_MIN MIN_MASS_CUT FSTAR_TIME_DELAY SSFRH_FLOOR 1.14 0.16 = some (init, d) ∧
      0.18 ≤ lossDefaultClipssfrh (fun (_ : Unit) _ _ => 12) (getUnboundedDiffstarParams p) d := by
  intro p
  have hp : InBounds p := by constructor <;> norm_num [p]
  refine ⟨hp, ?_⟩
  have hb : getBoundedDiffstarParams (getUnboundedDiffstarParams p) = p := C02_bounded_of_unbounded p hp
  set q : ℝ := (10 : ℝ) ^ (-2.9 : ℝ) * 16 with hq
  have hs : calcSfhSinglegal (fun (_ : Unit) _ _ => 12) p () [1, 2, 11, 12, 13] 1.14 0.16 = [16, 16, q, q, q] := by
    have st := step_galaxy 0.65 (-2.95) (-2.9) 1.14
    have l2 := logb_two
    rw [calcSfh_cons, calcSfh_cons, calcSfh_cons, calcSfh_cons, (st 1).1 (by norm_num),
      (st 2).1 (by linarith [l2.2]), (st 11).2 (by linarith [one_le_logb (x := 11) (by norm_num)]) (by norm_num),
      (st 12).2 (by linarith [one_le_logb (x := 12) (by norm_num)]) (by norm_num),
      (st 13).2 (by linarith [one_le_logb (x := 13) (by norm_num)]) (by norm_num)]
    rfl
  have hq0 : 0 < q := by positivity
  have hq1 : q ≤ 16 / 700 := by
    have h : (10 : ℝ) ^ (-2.9 : ℝ) ≤ 1 / 700 := by
      rw [show (-2.9 : ℝ) = -(2.9) by norm_num, Real.rpow_neg (by norm_num), ← one_div]
      apply one_div_le_one_div_of_le (by norm_num)
      calc (700 : ℝ) = (700 ^ (10 : ℕ)) ^ (0.1 : ℝ) := by
            rw [← Real.rpow_natCast, ← Real.rpow_mul (by norm_num)]; norm_num
        _ ≤ ((10 : ℝ) ^ (29 : ℕ)) ^ (0.1 : ℝ) := Real.rpow_le_rpow (by norm_num) (by norm_num) (by norm_num)
        _ = (10 : ℝ) ^ (2.9 : ℝ) := by rw [← Real.rpow_natCast, ← Real.rpow_mul (by norm_num)]; norm_num
    rw [hq]
    linarith
  have hinc : Increasing ((0.001 : ℝ) :: [1, 2, 11, 12, 13]) := by unfold Increasing; norm_num
  have hnn : ∀ x ∈ ([16, 16, q, q, q] : List ℝ), 0 ≤ x := by
    simp only [List.mem_cons, List.not_mem_nil, or_false]
    rintro x (rfl | rfl | rfl | rfl | rfl) <;> positivity
  obtain ⟨init, d, h, hwf, -⟩ := C67_loss_data_well_formed (fun (_ : Unit) _ _ => 12) [1, 2, 11, 12, 13]
    [16, 16, q, q, q] () DLOGM_CUT T_FIT_MIN MIN_MASS_CUT FSTAR_TIME_DELAY SSFRH_FLOOR 1.14 0.16 rfl (by simp) hinc hnn
    (by norm_num [FSTAR_TIME_DELAY]) (by norm_num [SSFRH_FLOOR])
  refine ⟨init, d, by rw [hs]; exact h, ?_⟩
  obtain ⟨-, e1, e2, e3, e4, e5, e6, e7, e8, e9, e10, hw⟩ := lossData_unpack h
  have F := C49_loss_formula (fun (_ : Unit) _ _ => 12) (getUnboundedDiffstarParams p) d hwf
  simp only at F
  set c0 : ℝ := (0.999 * (16 + 1 / 10 ^ 14) / 2) * 10 ^ 9 with hc0
  set m : List ℝ := cumulativeMstarFormed [1, 2, 11, 12, 13] [16, 16, q, q, q] with hm
  have hmv : m = [c0, c0 + 16 * 10 ^ 9, c0 + 16 * 10 ^ 9 + 9 * (q + 16) / 2 * 10 ^ 9,
      c0 + 16 * 10 ^ 9 + 9 * (q + 16) / 2 * 10 ^ 9 + q * 10 ^ 9,
      c0 + 16 * 10 ^ 9 + 9 * (q + 16) / 2 * 10 ^ 9 + q * 10 ^ 9 + q * 10 ^ 9] := by
    rw [hm, cmf_eq]
    simp only [List.zip_cons_cons, List.zip_nil_right, trapFrom_cons, trapFrom_nil, List.map_cons, List.map_nil,
      List.cons.injEq, and_true, hc0]
    refine ⟨?_, ?_, ?_, ?_, ?_⟩ <;> ring
  have eh : calcSfhSinglegalSmh (fun (_ : Unit) _ _ => 12) (getBoundedDiffstarParams (getUnboundedDiffstarParams p))
      d.mah d.t d.lgt0 d.fb = ⟨[16, 16, q, q, q], m⟩ := by
    rw [e1, e9, e10, hb, ← hs, hm, ← hs]
    rfl
  rw [eh, e1, e7, e8] at F
  simp only [List.length_cons, List.length_nil] at F
  have hlm : m.length = 5 := by rw [hmv]; rfl
  have m4 : m.getD 4 0 = c0 + 16 * 10 ^ 9 + 9 * (q + 16) / 2 * 10 ^ 9 + q * 10 ^ 9 + q * 10 ^ 9 := by rw [hmv]; rfl
  have f4 : (computeFstar [1, 2, 11, 12, 13] m 1).getD 4 0 = q := by
    have hl := computeFstar_length [1, 2, 11, 12, 13] m hlm 1
    rw [List.getD_eq_getElem _ _ (by rw [hl]; simp), computeFstar_getElem _ _ _ _ _ (by simp) (by omega)]
    have hi : npInterp (([1, 2, 11, 12, 13] : List ℝ)[4] - 1) [1, 2, 11, 12, 13] m = m.getD 3 0 := by
      rw [hmv]
      norm_num [npInterp]
    rw [hi]
    simp only [hmv]
    norm_num
    intro hc
    linarith
  simp only [FSTAR_TIME_DELAY, SSFRH_FLOOR] at F e6
  have hpos : ∀ x ∈ m, 0 < x := mstar_pos_of_nonneg [1, 2, 11, 12, 13] [16, 16, q, q, q] rfl hinc hnn
  obtain ⟨top, -, -, hft⟩ := fstarTarget_values [1, 2, 11, 12, 13] m hlm (by simp) hpos 1 (1 / 10 ^ 12)
  have hT : d.logFstarTarget.getD 4 0 = Real.logb 10 (max (max q (1 / 10 ^ 12 * m.getD 4 0)) (top / 1000)) := by
    rw [e6, List.getD_eq_getElem?_getD, List.getElem?_map, hft 4 (by simp), f4]
    rfl
  set G := floored (1 / 10 ^ 12) q (m.getD 4 0) with hG
  set T := max (max q (1 / 10 ^ 12 * m.getD 4 0)) (top / 1000) with hTd
  have hm4 : 95.99 * 10 ^ 9 ≤ m.getD 4 0 := by
    rw [m4, hc0]
    norm_num
    linarith
  have hG0 : 0 < G := lt_of_lt_of_le hq0 (le_max_left _ _)
  have hGT : 4 * G ≤ T := by
    have h1 : 1 / 10 ^ 12 * m.getD 4 0 ≤ T := (le_max_right _ _).trans (le_max_left _ _)
    have h2 : G ≤ 1 / 10 ^ 12 * m.getD 4 0 / 4 := by
      rw [hG, floored]
      apply max_le
      · norm_num at hm4 ⊢
        linarith
      · norm_num at hm4 ⊢
        linarith
    linarith
  have hgap : 0.6 ≤ Real.logb 10 T - Real.logb 10 G := by
    have h4 : Real.logb 10 (4 * G) ≤ Real.logb 10 T := Real.logb_le_logb_of_le (by norm_num) (by linarith) hGT
    rw [Real.logb_mul (by norm_num) hG0.ne', show (4 : ℝ) = 2 * 2 by norm_num,
      Real.logb_mul (by norm_num) (by norm_num)] at h4
    linarith [logb_two.1]
  obtain ⟨hr, -⟩ := ridge_pos (getBoundedDiffstarParams (getUnboundedDiffstarParams p)).lgQt d.lgtFstarMax
  have g1 : ∀ g : ℕ → ℝ, 0 ≤ (∑ i ∈ range (0 + 1 + 1 + 1 + 1 + 1), g i ^ 2) / ((0 + 1 + 1 + 1 + 1 + 1 : ℕ) : ℝ) := fun g =>
    div_nonneg (Finset.sum_nonneg fun _ _ => sq_nonneg _) (Nat.cast_nonneg _)
  have hl4 : 0 + 1 + 1 + 1 + 1 + 1 - 1 = 4 := rfl
  rw [hl4, f4, hT, ← hG] at F
  rw [F]
  have hsq : 0.36 ≤ (Real.logb 10 G - Real.logb 10 T) ^ 2 := by nlinarith
  have b1 := g1 fun i => (Real.logb 10 (m.getD i 0) - d.logmstarTarget.getD i 0) / d.weight.getD i 0
  have b2 := g1 fun i => (Real.logb 10 (floored (1 / 10 ^ 12) ((computeFstar [1, 2, 11, 12, 13] m 1).getD i 0)
    (m.getD i 0)) - d.logFstarTarget.getD i 0) / d.weightFstar.getD i 0
  have b3 := g1 fun i => sfrMismatch (1 / 10 ^ 12) (([16, 16, q, q, q] : List ℝ).getD i 0) (m.getD i 0)
    (d.sfhTarget.getD i 0) (d.mstarTarget.getD i 0) / d.weight.getD i 0
  beta_reduce at b1 b2 b3
  linarith

/-- **C103** is false for a galaxy that quenches before its averaged SFR peaks, however mildly: SFR 16, lowered by 11
percent around 1.8 Gyr. The averaged SFR peaks at 2 Gyr or later, and the true parameters have a loss above 50. -/
theorem C103_early_quenching_violated :
    let p : DiffstarParams ℝ := ⟨12, -10, 1, -1, 0.25, -1, -0.1, -0.05⟩
    InBounds p ∧ ∃ init d, getLossDataDefault (fun (_ : Unit) _ _ => 12) [1, 2, 12, 13]
        (calcSfhSinglegal (fun (_ : Unit) _ _ => 12) p () [1, 2, 12, 13] 1.14 0.16) ()
        DLOGM_CUT T_FIT_MIN MIN_MASS_CUT FSTAR_TIME_DELAY SSFRH_FLOOR 1.14 0.16 = some (init, d) ∧
      50 ≤ lossDefaultClipssfrh (fun (_ : Unit) _ _ => 12) (getUnboundedDiffstarParams p) d := by
  intro p
  have hp : InBounds p := by constructor <;> norm_num [p]
  refine ⟨hp, ?_⟩
  have hb : getBoundedDiffstarParams (getUnboundedDiffstarParams p) = p := C02_bounded_of_unbounded p hp
  set q : ℝ := (10 : ℝ) ^ (-0.05 : ℝ) * 16 with hq
  have hs : calcSfhSinglegal (fun (_ : Unit) _ _ => 12) p () [1, 2, 12, 13] 1.14 0.16 = [16, q, q, q] := by
    have st := step_galaxy 0.25 (-0.1) (-0.05) 1.14
    have l2 := logb_two
    rw [calcSfh_cons, calcSfh_cons, calcSfh_cons, (st 1).1 (by norm_num),
      (st 2).2 (by linarith [l2.1]) (by norm_num),
      (st 12).2 (by linarith [one_le_logb (x := 12) (by norm_num)]) (by norm_num),
      (st 13).2 (by linarith [one_le_logb (x := 13) (by norm_num)]) (by norm_num)]
    rfl
  have hq0 : 0 < q := by positivity
  have hinc : Increasing ((0.001 : ℝ) :: [1, 2, 12, 13]) := by unfold Increasing; norm_num
  have hnn : ∀ x ∈ ([16, q, q, q] : List ℝ), 0 ≤ x := by
    simp only [List.mem_cons, List.not_mem_nil, or_false]
    rintro x (rfl | rfl | rfl | rfl) <;> positivity
  obtain ⟨init, d, h, hwf, -, -, -, -, -, -, -, -, -, -, j, hj, hj', ej, hmax, -⟩ :=
    C67_loss_data_well_formed (fun (_ : Unit) _ _ => 12) [1, 2, 12, 13]
    [16, q, q, q] () DLOGM_CUT T_FIT_MIN MIN_MASS_CUT FSTAR_TIME_DELAY SSFRH_FLOOR 1.14 0.16 rfl (by simp) hinc hnn
    (by norm_num [FSTAR_TIME_DELAY]) (by norm_num [SSFRH_FLOOR])
  refine ⟨init, d, by rw [hs]; exact h, ?_⟩
  apply (C49_early_quenching_penalised _ _ d hwf).1
  rw [hb, ej]
  have hl := logb_two
  have hmono : ∀ x : ℝ, 2 ≤ x → p.lgQt ≤ Real.logb 10 x := by
    intro x hx
    have : Real.logb 10 2 ≤ Real.logb 10 x := Real.logb_le_logb_of_le (by norm_num) (by norm_num) hx
    show (0.25 : ℝ) ≤ Real.logb 10 x
    linarith [hl.1]
  have hj0 : j ≠ 0 := by
    rintro rfl
    obtain ⟨-, -, -, -, -, -, e6, -⟩ := lossData_unpack h
    set m : List ℝ := cumulativeMstarFormed [1, 2, 12, 13] [16, q, q, q] with hm
    set c0 : ℝ := (0.999 * (16 + 1 / 10 ^ 14) / 2) * 10 ^ 9 with hc0
    have hmv : m = [c0, c0 + (q + 16) / 2 * 10 ^ 9, c0 + (q + 16) / 2 * 10 ^ 9 + 10 * q * 10 ^ 9,
        c0 + (q + 16) / 2 * 10 ^ 9 + 10 * q * 10 ^ 9 + q * 10 ^ 9] := by
      rw [hm, cmf_eq]
      simp only [List.zip_cons_cons, List.zip_nil_right, trapFrom_cons, trapFrom_nil, List.map_cons, List.map_nil,
        List.cons.injEq, and_true, hc0]
      refine ⟨?_, ?_, ?_, ?_⟩ <;> ring
    have hlm : m.length = 4 := by rw [hmv]; rfl
    have hpos : ∀ x ∈ m, 0 < x := mstar_pos_of_nonneg [1, 2, 12, 13] [16, q, q, q] rfl hinc hnn
    obtain ⟨top, ⟨jt, hjt, ejt⟩, htop, hft⟩ := fstarTarget_values [1, 2, 12, 13] m hlm (by simp) hpos FSTAR_TIME_DELAY SSFRH_FLOOR
    have hf0 : (computeFstar [1, 2, 12, 13] m FSTAR_TIME_DELAY).getD 0 0 = 0 := by
      have := C22_fstar_positive_violated [1, 2, 12, 13] m hlm (by simp) FSTAR_TIME_DELAY (by norm_num [FSTAR_TIME_DELAY])
      rw [List.head?_eq_getElem?] at this
      rw [List.getD_eq_getElem?_getD, this]
      rfl
    have hf1 : (computeFstar [1, 2, 12, 13] m FSTAR_TIME_DELAY).getD 1 0 = (q + 16) / 2 := by
      have hl := computeFstar_length [1, 2, 12, 13] m hlm FSTAR_TIME_DELAY
      rw [List.getD_eq_getElem _ _ (by rw [hl]; simp), computeFstar_getElem _ _ _ _ _ (by simp) (by omega)]
      have hi : npInterp (([1, 2, 12, 13] : List ℝ)[1] - FSTAR_TIME_DELAY) [1, 2, 12, 13] m = m.getD 0 0 := by
        rw [hmv]
        norm_num [npInterp, FSTAR_TIME_DELAY]
      rw [hi]
      simp only [hmv]
      norm_num [FSTAR_TIME_DELAY]
      intro hc
      linarith
    have h0 := hft 0 (by simp)
    have h1 := hft jt hjt
    have ht1 := htop 1 (by simp)
    rw [← ejt] at h1
    rw [hf0] at h0
    rw [hf1] at ht1
    have ht8 : 8 ≤ top := by
      have := (le_max_left _ _).trans ht1
      linarith
    have hm0 : m.getD 0 0 = c0 := by rw [hmv]; rfl
    rw [hm0] at h0
    have hlen : d.logFstarTarget.length = 4 := by
      have := hwf.lenFstar
      rw [this, (lossData_unpack h).2.1]
      rfl
    have hle : d.logFstarTarget.getD jt 0 ≤ d.logFstarTarget.getD 0 0 := by
      rw [List.getD_eq_getElem _ _ (by rw [hlen]; exact hjt), List.getD_eq_getElem _ _ (by omega)]
      exact hmax _ (List.getElem_mem _)
    rw [e6, List.getD_eq_getElem?_getD, List.getD_eq_getElem?_getD, List.getElem?_map, List.getElem?_map, h0, h1] at hle
    simp only [Option.map_some, Option.getD_some] at hle
    have hsm : max (max 0 (SSFRH_FLOOR * c0)) (top / 1000) < max top (top / 1000) := by
      refine lt_of_lt_of_le ?_ (le_max_left _ _)
      refine max_lt (max_lt (by linarith) ?_) (by linarith)
      refine lt_of_lt_of_le ?_ ht8
      norm_num [SSFRH_FLOOR, hc0]
    have hp0 : 0 < max (max 0 (SSFRH_FLOOR * c0)) (top / 1000) := lt_of_lt_of_le (by linarith) (le_max_right _ _)
    exact absurd hle (not_le.2 (Real.logb_lt_logb (by norm_num) hp0 hsm))
  simp only [List.length_cons, List.length_nil] at hj
  have hj3 : j < 4 := by omega
  interval_cases j
  · exact absurd rfl hj0
  · exact hmono _ (by norm_num)
  · exact hmono _ (by norm_num)
  · exact hmono _ (by norm_num)

end Diffstar.Props
