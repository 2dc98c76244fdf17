import Verif.Props.FitLossValue

/-!
C102: which snapshots take part in the fit, with the default cuts of `diffstar_fitting_helpers.py` L25-29.
-/

namespace Diffstar.Props

open Diffstar.Fit Diffstar.Spec Finset

/-- What the loss data consist of. -/
theorem lossData_unpack {M : Type} {logMah : M → ℝ → ℝ → ℝ} {t sfh : List ℝ} {mah : M}
    {dlogmCut tFitMin massFitMin τ floor lgt0 fb : ℝ} {init : DiffstarParams ℝ × DiffstarParams ℝ} {d : LossData M}
    (h : getLossDataDefault logMah t sfh mah dlogmCut tFitMin massFitMin τ floor lgt0 fb = some (init, d)) :
    sfh.length = t.length ∧ d.t = t ∧ d.mah = mah ∧ d.mstarTarget = cumulativeMstarFormed t sfh ∧
    d.logmstarTarget = (cumulativeMstarFormed t sfh).map (Real.logb 10) ∧
    d.sfhTarget = sfh.map (fun x => max x (1 / 10 ^ 14)) ∧
    d.logFstarTarget = (fstarTarget t (cumulativeMstarFormed t sfh) τ floor).map (Real.logb 10) ∧
    d.fstarTdelay = τ ∧ d.ssfrhFloor = floor ∧ d.lgt0 = lgt0 ∧ d.fb = fb ∧
    getWeights t d.logmstarTarget d.logFstarTarget τ dlogmCut tFitMin massFitMin = some (d.weight, d.weightFstar) := by
  unfold getLossDataDefault at h
  split_ifs at h with hl
  rw [ne_eq, not_not] at hl
  simp only at h
  split at h
  · simp at h
  · rename_i w hw
    simp only [Option.some.injEq, Prod.mk.injEq] at h
    obtain ⟨-, rfl⟩ := h
    exact ⟨hl, rfl, rfl, rfl, rfl, rfl, rfl, rfl, rfl, rfl, rfl, hw⟩

theorem logb_gap {x M c : ℝ} (hx : 0 < x) (hM : 0 < M) :
    Real.logb 10 M - Real.logb 10 x < c ↔ M < (10 : ℝ) ^ c * x := by
  rw [← Real.logb_div hM.ne' hx.ne', Real.logb_lt_iff_lt_rpow (by norm_num) (div_pos hM hx), div_lt_iff₀ hx]

/-- **C102** (the stellar mass weights in terms of the masses, default cuts): a snapshot with more than `10^-0.1` of the
final mass has weight 0.5; otherwise the weight is 1 if the time is at least 1 Gyr and the mass exceeds `10^-3.5` of the
final mass and the smaller of `1e7` and `10^-0.5` of the final mass, and `1e10` if not. -/
theorem C102_mass_weights {M : Type} (logMah : M → ℝ → ℝ → ℝ) (t sfh : List ℝ) (mah : M) (lgt0 fb : ℝ)
    (hn : t ≠ []) (hinc : Increasing (0.001 :: t)) (h0 : ∀ x ∈ sfh, 0 ≤ x)
    (init : DiffstarParams ℝ × DiffstarParams ℝ) (d : LossData M)
    (h : getLossDataDefault logMah t sfh mah DLOGM_CUT T_FIT_MIN MIN_MASS_CUT FSTAR_TIME_DELAY SSFRH_FLOOR lgt0 fb =
      some (init, d)) :
    ∃ final : ℝ, (cumulativeMstarFormed t sfh).getLast? = some final ∧
      ∀ (i : ℕ) (x ti : ℝ), (cumulativeMstarFormed t sfh)[i]? = some x → t[i]? = some ti →
        open Classical in
        d.weight[i]? = some (if final < (10 : ℝ) ^ (0.1 : ℝ) * x then 0.5
          else if 1 ≤ ti ∧ final < (10 : ℝ) ^ (3.5 : ℝ) * x ∧ (10 ^ 7 < x ∨ final < (10 : ℝ) ^ (0.5 : ℝ) * x) then 1
          else 10 ^ 10) := by
  obtain ⟨hl, -, -, -, e2, -, -, -, -, -, -, hw⟩ := lossData_unpack h
  have hpos := mstar_pos_of_nonneg t sfh hl hinc h0
  have hlm := cmf_length t sfh hl
  have hmn : cumulativeMstarFormed t sfh ≠ [] := by
    intro e; rw [e] at hlm; exact hn (List.length_eq_zero_iff.1 (by simpa using hlm.symm))
  obtain ⟨hS, hW⟩ := C46_weights t d.logmstarTarget d.logFstarTarget FSTAR_TIME_DELAY DLOGM_CUT T_FIT_MIN MIN_MASS_CUT
  obtain ⟨-, -, hlf⟩ := hS.1 (by rw [hw]; rfl)
  obtain ⟨-, -, last, top, hlast, -, -, hval⟩ := hW _ _ hw
  refine ⟨_, List.getLast?_eq_some_getLast hmn, ?_⟩
  set final := (cumulativeMstarFormed t sfh).getLast hmn
  have hfp : 0 < final := hpos _ (List.getLast_mem hmn)
  have hle : last = Real.logb 10 final := by
    rw [e2, List.getLast?_map, List.getLast?_eq_some_getLast hmn] at hlast
    exact (Option.some.inj hlast).symm
  intro i x ti hx hti
  obtain ⟨hi, rfl⟩ := List.getElem?_eq_some_iff.1 hx
  obtain ⟨hi', rfl⟩ := List.getElem?_eq_some_iff.1 hti
  have hxp := hpos _ (List.getElem_mem hi)
  have hsi : i < d.logmstarTarget.length := by rw [e2]; simpa using hi
  have hv := (hval i hi' hsi (by omega)).1
  have es : d.logmstarTarget[i] = Real.logb 10 (cumulativeMstarFormed t sfh)[i] := by simp [e2]
  rw [hv, es, hle]
  simp only [DLOGM_CUT, T_FIT_MIN, MIN_MASS_CUT]
  have a1 := logb_gap (c := 0.1) hxp hfp
  have a2 := logb_gap (c := 3.5) hxp hfp
  have a3 := logb_gap (c := 0.5) hxp hfp
  have a4 : (7 : ℝ) < Real.logb 10 (cumulativeMstarFormed t sfh)[i] ↔ 10 ^ 7 < (cumulativeMstarFormed t sfh)[i] := by
    rw [Real.lt_logb_iff_rpow_lt (by norm_num) hxp]
    norm_num
  rw [sub_lt_comm] at a2 a3
  have hg : (Real.logb 10 final - 3.5 < Real.logb 10 (cumulativeMstarFormed t sfh)[i] ∧
      (Real.logb 10 final - 0.5 < Real.logb 10 (cumulativeMstarFormed t sfh)[i] ∨
        7 < Real.logb 10 (cumulativeMstarFormed t sfh)[i]) ∧ 1 ≤ t[i]) ↔
      (1 ≤ t[i] ∧ final < (10 : ℝ) ^ (3.5 : ℝ) * (cumulativeMstarFormed t sfh)[i] ∧
        (10 ^ 7 < (cumulativeMstarFormed t sfh)[i] ∨ final < (10 : ℝ) ^ (0.5 : ℝ) * (cumulativeMstarFormed t sfh)[i])) := by
    rw [a2, a3, a4]
    exact ⟨fun ⟨a, b, c⟩ => ⟨c, a, b.symm⟩, fun ⟨a, b, c⟩ => ⟨b, c.symm, a⟩⟩
  exact congrArg some (if_congr a1 rfl (if_congr hg rfl rfl))

/-- **C102**, the part that holds: a snapshot below `10^-3.5` of the final mass, or below both `1e7` and `10^-0.5` of the
final mass, or before 1 Gyr and below `10^-0.1` of the final mass, has stellar mass weight `1e10`. Missing: snapshots
before 1 Gyr that already have `10^-0.1` of the final mass (`C102_early_snapshot_fitted_violated`). -/
theorem C102_excluded_partial {M : Type} (logMah : M → ℝ → ℝ → ℝ) (t sfh : List ℝ) (mah : M) (lgt0 fb : ℝ)
    (hn : t ≠ []) (hinc : Increasing (0.001 :: t)) (h0 : ∀ x ∈ sfh, 0 ≤ x)
    (init : DiffstarParams ℝ × DiffstarParams ℝ) (d : LossData M)
    (h : getLossDataDefault logMah t sfh mah DLOGM_CUT T_FIT_MIN MIN_MASS_CUT FSTAR_TIME_DELAY SSFRH_FLOOR lgt0 fb =
      some (init, d)) (i : ℕ) (x ti final : ℝ) (hf : (cumulativeMstarFormed t sfh).getLast? = some final)
    (hx : (cumulativeMstarFormed t sfh)[i]? = some x) (hti : t[i]? = some ti)
    (hout : (10 : ℝ) ^ (3.5 : ℝ) * x ≤ final ∨ (x ≤ 10 ^ 7 ∧ (10 : ℝ) ^ (0.5 : ℝ) * x ≤ final) ∨
      (ti < 1 ∧ (10 : ℝ) ^ (0.1 : ℝ) * x ≤ final)) :
    d.weight[i]? = some (10 ^ 10) ∧ (ti < 1.01 → d.weightFstar[i]? = some (10 ^ 10)) := by
  obtain ⟨hl, -, -, -, e2, -, -, -, -, -, -, hw⟩ := lossData_unpack h
  have hxp : 0 < x := by
    obtain ⟨hi, rfl⟩ := List.getElem?_eq_some_iff.1 hx
    exact mstar_pos_of_nonneg t sfh hl hinc h0 _ (List.getElem_mem hi)
  obtain ⟨final', hf', hval⟩ := C102_mass_weights logMah t sfh mah lgt0 fb hn hinc h0 init d h
  rw [hf] at hf'
  obtain rfl := Option.some.inj hf'
  constructor
  · rw [hval i x ti hx hti]
    have m1 : (10 : ℝ) ^ (0.1 : ℝ) * x ≤ (10 : ℝ) ^ (0.5 : ℝ) * x :=
      mul_le_mul_of_nonneg_right (Real.rpow_le_rpow_of_exponent_le (by norm_num) (by norm_num)) hxp.le
    have m2 : (10 : ℝ) ^ (0.5 : ℝ) * x ≤ (10 : ℝ) ^ (3.5 : ℝ) * x :=
      mul_le_mul_of_nonneg_right (Real.rpow_le_rpow_of_exponent_le (by norm_num) (by norm_num)) hxp.le
    rw [if_neg, if_neg]
    · rintro ⟨b1, b2, b3⟩
      rcases hout with h | ⟨h, h'⟩ | ⟨h, h'⟩
      · linarith
      · rcases b3 with b3 | b3 <;> linarith
      · linarith
    · rcases hout with h | ⟨h, h'⟩ | ⟨h, h'⟩ <;> intro hlt <;> linarith
  · intro hlt
    obtain ⟨hi, rfl⟩ := List.getElem?_eq_some_iff.1 hti
    exact (C46_weight_values _ _ _ _ _ _ _ _ _ hw).2.2.2 i hi (by simpa [FSTAR_TIME_DELAY] using (by linarith : t[i] < 1 + 0.01))

/-- Hypotheses met: with SFR 1e-3 at 0.5 Gyr and 10 afterwards, the first of four snapshots is excluded (so this is also
a case of `C102_excluded_negligible`). -/
example : ∃ (init : DiffstarParams ℝ × DiffstarParams ℝ) (d : LossData Unit),
    getLossDataDefault (fun _ _ _ => 12) [0.5, 2, 5, 13] [0.001, 10, 10, 10] () DLOGM_CUT T_FIT_MIN MIN_MASS_CUT
      FSTAR_TIME_DELAY SSFRH_FLOOR 1.14 0.156 = some (init, d) ∧ WellFormed d ∧ d.t.length = 4 ∧
      d.weight[0]? = some (10 ^ 10) ∧ d.weightFstar[0]? = some (10 ^ 10) := by
  have hinc : Increasing ((0.001 : ℝ) :: [0.5, 2, 5, 13]) := by unfold Increasing; norm_num
  have hnn : ∀ x ∈ ([0.001, 10, 10, 10] : List ℝ), 0 ≤ x := by norm_num
  obtain ⟨init, d, h, hwf, ht, _⟩ := C67_loss_data_well_formed (M := Unit) (fun _ _ _ => 12) [0.5, 2, 5, 13]
    [0.001, 10, 10, 10] () DLOGM_CUT T_FIT_MIN MIN_MASS_CUT FSTAR_TIME_DELAY SSFRH_FLOOR 1.14 0.156 rfl (by simp) hinc hnn
    (by norm_num [FSTAR_TIME_DELAY]) (by norm_num [SSFRH_FLOOR])
  have hx : (cumulativeMstarFormed [0.5, 2, 5, 13] [0.001, 10, 10, 10])[0]? =
      some (((0.5 - 0.001) * (0.001 + 1 / 10 ^ 14) / 2 * 10 ^ 9 : ℝ)) := by simp [cmf_eq]
  have hf : (cumulativeMstarFormed [0.5, 2, 5, 13] [0.001, 10, 10, 10]).getLast? =
      some ((((0.5 - 0.001) * (0.001 + 1 / 10 ^ 14) / 2 + (2 - 0.5) * (10 + 0.001) / 2 + (5 - 2) * (10 + 10) / 2 +
        (13 - 5) * (10 + 10) / 2) * 10 ^ 9 : ℝ)) := by simp [cmf_eq]
  obtain ⟨h1, h2⟩ := C102_excluded_partial (fun (_ : Unit) _ _ => 12) [0.5, 2, 5, 13] [0.001, 10, 10, 10] () 1.14 0.156
    (by simp) hinc hnn init d h 0 _ 0.5 _ hf hx rfl (Or.inl (by
      have : (10 : ℝ) ^ (3.5 : ℝ) ≤ 10 ^ (4 : ℝ) := Real.rpow_le_rpow_of_exponent_le (by norm_num) (by norm_num)
      refine (mul_le_mul_of_nonneg_right this (by norm_num)).trans ?_
      norm_num))
  exact ⟨init, d, h, hwf, by rw [ht]; rfl, h1, h2 (by norm_num)⟩

/-- **C102** is false as stated by the comment of `T_FIT_MIN` ("only fit snapshots above this threshold", 1 Gyr): for a
galaxy that forms its stars before 1 Gyr the snapshot at 0.9 Gyr has weight 0.5, the highest there is, and a mismatch of
`D` dex at 0.9 Gyr costs `40 D^2`. -/
theorem C102_early_snapshot_fitted_violated {M : Type} (logMah : M → ℝ → ℝ → ℝ) (mah : M) (lgt0 fb : ℝ) :
    ∃ (init : DiffstarParams ℝ × DiffstarParams ℝ) (d : LossData M), getLossDataDefault logMah [0.9, 0.95, 2] [10, 0, 0] mah DLOGM_CUT T_FIT_MIN MIN_MASS_CUT FSTAR_TIME_DELAY
        SSFRH_FLOOR lgt0 fb = some (init, d) ∧
      d.weight[0]? = some (0.5 : ℝ) ∧
      ∀ u, 40 * (Real.logb 10 ((calcSfhSinglegalSmh logMah (getBoundedDiffstarParams u) mah [0.9, 0.95, 2] lgt0
        fb).smh.getD 0 0) - d.logmstarTarget.getD 0 0) ^ 2 ≤ lossDefaultClipssfrh logMah u d := by
  have hinc : Increasing ((0.001 : ℝ) :: [0.9, 0.95, 2]) := by unfold Increasing; norm_num
  have hnn : ∀ x ∈ ([10, 0, 0] : List ℝ), 0 ≤ x := by norm_num
  obtain ⟨init, d, h, hwf, ht, hm, -, -, h3, h4, -⟩ := C67_loss_data_well_formed logMah [0.9, 0.95, 2] [10, 0, 0] mah
    DLOGM_CUT T_FIT_MIN MIN_MASS_CUT FSTAR_TIME_DELAY SSFRH_FLOOR lgt0 fb rfl (by simp) hinc hnn
    (by norm_num [FSTAR_TIME_DELAY]) (by norm_num [SSFRH_FLOOR])
  have hw : d.weight[0]? = some (0.5 : ℝ) := by
    obtain ⟨final, hf, hval⟩ := C102_mass_weights logMah [0.9, 0.95, 2] [10, 0, 0] mah lgt0 fb (by simp) hinc hnn init d h
    have e0 : (cumulativeMstarFormed [0.9, 0.95, 2] [10, 0, 0])[0]? =
        some (((0.9 - 0.001) * (10 + 1 / 10 ^ 14) / 2 * 10 ^ 9 : ℝ)) := by simp [cmf_eq]
    have ef : final = ((0.9 - 0.001) * (10 + 1 / 10 ^ 14) / 2 + (0.95 - 0.9) * (0 + 10) / 2) * 10 ^ 9 := by
      have : (cumulativeMstarFormed [0.9, 0.95, 2] [10, 0, 0]).getLast? =
          some (((0.9 - 0.001) * (10 + 1 / 10 ^ 14) / 2 + (0.95 - 0.9) * (0 + 10) / 2) * 10 ^ 9) := by
        simp [cmf_eq]
      rw [hf] at this
      exact Option.some.inj this
    rw [hval 0 _ 0.9 e0 rfl, if_pos]
    have h12 : (1.2 : ℝ) < (10 : ℝ) ^ (0.1 : ℝ) := by
      have h10 : ((1.2 : ℝ) ^ (10 : ℕ)) < 10 := by norm_num
      calc (1.2 : ℝ) = ((1.2 : ℝ) ^ (10 : ℕ)) ^ (0.1 : ℝ) := by
            rw [← Real.rpow_natCast, ← Real.rpow_mul (by norm_num)]; norm_num
        _ < 10 ^ (0.1 : ℝ) := Real.rpow_lt_rpow (by norm_num) h10 (by norm_num)
    rw [ef]
    refine lt_trans ?_ (mul_lt_mul_of_pos_right h12 (by norm_num))
    norm_num
  refine ⟨init, d, h, hw, fun u => ?_⟩
  obtain ⟨hr, -, -, hi⟩ := C49_loss_positive logMah u d hwf
  have hi0 := hi 0 (by rw [ht]; simp)
  rw [ht, hm, h3, h4] at hi0
  rw [List.getD_eq_getElem?_getD (l := d.weight), hw, Option.getD_some] at hi0
  simp only [List.length_cons, List.length_nil] at hi0
  have hq : 0 ≤ ((Real.logb 10 (floored d.ssfrhFloor ((computeFstar [0.9, 0.95, 2] (calcSfhSinglegalSmh logMah
    (getBoundedDiffstarParams u) mah [0.9, 0.95, 2] lgt0 fb).smh d.fstarTdelay).getD 0 0)
    ((calcSfhSinglegalSmh logMah (getBoundedDiffstarParams u) mah [0.9, 0.95, 2] lgt0 fb).smh.getD 0 0)) -
    d.logFstarTarget.getD 0 0) / d.weightFstar.getD 0 0) ^ 2 := sq_nonneg _
  push_cast at hi0
  norm_num at hi0 ⊢
  nlinarith

theorem sum_diff_single {n i : ℕ} (hi : i < n) {g g' : ℕ → ℝ} {B : ℝ} (he : ∀ j, j < n → j ≠ i → g j = g' j)
    (h0 : 0 ≤ g i) (h0' : 0 ≤ g' i) (h1 : g i ≤ B) (h1' : g' i ≤ B) :
    |(∑ j ∈ range n, g j) / n - (∑ j ∈ range n, g' j) / n| ≤ B / n := by
  have hn : (0 : ℝ) < n := by exact_mod_cast (by omega : 0 < n)
  have : (∑ j ∈ range n, g j) - ∑ j ∈ range n, g' j = g i - g' i := by
    rw [← Finset.sum_sub_distrib]
    refine Finset.sum_eq_single_of_mem i (Finset.mem_range.2 hi) fun j hj hji => ?_
    rw [he j (Finset.mem_range.1 hj) hji, sub_self]
  rw [← sub_div, this, abs_div, abs_of_pos hn]
  refine div_le_div_of_nonneg_right ?_ hn.le
  rw [abs_le]
  constructor <;> linarith

/-- **C102** (what excluded means): let a snapshot other than the last have both weights `1e10`. Replacing all its targets
(mass `e`, log mass `a`, log averaged SFR `b`, SFR `c`) changes the loss of every parameter vector by at most
`(31 D^2 + 1) / (1e20 n)`, where `D` dex bounds the mismatches of the snapshot before and after and `n` is the number of
snapshots. -/
theorem C102_excluded_negligible {M : Type} (logMah : M → ℝ → ℝ → ℝ) (u : DiffstarParams ℝ) (d : LossData M)
    (hd : WellFormed d) (i : ℕ) (hi : i + 1 < d.t.length) (hw : d.weight[i]? = some (10 ^ 10))
    (hwf : d.weightFstar[i]? = some (10 ^ 10)) (a b c e D : ℝ) (he : 0 < e)
    (hD : let h := calcSfhSinglegalSmh logMah (getBoundedDiffstarParams u) d.mah d.t d.lgt0 d.fb
      let m := Real.logb 10 (h.smh.getD i 0)
      let f := Real.logb 10 (floored d.ssfrhFloor ((computeFstar d.t h.smh d.fstarTdelay).getD i 0) (h.smh.getD i 0))
      |m - a| ≤ D ∧ |m - d.logmstarTarget.getD i 0| ≤ D ∧ |f - b| ≤ D ∧ |f - d.logFstarTarget.getD i 0| ≤ D) :
    |lossDefaultClipssfrh logMah u d - lossDefaultClipssfrh logMah u { d with
        mstarTarget := d.mstarTarget.set i e, logmstarTarget := d.logmstarTarget.set i a,
        sfhTarget := d.sfhTarget.set i c, logFstarTarget := d.logFstarTarget.set i b }| ≤
      (31 * D ^ 2 + 1) / (10 ^ 20 * d.t.length) := by
  have hn : (0 : ℝ) < d.t.length := by exact_mod_cast (by omega : 0 < d.t.length)
  set d' : LossData M := { d with
        mstarTarget := d.mstarTarget.set i e, logmstarTarget := d.logmstarTarget.set i a,
        sfhTarget := d.sfhTarget.set i c, logFstarTarget := d.logFstarTarget.set i b } with hd'
  have hdw : WellFormed d' := by
    refine ⟨hd.nonempty, hd.increasing, by simp [hd', hd.lenMstar], by simp [hd', hd.lenLogmstar],
      by simp [hd', hd.lenSfh], by simp [hd', hd.lenFstar], hd.lenWeight, hd.lenWeightFstar, ?_, hd.weightPos,
      hd.weightFstarPos, hd.tdelayPos, hd.floorPos⟩
    intro m hm
    rcases List.mem_or_eq_of_mem_set hm with h | rfl
    · exact hd.mstarPos m h
    · exact he
  have gs : ∀ (l : List ℝ) (v : ℝ) (j : ℕ), j ≠ i → (l.set i v).getD j 0 = l.getD j 0 := by
    intro l v j hj
    rw [List.getD_eq_getElem?_getD, List.getD_eq_getElem?_getD, List.getElem?_set_ne (Ne.symm hj)]
  have gi : ∀ (l : List ℝ) (v : ℝ), l.length = d.t.length → (l.set i v).getD i 0 = v := by
    intro l v hl
    rw [List.getD_eq_getElem?_getD, List.getElem?_set_self (by omega)]
    rfl
  have w1 : d.weight.getD i 0 = 10 ^ 10 := by rw [List.getD_eq_getElem?_getD, hw]; rfl
  have w2 : d.weightFstar.getD i 0 = 10 ^ 10 := by rw [List.getD_eq_getElem?_getD, hwf]; rfl
  obtain ⟨D1, D2, D3, D4⟩ := hD
  have sq : ∀ x : ℝ, |x| ≤ D → (x / 10 ^ 10) ^ 2 ≤ D ^ 2 / 10 ^ 20 := by
    intro x hx
    have h1 : x ^ 2 ≤ D ^ 2 := by
      rw [← sq_abs x]
      exact pow_le_pow_left₀ (abs_nonneg x) hx 2
    rw [div_pow, ← pow_mul]
    exact div_le_div_of_nonneg_right h1 (by positivity)
  have sq1 : ∀ v w x y z : ℝ, (sfrMismatch v w x y z / 10 ^ 10) ^ 2 ≤ 1 / 10 ^ 20 := by
    intro v w x y z
    rw [div_pow, ← pow_mul]
    exact div_le_div_of_nonneg_right (sfrMismatch_sq_le v w x y z) (by positivity)
  have F := C49_loss_formula logMah u d hd
  have F' := C49_loss_formula logMah u d' hdw
  simp only at F F'
  have ht' : d'.t = d.t := rfl
  have hm' : d'.mah = d.mah := rfl
  have h1' : d'.lgt0 = d.lgt0 := rfl
  have h2' : d'.fb = d.fb := rfl
  have h3' : d'.ssfrhFloor = d.ssfrhFloor := rfl
  have h4' : d'.fstarTdelay = d.fstarTdelay := rfl
  have h5' : d'.weight = d.weight := rfl
  have h6' : d'.weightFstar = d.weightFstar := rfl
  have h7' : d'.lgtFstarMax = d.lgtFstarMax := rfl
  have h8' : d'.mstarTarget = d.mstarTarget.set i e := rfl
  have h9' : d'.logmstarTarget = d.logmstarTarget.set i a := rfl
  have h10' : d'.sfhTarget = d.sfhTarget.set i c := rfl
  have h11' : d'.logFstarTarget = d.logFstarTarget.set i b := rfl
  rw [ht', hm', h1', h2', h3', h4', h5', h6', h7', h8', h9', h10', h11'] at F'
  set h := calcSfhSinglegalSmh logMah (getBoundedDiffstarParams u) d.mah d.t d.lgt0 d.fb
  have S1 := sum_diff_single (n := d.t.length) (i := i) (by omega) (B := D ^ 2 / 10 ^ 20)
    (g := fun j => ((Real.logb 10 (h.smh.getD j 0) - d.logmstarTarget.getD j 0) / d.weight.getD j 0) ^ 2)
    (g' := fun j => ((Real.logb 10 (h.smh.getD j 0) - (d.logmstarTarget.set i a).getD j 0) / d.weight.getD j 0) ^ 2)
    (fun j _ hji => by simp only [gs _ _ j hji]) (sq_nonneg _) (sq_nonneg _)
    (by simp only [w1]; exact sq _ D2) (by simp only [w1, gi _ _ hd.lenLogmstar]; exact sq _ D1)
  have S2 := sum_diff_single (n := d.t.length) (i := i) (by omega) (B := D ^ 2 / 10 ^ 20)
    (g := fun j => ((Real.logb 10 (floored d.ssfrhFloor ((computeFstar d.t h.smh d.fstarTdelay).getD j 0)
      (h.smh.getD j 0)) - d.logFstarTarget.getD j 0) / d.weightFstar.getD j 0) ^ 2)
    (g' := fun j => ((Real.logb 10 (floored d.ssfrhFloor ((computeFstar d.t h.smh d.fstarTdelay).getD j 0)
      (h.smh.getD j 0)) - (d.logFstarTarget.set i b).getD j 0) / d.weightFstar.getD j 0) ^ 2)
    (fun j _ hji => by simp only [gs _ _ j hji]) (sq_nonneg _) (sq_nonneg _)
    (by simp only [w2]; exact sq _ D4) (by simp only [w2, gi _ _ hd.lenFstar]; exact sq _ D3)
  have S3 := sum_diff_single (n := d.t.length) (i := i) (by omega) (B := 1 / 10 ^ 20)
    (g := fun j => (sfrMismatch d.ssfrhFloor (h.sfh.getD j 0) (h.smh.getD j 0) (d.sfhTarget.getD j 0)
      (d.mstarTarget.getD j 0) / d.weight.getD j 0) ^ 2)
    (g' := fun j => (sfrMismatch d.ssfrhFloor (h.sfh.getD j 0) (h.smh.getD j 0) ((d.sfhTarget.set i c).getD j 0)
      ((d.mstarTarget.set i e).getD j 0) / d.weight.getD j 0) ^ 2)
    (fun j _ hji => by simp only [gs _ _ j hji]) (sq_nonneg _) (sq_nonneg _)
    (by simp only [w1]; exact sq1 _ _ _ _ _) (by simp only [w1]; exact sq1 _ _ _ _ _)
  rw [F, F', gs _ _ (d.t.length - 1) (by omega)]
  have eB : (31 * D ^ 2 + 1) / (10 ^ 20 * (d.t.length : ℝ)) =
      30 * (D ^ 2 / 10 ^ 20 / d.t.length) + D ^ 2 / 10 ^ 20 / d.t.length + 1 / 10 ^ 20 / d.t.length := by
    field_simp
    ring
  rw [eB]
  rw [abs_le] at S1 S2 S3 ⊢
  constructor <;> linarith [S1.1, S1.2, S2.1, S2.2, S3.1, S3.2]

end Diffstar.Props
