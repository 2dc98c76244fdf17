import Verif.Model.FitLoss
import Verif.Props.Params
import Verif.Props.Smh
import Verif.Props.Fstar
import Verif.Props.FitDrivers

/-!
Properties of the fit weights, loss data, loss and fitter: C46-C49, C64, C67, C68.
-/

namespace Diffstar.Props

open Diffstar.Fit Diffstar.Spec Classical

/-! ### C46 -/

theorem arrMax_mem {l : List ℝ} (h : l ≠ []) : arrMax l ∈ l ∧ ∀ x ∈ l, x ≤ arrMax l := by
  unfold arrMax
  cases hm : l.max? with
  | none => exact absurd (List.max?_eq_none_iff.1 hm) h
  | some m => exact List.max?_eq_some_iff.1 hm

/-- **C46**: the call succeeds exactly for non-empty arrays of one length, and then the weights are, snapshot by
snapshot: 0.5 within 0.1 dex of the final mass, else 1 if the snapshot passes all three cuts, else 1e10; and for the
averaged SFR: 1e10 before `fstar_tdelay + 0.01`, else 0.5 within 0.1 dex of the maximum, else 1 or 1e10 by the same
cuts. The lower mass cut is lowered to half a dex below the final mass if necessary. -/
theorem C46_weights (t sm f : List ℝ) (tdelay dlogm tmin mmin : ℝ) :
    ((getWeights t sm f tdelay dlogm tmin mmin).isSome ↔
      t.length ≠ 0 ∧ sm.length = t.length ∧ f.length = t.length) ∧
    ∀ w wf, getWeights t sm f tdelay dlogm tmin mmin = some (w, wf) →
      w.length = t.length ∧ wf.length = t.length ∧
      ∃ last top, sm.getLast? = some last ∧ top ∈ f ∧ (∀ y ∈ f, y ≤ top) ∧
      ∀ i (hi : i < t.length) (hs : i < sm.length) (hf : i < f.length),
        let good : Prop := last - dlogm < sm[i] ∧ (last - 0.5 < sm[i] ∨ mmin < sm[i]) ∧ tmin ≤ t[i]
        w[i]? = some (if last - sm[i] < 0.1 then 0.5 else if good then 1 else 10 ^ 10) ∧
        wf[i]? = some (if t[i] < tdelay + 0.01 then 10 ^ 10 else if top - f[i] < 0.1 then 0.5
          else if good then 1 else 10 ^ 10) := by
  constructor
  · unfold getWeights
    split_ifs with h
    · constructor
      · intro h'; simp at h'
      · rintro ⟨h1, h2, h3⟩
        rcases h with h | h | h
        · exact absurd h h1
        · exact absurd h2 h
        · exact absurd h3 h
    · push Not at h
      simp [h]
  · intro w wf h
    unfold getWeights at h
    split_ifs at h with hc
    push Not at hc
    obtain ⟨h0, h1, h2⟩ := hc
    simp only [Option.some.injEq, Prod.mk.injEq] at h
    obtain ⟨rfl, rfl⟩ := h
    have hsm : sm ≠ [] := by intro e; rw [e] at h1; exact h0 h1.symm
    have hfn : f ≠ [] := by intro e; rw [e] at h2; exact h0 h2.symm
    obtain ⟨ht1, ht2⟩ := arrMax_mem hfn
    refine ⟨by simp [setWhere, h1], by simp [setWhere, h1, h2],
      sm.getLastD 0, arrMax f, ?_, ht1, ht2, ?_⟩
    · rw [List.getLastD_eq_getLast?, List.getLast?_eq_some_getLast hsm]; rfl
    · intro i hi hs hf
      have e1 : ∀ x y : ℝ, (min x y < sm[i] ↔ x < sm[i] ∨ y < sm[i]) := fun x y => min_lt_iff
      constructor
      · simp only [setWhere, List.getElem?_zipWith, List.getElem?_map, List.getElem?_replicate, hi, hs,
          List.getElem?_eq_getElem, Option.map_some, if_true]
        simp only [gt_iff_lt, ge_iff_le, Bool.not_and, Bool.or_eq_true, Bool.not_eq_true', decide_eq_false_iff_not,
          decide_eq_true_eq, e1, Option.some.injEq]
        split_ifs <;> tauto
      · simp only [setWhere, List.getElem?_zipWith, List.getElem?_map, List.getElem?_replicate, hi, hs, hf,
          List.getElem?_eq_getElem, Option.map_some, if_true]
        simp only [gt_iff_lt, ge_iff_le, Bool.not_and, Bool.or_eq_true, Bool.not_eq_true', decide_eq_false_iff_not,
          decide_eq_true_eq, e1, Option.some.injEq]
        split_ifs <;> first | tauto | (exfalso; linarith)

/-- **C46** consequences: only the values 0.5, 1 and 1e10 occur (so all weights are positive), the last snapshot
always has stellar-mass weight 0.5, and times before `fstar_tdelay + 0.01` always have averaged-SFR weight 1e10. -/
theorem C46_weight_values (t sm f : List ℝ) (tdelay dlogm tmin mmin : ℝ) (w wf : List ℝ)
    (h : getWeights t sm f tdelay dlogm tmin mmin = some (w, wf)) :
    (∀ x ∈ w, x = 0.5 ∨ x = 1 ∨ x = 10 ^ 10) ∧ (∀ x ∈ wf, x = 0.5 ∨ x = 1 ∨ x = 10 ^ 10) ∧
    w.getLast? = some 0.5 ∧
    ∀ i (hi : i < t.length), t[i] < tdelay + 0.01 → wf[i]? = some (10 ^ 10) := by
  obtain ⟨h0, h1⟩ := C46_weights t sm f tdelay dlogm tmin mmin
  obtain ⟨hn, hs, hf⟩ := h0.1 (by rw [h]; rfl)
  obtain ⟨lw, lwf, last, top, hl, _, _, hw⟩ := h1 w wf h
  have key : ∀ a b c : Prop, ∀ x : ℝ, [Decidable a] → [Decidable b] → [Decidable c] →
      x = (if a then (10 : ℝ) ^ 10 else if b then 0.5 else if c then 1 else 10 ^ 10) →
      x = 0.5 ∨ x = 1 ∨ x = 10 ^ 10 := by
    intro a b c x _ _ _ hx
    split_ifs at hx <;> simp [hx]
  refine ⟨?_, ?_, ?_, ?_⟩
  · intro x hx
    obtain ⟨i, hi, rfl⟩ := List.getElem_of_mem hx
    have := (hw i (by omega) (by omega) (by omega)).1
    rw [List.getElem?_eq_getElem hi, Option.some.injEq] at this
    rw [this]
    split_ifs <;> simp
  · intro x hx
    obtain ⟨i, hi, rfl⟩ := List.getElem_of_mem hx
    have := (hw i (by omega) (by omega) (by omega)).2
    rw [List.getElem?_eq_getElem hi, Option.some.injEq] at this
    rw [this]
    split_ifs <;> simp
  · have := (hw (t.length - 1) (by omega) (by omega) (by omega)).1
    rw [List.getLast?_eq_getElem?, lw, this]
    rw [List.getLast?_eq_getElem?, hs, List.getElem?_eq_getElem (by omega), Option.some.injEq] at hl
    rw [hl, if_pos (by norm_num)]
  · intro i hi hlt
    have := (hw i hi (by omega) (by omega)).2
    rw [this, if_pos hlt]

example : (getWeights [0.5, 2, 5] [6, 9.95, 10] [-1, 1, 0.5] 1 3.5 1 7).isSome :=
  (C46_weights _ _ _ _ _ _ _).1.2 (by simp)

/-! ### C67 -/

end Diffstar.Props

namespace Diffstar.Spec

open Diffstar.Fit

/-- Loss data on which every logarithm, division and mean of the loss is well defined. -/
structure WellFormed {M : Type} (d : LossData M) : Prop where
  nonempty : d.t ≠ []
  increasing : Increasing (0.001 :: d.t)
  lenMstar : d.mstarTarget.length = d.t.length
  lenLogmstar : d.logmstarTarget.length = d.t.length
  lenSfh : d.sfhTarget.length = d.t.length
  lenFstar : d.logFstarTarget.length = d.t.length
  lenWeight : d.weight.length = d.t.length
  lenWeightFstar : d.weightFstar.length = d.t.length
  mstarPos : ∀ m ∈ d.mstarTarget, 0 < m
  weightPos : ∀ w ∈ d.weight, 0.5 ≤ w
  weightFstarPos : ∀ w ∈ d.weightFstar, 0.5 ≤ w
  tdelayPos : 0 < d.fstarTdelay
  floorPos : 0 < d.ssfrhFloor

end Diffstar.Spec

namespace Diffstar.Props

open Diffstar.Fit Diffstar.Spec Classical

theorem mstar_pos_of_nonneg (t s : List ℝ) (hs : s.length = t.length) (hinc : Increasing (0.001 :: t))
    (h0 : ∀ x ∈ s, 0 ≤ x) : ∀ m ∈ cumulativeMstarFormed t s, 0 < m := by
  match t, s, hs with
  | [], [], _ => intro m hm; simp [cmf_eq] at hm
  | b :: t, y :: s, hs =>
    have hb : 0.001 < b := (List.pairwise_cons.1 hinc).1 b (by simp)
    have hmono := ((C12_smh_increasing (b :: t) (y :: s) hs hinc).2 h0).2
    have hy : 0 ≤ y := h0 y (by simp)
    have hhead : 0 < (0 + (b - 0.001) * (y + 1 / 10 ^ 14) / 2) * 10 ^ 9 := by
      have : 0 < b - 0.001 := by linarith
      have : 0 < y + 1 / 10 ^ 14 := by positivity
      positivity
    rw [cmf_eq] at hmono ⊢
    simp only [List.zip_cons_cons, trapFrom_cons, List.map_cons, List.pairwise_cons, List.mem_cons] at hmono ⊢
    rintro m (rfl | hm)
    · exact hhead
    · exact lt_of_lt_of_le hhead (hmono.1 m hm)

theorem fstarTarget_spec (t m : List ℝ) (hm : m.length = t.length) (hn : t ≠ []) (hpos : ∀ x ∈ m, 0 < x)
    (τ : ℝ) (floor : ℝ) (hfl : 0 < floor) :
    (fstarTarget t m τ floor).length = t.length ∧
    ∃ top > 0, top ∈ fstarTarget t m τ floor ∧
      ∀ x ∈ fstarTarget t m τ floor, 0 < x ∧ x ≤ top ∧ top / 1000 ≤ x := by
  have hl : (computeFstar t m τ).length = t.length := computeFstar_length t m hm τ
  set f0 := List.zipWith (fun x m => x * m)
    ((List.zipWith (fun f m => f / m) (computeFstar t m τ) m).map fun x => max x floor) m with hf0
  have hf0l : f0.length = t.length := by simp [hf0, hl, hm]
  have hf0n : f0 ≠ [] := by
    intro e; rw [e] at hf0l; simp at hf0l; exact hn (List.length_eq_zero_iff.1 hf0l.symm)
  have hf0pos : ∀ x ∈ f0, 0 < x := by
    intro x hx
    obtain ⟨i, hi, rfl⟩ := List.getElem_of_mem hx
    simp only [hf0, List.getElem_zipWith, List.getElem_map]
    have h1 := hpos _ (List.getElem_mem (l := m) (n := i) (by omega))
    have h2 : 0 < max ((computeFstar t m τ)[i]'(by omega) / m[i]'(by omega)) floor :=
      lt_of_lt_of_le hfl (le_max_right _ _)
    exact mul_pos h2 h1
  obtain ⟨htop, hle⟩ := arrMax_mem hf0n
  have htp := hf0pos _ htop
  have e : fstarTarget t m τ floor =
      f0.map fun f => if f < arrMax f0 / 1000 then arrMax f0 / 1000 else f := rfl
  rw [e]
  refine ⟨by simp [hf0l], arrMax f0, htp, ?_, ?_⟩
  · refine List.mem_map.2 ⟨_, htop, ?_⟩
    rw [if_neg]
    linarith
  · intro x hx
    obtain ⟨y, hy, rfl⟩ := List.mem_map.1 hx
    have h1 := hle y hy
    have h2 := hf0pos y hy
    split_ifs with h
    · exact ⟨by linarith, by linarith, le_rfl⟩
    · exact ⟨h2, h1, by linarith⟩

theorem argMax_spec {L : List ℝ} (hne : L ≠ []) :
    ∃ hj : argMax L < L.length, (∀ y ∈ L, y ≤ L[argMax L]) ∧ ∀ i (hi : i < argMax L), L[i] < L[argMax L] := by
  obtain ⟨h1, h2⟩ := arrMax_mem hne
  have hi : argMax L < L.length := by
    unfold argMax
    rw [List.findIdx_lt_length]
    exact ⟨_, h1, by simp⟩
  have hv : L[argMax L] = arrMax L := by
    have := List.findIdx_getElem (p := fun x => decide (x = arrMax L)) (xs := L) (w := hi)
    exact of_decide_eq_true this
  refine ⟨hi, ?_, ?_⟩
  · intro y hy
    rw [hv]; exact h2 y hy
  · intro i hi'
    rw [hv]
    refine lt_of_le_of_ne (h2 _ (List.getElem_mem _)) ?_
    have := List.not_of_lt_findIdx (p := fun x => decide (x = arrMax L)) hi'
    exact of_decide_eq_false this

/-- **C67**: for every non-negative SFH on an increasing time table starting after 1 Myr, whatever the cuts,
`get_loss_data_default` succeeds and its output is well formed; the clipped target SFR is at least 1e-14; the
targets are logarithms of positive numbers; the averaged-SFR target spans at most 3 dex; and `lgt_fstar_max` is the
log of the first tabulated time at which the target is maximal. -/
theorem C67_loss_data_well_formed {M : Type} (logMah : M → ℝ → ℝ → ℝ) (t sfh : List ℝ) (mah : M)
    (dlogmCut tFitMin massFitMin τ floor lgt0 fb : ℝ)
    (hl : sfh.length = t.length) (hn : t ≠ []) (hinc : Increasing (0.001 :: t)) (h0 : ∀ x ∈ sfh, 0 ≤ x)
    (hτ : 0 < τ) (hfl : 0 < floor) :
    ∃ init d, getLossDataDefault logMah t sfh mah dlogmCut tFitMin massFitMin τ floor lgt0 fb = some (init, d) ∧
      WellFormed d ∧ d.t = t ∧ d.mah = mah ∧ d.fstarTdelay = τ ∧ d.ssfrhFloor = floor ∧ d.lgt0 = lgt0 ∧ d.fb = fb ∧
      d.sfhTarget = sfh.map (max (1 / 10 ^ 14)) ∧
      d.mstarTarget = cumulativeMstarFormed t sfh ∧
      d.logmstarTarget = d.mstarTarget.map (Real.logb 10) ∧
      (∃ (fs : List ℝ) (top : ℝ), d.logFstarTarget = fs.map (Real.logb 10) ∧ top ∈ fs ∧
        ∀ x ∈ fs, 0 < x ∧ x ≤ top ∧ top / 1000 ≤ x) ∧
      ∃ (j : ℕ) (hj : j < t.length) (hj' : j < d.logFstarTarget.length), d.lgtFstarMax = Real.logb 10 t[j] ∧
        (∀ y ∈ d.logFstarTarget, y ≤ d.logFstarTarget[j]) ∧
        ∀ i (hi : i < j), d.logFstarTarget[i] < d.logFstarTarget[j] := by
  have hlm := cmf_length t sfh hl
  have hmpos := mstar_pos_of_nonneg t sfh hl hinc h0
  obtain ⟨hfll, top, htop, htopm, hfs⟩ := fstarTarget_spec t _ hlm hn hmpos τ floor hfl
  set fs := fstarTarget t (cumulativeMstarFormed t sfh) τ floor with hfsdef
  have hn0 : t.length ≠ 0 := fun e => hn (List.length_eq_zero_iff.1 e)
  have hw := (C46_weights t ((cumulativeMstarFormed t sfh).map (Real.logb 10)) (fs.map (Real.logb 10)) τ
    dlogmCut tFitMin massFitMin).1.2 ⟨hn0, by simp [hlm], by simp [hfll]⟩
  obtain ⟨⟨w, wf⟩, hw⟩ := Option.isSome_iff_exists.1 hw
  obtain ⟨lw, lwf, _⟩ := (C46_weights _ _ _ _ _ _ _).2 w wf hw
  obtain ⟨vw, vwf, _, _⟩ := C46_weight_values _ _ _ _ _ _ _ w wf hw
  have hcall : getLossDataDefault logMah t sfh mah dlogmCut tFitMin massFitMin τ floor lgt0 fb =
      some (uPInitAndErr ((t.map fun x => logMah mah x lgt0).getLastD 0),
        ⟨t, mah, cumulativeMstarFormed t sfh, (cumulativeMstarFormed t sfh).map (Real.logb 10),
          sfh.map fun x => max x SFR_MIN, fs.map (Real.logb 10), τ, floor, w, wf,
          (t.map (Real.logb 10)).getD (argMax (fs.map (Real.logb 10))) 0, lgt0, fb⟩) := by
    rw [getLossDataDefault, if_neg (by simpa using hl)]
    simp only [← hfsdef, hw]
  refine ⟨_, _, hcall, ?_, rfl, rfl, rfl, rfl, rfl, rfl, ?_, rfl, rfl, ?_, ?_⟩
  · refine ⟨hn, hinc, hlm, by simp [hlm], by simp [hl], by simp [hfll], lw, lwf, hmpos, ?_, ?_, hτ, hfl⟩
    · intro x hx
      rcases vw x hx with h | h | h <;> rw [h] <;> norm_num
    · intro x hx
      rcases vwf x hx with h | h | h <;> rw [h] <;> norm_num
  · simp only [SFR_MIN]
    exact List.map_congr_left fun x _ => max_comm _ _
  · exact ⟨fs, top, rfl, htopm, hfs⟩
  · have hne : fs.map (Real.logb 10) ≠ [] := by
      intro e
      have := congrArg List.length e
      simp [hfll] at this
      exact hn this
    obtain ⟨hj, h1, h2⟩ := argMax_spec hne
    have hjt : argMax (fs.map (Real.logb 10)) < t.length := by
      have := hj
      simpa [hfll] using this
    refine ⟨argMax (fs.map (Real.logb 10)), hjt, hj, ?_, h1, h2⟩
    rw [List.getD_eq_getElem _ _ (by simpa using hjt), List.getElem_map]

/-- The hypotheses of C67 hold for the all-zero SFH on three times. -/
example : ([0, 0, 0] : List ℝ).length = ([1, 2, 3] : List ℝ).length ∧ ([1, 2, 3] : List ℝ) ≠ [] ∧
    Increasing (0.001 :: [1, 2, 3]) ∧ (∀ x ∈ ([0, 0, 0] : List ℝ), 0 ≤ x) ∧ (0 : ℝ) < FSTAR_TIME_DELAY ∧
    0 < SSFRH_FLOOR := by
  refine ⟨rfl, by simp, ?_, by simp, by norm_num [FSTAR_TIME_DELAY], by norm_num [SSFRH_FLOOR]⟩
  unfold Increasing
  norm_num

/-! ### C47, C48 -/

theorem lossData_init {M : Type} (logMah : M → ℝ → ℝ → ℝ) (t sfh : List ℝ) (mah : M)
    (a b c τ floor lgt0 fb : ℝ) (init d)
    (h : getLossDataDefault logMah t sfh mah a b c τ floor lgt0 fb = some (init, d)) :
    init = uPInitAndErr ((t.map fun x => logMah mah x lgt0).getLastD 0) := by
  rw [getLossDataDefault] at h
  split_ifs at h with h1
  simp only at h
  split at h
  · simp at h
  · simp only [Option.some.injEq, Prod.mk.injEq] at h
    exact h.1.symm

/-- The documented guess for final halo mass `m` (before it is unbounded), with the quenching part replaced by the
defaults. -/
noncomputable def guess (m : ℝ) : DiffstarParams ℝ :=
  ⟨min (max (0.3 * (m - 11) + 11.4) 11) 13, min (max (0.2 * (m - 11) - 9.7) (-10.5)) (-9.2),
   min (max (0.7 * (m - 11) - 0.3) 0.2) 3, -1, 1, -0.50725, -1.01773, -0.212307⟩

theorem guess_inBounds (m : ℝ) : InBounds (guess m) := by
  have h : ∀ x lo hi l h : ℝ, lo ≤ hi → l < lo → hi < h → l < min (max x lo) hi ∧ min (max x lo) hi < h := by
    intro x lo hi l h h1 h2 h3
    exact ⟨lt_of_lt_of_le h2 (le_min (le_max_right _ _) h1), lt_of_le_of_lt (min_le_right _ _) h3⟩
  refine ⟨h _ _ _ _ _ ?_ ?_ ?_, h _ _ _ _ _ ?_ ?_ ?_, h _ _ _ _ _ ?_ ?_ ?_, ?_, ?_, ?_, ?_, ?_⟩ <;>
  norm_num [guess]

theorem uPInit_eq (m : ℝ) : (uPInitAndErr m).1 = getUnboundedDiffstarParams (guess m) := rfl

/-- **C48**: for every halo mass (and everything else) the start vector is the unbounded image of a guess that lies
strictly inside the bounds, so bounding it gives the guess back; the main-sequence guess is the documented clipped
linear function of the final halo mass; all eight perturbation widths are positive. -/
theorem C48_guess_in_bounds {M : Type} (logMah : M → ℝ → ℝ → ℝ) (t sfh : List ℝ) (mah : M)
    (a b c τ floor lgt0 fb tlast : ℝ) (ht : t.getLast? = some tlast) (init d)
    (h : getLossDataDefault logMah t sfh mah a b c τ floor lgt0 fb = some (init, d)) :
    let p := getBoundedDiffstarParams init.1
    let m := logMah mah tlast lgt0
    InBounds p ∧ init.1 = getUnboundedDiffstarParams p ∧
    p.lgmcrit = min (max (0.3 * (m - 11) + 11.4) 11) 13 ∧
    p.lgyAtMcrit = min (max (0.2 * (m - 11) - 9.7) (-10.5)) (-9.2) ∧
    p.indxLo = min (max (0.7 * (m - 11) - 0.3) 0.2) 3 ∧ p.indxHi = -1 ∧
    init.2 = ⟨0.5, 0.5, 1, 1, 0.3, 0.5, 0.3, 0.3⟩ := by
  have e := lossData_init logMah t sfh mah a b c τ floor lgt0 fb init d h
  have e2 : (t.map fun x => logMah mah x lgt0).getLastD 0 = logMah mah tlast lgt0 := by
    rw [List.getLastD_eq_getLast?, List.getLast?_map, ht]; rfl
  rw [e2] at e
  subst e
  have hb := C02_bounded_of_unbounded _ (guess_inBounds (logMah mah tlast lgt0))
  rw [uPInit_eq, hb]
  exact ⟨guess_inBounds _, rfl, rfl, rfl, rfl, rfl, rfl⟩

/-- **C47** is false for every input: whatever the halo mass, the start vector decodes to quenching time `lg_qt = 1`
and drop `lg_drop = -1.01773`, the defaults; the edits made two lines earlier are dropped. -/
theorem C47_quenching_guess_ignores_mass_violated {M : Type} (logMah : M → ℝ → ℝ → ℝ) (t sfh : List ℝ) (mah : M)
    (a b c τ floor lgt0 fb : ℝ) (init d)
    (h : getLossDataDefault logMah t sfh mah a b c τ floor lgt0 fb = some (init, d)) :
    (getBoundedDiffstarParams init.1).lgQt = 1 ∧ (getBoundedDiffstarParams init.1).lgDrop = -1.01773 := by
  have e := lossData_init logMah t sfh mah a b c τ floor lgt0 fb init d h
  subst e
  rw [uPInit_eq, C02_bounded_of_unbounded _ (guess_inBounds _)]
  exact ⟨rfl, rfl⟩

/-- **C47**, concrete refutation: for a halo of final mass `10^11` the computed guess is `lg_qt = 1.5`,
`lg_drop = -2`, but the start vector does not encode it. -/
theorem C47_guess_violated :
    ∃ (init : DiffstarParams ℝ × DiffstarParams ℝ) (d : LossData Unit),
      getLossDataDefault (fun _ _ _ => 11) [1, 2, 3] [1, 1, 1] () 3.5 1 7 1 (1 / 10 ^ 12) 1.14 0.156 = some (init, d) ∧
      (getBoundedDiffstarParams init.1).lgQt ≠ min (max (-0.5 * (11 - 11) + 1.5) 0.7) 1.5 ∧
      (getBoundedDiffstarParams init.1).lgDrop ≠ -2 := by
  obtain ⟨init, d, h, _⟩ := C67_loss_data_well_formed (M := Unit) (fun _ _ _ => 11) [1, 2, 3] [1, 1, 1] ()
    3.5 1 7 1 (1 / 10 ^ 12) 1.14 0.156 rfl (by simp) (by unfold Increasing; norm_num)
    (by norm_num) (by norm_num) (by norm_num)
  obtain ⟨h1, h2⟩ := C47_quenching_guess_ignores_mass_violated _ _ _ _ _ _ _ _ _ _ _ _ _ h
  refine ⟨init, d, h, ?_, ?_⟩
  · rw [h1]; norm_num
  · rw [h2]; norm_num

/-- **C47** (partial): the main-sequence half of the guess does follow the halo mass. Missing: the quenching half,
which does not. -/
theorem C47_ms_guess_follows_mass_partial {M : Type} (logMah : M → ℝ → ℝ → ℝ) (t sfh : List ℝ) (mah : M)
    (a b c τ floor lgt0 fb tlast : ℝ) (ht : t.getLast? = some tlast) (init d)
    (h : getLossDataDefault logMah t sfh mah a b c τ floor lgt0 fb = some (init, d)) :
    (getBoundedDiffstarParams init.1).lgmcrit = min (max (0.3 * (logMah mah tlast lgt0 - 11) + 11.4) 11) 13 ∧
    (getBoundedDiffstarParams init.1).lgyAtMcrit =
      min (max (0.2 * (logMah mah tlast lgt0 - 11) - 9.7) (-10.5)) (-9.2) ∧
    (getBoundedDiffstarParams init.1).indxLo = min (max (0.7 * (logMah mah tlast lgt0 - 11) - 0.3) 0.2) 3 := by
  obtain ⟨_, _, h1, h2, h3, _⟩ := C48_guess_in_bounds logMah t sfh mah a b c τ floor lgt0 fb tlast ht init d h
  exact ⟨h1, h2, h3⟩

/-! ### C64 -/

/-- **C64**: whatever the random draws and the optimiser do, the parameters reported by the fitter are either NaN
(the optimiser returned non-finite values) or strictly inside the bounds; with flag -1 they are finite and are the
initial guess; the reported loss is never NaN; the flag is 1 or -1. -/
theorem C64_fitter_output_in_bounds {M : Type} (logMah : M → ℝ → ℝ → ℝ)
    (normal : DiffstarParams ℝ × DiffstarParams ℝ → ℕ → Option (DiffstarParams ℝ))
    (gradNan : LossData M → Option (DiffstarParams ℝ) → Bool)
    (minimize : LossData M → Option (DiffstarParams ℝ) → Option (DiffstarParams ℝ) × F)
    (t sfh : List ℝ) (mah : M) (a b c τ floor lgt0 fb tlast : ℝ) (ht : t.getLast? = some tlast)
    (pBest : Option (DiffstarParams ℝ)) (loss : F) (success : ℤ)
    (h : diffstarFitter logMah normal gradNan minimize t sfh mah a b c τ floor lgt0 fb =
      some (pBest, loss, success)) :
    (∀ p, pBest = some p → InBounds p) ∧ loss ≠ none ∧ (success = 1 ∨ success = -1) ∧
    (success = -1 → loss = some ((999.99 : ℝ) : EReal) ∧ ∃ p, pBest = some p ∧ InBounds p ∧
      p.lgmcrit = min (max (0.3 * (logMah mah tlast lgt0 - 11) + 11.4) 11) 13 ∧ p.lgQt = 1) := by
  rw [diffstarFitter, Option.map_eq_some_iff] at h
  obtain ⟨⟨init, d⟩, hd, h⟩ := h
  simp only [Prod.mk.injEq] at h
  obtain ⟨rfl, rfl, rfl⟩ := h
  have hinit := C48_guess_in_bounds logMah t sfh mah a b c τ floor lgt0 fb tlast ht init d hd
  have hq := (C47_quenching_guess_ignores_mass_violated logMah t sfh mah a b c τ floor lgt0 fb init d hd).1
  have spec : ∀ k l, AttemptsFrom (normal init) (gradNan d) (minimize d) (some init.1) k l →
      ∀ x ∈ l, (x.success = 1 ∨ x.success = -1) ∧
        (x.success = -1 → x.p = some init.1 ∧ x.loss = some ((999.99 : ℝ) : EReal)) := by
    intro k l hl
    induction hl with
    | done k => simp
    | failed k l _ _ ih =>
      rintro x hx
      rcases List.mem_cons.1 hx with rfl | hx
      · exact ⟨Or.inr rfl, fun _ => ⟨rfl, rfl⟩⟩
      · exact ih x hx
    | ran k j l _ _ _ _ ih =>
      rintro x hx
      rcases List.mem_cons.1 hx with rfl | hx
      · exact ⟨Or.inl rfl, fun h => absurd h (by norm_num)⟩
      · exact ih x hx
  obtain ⟨l, _, ha, h1, h2⟩ := C42_returns_best_attempt (normal init) (gradNan d) (minimize d) (some init.1)
    ((0.1 : ℝ) : EReal) 10
  have hr : let r := minimizerWrapper (normal init) (gradNan d) (minimize d) (some init.1) ((0.1 : ℝ) : EReal) 10
      (r.success = 1 ∨ r.success = -1) ∧
        (r.success = -1 → r.p = some init.1 ∧ r.loss = some ((999.99 : ℝ) : EReal)) := by
    by_cases hn : ∀ x ∈ l, x.loss = none
    · rw [h1 hn]
      exact ⟨Or.inr rfl, fun _ => ⟨rfl, rfl⟩⟩
    · push Not at hn
      obtain ⟨i, hi, v, e, _⟩ := h2 hn
      rw [← e]
      exact spec 0 l ha _ (List.getElem_mem _)
  refine ⟨?_, C42_loss_never_nan _ _ _ _ _ _, hr.1, ?_⟩
  · intro p hp
    rw [Option.map_eq_some_iff] at hp
    obtain ⟨u, _, rfl⟩ := hp
    exact C01_bounded_params_in_bounds u
  · intro hs
    obtain ⟨e1, e2⟩ := hr.2 hs
    refine ⟨e2, getBoundedDiffstarParams init.1, ?_, hinit.1, hinit.2.2.1, hq⟩
    rw [e1]; rfl

/-! ### C68 -/

/-- **C68** (partial): flag 1 is only reported for an attempt that really ran the optimiser and whose loss is not
NaN. Missing: infinite losses, see `C68_infinite_loss_violated`. -/
theorem C68_success_not_nan_partial {P : Type} (normal : ℕ → P) (gradNan : P → Bool) (minimize : P → P × F)
    (p0 : P) (tol : EReal) (maxIter : ℕ)
    (h : (minimizerWrapper normal gradNan minimize p0 tol maxIter).success = 1) :
    ∃ k v, gradNan (normal k) = false ∧ (minimize (normal k)).2 = some v ∧
      minimizerWrapper normal gradNan minimize p0 tol maxIter = ⟨(minimize (normal k)).1, some v, 1⟩ := by
  obtain ⟨l, _, ha, h1, h2⟩ := C42_returns_best_attempt normal gradNan minimize p0 tol maxIter
  have spec : ∀ k l, AttemptsFrom normal gradNan minimize p0 k l →
      ∀ x ∈ l, x.success = 1 → ∃ k, gradNan (normal k) = false ∧
        x = ⟨(minimize (normal k)).1, (minimize (normal k)).2, 1⟩ := by
    intro k l hl
    induction hl with
    | done k => simp
    | failed k l _ _ ih =>
      rintro x hx
      rcases List.mem_cons.1 hx with rfl | hx
      · intro h; exact absurd h (by norm_num)
      · exact ih x hx
    | ran k j l _ _ hg _ ih =>
      rintro x hx
      rcases List.mem_cons.1 hx with rfl | hx
      · intro _; exact ⟨k + j, hg, rfl⟩
      · exact ih x hx
  by_cases hn : ∀ x ∈ l, x.loss = none
  · rw [h1 hn] at h; exact absurd h (by norm_num)
  · push Not at hn
    obtain ⟨i, hi, v, e, hv, _⟩ := h2 hn
    obtain ⟨k, hg, hx⟩ := spec 0 l ha l[i] (List.getElem_mem _) (by rw [e]; exact h)
    rw [e] at hx
    rw [hx] at hv
    have hv' : (minimize (normal k)).2 = some v := hv
    exact ⟨k, v, hg, hv', by rw [hx, hv']⟩

/-- **C68** is false: an optimiser whose loss is always infinite is reported with flag 1. -/
theorem C68_infinite_loss_violated :
    minimizerWrapper (P := ℕ) id (fun _ => false) (fun p => (p, some ⊤)) 0 ((0.1 : ℝ) : EReal) 10 =
      ⟨0, some ⊤, 1⟩ := by
  have h : ((0.1 : ℝ) : EReal) < ⊤ := EReal.coe_lt_top _
  simp [minimizerWrapper, selectBest, npNanargmin, minimizerAttempts, minimizerLoop, gtTol, returnRandomPinit,
    npNanmin, h, List.findIdx_cons]

end Diffstar.Props
