import Verif.Model.RoundPipeline
import Verif.Props.RoundDrawSfr
import Verif.Props.RoundFstar
import Verif.Props.TimeShift
import Verif.Props.PopStable

/-! C154: predicted stellar mass functions and their loss in single precision, from the halo catalogue on. -/

namespace Diffstar.Spec

open Diffstar.Pop

/-- Bound of the error (dex) of the star formation rate of a drawn main-sequence galaxy (C149) at log halo mass `m`, standard normal deviates `z`. -/
noncomputable def msRateError (p : PF → ℝ) (z : Fin 4 → ℝ) (m : ℝ) : ℝ :=
  (122 + 34 * |z 0| + 4 * |z 1| + (|m - 11.25| + 2.25) *
    (3 + 1.5 * max |p (.inl .mean_ul_mseq_slp)| |p (.inl .mean_uh_mseq_slp)| + 4 * max |z 2| |z 3|)) / 10 ^ 4

/-- The same for a quenched galaxy with log duration `dur` of quenching, standard normal deviates `z` and `z'` of its two blocks of parameters. -/
noncomputable def qRateError (p : PF → ℝ) (z z' : Fin 4 → ℝ) (dur m : ℝ) : ℝ :=
  (90 + 34 * |z 0| + 4 * |z 1| + 3 * |p (.inl .mean_udrop_slp)| + 1.5 * |p (.inl .mean_urej_slp)| + 8 * |z' 2| + 4 * |z' 3| +
    (|m - 11.25| + 2.25) * (3 + 1.5 * max |p (.inl .mean_ul_qseq_slp)| |p (.inl .mean_uh_qseq_slp)| + 4 * max |z 2| |z 3|) +
    (113 + 56 * |z' 0|) / (10 : ℝ) ^ dur) / 10 ^ 4 + 7 * ((10 : ℝ) ^ ((3 + 1.5 * |p (.inl .mean_uqs_slp)| + 4 * |z' 1|) / 10 ^ 4) - 1)

end Diffstar.Spec

namespace Diffstar.Props

open Diffstar Diffstar.Spec Diffstar.Pop Diffstar.PopLoss

theorem obsTimes_get {tobs : ℝ} (k : ℕ) (hk : k < 20) : (obsTimes tobs).getD k 0 = (10 : ℝ) ^ (-1 + (k : ℝ) * ((Real.logb 10 tobs - -1) / 19)) := by
  have hlen : (obsTimes tobs).length = 20 := by simp [obsTimes, logspace, N_TIMES]
  rw [List.getD_eq_getElem _ _ (by omega)]
  show ((List.range 20).map fun i : ℕ => (10 : ℝ) ^ (-1 + (i : ℝ) * ((Real.logb 10 tobs - -1) / (((20 : ℕ) : ℝ) - 1))))[k]'(by simpa using hk) = _
  rw [List.getElem_map, List.getElem_range]
  norm_num

theorem obsTimes_len {tobs : ℝ} : (obsTimes tobs).length = 20 := by simp [obsTimes, logspace, N_TIMES]

/-- The table of times is spaced by 3.5 per cent at least. -/
theorem obsTimes_space {tobs : ℝ} (h : 0.2 ≤ tobs) : (obsTimes tobs).getD 0 0 = 0.1 ∧
    ∀ k, k + 1 < 20 → 1.035 * (obsTimes tobs).getD k 0 ≤ (obsTimes tobs).getD (k + 1) 0 := by
  constructor
  · rw [obsTimes_get 0 (by norm_num)]
    norm_num [Real.rpow_neg_one]
  · intro k hk
    rw [obsTimes_get k (by omega), obsTimes_get (k + 1) hk]
    push_cast
    rw [show (-1 : ℝ) + ((k : ℝ) + 1) * ((Real.logb 10 tobs - -1) / 19) = (Real.logb 10 tobs - -1) / 19 + (-1 + (k : ℝ) * ((Real.logb 10 tobs - -1) / 19)) by ring,
      Real.rpow_add (by norm_num) ((Real.logb 10 tobs - -1) / 19)]
    refine mul_le_mul_of_nonneg_right ?_ (by positivity)
    have t0 : 0 < tobs := by norm_num at h; linarith
    have e : ((10 : ℝ) ^ ((Real.logb 10 tobs - -1) / 19)) ^ 19 = tobs * 10 := by
      rw [← Real.rpow_natCast, ← Real.rpow_mul (by norm_num)]
      push_cast
      rw [div_mul_cancel₀ _ (by norm_num), sub_neg_eq_add, Real.rpow_add (by norm_num), Real.rpow_logb (by norm_num) (by norm_num) t0, Real.rpow_one]
    refine le_of_pow_le_pow_left₀ (n := 19) (by norm_num) (by positivity) ?_
    rw [e]
    norm_num at h ⊢
    linarith

/-- Time steps of the table as computed. -/
theorem steps_close {tobs : ℝ} (ht : 0.2 ≤ tobs) {tarr : List ℝ} (hr : List.Forall₂ (fun t t' : ℝ => |t' - t| ≤ t / 10 ^ 6) (obsTimes tobs) tarr) (k : ℕ)
    (hk : k < 20) : 0.1 ≤ (obsTimes tobs).getD k 0 ∧ |tarr.getD k 0 - (obsTimes tobs).getD k 0| ≤ (obsTimes tobs).getD k 0 / 10 ^ 6 ∧
    0 < (0.001 :: obsTimes tobs).getD (k + 1) 0 - (0.001 :: obsTimes tobs).getD k 0 ∧
      |((0.001 :: tarr).getD (k + 1) 0 - (0.001 :: tarr).getD k 0) - ((0.001 :: obsTimes tobs).getD (k + 1) 0 - (0.001 :: obsTimes tobs).getD k 0)| ≤
        6 / 10 ^ 5 * ((0.001 :: obsTimes tobs).getD (k + 1) 0 - (0.001 :: obsTimes tobs).getD k 0) := by
  obtain ⟨h0, hsp⟩ := obsTimes_space ht
  have hl : tarr.length = 20 := hr.length_eq.symm.trans obsTimes_len
  have hlo : ∀ k, k < 20 → 0.1 ≤ (obsTimes tobs).getD k 0 := by
    intro k
    induction k with
    | zero => intro _; exact h0.ge
    | succ k ih =>
      intro hk
      have a := ih (by omega)
      have b := hsp k hk
      linarith only [a, b]
  have hrd : ∀ k, k < 20 → |tarr.getD k 0 - (obsTimes tobs).getD k 0| ≤ (obsTimes tobs).getD k 0 / 10 ^ 6 := by
    intro k hk
    have k1 : k < (obsTimes tobs).length := by rw [obsTimes_len]; exact hk
    have k2 : k < tarr.length := by rw [hl]; exact hk
    have := (List.forall₂_iff_get.1 hr).2 k k1 k2
    rwa [List.getD_eq_getElem _ _ k1, List.getD_eq_getElem _ _ k2]
  refine ⟨hlo k hk, hrd k hk, ?_⟩
  cases k with
  | zero =>
    show 0 < (obsTimes tobs).getD 0 0 - 0.001 ∧ |(tarr.getD 0 0 - 0.001) - ((obsTimes tobs).getD 0 0 - 0.001)| ≤ 6 / 10 ^ 5 * ((obsTimes tobs).getD 0 0 - 0.001)
    have a := hrd 0 hk
    have b := hlo 0 hk
    rw [sub_sub_sub_cancel_right]
    generalize (obsTimes tobs).getD 0 0 = x at a b ⊢
    generalize tarr.getD 0 0 = y at a ⊢
    constructor
    · linarith only [b]
    · linarith only [a, b]
  | succ k =>
    show 0 < (obsTimes tobs).getD (k + 1) 0 - (obsTimes tobs).getD k 0 ∧ |(tarr.getD (k + 1) 0 - tarr.getD k 0) -
      ((obsTimes tobs).getD (k + 1) 0 - (obsTimes tobs).getD k 0)| ≤ 6 / 10 ^ 5 * ((obsTimes tobs).getD (k + 1) 0 - (obsTimes tobs).getD k 0)
    have a := hrd (k + 1) hk
    have b := hlo k (by omega)
    have c := hrd k (by omega)
    have d := hsp k hk
    generalize (obsTimes tobs).getD (k + 1) 0 = x at a d ⊢
    generalize tarr.getD (k + 1) 0 = x' at a ⊢
    generalize (obsTimes tobs).getD k 0 = y at b c d ⊢
    generalize tarr.getD k 0 = y' at c ⊢
    rw [abs_le] at a c ⊢
    refine ⟨by linarith only [b, d], ?_, ?_⟩
    · linarith only [a.1, c.2, b, d]
    · linarith only [a.2, c.1, b, d]

theorem getLastD_twenty {l : List ℝ} (h : l.length = 20) : l.getLastD 0 = l.getD 19 0 := by
  rw [List.getD_eq_getElem?_getD, List.getLastD_eq_getLast?, List.getLast?_eq_getElem?, h]

/-- Increasing tables. -/
theorem tables_increasing {tobs : ℝ} (ht : 0.2 ≤ tobs) {tarr : List ℝ} (hr : List.Forall₂ (fun t t' : ℝ => |t' - t| ≤ t / 10 ^ 6) (obsTimes tobs) tarr) :
    Increasing (0.001 :: obsTimes tobs) ∧ Increasing (0.001 :: tarr) ∧ Increasing (0.002 :: tarr) := by
  have hl : tarr.length = 20 := hr.length_eq.symm.trans obsTimes_len
  have i1 : Increasing (0.001 :: tarr) := increasing_of_steps fun k hk => by
    have a := (steps_close ht hr k (hl ▸ hk)).2.2
    have b := (abs_le.1 a.2).1
    linarith only [a.1, b]
  refine ⟨increasing_of_steps fun k hk => sub_pos.1 (steps_close ht hr k (obsTimes_len ▸ hk)).2.2.1, i1, ?_⟩
  refine List.pairwise_cons.2 ⟨fun x hx => ?_, (List.pairwise_cons.1 i1).2⟩
  obtain ⟨k, hk, rfl⟩ := List.getElem_of_mem hx
  obtain ⟨a, b, -⟩ := steps_close ht hr k (hl ▸ hk)
  rw [List.getD_eq_getElem tarr _ hk] at b
  have := (abs_le.1 b).1
  generalize (obsTimes tobs).getD k 0 = x at a this
  norm_num at a ⊢
  linarith

/-- Log masses at the time of observation, from rates that agree within `κ` dex. -/
theorem logMass_float {L : Rounding.MathLib} (hlog : ∀ x, 0 < x → |L.log10 x - Real.logb 10 x| ≤ (1 + |Real.logb 10 x|) / 10 ^ 6) {tobs : ℝ} (ht : 0.2 ≤ tobs)
    {tarr : List ℝ} (hr : List.Forall₂ (fun t t' : ℝ => |t' - t| ≤ t / 10 ^ 6) (obsTimes tobs) tarr) {s s' : List ℝ} (hs : s.length = 20) (hs' : s'.length = 20)
    {κ B : ℝ} (hκ : 0 ≤ κ) (hd : ∀ k, k < 20 → 0 < s'.getD k 0 ∧ 0 < s.getD k 0 ∧ |Real.logb 10 (s'.getD k 0) - Real.logb 10 (s.getD k 0)| ≤ κ)
    (hB : |Spec.logMassAt tobs s| ≤ B) : |float32.logMassAt L tarr s' - Spec.logMassAt tobs s| ≤ 1.001 * κ + 0.00011 + B / 10 ^ 6 := by
  have hl : tarr.length = 20 := hr.length_eq.symm.trans obsTimes_len
  obtain ⟨i1, i2, i3⟩ := tables_increasing ht hr
  have h10 : (1 : ℝ) + 2.3 / 10 ^ 4 ≤ (10 : ℝ) ^ (1 / 10 ^ 4 : ℝ) := by
    rw [Real.rpow_def_of_pos (by norm_num)]
    have a := Real.add_one_le_exp (Real.log 10 * (1 / 10 ^ 4))
    have b := log_ten_gt
    norm_num at a b ⊢
    linarith only [a, b]
  have hstep : ∀ k, k < 20 → (0.001 :: tarr).getD (k + 1) 0 - (0.001 :: tarr).getD k 0 ≤
      (10 : ℝ) ^ (1 / 10 ^ 4 : ℝ) * ((0.001 :: obsTimes tobs).getD (k + 1) 0 - (0.001 :: obsTimes tobs).getD k 0) ∧
      (0.001 :: obsTimes tobs).getD (k + 1) 0 - (0.001 :: obsTimes tobs).getD k 0 ≤
      (10 : ℝ) ^ (1 / 10 ^ 4 : ℝ) * ((0.001 :: tarr).getD (k + 1) 0 - (0.001 :: tarr).getD k 0) := by
    intro k hk
    obtain ⟨-, -, a, b⟩ := steps_close ht hr k hk
    generalize (0.001 :: obsTimes tobs).getD (k + 1) 0 - (0.001 :: obsTimes tobs).getD k 0 = x at a b ⊢
    generalize (0.001 :: tarr).getD (k + 1) 0 - (0.001 :: tarr).getD k 0 = y at b ⊢
    rw [abs_le] at b
    constructor
    · have := mul_le_mul_of_nonneg_right h10 a.le
      linarith only [this, b.2, a]
    · have hy : 0 < y := by linarith only [a, b.1]
      have := mul_le_mul_of_nonneg_right h10 hy.le
      linarith only [this, b.1, a]
  have z0 : ∀ l : List ℝ, (0.001 :: l : List ℝ).getD (0 + 1) 0 - (0.001 :: l : List ℝ).getD 0 0 = l.getD 0 0 - 0.001 := fun _ => rfl
  have z1 : ∀ (l : List ℝ) k, (0.001 :: l : List ℝ).getD (k + 1 + 1) 0 - (0.001 :: l : List ℝ).getD (k + 1) 0 = l.getD (k + 1) 0 - l.getD k 0 :=
    fun _ _ => rfl
  have hc : 1 ≤ (10 : ℝ) ^ κ := Real.one_le_rpow (by norm_num) hκ
  have hlo : (obsTimes tobs).length = 20 := obsTimes_len
  have a := cmf_scale2 (t := obsTimes tobs) (t' := tarr) (s := s) (s' := s') (hl.trans hlo.symm) i1 i2 (hs.trans hlo.symm) (hs'.trans hlo.symm) hc
    (r := 10 ^ (1 / 10 ^ 4 : ℝ)) (fun k hk => by
      obtain ⟨p1, p2, p3⟩ := hd k (hlo ▸ hk)
      exact ⟨p1.le, le_of_logb p2 p1 (by linarith [(abs_le.1 p3).2])⟩)
    (fun h => by have := (hstep 0 (by norm_num)).1; rwa [z0, z0] at this) (fun k hk => by have := (hstep (k + 1) (hlo ▸ hk)).1; rwa [z1, z1] at this) 19 (by omega)
  have b := cmf_scale2 (t := tarr) (t' := obsTimes tobs) (s := s') (s' := s) (hlo.trans hl.symm) i2 i1 (hs'.trans hl.symm) (hs.trans hl.symm) hc
    (r := 10 ^ (1 / 10 ^ 4 : ℝ)) (fun k hk => by
      obtain ⟨p1, p2, p3⟩ := hd k (hl ▸ hk)
      exact ⟨p2.le, le_of_logb p1 p2 (by linarith [(abs_le.1 p3).1])⟩)
    (fun h => by have := (hstep 0 (by norm_num)).2; rwa [z0, z0] at this) (fun k hk => by have := (hstep (k + 1) (hl ▸ hk)).2; rwa [z1, z1] at this) 19 (by omega)
  have pos : ∀ {l : List ℝ}, l.length = 20 → (∀ k, k < 20 → 0 < l.getD k 0) → ∀ y ∈ l, 0 < y := by
    intro l hl h y hy
    obtain ⟨k, hk, rfl⟩ := List.getElem_of_mem hy
    have := h k (hl ▸ hk)
    rwa [List.getD_eq_getElem _ _ hk] at this
  have ps := pos hs fun k hk => (hd k hk).2.1
  have ps' := pos hs' fun k hk => (hd k hk).1
  have c := cmfFl_err float32 le_rfl (hs'.trans hl.symm) i3 (fun y hy => (ps' y hy).le) (k := 19) (by omega) (by norm_num)
  have m1 := cmf_length (obsTimes tobs) s (hs.trans hlo.symm)
  have m2 := cmf_length tarr s' (hs'.trans hl.symm)
  have q1 : 0 < (cumulativeMstarFormed (obsTimes tobs) s).getD 19 0 := by
    rw [List.getD_eq_getElem _ _ (by omega)]
    exact ((C12_smh_increasing _ _ (hs.trans hlo.symm) i1).1 ps).2.1 _ (List.getElem_mem _)
  have q2 : 0 < (cumulativeMstarFormed tarr s').getD 19 0 := by
    rw [List.getD_eq_getElem _ _ (by omega)]
    exact ((C12_smh_increasing _ _ (hs'.trans hl.symm) i2).1 ps').2.1 _ (List.getElem_mem _)
  have m3 : (float32.cumulativeMstarFormed tarr s').length = 20 :=
    (cmfFl_mono float32 le_rfl (hs'.trans hl.symm) i3 (fun y hy => (ps' y hy).le)).1.trans hl
  rw [Spec.logMassAt, getLastD_twenty (m1.trans hlo)] at hB ⊢
  rw [Rounding.logMassAt, getLastD_twenty m3]
  generalize (float32.cumulativeMstarFormed tarr s').getD 19 0 = M' at c ⊢
  generalize (cumulativeMstarFormed tarr s').getD 19 0 = M2 at a b c q2
  generalize (cumulativeMstarFormed (obsTimes tobs) s).getD 19 0 = M at a b q1 hB ⊢
  have hu : float32.u = 2 ^ (-24 : ℤ) := rfl
  rw [hu] at c
  obtain ⟨q3, d1⟩ := logb_of_rel q2 (e := 1.7 / 10 ^ 6) (by norm_num) (c.trans (mul_le_mul_of_nonneg_right (by norm_num) q2.le))
  rw [← Real.rpow_add (by norm_num)] at a b
  have key : ∀ {y z E : ℝ}, 0 < y → 0 < z → y ≤ (10 : ℝ) ^ E * z → Real.logb 10 y ≤ E + Real.logb 10 z := by
    intro y z E hy hz h
    have := Real.logb_le_logb_of_le (by norm_num : (1 : ℝ) < 10) hy h
    rwa [Real.logb_mul (by positivity) hz.ne', Real.logb_rpow (by norm_num) (by norm_num)] at this
  have a' := key q2 q1 a
  have b' := key q1 q2 b
  have e := hlog M' q3
  generalize Real.logb 10 M' = y' at *
  generalize Real.logb 10 M2 = y2 at *
  generalize Real.logb 10 M = y at *
  have w : |y' - y| ≤ κ + 1.01 / 10 ^ 4 := by
    rw [abs_le] at d1 ⊢
    constructor <;> norm_num at * <;> linarith only [a', b', d1.1, d1.2]
  have w2 := abs_sub_abs_le_abs_sub y' y
  have w3 := abs_sub_le (L.log10 M') y' y
  generalize |y' - y| = Y at *
  generalize |y'| = Y' at *
  generalize |y| = Z at *
  generalize |L.log10 M' - y'| = V at *
  generalize |L.log10 M' - y| = V' at *
  norm_num at *
  linarith only [w, w2, w3, e, hB, hκ]

/-- Exact quenched fractions for parameters on the closed intervals. -/
theorem frac_unit {K : Type} (rng : Rng K) {p : PF → ℝ} (hp : InPopFloatBounds p) (logmp0 tpeak : ℝ) (upid : ℤ) (lgmu logmhost gyr : ℝ) (key : K) :
    0 ≤ (mcDiffstarParamsSinglegal rng p logmp0 tpeak upid lgmu logmhost gyr key).fracQ ∧
      (mcDiffstarParamsSinglegal rng p logmp0 tpeak upid lgmu logmhost gyr key).fracQ ≤ 1 := by
  simp only [mcDiffstarParamsSinglegal, mcDiffstarUParamsSinglegalKernel, diffstarpopMeansCovs, sfhPdfScalarKernel]
  split_ifs
  · simp only [fracQuenchCen, sfhPdfPart_apply]
    exact sigmoid_mem_Icc (sigmoid_mem_Icc (float_prob_field hp (.inl .frac_quench_cen_ylo_ylotpeak) (by simp) bnd)
      (float_prob_field hp (.inl .frac_quench_cen_ylo_yhitpeak) (by simp) bnd)) (float_prob_field hp (.inl .frac_quench_cen_yhi) (by simp) bnd)
  · have a : 0 ≤ fracQuenchSat (sfhPdfPart p) logmp0 tpeak ∧ fracQuenchSat (sfhPdfPart p) logmp0 tpeak ≤ 1 := by
      simp only [fracQuenchSat, sfhPdfPart_apply]
      exact sigmoid_mem_Icc (sigmoid_mem_Icc (float_prob_field hp (.inl .frac_quench_sat_ylo_ylotpeak) (by simp) bnd)
        (float_prob_field hp (.inl .frac_quench_sat_ylo_yhitpeak) (by simp) bnd)) (float_prob_field hp (.inl .frac_quench_sat_yhi) (by simp) bnd)
    have b := fracDelta_unit hp lgmu logmhost gyr
    simp only [getQprobSat]
    constructor <;> nlinarith

/-- Weights of the two branches from close quenched fractions. -/
theorem weights_close {n : ℕ} (hn : 0 < n) {fr fr' : Fin n → ℝ} (frp : ∀ i, 0 ≤ fr' i ∧ fr' i ≤ 1)
    (fd : ∀ i, |fr' i - fr i| ≤ 1.6 / 10 ^ 4) : (∀ j, 0 ≤ float32.branchWeights fr' j) ∧
    ∑ j, |float32.branchWeights fr' j - branchWeights fr j| ≤ 3.3 / 10 ^ 4 * ∑ j, branchWeights fr j ∧ 0 < ∑ j, float32.branchWeights fr' j := by
  have n0 : (0 : ℝ) < n := by exact_mod_cast hn
  have hW : ∑ j, branchWeights fr j = n := (C27_weights_sum _).2
  have wl : ∀ i, float32.branchWeights fr' (Fin.castAdd n i) = float32.fl (1 - fr' i) := by
    intro i
    rw [Rounding.branchWeights, Fin.append_left, one_mul, float32.idem]
  have wr : ∀ i, float32.branchWeights fr' (Fin.natAdd n i) = float32.fl (fr' i) := by
    intro i
    rw [Rounding.branchWeights, Fin.append_right, one_mul]
  have hu : float32.u ≤ 6 / 10 ^ 8 := by
    have : float32.u = 2 ^ (-24 : ℤ) := rfl
    rw [this]; norm_num
  have rd : ∀ x : ℝ, 0 ≤ x → x ≤ 1 → |float32.fl x - x| ≤ 6 / 10 ^ 8 := fun x h0 h1 => (float32.err x).trans (by
    rw [abs_of_nonneg h0]
    nlinarith [float32.u_nonneg])
  have dif : ∀ i, |float32.branchWeights fr' (Fin.castAdd n i) - branchWeights fr (Fin.castAdd n i)| +
      |float32.branchWeights fr' (Fin.natAdd n i) - branchWeights fr (Fin.natAdd n i)| ≤ 3.3 / 10 ^ 4 := by
    intro i
    rw [wl, wr, ((C27_weights_sum _).1 i).1, ((C27_weights_sum _).1 i).2]
    have a := rd (1 - fr' i) (by linarith [(frp i).2]) (by linarith [(frp i).1])
    have b := rd (fr' i) (frp i).1 (frp i).2
    have c := fd i
    have t1 := abs_sub_le (float32.fl (1 - fr' i)) (1 - fr' i) (1 - fr i)
    have t2 := abs_sub_le (float32.fl (fr' i)) (fr' i) (fr i)
    rw [sub_sub_sub_cancel_left, abs_sub_comm (fr i)] at t1
    norm_num at a b c ⊢
    linarith only [a, b, c, t1, t2]
  have hε : ∑ j, |float32.branchWeights fr' j - branchWeights fr j| ≤ 3.3 / 10 ^ 4 * ∑ j, branchWeights fr j := by
    rw [hW, Fin.sum_univ_add, ← Finset.sum_add_distrib]
    refine (Finset.sum_le_sum fun i _ => dif i).trans (le_of_eq ?_)
    rw [Finset.sum_const, Finset.card_univ, Fintype.card_fin, nsmul_eq_mul, mul_comm]
  have w0 : ∀ j, 0 ≤ float32.branchWeights fr' j := fun j => by
    refine Fin.addCases (fun i => ?_) (fun i => ?_) j
    · rw [wl]; exact float32.fl_nonneg (by linarith [(frp i).2])
    · rw [wr]; exact float32.fl_nonneg (frp i).1
  have hpos' : 0 < ∑ j, float32.branchWeights fr' j := by
    have a : ∑ j, branchWeights fr j - ∑ j, |float32.branchWeights fr' j - branchWeights fr j| ≤
        ∑ j, float32.branchWeights fr' j := by
      rw [← Finset.sum_sub_distrib]
      exact Finset.sum_le_sum fun j _ => by linarith [neg_abs_le (float32.branchWeights fr' j - branchWeights fr j)]
    rw [hW] at a hε
    norm_num at hε
    linarith
  exact ⟨w0, hε, hpos'⟩

section

variable {L : Rounding.MathLib} (hL : Accurate L) (hlog : ∀ x, 0 < x → |L.log10 x - Real.logb 10 x| ≤ (1 + |Real.logb 10 x|) / 10 ^ 6)

/-- Star formation rates of one branch of one galaxy. -/
theorem branch_rates {M : Type*} (logMah : M → ℝ → ℝ → ℝ) (v : DiffstarParams ℝ) (mah : M) {lgt0 fb : ℝ} (hfb : 0 < fb) {tobs : ℝ} (ht : 0.2 ≤ tobs)
    {tarr : List ℝ} (hr : List.Forall₂ (fun t t' : ℝ => |t' - t| ≤ t / 10 ^ 6) (obsTimes tobs) tarr)
    (hm : ∀ k, k < 20 → |logMah mah ((obsTimes tobs).getD k 0) lgt0 - logMah mah (tarr.getD k 0) lgt0| ≤ 1 / 10 ^ 5) {l' : List ℝ} {δ : ℝ}
    (h : ∀ i, i < tarr.length → ∃ s' s, l'[i]? = some s' ∧ (calcSfhSinglegal logMah (getBoundedDiffstarParams v) mah tarr lgt0 fb)[i]? = some s ∧
      0 < s' ∧ 0 < s ∧ |Real.logb 10 s' - Real.logb 10 s| ≤ δ) (k : ℕ) (hk : k < 20) :
    0 < l'.getD k 0 ∧ 0 < (calcSfhSinglegal logMah (getBoundedDiffstarParams v) mah (obsTimes tobs) lgt0 fb).getD k 0 ∧
      |Real.logb 10 (l'.getD k 0) - Real.logb 10 ((calcSfhSinglegal logMah (getBoundedDiffstarParams v) mah (obsTimes tobs) lgt0 fb).getD k 0)| ≤ δ + 0.00681 := by
  have hl : tarr.length = 20 := hr.length_eq.symm.trans obsTimes_len
  have hlo : (obsTimes tobs).length = 20 := obsTimes_len
  have hb := C01_bounded_params_in_bounds v
  have d := hb.lgDrop
  have r := hb.lgRejuv
  have hq : (1 : ℝ) / 10 ^ 3 ≤ (10 : ℝ) ^ (getBoundedDiffstarParams v).qlglgdt := by
    have h := Real.rpow_le_rpow_of_exponent_le (show (1 : ℝ) ≤ 10 by norm_num) hb.qlglgdt.1.le
    refine le_trans (le_of_eq ?_) h
    rw [Real.rpow_neg (by norm_num)]
    norm_num
  obtain ⟨s', s, e', e, p', p, c⟩ := h k (by omega)
  have k1 : k < (obsTimes tobs).length := by omega
  have k2 : k < tarr.length := by omega
  obtain ⟨t1, t2, -⟩ := steps_close ht hr k hk
  have tm := hm k hk
  rw [List.getD_eq_getElem _ _ k1] at t1
  rw [List.getD_eq_getElem _ _ k1, List.getD_eq_getElem _ _ k2] at t2 tm
  have x0 : 0 < (obsTimes tobs)[k] := lt_of_lt_of_le (by norm_num) t1
  obtain ⟨x1, x2⟩ := logb_of_rel x0 (e := 1 / 10 ^ 6) (by norm_num) (t2.trans (by rw [one_div_mul_eq_div]))
  obtain ⟨y, y', f, f', g, g', c'⟩ := C151_rates logMah logMah (getBoundedDiffstarParams v) (A := 5) (D := 3) ⟨hb.indxLo.1.le, hb.indxLo.2.le⟩
      ⟨hb.indxHi.1.le, hb.indxHi.2.le⟩ (abs_le.2 ⟨by linarith, by linarith⟩) (abs_le.2 ⟨by linarith, by linarith⟩) mah mah (obsTimes tobs) tarr lgt0 lgt0
      fb hfb k k k1 k2 x0 x1
  obtain rfl : s = y' := Option.some.inj (e.symm.trans f')
  rw [List.getD_eq_getElem?_getD, List.getD_eq_getElem?_getD, e', f]
  refine ⟨p', g, ?_⟩
  simp only [Option.getD_some]
  rw [abs_sub_comm] at x2
  generalize |Real.logb 10 (obsTimes tobs)[k] - Real.logb 10 tarr[k]| = X at *
  have small : 4.375 * 3 * X / (10 : ℝ) ^ (getBoundedDiffstarParams v).qlglgdt ≤ 0.00674 := by
    rw [div_le_iff₀ (by linarith only [hq])]
    norm_num at x2 hq ⊢
    linarith only [hq, x2]
  have tri := abs_sub_le (Real.logb 10 s') (Real.logb 10 s) (Real.logb 10 y)
  rw [abs_sub_comm (Real.logb 10 s)] at tri
  generalize 4.375 * 3 * X / (10 : ℝ) ^ (getBoundedDiffstarParams v).qlglgdt = Y at *
  norm_num at *
  linarith only [tri, c, c', small, tm]

include hlog in
/-- One branch of one galaxy. -/
theorem branch_close {M : Type*} (logMah : M → ℝ → ℝ → ℝ) (v : DiffstarParams ℝ) (mah : M) {lgt0 fb : ℝ} (hfb : 0 < fb) {tobs : ℝ} (ht : 0.2 ≤ tobs)
    {tarr : List ℝ} (hr : List.Forall₂ (fun t t' : ℝ => |t' - t| ≤ t / 10 ^ 6) (obsTimes tobs) tarr)
    (hm : ∀ k, k < 20 → |logMah mah ((obsTimes tobs).getD k 0) lgt0 - logMah mah (tarr.getD k 0) lgt0| ≤ 1 / 10 ^ 5) {l' : List ℝ} (hl' : l'.length = 20)
    {δ B : ℝ} (hδ : 0 ≤ δ)
    (h : ∀ i, i < tarr.length → ∃ s' s, l'[i]? = some s' ∧ (calcSfhSinglegal logMah (getBoundedDiffstarParams v) mah tarr lgt0 fb)[i]? = some s ∧
      0 < s' ∧ 0 < s ∧ |Real.logb 10 s' - Real.logb 10 s| ≤ δ)
    (hB : |Spec.logMassAt tobs (calcSfhSinglegal logMah (getBoundedDiffstarParams v) mah (obsTimes tobs) lgt0 fb)| ≤ B) :
    |float32.logMassAt L tarr l' - Spec.logMassAt tobs (calcSfhSinglegal logMah (getBoundedDiffstarParams v) mah (obsTimes tobs) lgt0 fb)| ≤
      1.001 * δ + 0.007 + B / 10 ^ 6 := by
  have hlo : (obsTimes tobs).length = 20 := obsTimes_len
  refine (logMass_float hlog ht hr (s := calcSfhSinglegal logMah (getBoundedDiffstarParams v) mah (obsTimes tobs) lgt0 fb) (s' := l')
    (by rw [calcSfhSinglegal_eq, List.length_map, hlo]) hl' (κ := δ + 0.00681) (by norm_num; linarith) (branch_rates logMah v mah hfb ht hr hm h) hB).trans (by norm_num; linarith)

variable (logMah logMah' : MahParams ℝ → ℝ → ℝ → ℝ) {p : PF → ℝ} (hp : InPopFloatBounds p) (hl : UsableLines p)
  {K : Type} {rng : Rng K} {z : K → Fin 4 → ℝ} (hr : Reparametrised rng z) {n : ℕ} (h : HaloSample K n) (h5 : ∀ i, 5 ≤ h.logmp0 i ∧ h.logmp0 i ≤ 20)
  (ht : 0.2 ≤ h.tobs) (tarr : List ℝ) (htab : List.Forall₂ (fun t t' : ℝ => |t' - t| ≤ t / 10 ^ 6) (obsTimes h.tobs) tarr) (htop : ∀ t ∈ tarr, t ≤ 100)
  (lgt0 fb : ℝ) (hfb : 0 < fb) (hm : ∀ i, ∀ t ∈ tarr, 0 ≤ logMah (h.mah.row i) t lgt0 ∧ logMah (h.mah.row i) t lgt0 ≤ 20)
  (hm' : ∀ i, ∀ t ∈ tarr, |logMah' (h.mah.row i) t lgt0 - logMah (h.mah.row i) t lgt0| ≤ 1 / 10 ^ 5)
  (hm2 : ∀ i k, k < 20 → |logMah (h.mah.row i) ((obsTimes h.tobs).getD k 0) lgt0 - logMah (h.mah.row i) (tarr.getD k 0) lgt0| ≤ 1 / 10 ^ 5)
  {δ B : ℝ} (hδ : 0 ≤ δ)
  (hms : ∀ i, ∀ t ∈ tarr, msRateError p (z (rng.split (rng.split h.ranKey n i) 4 0)) (logMah (h.mah.row i) t lgt0) ≤ δ)
  (hq : ∀ i q, float32.mcParamsQ L.exp p (h.logmp0 i) (h.mah.tPeak i) (z (rng.split (rng.split h.ranKey n i) 4 1)) (z (rng.split (rng.split h.ranKey n i) 4 2)) = some q →
    ∀ t ∈ tarr, qRateError p (z (rng.split (rng.split h.ranKey n i) 4 1)) (z (rng.split (rng.split h.ranKey n i) 4 2)) q.qlglgdt (logMah (h.mah.row i) t lgt0) ≤ δ)
  (hB : ∀ i s, (mcSample rng logMah p h lgt0 fb i).sfhMs = some s ∨ (mcSample rng logMah p h lgt0 fb i).sfhQ = some s → |Spec.logMassAt h.tobs s| ≤ B)

include hL hlog hp hl hr h5 ht htab htop hfb hm hm' hm2 hδ hms hq hB

/-- Both branches of one galaxy. -/
theorem galaxy_close (i : Fin n) : ∃ ms q ms' q', (mcSample rng logMah p h lgt0 fb i).sfhMs = some ms ∧ (mcSample rng logMah p h lgt0 fb i).sfhQ = some q ∧
    float32.mcSfhMs L logMah' p (h.mah.row i) (h.logmp0 i) (z (rng.split (rng.split h.ranKey n i) 4 0)) tarr lgt0 fb = some ms' ∧
    float32.mcSfhQ L logMah' p (h.mah.row i) (h.logmp0 i) (z (rng.split (rng.split h.ranKey n i) 4 1)) (z (rng.split (rng.split h.ranKey n i) 4 2)) tarr lgt0 fb = some q' ∧
    |float32.logMassAt L tarr ms' - Spec.logMassAt h.tobs ms| ≤ 1.001 * δ + 0.007 + B / 10 ^ 6 ∧
    |float32.logMassAt L tarr q' - Spec.logMassAt h.tobs q| ≤ 1.001 * δ + 0.007 + B / 10 ^ 6 ∧
    (0 < ms'.getLastD 0 ∧ 0 < ms.getLastD 0 ∧ |Real.logb 10 (ms'.getLastD 0) - Real.logb 10 (ms.getLastD 0)| ≤ δ + 0.00681) ∧
    (0 < q'.getLastD 0 ∧ 0 < q.getLastD 0 ∧ |Real.logb 10 (q'.getLastD 0) - Real.logb 10 (q.getLastD 0)| ≤ δ + 0.00681) := by
  have hlen : tarr.length = 20 := htab.length_eq.symm.trans obsTimes_len
  have hrange : ∀ t ∈ tarr, 0.01 ≤ t ∧ t ≤ 100 := by
    intro t hx
    refine ⟨?_, htop t hx⟩
    obtain ⟨k, hk, rfl⟩ := List.getElem_of_mem hx
    obtain ⟨a, b, -⟩ := steps_close ht htab k (hlen ▸ hk)
    rw [List.getD_eq_getElem tarr _ hk] at b
    have := (abs_le.1 b).1
    generalize (obsTimes h.tobs).getD k 0 = x at a this
    norm_num at a ⊢
    linarith
  obtain ⟨l', l, e', e, n', -, c⟩ := C149_sfr_ms_partial hL logMah logMah' hp hl hr (h.mah.row i) (h5 i).1 (h5 i).2 (h.upid i) (h.lgmuInfall i)
    (h.logmhostInfall i) (h.gyrSinceInfall i) (rng.split h.ranKey n i) tarr lgt0 fb hfb hrange (hm i) (hm' i)
  obtain ⟨w, r', r, f0, -, f', f, m', -, d⟩ := C149_sfr_q_partial hL logMah logMah' hp hl hr (h.mah.row i) (h5 i).1 (h5 i).2 (h.upid i) (h.lgmuInfall i)
    (h.logmhostInfall i) (h.gyrSinceInfall i) (rng.split h.ranKey n i) tarr lgt0 fb hfb hrange (hm i) (hm' i)
  obtain ⟨q1, a1, rfl⟩ := Option.map_eq_some_iff.1 e
  obtain ⟨v1, b1, rfl⟩ := Option.map_eq_some_iff.1 a1
  obtain ⟨q2, a2, rfl⟩ := Option.map_eq_some_iff.1 f
  obtain ⟨v2, b2, rfl⟩ := Option.map_eq_some_iff.1 a2
  have s1 : (mcSample rng logMah p h lgt0 fb i).sfhMs =
      some (calcSfhSinglegal logMah (getBoundedDiffstarParams v1) (h.mah.row i) (obsTimes h.tobs) lgt0 fb) := Option.map_eq_some_iff.2 ⟨_, a1, rfl⟩
  have s2 : (mcSample rng logMah p h lgt0 fb i).sfhQ =
      some (calcSfhSinglegal logMah (getBoundedDiffstarParams v2) (h.mah.row i) (obsTimes h.tobs) lgt0 fb) := Option.map_eq_some_iff.2 ⟨_, a2, rfl⟩
  have k1 : ∀ k, k < tarr.length → ∃ s' s, l'[k]? = some s' ∧ (calcSfhSinglegal logMah (getBoundedDiffstarParams v1) (h.mah.row i) tarr lgt0 fb)[k]? = some s ∧
      0 < s' ∧ 0 < s ∧ |Real.logb 10 s' - Real.logb 10 s| ≤ δ := by
    intro k hk
    obtain ⟨s', s, g1, g2, g3, g4, g5⟩ := c k hk
    exact ⟨s', s, g1, g2, g3, g4, g5.trans (hms i _ (List.getElem_mem hk))⟩
  have k2 : ∀ k, k < tarr.length → ∃ s' s, r'[k]? = some s' ∧ (calcSfhSinglegal logMah (getBoundedDiffstarParams v2) (h.mah.row i) tarr lgt0 fb)[k]? = some s ∧
      0 < s' ∧ 0 < s ∧ |Real.logb 10 s' - Real.logb 10 s| ≤ δ := by
    intro k hk
    obtain ⟨s', s, g1, g2, g3, g4, g5⟩ := d k hk
    exact ⟨s', s, g1, g2, g3, g4, g5.trans (hq i _ f0 _ (List.getElem_mem hk))⟩
  have len : ∀ v, (calcSfhSinglegal logMah (getBoundedDiffstarParams v) (h.mah.row i) (obsTimes h.tobs) lgt0 fb).length = 20 := fun v => by
    rw [calcSfhSinglegal_eq, List.length_map, obsTimes_len]
  refine ⟨_, _, l', r', s1, s2, e', f', branch_close hlog logMah v1 (h.mah.row i) hfb ht htab (hm2 i) (n'.trans hlen) hδ k1 (hB i _ (Or.inl s1)),
    branch_close hlog logMah v2 (h.mah.row i) hfb ht htab (hm2 i) (m'.trans hlen) hδ k2 (hB i _ (Or.inr s2)), ?_, ?_⟩
  · rw [getLastD_twenty (n'.trans hlen), getLastD_twenty (len v1)]
    exact branch_rates logMah v1 (h.mah.row i) hfb ht htab (hm2 i) k1 19 (by norm_num)
  · rw [getLastD_twenty (m'.trans hlen), getLastD_twenty (len v2)]
    exact branch_rates logMah v2 (h.mah.row i) hfb ht htab (hm2 i) k2 19 (by norm_num)

/-- **C154**: the predicted stellar mass function of a target bin, computed in single precision from the halo catalogue on (draws, quenched fractions,
star formation histories, stellar masses, logarithms, histogram, sums in any order), is a number in every bin and follows the exact one.
`δ` bounds the errors of the rates (C149), `B` the exact log masses. -/
theorem C154_mass_function_partial (hn : 0 < n) {nb : ℕ} (hnb : 0 < nb) (bins : Fin (nb + 1) → ℝ) (hb : StrictMono bins) (pdf : Option (Fin nb → ℝ))
    (hpdf : float32.IsMstarPdf L logMah' rng z p h tarr lgt0 fb bins pdf) (he : 9 / 10 ^ 6 * nb + 3 / 10 ^ 7 * nb ^ 2 + 2 / 10 ^ 7 * n ≤ (1 / 20 : ℝ)) :
    let gals := mcSample rng logMah p h lgt0 fb
    let σ := (bins (Fin.last nb) - bins 0) / nb
    let Δ := 1.001 * δ + 0.007 + B / 10 ^ 6
    let inside := fun x => NdHist.twBinWeightLaxKern x σ (bins 0) (bins (Fin.last nb))
    (∀ ms q : Fin n → List ℝ, (∀ i, (gals i).sfhMs = some (ms i) ∧ (gals i).sfhQ = some (q i)) →
      0.501 + 0.37 * (Δ / σ) ≤ (∑ i, ((1 - (gals i).fracQ) * inside (Spec.logMassAt h.tobs (ms i)) + (gals i).fracQ * inside (Spec.logMassAt h.tobs (q i)))) / n) →
    ∃ f g, mstarPdf h.tobs gals bins = some f ∧ pdf = some g ∧
      ∀ b, |g b - f b| ≤ 1.46 * (Δ / σ) + 0.0014 + (4.5 / 10 ^ 5 * nb + 1.5 / 10 ^ 6 * nb ^ 2 + 1 / 10 ^ 6 * n) := by
  intro gals σ Δ inside hin
  have hσ : 0 < σ := width_pos hb hnb
  have n0 : (0 : ℝ) < n := by exact_mod_cast hn
  choose ms q ms' q' s1 s2 s3 s4 c1 c2 using galaxy_close hL hlog logMah logMah' hp hl hr h h5 ht tarr htab htop lgt0 fb hfb hm hm' hm2 hδ hms hq hB
  have hΔ : 0 ≤ Δ := (abs_nonneg _).trans (c1 ⟨0, hn⟩)
  replace hin := hin ms q fun i => ⟨s1 i, s2 i⟩
  have e0 := accurate_nonneg hL.exp
  set fr' : Fin n → ℝ := fun i => float32.fracQuench L.exp p (h.logmp0 i) (h.mah.tPeak i) (h.upid i) (h.lgmuInfall i) (h.logmhostInfall i) (h.gyrSinceInfall i)
    with hfr'
  have fr : ∀ i, 0 ≤ (gals i).fracQ ∧ (gals i).fracQ ≤ 1 := fun i => frac_unit rng hp (h.logmp0 i) (h.mah.tPeak i) (h.upid i) (h.lgmuInfall i) (h.logmhostInfall i) (h.gyrSinceInfall i) (rng.split h.ranKey n i)
  have frp : ∀ i, 0 ≤ fr' i ∧ fr' i ≤ 1 := fun i => C145_frac_quench_probability e0 hp _ _ _ _ _ _
  have fd : ∀ i, |fr' i - (gals i).fracQ| ≤ 1.6 / 10 ^ 4 := fun i =>
    (C145_frac_quench_error rng hL.exp hp (h.logmp0 i) (h.mah.tPeak i) (h.upid i) (h.lgmuInfall i) (h.logmhostInfall i) (h.gyrSinceInfall i)
      (rng.split h.ranKey n i)).trans (by split_ifs <;> norm_num)
  have hpdf' : float32.IsDiffHistMstar bins (Fin.append (fun i => float32.logMassAt L tarr (ms' i)) fun i => float32.logMassAt L tarr (q' i))
      (float32.branchWeights fr') pdf := by
    have a1 : allSome (fun i => float32.mcSfhMs L logMah' p (h.mah.row i) (h.logmp0 i) (z (rng.split (rng.split h.ranKey n i) 4 0)) tarr lgt0 fb) = some ms' :=
      (allSome_eq_some ..).2 s3
    have a2 : allSome (fun i => float32.mcSfhQ L logMah' p (h.mah.row i) (h.logmp0 i) (z (rng.split (rng.split h.ranKey n i) 4 1))
        (z (rng.split (rng.split h.ranKey n i) 4 2)) tarr lgt0 fb) = some q' := (allSome_eq_some ..).2 s4
    unfold Rounding.IsMstarPdf at hpdf
    dsimp only at hpdf
    rw [a1, a2] at hpdf
    exact hpdf
  have e1 : mstarPdf h.tobs gals bins = diffHistMstar bins (Fin.append (fun i => Spec.logMassAt h.tobs (ms i)) fun i => Spec.logMassAt h.tobs (q i))
      (branchWeights fun i => (gals i).fracQ) := by
    have h1 : allSome (fun i => (gals i).sfhMs) = some ms := (allSome_eq_some ..).2 s1
    have h2 : allSome (fun i => (gals i).sfhQ) = some q := (allSome_eq_some ..).2 s2
    rw [mstarPdf, h1, Option.bind_some, h2, Option.bind_some]
    rfl
  have hW : ∑ j, branchWeights (fun i => (gals i).fracQ) j = n := (C27_weights_sum _).2
  have hsh : shareInside bins (Fin.append (fun i => Spec.logMassAt h.tobs (ms i)) fun i => Spec.logMassAt h.tobs (q i)) (branchWeights fun i => (gals i).fracQ) =
      (∑ i, ((1 - (gals i).fracQ) * inside (Spec.logMassAt h.tobs (ms i)) + (gals i).fracQ * inside (Spec.logMassAt h.tobs (q i)))) / n := by
    rw [shareInside, hW, Fin.sum_univ_add, ← Finset.sum_add_distrib]
    simp only [Fin.append_left, Fin.append_right, ((C27_weights_sum _).1 _).1, ((C27_weights_sum _).1 _).2]
    rfl
  obtain ⟨w0, hε, hpos'⟩ := weights_close hn frp fd
  obtain ⟨f, g, g1, g2, g3⟩ := C150_single_precision float32 le_rfl hnb bins hb (Fin.append (fun i => Spec.logMassAt h.tobs (ms i)) fun i => Spec.logMassAt h.tobs (q i))
    (Fin.append (fun i => float32.logMassAt L tarr (ms' i)) fun i => float32.logMassAt L tarr (q' i)) (branchWeights fun i => (gals i).fracQ)
    (float32.branchWeights fr') (δ := Δ) (ε := 3.3 / 10 ^ 4) hΔ (fun j => by
      refine Fin.addCases (fun i => ?_) (fun i => ?_) j
      · rw [Fin.append_left, Fin.append_left]; exact c1 i
      · rw [Fin.append_right, Fin.append_right]; exact (c2 i).1) (branch_nonneg fr) w0 (by rw [hW]; exact n0) hpos' hε (by push_cast; linarith) pdf hpdf' (by
      rw [hsh]
      refine le_trans ?_ hin
      have : 0 ≤ Δ / σ := div_nonneg hΔ hσ.le
      change 1 / 2 + 35 / 96 * (Δ / σ) + _ ≤ _
      norm_num
      linarith)
  refine ⟨f, g, e1.trans g1, g2, fun b => (g3 b).trans ?_⟩
  have : 0 ≤ Δ / σ := div_nonneg hΔ hσ.le
  change 4 * (35 / 96 * (Δ / σ) + _) + _ ≤ _
  push_cast
  norm_num
  linarith

end

theorem sqrt_close_rel {a b η : ℝ} (ha : 0 ≤ a) (hη : η ≤ 1) (h : |b - a| ≤ η * a) : |Real.sqrt b - Real.sqrt a| ≤ η * Real.sqrt a := by
  rcases ha.eq_or_lt with rfl | ha
  · have : b = 0 := by simpa using h
    rw [this]
    simp
  have η0 : 0 ≤ η := by
    by_contra hc
    nlinarith [abs_nonneg (b - a)]
  have hb : 0 ≤ b := by nlinarith [neg_abs_le (b - a)]
  have s0 := Real.sqrt_pos.2 ha
  have e : (Real.sqrt b - Real.sqrt a) * (Real.sqrt b + Real.sqrt a) = b - a := by
    nlinarith [Real.mul_self_sqrt hb, Real.mul_self_sqrt ha.le]
  have e2 : |Real.sqrt b - Real.sqrt a| * (Real.sqrt b + Real.sqrt a) ≤ η * Real.sqrt a * Real.sqrt a := by
    rw [← abs_of_nonneg (show 0 ≤ Real.sqrt b + Real.sqrt a by positivity), ← abs_mul, e, mul_assoc, Real.mul_self_sqrt ha.le]
    exact h
  have e3 : |Real.sqrt b - Real.sqrt a| * Real.sqrt a ≤ η * Real.sqrt a * Real.sqrt a :=
    le_trans (mul_le_mul_of_nonneg_left (by linarith [Real.sqrt_nonneg b]) (abs_nonneg _)) e2
  exact le_of_mul_le_mul_right e3 s0

/-- **C154**, the loss: its square root, the root mean square misfit, moves by at most the error of the predictions and the rounding of the loss itself. -/
theorem C154_loss {K : Type} {nk n nb : ℕ} (rng : Rng K) (logMah : MahParams ℝ → ℝ → ℝ → ℝ) (u : PF → ℝ) (d : MstarData K nk n nb)
    (hN : nk * nb ≤ 100000) {v D : ℝ} (h : lossMstar rng logMah u d = some v) (h0 : 0 ≤ D) (g : Fin nk → Fin nb → ℝ)
    (hD : ∀ k f, mstarKernTobs rng logMah u d.samples d.lgt0 d.fb d.bins k = some f → ∀ b, |g k b - f b| ≤ D) (loss : ℝ)
    (hl : float32.IsLoss (ι := Fin nk × Fin nb) (fun i => g i.1 i.2) (fun i => d.target i.1 i.2) loss) :
    |Real.sqrt (loss / 1000) - Real.sqrt (v / 1000)| ≤ D + 7 / 10 ^ 8 * (nk * nb + 5) * (Real.sqrt (v / 1000) + D) := by
  obtain ⟨-, -, f, hf, e⟩ := C28_loss_mstar rng logMah u d v h
  have hc : 0 < Fintype.card (Fin nk × Fin nb) := by
    rw [Nat.pos_iff_ne_zero]
    intro hc
    simp only [lossMstar, mse, Option.map_eq_some_iff, Option.bind_eq_some_iff, if_pos hc] at h
    obtain ⟨_, ⟨_, _, h⟩, _⟩ := h
    cases h
  have hNp : (0 : ℝ) < Fintype.card (Fin nk × Fin nb) := by exact_mod_cast hc
  have hN' : (Fintype.card (Fin nk × Fin nb) : ℝ) = nk * nb := by
    rw [Fintype.card_prod, Fintype.card_fin, Fintype.card_fin, Nat.cast_mul]
  have q : v / 1000 = (∑ i : Fin nk × Fin nb, (f i.1 i.2 - d.target i.1 i.2) ^ 2) / Fintype.card (Fin nk × Fin nb) := by
    rw [eq_div_iff hNp.ne', Fintype.sum_prod_type, hN']
    linarith
  have hd : ∀ i : Fin nk × Fin nb, |g i.1 i.2 - f i.1 i.2| ≤ D := fun i => hD i.1 (f i.1) (hf i.1) i.2
  have a := rms_le (fun i : Fin nk × Fin nb => f i.1 i.2 - d.target i.1 i.2) (fun i => g i.1 i.2 - d.target i.1 i.2) h0
    (fun i => by rw [show g i.1 i.2 - d.target i.1 i.2 - (f i.1 i.2 - d.target i.1 i.2) = g i.1 i.2 - f i.1 i.2 by ring]; exact hd i) hc
  have b := rms_le (fun i : Fin nk × Fin nb => g i.1 i.2 - d.target i.1 i.2) (fun i => f i.1 i.2 - d.target i.1 i.2) h0
    (fun i => by rw [show f i.1 i.2 - d.target i.1 i.2 - (g i.1 i.2 - d.target i.1 i.2) = -(g i.1 i.2 - f i.1 i.2) by ring, abs_neg]; exact hd i) hc
  have c := C139_loss_rounding float32 le_rfl (by rw [Fintype.card_prod, Fintype.card_fin, Fintype.card_fin]; exact hN) _ _ loss hl
  have n5 : (Fintype.card (Fin nk × Fin nb) : ℝ) ≤ 100000 := by
    rw [hN']
    exact_mod_cast hN
  dsimp only at c
  rw [q]
  rw [← hN']
  set M := (∑ i : Fin nk × Fin nb, (g i.1 i.2 - d.target i.1 i.2) ^ 2) / (Fintype.card (Fin nk × Fin nb) : ℝ) with hM
  have M0 : 0 ≤ M := div_nonneg (Finset.sum_nonneg fun i _ => sq_nonneg _) hNp.le
  have c' : |loss / 1000 - M| ≤ 7 / 10 ^ 8 * (Fintype.card (Fin nk × Fin nb) + 5) * M := by
    rw [abs_le] at c ⊢
    constructor <;> linarith
  have s := sqrt_close_rel M0 (by linarith) c'
  have η0 : (0 : ℝ) ≤ 7 / 10 ^ 8 * (Fintype.card (Fin nk × Fin nb) + 5) := by positivity
  have s2 := mul_le_mul_of_nonneg_left a η0
  rw [abs_le] at s ⊢
  constructor <;> linarith

/-- There always is a result. -/
theorem isMstarPdf_exists (L : Rounding.MathLib) (logMah : MahParams ℝ → ℝ → ℝ → ℝ) {K : Type} (rng : Rng K) (z : K → Fin 4 → ℝ) (p : PF → ℝ) {n nb : ℕ}
    (h : HaloSample K n) (tarr : List ℝ) (lgt0 fb : ℝ) (bins : Fin (nb + 1) → ℝ) : ∃ pdf, float32.IsMstarPdf L logMah rng z p h tarr lgt0 fb bins pdf := by
  unfold Rounding.IsMstarPdf
  dsimp only
  split
  · exact isDiffHistMstar_exists ..
  · exact ⟨none, rfl⟩

/-- A halo of `10 ** 12` observed at 10 Gyr. -/
noncomputable def lateHalo : HaloSample Unit 1 := { oneHalo with tobs := 10 }

/-- One halo of constant mass, observed at 10 Gyr, population parameters three quarters up their intervals, library functions correctly rounded,
the times of the table not rounded. There are bounds `δ`, `B` and bins that contain the galaxy. -/
example : ∃ (L : Rounding.MathLib) (p : PF → ℝ) (δ B c : ℝ),
    let h := lateHalo
    let logMah := fun (_ : MahParams ℝ) (_ _ : ℝ) => (12 : ℝ)
    let gals := mcSample oneSigmaRng logMah p h 1.14 0.16
    let z := fun (_ : Unit) (_ : Fin 4) => (1 : ℝ)
    Accurate L ∧ (∀ x, 0 < x → |L.log10 x - Real.logb 10 x| ≤ (1 + |Real.logb 10 x|) / 10 ^ 6) ∧ InPopFloatBounds p ∧ UsableLines p ∧
    Reparametrised oneSigmaRng z ∧ (∀ i, 5 ≤ h.logmp0 i ∧ h.logmp0 i ≤ 20) ∧ 0.2 ≤ h.tobs ∧
    List.Forall₂ (fun t t' : ℝ => |t' - t| ≤ t / 10 ^ 6) (obsTimes h.tobs) (obsTimes h.tobs) ∧ (∀ t ∈ obsTimes h.tobs, t ≤ 100) ∧ 0 ≤ δ ∧ 0 < c ∧
    (∀ i, ∀ t ∈ obsTimes h.tobs, msRateError p (z ()) (logMah (h.mah.row i) t 1.14) ≤ δ) ∧
    (∀ i q, float32.mcParamsQ L.exp p (h.logmp0 i) (h.mah.tPeak i) (z ()) (z ()) = some q → ∀ t ∈ obsTimes h.tobs,
      qRateError p (z ()) (z ()) q.qlglgdt (logMah (h.mah.row i) t 1.14) ≤ δ) ∧
    (∀ i s, (gals i).sfhMs = some s ∨ (gals i).sfhQ = some s → |Spec.logMassAt h.tobs s| ≤ B) ∧ StrictMono (wideBins c) ∧
    (∃ pdf, float32.IsMstarPdf L logMah oneSigmaRng z p h (obsTimes h.tobs) 1.14 0.16 (wideBins c) pdf) ∧
    (9 / 10 ^ 6 * (8 : ℕ) + 3 / 10 ^ 7 * (8 : ℕ) ^ 2 + 2 / 10 ^ 7 * (1 : ℕ) ≤ (1 / 20 : ℝ)) ∧
    let σ := (wideBins c (Fin.last 8) - wideBins c 0) / (8 : ℕ)
    let Δ := 1.001 * δ + 0.007 + B / 10 ^ 6
    let inside := fun x => NdHist.twBinWeightLaxKern x σ (wideBins c 0) (wideBins c (Fin.last 8))
    ∀ ms q : Fin 1 → List ℝ, (∀ i, (gals i).sfhMs = some (ms i) ∧ (gals i).sfhQ = some (q i)) →
      0.501 + 0.37 * (Δ / σ) ≤ (∑ i, ((1 - (gals i).fracQ) * inside (Spec.logMassAt h.tobs (ms i)) + (gals i).fracQ * inside (Spec.logMassAt h.tobs (q i)))) / (1 : ℕ) := by
  set L : Rounding.MathLib := ⟨fun x => float32.fl (Real.exp x), fun x => float32.fl ((10 : ℝ) ^ x), fun x => float32.fl (Real.logb 10 x)⟩ with hL
  set gals := mcSample oneSigmaRng (fun (_ : MahParams ℝ) (_ _ : ℝ) => (12 : ℝ)) threeQuarters lateHalo 1.14 0.16 with hg
  set a := |msRateError threeQuarters (fun _ => 1) 12| with ha
  obtain ⟨b, b0, hb⟩ : ∃ b : ℝ, 0 ≤ b ∧ ∀ q, float32.mcParamsQ L.exp threeQuarters (lateHalo.logmp0 0) (lateHalo.mah.tPeak 0) (fun _ => 1) (fun _ => 1) = some q →
      qRateError threeQuarters (fun _ => 1) (fun _ => 1) q.qlglgdt 12 ≤ b := by
    rcases hq : float32.mcParamsQ L.exp threeQuarters (lateHalo.logmp0 0) (lateHalo.mah.tPeak 0) (fun _ => 1) (fun _ => 1) with _ | q
    · exact ⟨0, le_rfl, fun q hq => by cases hq⟩
    · exact ⟨|qRateError threeQuarters (fun _ => 1) (fun _ => 1) q.qlglgdt 12|, abs_nonneg _, fun q' hq' => by
        cases hq'
        exact le_abs_self _⟩
  have bd : ∀ o : Option (List ℝ), ∃ B : ℝ, 0 ≤ B ∧ ∀ s, o = some s → |Spec.logMassAt lateHalo.tobs s| ≤ B := by
    rintro (_ | s)
    · exact ⟨0, le_rfl, fun s hs => by cases hs⟩
    · exact ⟨|Spec.logMassAt lateHalo.tobs s|, abs_nonneg _, fun s' hs' => by cases hs'; exact le_rfl⟩
  obtain ⟨B1, B10, hB1⟩ := bd (gals 0).sfhMs
  obtain ⟨B2, B20, hB2⟩ := bd (gals 0).sfhQ
  have hB : ∀ i s, (gals i).sfhMs = some s ∨ (gals i).sfhQ = some s → |Spec.logMassAt lateHalo.tobs s| ≤ B1 + B2 := by
    intro i s hs
    rw [Fin.fin_one_eq_zero i] at hs
    rcases hs with hs | hs
    · linarith [hB1 s hs]
    · linarith [hB2 s hs]
  set c := 1.001 * (a + b) + 0.007 + (B1 + B2) + 1 with hc
  have a0 : 0 ≤ a := abs_nonneg _
  have c0 : 0 < c := by positivity
  have tt : ∀ t ∈ obsTimes lateHalo.tobs, 0 ≤ t ∧ t ≤ 100 := by
    intro t ht
    obtain ⟨k, hk, rfl⟩ := List.getElem_of_mem ht
    rw [← List.getD_eq_getElem _ 0, obsTimes_get k (by rw [obsTimes_len] at hk; exact hk)]
    have hk' : (k : ℝ) ≤ 19 := by
      rw [obsTimes_len] at hk
      exact_mod_cast Nat.le_of_lt_succ hk
    refine ⟨by positivity, ?_⟩
    have h1 : Real.logb 10 lateHalo.tobs = 1 := Real.logb_self_eq_one (by norm_num)
    rw [h1]
    calc (10 : ℝ) ^ (-1 + (k : ℝ) * ((1 - -1) / 19)) ≤ (10 : ℝ) ^ (2 : ℝ) := Real.rpow_le_rpow_of_exponent_le (by norm_num) (by linarith)
      _ = 100 := by norm_num
  refine ⟨L, threeQuarters, a + b, B1 + B2, c, accurate_rounded, fun x hx => ?_, threeQuarters_ok.1, threeQuarters_ok.2, oneSigmaRng_reparametrised, ?_, ?_,
    List.forall₂_same.2 fun t ht => ?_, fun t ht => (tt t ht).2, by positivity, c0, fun i t _ => ?_, fun i q hq t _ => ?_, hB,
    (wideBins_ok (x := 0) c0 (by rw [abs_zero]; exact c0.le)).1, isMstarPdf_exists .., by norm_num, ?_⟩
  · refine (float32.err _).trans ?_
    have : float32.u = 2 ^ (-24 : ℤ) := rfl
    rw [this]
    have := abs_nonneg (Real.logb 10 x)
    norm_num
    linarith
  · intro i; simp only [lateHalo, oneHalo]; norm_num
  · simp only [lateHalo]; norm_num
  · rw [sub_self, abs_zero]
    exact div_nonneg (tt t ht).1 (by norm_num)
  · exact (le_abs_self _).trans (by linarith)
  · rw [Fin.fin_one_eq_zero i] at hq
    exact (hb q hq).trans (by linarith)
  · intro σ Δ inside ms q hs
    have e := fun x hx => (wideBins_ok (c := c) (x := x) c0 hx).2
    have m1 := (e _ ((hB 0 (ms 0) (.inl (hs 0).1)).trans (by linarith))).2
    have m2 := (e _ ((hB 0 (q 0) (.inr (hs 0).2)).trans (by linarith))).2
    have hσ : σ = c := (e 0 (by rw [abs_zero]; exact c0.le)).1
    have hd : Δ / σ ≤ 1 := by
      rw [hσ, div_le_one c0]
      change 1.001 * (a + b) + 0.007 + (B1 + B2) / 10 ^ 6 ≤ _
      rw [hc]
      norm_num
      linarith
    rw [Fin.sum_univ_one]
    simp only [inside, hσ]
    rw [m1, m2, ← hσ]
    norm_num at hd ⊢
    linarith

end Diffstar.Props
