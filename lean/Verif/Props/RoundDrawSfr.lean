import Verif.Props.RoundDraw

/-! C149: star formation rates of drawn galaxies in single precision. -/

namespace Diffstar.Props

open Diffstar Diffstar.Spec Diffstar.Pop

/-- A relative error in dex. -/
theorem logb_of_rel {a b e : ℝ} (hb : 0 < b) (he : e ≤ 0.0125) (h : |a - b| ≤ e * b) : 0 < a ∧ |Real.logb 10 a - Real.logb 10 b| ≤ 0.51 * e := by
  have c := abs_le.1 h
  have e0 : 0 ≤ e := by
    by_contra hn
    have := abs_nonneg (a - b)
    nlinarith
  have ha : 0 < a := by nlinarith
  refine ⟨ha, ?_⟩
  have l10 : 2 ≤ Real.log 10 := by
    rw [Real.le_log_iff_exp_le (by norm_num)]
    have := Real.exp_one_lt_d9
    have h2 : Real.exp 2 = Real.exp 1 * Real.exp 1 := by rw [← Real.exp_add]; norm_num
    have := Real.exp_pos 1
    rw [h2]
    nlinarith
  rw [Real.logb, Real.logb, ← sub_div, abs_div, abs_of_pos (show 0 < Real.log 10 by linarith), div_le_iff₀ (by linarith)]
  have key : |Real.log a - Real.log b| ≤ 1.02 * e := by
    rw [abs_le]
    have h1 := Real.log_le_sub_one_of_pos (div_pos ha hb)
    have h2 := Real.log_le_sub_one_of_pos (div_pos hb ha)
    rw [Real.log_div ha.ne' hb.ne'] at h1
    rw [Real.log_div hb.ne' ha.ne'] at h2
    have h3 : a / b ≤ 1 + e := by rw [div_le_iff₀ hb]; nlinarith
    have h4 : b / a ≤ 1 + 1.02 * e := by rw [div_le_iff₀ ha]; nlinarith
    constructor <;> linarith
  nlinarith

section

variable {L : Rounding.MathLib} (hL : Accurate L) (logMah logMah' : MahParams ℝ → ℝ → ℝ → ℝ) (v v' : DiffstarParams ℝ) (mah : MahParams ℝ)
  (tarr : List ℝ) (lgt0 fb : ℝ) (hfb : 0 < fb) (ht : ∀ t ∈ tarr, 0.01 ≤ t ∧ t ≤ 100)
  (hm : ∀ t ∈ tarr, 0 ≤ logMah mah t lgt0 ∧ logMah mah t lgt0 ≤ 20) (hm' : ∀ t ∈ tarr, |logMah' mah t lgt0 - logMah mah t lgt0| ≤ 1 / 10 ^ 5)

include hL hfb ht hm hm'

theorem drawn_sfr (i : ℕ) (hi : i < tarr.length) : let q' := float32.getBoundedDiffstarParams L.exp v'
    let q := getBoundedDiffstarParams v
    ∃ s' s, (float32.calcSfhSinglegalSmh L logMah' q' mah tarr lgt0 fb).sfh[i]? = some s' ∧ (calcSfhSinglegal logMah q mah tarr lgt0 fb)[i]? = some s ∧
      0 < s' ∧ 0 < s ∧ |Real.logb 10 s' - Real.logb 10 s| ≤ |q'.lgyAtMcrit - q.lgyAtMcrit| + 8.5 * |q'.lgmcrit - q.lgmcrit| +
        (|logMah mah tarr[i] lgt0 - 11.25| + 2.25) * max |q'.indxLo - q.indxLo| |q'.indxHi - q.indxHi| + |q'.lgDrop - q.lgDrop| + |q'.lgRejuv - q.lgRejuv| +
        (14 * |q'.lgQt - q.lgQt| + 1 / 10 ^ 5) / (10 : ℝ) ^ q'.qlglgdt + 7 * ((10 : ℝ) ^ |q'.qlglgdt - q.qlglgdt| - 1) + 0.0011 := by
  intro q' q
  have hq' : InFloatBounds q' := inFloatBounds_bounded L.exp (accurate_nonneg hL.exp) v'
  have htm : tarr[i] ∈ tarr := List.getElem_mem hi
  have f := C127_sfr_error float32 le_rfl hL logMah logMah' q' hq' mah tarr lgt0 fb hfb ht hm hm'
  obtain ⟨s1, s, e1, e, h1⟩ := C113_sfr_stability logMah q' q (nearBounds_bounded v) mah tarr lgt0 fb hfb i hi (by linarith [(ht _ htm).1])
  have hl1 : i < (calcSfhSinglegal logMah q' mah tarr lgt0 fb).length := (List.getElem?_eq_some_iff.1 e1).1
  have hl2 : i < (float32.calcSfhSinglegalSmh L logMah' q' mah tarr lgt0 fb).sfh.length := by rw [f.length_eq]; exact hl1
  have f1 := f.get hl2 hl1
  simp only [List.get_eq_getElem] at f1
  have e1' := (List.getElem?_eq_some_iff.1 e1).2
  rw [e1'] at f1
  have pos : ∀ q x, (calcSfhSinglegal logMah q mah tarr lgt0 fb)[i]? = some x → 0 < x := by
    intro q x h
    rw [calcSfhSinglegal_eq, List.getElem?_map, List.getElem?_eq_getElem hi] at h
    cases h
    exact lt_of_lt_of_le (by norm_num [SFR_MIN]) (le_max_left _ _)
  have hdt : (1 / 1000 : ℝ) ≤ (10 : ℝ) ^ q'.qlglgdt := by
    have := Real.rpow_le_rpow_of_exponent_le (show (1 : ℝ) ≤ 10 by norm_num) hq'.qlglgdt.1
    refine le_trans (le_of_eq ?_) this
    rw [show (-3 : ℝ) = ((-3 : ℤ) : ℝ) by norm_num, Real.rpow_intCast]; norm_num
  have hX : 1 / 10 ^ 5 / (10 : ℝ) ^ q'.qlglgdt ≤ 0.0105 := by
    rw [div_le_iff₀ (by positivity)]
    norm_num at hdt ⊢
    linarith
  obtain ⟨p', hd⟩ := logb_of_rel (pos _ _ e1) (by linarith) f1
  refine ⟨_, s, List.getElem?_eq_getElem hl2, e, p', pos _ _ e, ?_⟩
  have h3 : |logMah mah tarr[i] lgt0 - q'.lgmcrit| ≤ |logMah mah tarr[i] lgt0 - 11.25| + 2.25 := by
    refine (abs_sub_le _ 11.25 _).trans (add_le_add le_rfl ?_)
    have := hq'.lgmcrit
    rw [abs_le]
    constructor <;> norm_num at * <;> linarith
  have h4 := mul_le_mul_of_nonneg_right h3 (le_max_of_le_left (b := |q'.indxLo - q.indxLo|) (c := |q'.indxHi - q.indxHi|) (abs_nonneg (q'.indxLo - q.indxLo)))
  have h5 := abs_sub_le (Real.logb 10 (float32.calcSfhSinglegalSmh L logMah' q' mah tarr lgt0 fb).sfh[i]) (Real.logb 10 s1) (Real.logb 10 s)
  have hX0 : 0 ≤ 1 / 10 ^ 5 / (10 : ℝ) ^ q'.qlglgdt := by positivity
  rw [add_div]
  linarith

end

theorem pow10_sub_one {d : ℝ} (h0 : 0 ≤ d) (h : d ≤ 0.03) : (10 : ℝ) ^ d - 1 ≤ 3.3 * d := by
  have l3 := log_ten_lt_three
  have l0 : 0 < Real.log 10 := Real.log_pos (by norm_num)
  rw [Real.rpow_def_of_pos (by norm_num)]
  have a := Real.add_one_le_exp (-(Real.log 10 * d))
  rw [Real.exp_neg] at a
  have p := Real.exp_pos (Real.log 10 * d)
  have b : (1 - Real.log 10 * d) * Real.exp (Real.log 10 * d) ≤ 1 := by
    have := mul_le_mul_of_nonneg_right a p.le
    rw [inv_mul_cancel₀ p.ne'] at this
    linarith
  have c : Real.log 10 * d ≤ 3 * d := mul_le_mul_of_nonneg_right l3.le h0
  nlinarith

theorem sfhFl_length (R : Rounding) (L : Rounding.MathLib) {logMah : MahParams ℝ → ℝ → ℝ → ℝ} {q : DiffstarParams ℝ} {mah : MahParams ℝ} {tarr : List ℝ}
    {lgt0 fb : ℝ} : (R.calcSfhSinglegalSmh L logMah q mah tarr lgt0 fb).sfh.length = tarr.length := by
  simp [Rounding.calcSfhSinglegalSmh]

theorem sfh_length {logMah : MahParams ℝ → ℝ → ℝ → ℝ} {q : DiffstarParams ℝ} {mah : MahParams ℝ} {tarr : List ℝ}
    {lgt0 fb : ℝ} : (calcSfhSinglegal logMah q mah tarr lgt0 fb).length = tarr.length := by
  rw [calcSfhSinglegal_eq, List.length_map]

/-- Duration of the quenching event of main-sequence galaxies. -/
theorem duration_ms {x : ℝ} : -0.05 ≤ (getBoundedDiffstarParams (DiffstarParams.join ⟨a, b, c, d⟩ ⟨5, 5, 5, x⟩)).qlglgdt := by
  simp only [bounded_eq, DiffstarParams.join, sigmoid]
  have h2 : (2.7 : ℝ) ^ 8 ≤ Real.exp 1 ^ 8 := pow_le_pow_left₀ (by norm_num) (by linarith [Real.exp_one_gt_d9]) _
  rw [← Real.exp_nat_mul, mul_one] at h2
  have h3 : Real.exp ((8 : ℕ) : ℝ) ≤ Real.exp (4 / 2.99 * (5 - -1.505)) := Real.exp_le_exp.2 (by norm_num)
  have h4 : (1000 : ℝ) ≤ Real.exp (4 / 2.99 * (5 - -1.505)) := le_trans (by norm_num) (h2.trans h3)
  have h5 : 0.99 ≤ nnSigmoid (4 / 2.99 * (5 - -1.505)) := by
    rw [nnSigmoid, le_div_iff₀ (by positivity), Real.exp_neg]
    have : (Real.exp (4 / 2.99 * (5 - -1.505)))⁻¹ ≤ 1000⁻¹ := inv_anti₀ (by norm_num) h4
    norm_num at *
    linarith
  norm_num at h5 ⊢
  linarith

section

variable {L : Rounding.MathLib} (hL : Accurate L) (logMah logMah' : MahParams ℝ → ℝ → ℝ → ℝ) {p : PF → ℝ} (hp : InPopFloatBounds p) (hl : UsableLines p)
  {K : Type} {rng : Rng K} {z : K → Fin 4 → ℝ} (hr : Reparametrised rng z) (mah : MahParams ℝ) {m : ℝ} (h0 : 5 ≤ m) (h1 : m ≤ 20)
  (upid : ℤ) (a b c : ℝ) (key : K)
  (tarr : List ℝ) (lgt0 fb : ℝ) (hfb : 0 < fb) (ht : ∀ t ∈ tarr, 0.01 ≤ t ∧ t ≤ 100)
  (hm : ∀ t ∈ tarr, 0 ≤ logMah mah t lgt0 ∧ logMah mah t lgt0 ≤ 20) (hm' : ∀ t ∈ tarr, |logMah' mah t lgt0 - logMah mah t lgt0| ≤ 1 / 10 ^ 5)

include hL hp hl hr h0 h1 hfb ht hm hm'

/-- **C149**, main sequence: star formation rates in dex. -/
theorem C149_sfr_ms_partial : ∃ l' l, float32.mcSfhMs L logMah' p mah m (z (rng.split key 4 0)) tarr lgt0 fb = some l' ∧
    (mcDiffstarSfhSinglegal rng logMah p mah m upid a b c key tarr lgt0 fb).sfhMs = some l ∧ l'.length = tarr.length ∧ l.length = tarr.length ∧
    let zm := fun i => |z (rng.split key 4 0) i|
    ∀ i (hi : i < tarr.length), ∃ s' s, l'[i]? = some s' ∧ l[i]? = some s ∧ 0 < s' ∧ 0 < s ∧ |Real.logb 10 s' - Real.logb 10 s| ≤
      (122 + 34 * zm 0 + 4 * zm 1 + (|logMah mah tarr[i] lgt0 - 11.25| + 2.25) *
        (3 + 1.5 * max |p (.inl .mean_ul_mseq_slp)| |p (.inl .mean_uh_mseq_slp)| + 4 * max (zm 2) (zm 3))) / 10 ^ 4 := by
  obtain ⟨q', q, e', e, k0, k1, k2, k3, k4, k5, k6, k7⟩ := C148_params_ms_partial hL.exp hp hr hl h0 h1 mah.tPeak upid a b c key
  have w1 : float32.mcSfhMs L logMah' p mah m (z (rng.split key 4 0)) tarr lgt0 fb =
      some (float32.calcSfhSinglegalSmh L logMah' q' mah tarr lgt0 fb).sfh := by rw [Rounding.mcSfhMs, e', Option.map_some]
  have w2 : (mcDiffstarSfhSinglegal rng logMah p mah m upid a b c key tarr lgt0 fb).sfhMs = some (calcSfhSinglegal logMah q mah tarr lgt0 fb) := by
    simp only [mcDiffstarSfhSinglegal, e, Option.map_some]
  refine ⟨_, _, w1, w2, sfhFl_length .., sfh_length .., ?_⟩
  clear w1 w2
  have hd : -0.05 ≤ q.qlglgdt := by
    simp only [mcDiffstarParamsSinglegal, mcDiffstarUParamsSinglegalKernel, diffstarpopMeansCovs, sfhPdfScalarKernel, drawMs, Option.map_eq_some_iff,
      Option.bind_eq_bind, Option.bind_eq_some_iff, Option.pure_def, Option.some.injEq] at e
    obtain ⟨v, ⟨mu, -, C, -, rfl⟩, rfl⟩ := e
    exact duration_ms
  have hv' : ∃ v', q' = float32.getBoundedDiffstarParams L.exp v' := by
    simp only [Rounding.mcParamsMs, Option.bind_eq_bind, Option.bind_eq_some_iff, Option.pure_def, Option.some.injEq] at e'
    obtain ⟨_, -, _, -, rfl⟩ := e'
    exact ⟨_, rfl⟩
  have hv : ∃ v, q = getBoundedDiffstarParams v := by
    simp only [mcDiffstarParamsSinglegal, Option.map_eq_some_iff] at e
    obtain ⟨v, -, rfl⟩ := e
    exact ⟨v, rfl⟩
  obtain ⟨v', rfl⟩ := hv'
  obtain ⟨v, rfl⟩ := hv
  intro zm i hi
  change _ ≤ (7 + 4 * zm 0) / _ at k0
  change _ ≤ (7 + 4 * zm 1) / _ at k1
  change _ ≤ (3 + _ + 4 * zm 2) / _ at k2
  change _ ≤ (3 + _ + 4 * zm 3) / _ at k3
  clear_value zm
  obtain ⟨s', s, g', g, p', p0, hs⟩ := drawn_sfr hL logMah logMah' v v' mah tarr lgt0 fb hfb ht hm hm' i hi
  refine ⟨s', s, g', g, p', p0, hs.trans ?_⟩
  clear hs g g' e e'
  generalize float32.getBoundedDiffstarParams L.exp v' = q' at *
  generalize getBoundedDiffstarParams v = q at *
  have t1 : (10 : ℝ) ^ |q'.qlglgdt - q.qlglgdt| - 1 ≤ 3.3 / 10 ^ 4 :=
    (pow10_sub_one (abs_nonneg _) (k5.trans (by norm_num))).trans (by linarith)
  have t2 : (0.8 : ℝ) ≤ (10 : ℝ) ^ q'.qlglgdt := by
    have hq : -0.0502 ≤ q'.qlglgdt := by linarith [(abs_le.1 k5).1]
    rw [Real.rpow_def_of_pos (by norm_num)]
    have := Real.add_one_le_exp (Real.log 10 * q'.qlglgdt)
    have l3 := log_ten_lt_three
    have l0 : 0 < Real.log 10 := Real.log_pos (by norm_num)
    nlinarith
  have t3 : (14 * |q'.lgQt - q.lgQt| + 1 / 10 ^ 5) / (10 : ℝ) ^ q'.qlglgdt ≤ 18 / 10 ^ 4 := by
    rw [div_le_iff₀ (by linarith)]
    linarith
  have t4 : max |q'.indxLo - q.indxLo| |q'.indxHi - q.indxHi| ≤
      (3 + 1.5 * max |p (.inl .mean_ul_mseq_slp)| |p (.inl .mean_uh_mseq_slp)| + 4 * max (zm 2) (zm 3)) / 10 ^ 4 := by
    refine max_le (k2.trans ?_) (k3.trans ?_) <;> refine div_le_div_of_nonneg_right ?_ (by norm_num)
    · linarith [le_max_left |p (.inl .mean_ul_mseq_slp)| |p (.inl .mean_uh_mseq_slp)|, le_max_left (zm 2) (zm 3)]
    · linarith [le_max_right |p (.inl .mean_ul_mseq_slp)| |p (.inl .mean_uh_mseq_slp)|, le_max_right (zm 2) (zm 3)]
  have t5 := mul_le_mul_of_nonneg_left t4 (show 0 ≤ |logMah mah tarr[i] lgt0 - 11.25| + 2.25 by positivity)
  generalize (10 : ℝ) ^ |q'.qlglgdt - q.qlglgdt| = X at *
  generalize (14 * |q'.lgQt - q.lgQt| + 1 / 10 ^ 5) / (10 : ℝ) ^ q'.qlglgdt = Y at *
  generalize (|logMah mah tarr[i] lgt0 - 11.25| + 2.25) * max |q'.indxLo - q.indxLo| |q'.indxHi - q.indxHi| = Z at *
  rw [mul_div_assoc'] at t5
  linarith only [k0, k1, k6, k7, t1, t3, t5]

/-- **C149**, quenched sequence. -/
theorem C149_sfr_q_partial : ∃ q' l' l, float32.mcParamsQ L.exp p m mah.tPeak (z (rng.split key 4 1)) (z (rng.split key 4 2)) = some q' ∧ -3 ≤ q'.qlglgdt ∧
    float32.mcSfhQ L logMah' p mah m (z (rng.split key 4 1)) (z (rng.split key 4 2)) tarr lgt0 fb = some l' ∧
    (mcDiffstarSfhSinglegal rng logMah p mah m upid a b c key tarr lgt0 fb).sfhQ = some l ∧ l'.length = tarr.length ∧ l.length = tarr.length ∧
    let zm := fun i => |z (rng.split key 4 1) i|
    let zq := fun i => |z (rng.split key 4 2) i|
    ∀ i (hi : i < tarr.length), ∃ s' s, l'[i]? = some s' ∧ l[i]? = some s ∧ 0 < s' ∧ 0 < s ∧ |Real.logb 10 s' - Real.logb 10 s| ≤
      (90 + 34 * zm 0 + 4 * zm 1 + 3 * |p (.inl .mean_udrop_slp)| + 1.5 * |p (.inl .mean_urej_slp)| + 8 * zq 2 + 4 * zq 3 +
        (|logMah mah tarr[i] lgt0 - 11.25| + 2.25) *
          (3 + 1.5 * max |p (.inl .mean_ul_qseq_slp)| |p (.inl .mean_uh_qseq_slp)| + 4 * max (zm 2) (zm 3)) +
        (113 + 56 * zq 0) / (10 : ℝ) ^ q'.qlglgdt) / 10 ^ 4 +
      7 * ((10 : ℝ) ^ ((3 + 1.5 * |p (.inl .mean_uqs_slp)| + 4 * zq 1) / 10 ^ 4) - 1) := by
  obtain ⟨q', q, e', e, k0, k1, k2, k3, k4, k5, k6, k7⟩ := C148_params_q_partial hL.exp hp hr hl h0 h1 mah.tPeak upid a b c key
  have hv' : ∃ v', q' = float32.getBoundedDiffstarParams L.exp v' := by
    have e2 := e'
    simp only [Rounding.mcParamsQ, Option.bind_eq_bind, Option.bind_eq_some_iff, Option.pure_def, Option.some.injEq] at e2
    obtain ⟨_, -, _, -, _, -, rfl⟩ := e2
    exact ⟨_, rfl⟩
  have hv : ∃ v, q = getBoundedDiffstarParams v := by
    have e2 := e
    simp only [mcDiffstarParamsSinglegal, Option.map_eq_some_iff] at e2
    obtain ⟨v, -, rfl⟩ := e2
    exact ⟨v, rfl⟩
  obtain ⟨v', rfl⟩ := hv'
  obtain ⟨v, rfl⟩ := hv
  have hq3 : -3 ≤ (float32.getBoundedDiffstarParams L.exp v').qlglgdt := (inFloatBounds_bounded L.exp (accurate_nonneg hL.exp) v').qlglgdt.1
  have w1 : float32.mcSfhQ L logMah' p mah m (z (rng.split key 4 1)) (z (rng.split key 4 2)) tarr lgt0 fb =
      some (float32.calcSfhSinglegalSmh L logMah' (float32.getBoundedDiffstarParams L.exp v') mah tarr lgt0 fb).sfh := by
    rw [Rounding.mcSfhQ, e', Option.map_some]
  have w2 : (mcDiffstarSfhSinglegal rng logMah p mah m upid a b c key tarr lgt0 fb).sfhQ =
      some (calcSfhSinglegal logMah (getBoundedDiffstarParams v) mah tarr lgt0 fb) := by
    simp only [mcDiffstarSfhSinglegal, e, Option.map_some]
  refine ⟨_, _, _, e', hq3, w1, w2, sfhFl_length .., sfh_length .., ?_⟩
  clear w1 w2
  intro zm zq i hi
  change _ ≤ (7 + 4 * zm 0) / _ at k0
  change _ ≤ (7 + 4 * zm 1) / _ at k1
  change _ ≤ (3 + _ + 4 * zm 2) / _ at k2
  change _ ≤ (3 + _ + 4 * zm 3) / _ at k3
  change _ ≤ (8 + 4 * zq 0) / _ at k4
  change _ ≤ (3 + _ + 4 * zq 1) / _ at k5
  change _ ≤ (3 + _ + 4 * zq 2) / _ at k6
  change _ ≤ (6 + _ + _ + 4 * zq 2 + 4 * zq 3) / _ at k7
  clear_value zm zq
  obtain ⟨s', s, g', g, p', p0, hs⟩ := drawn_sfr hL logMah logMah' v v' mah tarr lgt0 fb hfb ht hm hm' i hi
  refine ⟨s', s, g', g, p', p0, hs.trans ?_⟩
  clear hs g g' e e'
  generalize float32.getBoundedDiffstarParams L.exp v' = q' at *
  generalize getBoundedDiffstarParams v = q at *
  have t1 : (10 : ℝ) ^ |q'.qlglgdt - q.qlglgdt| ≤ (10 : ℝ) ^ ((3 + 1.5 * |p (.inl .mean_uqs_slp)| + 4 * zq 1) / 10 ^ 4) :=
    Real.rpow_le_rpow_of_exponent_le (by norm_num) k5
  have t3 : (14 * |q'.lgQt - q.lgQt| + 1 / 10 ^ 5) / (10 : ℝ) ^ q'.qlglgdt ≤ (113 + 56 * zq 0) / (10 : ℝ) ^ q'.qlglgdt / 10 ^ 4 := by
    rw [div_right_comm]
    refine div_le_div_of_nonneg_right ?_ (by positivity)
    linarith
  have t4 : max |q'.indxLo - q.indxLo| |q'.indxHi - q.indxHi| ≤
      (3 + 1.5 * max |p (.inl .mean_ul_qseq_slp)| |p (.inl .mean_uh_qseq_slp)| + 4 * max (zm 2) (zm 3)) / 10 ^ 4 := by
    refine max_le (k2.trans ?_) (k3.trans ?_) <;> refine div_le_div_of_nonneg_right ?_ (by norm_num)
    · linarith [le_max_left |p (.inl .mean_ul_qseq_slp)| |p (.inl .mean_uh_qseq_slp)|, le_max_left (zm 2) (zm 3)]
    · linarith [le_max_right |p (.inl .mean_ul_qseq_slp)| |p (.inl .mean_uh_qseq_slp)|, le_max_right (zm 2) (zm 3)]
  have t5 := mul_le_mul_of_nonneg_left t4 (show 0 ≤ |logMah mah tarr[i] lgt0 - 11.25| + 2.25 by positivity)
  generalize (10 : ℝ) ^ |q'.qlglgdt - q.qlglgdt| = X at *
  generalize (10 : ℝ) ^ ((3 + 1.5 * |p (.inl .mean_uqs_slp)| + 4 * zq 1) / 10 ^ 4) = X' at *
  generalize (14 * |q'.lgQt - q.lgQt| + 1 / 10 ^ 5) / (10 : ℝ) ^ q'.qlglgdt = Y at *
  generalize (113 + 56 * zq 0) / (10 : ℝ) ^ q'.qlglgdt = Y' at *
  generalize (|logMah mah tarr[i] lgt0 - 11.25| + 2.25) * max |q'.indxLo - q.indxLo| |q'.indxHi - q.indxHi| = Z at *
  rw [mul_div_assoc'] at t5
  linarith only [k0, k1, k6, k7, t1, t3, t5]

end

/-- The hypotheses can be met. -/
example : ∃ (L : Rounding.MathLib) (p : PF → ℝ) (rng : Rng Unit) (z : Unit → Fin 4 → ℝ) (logMah : MahParams ℝ → ℝ → ℝ → ℝ) (tarr : List ℝ), Accurate L ∧
    InPopFloatBounds p ∧ UsableLines p ∧ Reparametrised rng z ∧ 0 < tarr.length ∧ (∀ t ∈ tarr, 0.01 ≤ t ∧ t ≤ 100) ∧
    ∀ mah, ∀ t ∈ tarr, 0 ≤ logMah mah t 1.1 ∧ logMah mah t 1.1 ≤ 20 :=
  ⟨_, _, oneSigmaRng, _, fun _ _ _ => 12, [1, 5, 13.8], accurate_rounded, threeQuarters_ok.1, threeQuarters_ok.2, oneSigmaRng_reparametrised, by simp, by
    intro t ht
    simp only [List.mem_cons, List.not_mem_nil, or_false] at ht
    rcases ht with rfl | rfl | rfl <;> norm_num, fun _ _ _ => by norm_num⟩

end Diffstar.Props
