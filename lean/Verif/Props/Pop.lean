import Verif.Lemmas.Pop
import Verif.Props.Params
import Mathlib.Analysis.Complex.ExponentialBounds

/-!
Properties of the DiffstarPop parameters and Monte Carlo generators: C29-C35, C37, C38, C40, C65.
-/

namespace Diffstar.Props

open Diffstar.Pop

/-! ### C37, C38: parameter transforms and shipped calibrations -/

/-- **C37**: every unbounded vector is mapped strictly inside the published bounds. -/
theorem C37_bounded_pop_params_in_bounds (u : PF → ℝ) (f : PF) :
    (PF.bounds f).1 < getBoundedDiffstarpopParams u f ∧
      getBoundedDiffstarpopParams u f < (PF.bounds f).2 :=
  getBounded_in u f

/-- **C37**: bounding followed by unbounding is the identity on all 88 fields. -/
theorem C37_unbounded_of_bounded (u : PF → ℝ) :
    getUnboundedDiffstarpopParams (getBoundedDiffstarpopParams u) = u := by
  funext f
  rw [getUnbounded_apply, getBounded_apply,
    inverseSigmoid_sigmoid (by norm_num) (PF.bounds_lt f).ne]

/-- **C37**: unbounding followed by bounding is the identity on in-bounds vectors. -/
theorem C37_bounded_of_unbounded (p : PF → ℝ)
    (h : ∀ f, (PF.bounds f).1 < p f ∧ p f < (PF.bounds f).2) :
    getBoundedDiffstarpopParams (getUnboundedDiffstarpopParams p) = p := by
  funext f
  rw [getBounded_apply, getUnbounded_apply, sigmoid_inverseSigmoid (by norm_num) (h f).1 (h f).2]

/-- **C37**: no permutation of names: the bounded value of a field is a strictly increasing function of the
unbounded value of that field alone. -/
theorem C37_fields_not_permuted (u v : PF → ℝ) (f : PF) :
    getBoundedDiffstarpopParams u f < getBoundedDiffstarpopParams v f ↔ u f < v f := by
  rw [getBounded_apply, getBounded_apply]
  exact (sigmoid_strictMono (by norm_num) (PF.bounds_lt f)).lt_iff_lt

/-- The hypothesis of `C37_bounded_of_unbounded` holds for the midpoints of the bounds. -/
example : ∀ f : PF, (PF.bounds f).1 < ((PF.bounds f).1 + (PF.bounds f).2) / 2 ∧
    ((PF.bounds f).1 + (PF.bounds f).2) / 2 < (PF.bounds f).2 := by
  intro f
  have := PF.bounds_lt f
  constructor <;> linarith

/-- The 19 slope fields of the quenching PDF model that are divided by in the clipped lines. -/
def slopeFields : List QF :=
  [.mean_ul_mseq_slp, .mean_uh_mseq_slp, .mean_ul_qseq_slp, .mean_uh_qseq_slp, .mean_uqs_slp,
   .mean_udrop_slp, .mean_urej_slp, .std_ulgm_mseq_slp, .std_ulgy_mseq_slp, .std_ul_mseq_slp,
   .std_uh_mseq_slp, .std_ulgm_qseq_slp, .std_ulgy_qseq_slp, .std_ul_qseq_slp, .std_uh_qseq_slp,
   .std_uqt_slp, .std_uqs_slp, .std_udrop_slp, .std_urej_slp]

/-- What is checked about a table of literals. -/
def goodTable (t : List (QF × ℚ)) : Bool :=
  decide (t.map Prod.fst = QF.fields) &&
  t.all (fun kv => decide (kv.1.boundsQ.1 < kv.2) && decide (kv.2 < kv.1.boundsQ.2) &&
    (!decide (kv.1 ∈ slopeFields) || decide (kv.2 ≠ 0)))

theorem shipped_good : (shippedTables.all fun nt => goodTable nt.2) = true := by decide +kernel

theorem default_good : goodTable QF.defaultPdict = true := by decide +kernel

theorem sat_default_good :
    (SF.defaultPdict.map Prod.fst = SF.fields) ∧
      ∀ kv ∈ SF.defaultPdict, kv.1.boundsQ.1 < kv.2 ∧ kv.2 < kv.1.boundsQ.2 := by
  decide +kernel

theorem lookup_of_nodup {F : Type} [DecidableEq F] {fields : List F} {t : List (F × ℚ)}
    (ht : t.map Prod.fst = fields) {f : F} (hf : f ∈ fields) :
    ∃ v, (f, v) ∈ t ∧ (t.map fun kv => (kv.2 : ℝ)).getD (fields.idxOf f) 0 = (v : ℝ) := by
  subst ht
  have h1 : (t.map Prod.fst).idxOf f < t.length := by
    simpa using List.idxOf_lt_length_of_mem hf
  refine ⟨(t[(t.map Prod.fst).idxOf f]).2, ?_, ?_⟩
  · have h2 : (t[(t.map Prod.fst).idxOf f]).1 = f := by
      have := List.getElem_idxOf (xs := t.map Prod.fst) (x := f) (by simpa using h1)
      rwa [List.getElem_map] at this
    have h3 := List.getElem_mem h1
    rw [← Prod.eta (t[(t.map Prod.fst).idxOf f]), h2] at h3
    exact h3
  · rw [List.getD_eq_getElem _ _ (by simpa using h1)]
    simp

theorem idxOf_inl (f : QF) :
    @List.idxOf PF instBEqOfDecidableEq (Sum.inl f) PF.fields = QF.fields.idxOf f := by
  cases f <;> decide +kernel

theorem idxOf_inr (f : SF) :
    @List.idxOf PF instBEqOfDecidableEq (Sum.inr f) PF.fields = QF.fields.length + SF.fields.idxOf f := by
  cases f <;> decide +kernel

theorem calibration_spec {t : List (QF × ℚ)} (hg : goodTable t = true) :
    ∃ p, calibration t = some p ∧
      (∀ f, ∃ v, (f, v) ∈ t ∧ p (.inl f) = (v : ℝ)) ∧
      (∀ f, ∃ v, (f, v) ∈ SF.defaultPdict ∧ p (.inr f) = (v : ℝ)) ∧
      (∀ f, (PF.bounds f).1 < p f ∧ p f < (PF.bounds f).2) ∧
      (∀ f ∈ slopeFields, p (.inl f) ≠ 0) := by
  simp only [goodTable, Bool.and_eq_true, decide_eq_true_eq, List.all_eq_true, Bool.or_eq_true,
    Bool.not_eq_true', decide_eq_false_iff_not] at hg
  obtain ⟨hf, hall⟩ := hg
  have hl : t.length = QF.fields.length := by rw [← hf]; simp
  obtain ⟨sf, sall⟩ := sat_default_good
  have hsl : SF.defaultPdict.length = SF.fields.length := by rw [← sf]; simp
  refine ⟨makeTuple PF.fields (t.map (fun kv => (kv.2 : ℝ)) ++ SF.defaultPdict.map fun kv => (kv.2 : ℝ)),
    ?_, ?_⟩
  · simp only [calibration]
    rw [if_pos]
    simp [PF.fields, hl, hsl]
  have hin : ∀ f, ∃ v, (f, v) ∈ t ∧ makeTuple PF.fields
      (t.map (fun kv => (kv.2 : ℝ)) ++ SF.defaultPdict.map fun kv => (kv.2 : ℝ)) (.inl f) = (v : ℝ) := by
    intro f
    obtain ⟨v, hv, e⟩ := lookup_of_nodup hf f.mem_fields
    refine ⟨v, hv, ?_⟩
    simp only [makeTuple]
    rw [idxOf_inl, List.getD_append _ _ _ _ (by simpa [hl] using List.idxOf_lt_length_of_mem f.mem_fields)]
    exact e
  have hir : ∀ f, ∃ v, (f, v) ∈ SF.defaultPdict ∧ makeTuple PF.fields
      (t.map (fun kv => (kv.2 : ℝ)) ++ SF.defaultPdict.map fun kv => (kv.2 : ℝ)) (.inr f) = (v : ℝ) := by
    intro f
    obtain ⟨v, hv, e⟩ := lookup_of_nodup sf f.mem_fields
    refine ⟨v, hv, ?_⟩
    simp only [makeTuple]
    rw [idxOf_inr, List.getD_append_right _ _ _ _ (by simp [hl])]
    simpa [hl] using e
  refine ⟨hin, hir, ?_, ?_⟩
  · intro f
    cases f with
    | inl f =>
      obtain ⟨v, hv, e⟩ := hin f
      rw [e]
      have := (hall _ hv).1
      simp only [PF.bounds, QF.bounds]
      exact ⟨by exact_mod_cast this.1, by exact_mod_cast this.2⟩
    | inr f =>
      obtain ⟨v, hv, e⟩ := hir f
      rw [e]
      have := sall _ hv
      simp only [PF.bounds, SF.bounds]
      exact ⟨by exact_mod_cast this.1, by exact_mod_cast this.2⟩
  · intro f hfs
    obtain ⟨v, hv, e⟩ := hin f
    rw [e]
    rcases (hall _ hv).2 with h | h
    · exact absurd hfs h
    · exact_mod_cast h

/-- **C38**: each of the ten shipped calibrations builds without error, gives every field the literal listed
under its own name, is strictly inside the bounds, has no zero slope and round-trips. -/
theorem C38_shipped_calibrations_usable :
    shippedTables.length = 10 ∧
    ∀ nt ∈ shippedTables, ∃ p, calibration nt.2 = some p ∧
      (∀ f, ∃ v, (f, v) ∈ nt.2 ∧ p (.inl f) = (v : ℝ)) ∧
      (∀ f, (PF.bounds f).1 < p f ∧ p f < (PF.bounds f).2) ∧
      (∀ f ∈ slopeFields, p (.inl f) ≠ 0) ∧
      getBoundedDiffstarpopParams (getUnboundedDiffstarpopParams p) = p := by
  refine ⟨by decide, ?_⟩
  intro nt hnt
  have hg := (List.all_eq_true.1 shipped_good) nt hnt
  obtain ⟨p, h1, h2, _, h4, h5⟩ := calibration_spec hg
  exact ⟨p, h1, h2, h4, h5, C37_bounded_of_unbounded p h4⟩

/-- **C38** for the default calibration. -/
theorem C38_default_calibration_usable :
    ∃ p, defaultDiffstarpopParams = some p ∧
      (∀ f, ∃ v, (f, v) ∈ QF.defaultPdict ∧ p (.inl f) = (v : ℝ)) ∧
      (∀ f, ∃ v, (f, v) ∈ SF.defaultPdict ∧ p (.inr f) = (v : ℝ)) ∧
      (∀ f, (PF.bounds f).1 < p f ∧ p f < (PF.bounds f).2) ∧
      (∀ f ∈ slopeFields, p (.inl f) ≠ 0) ∧
      getBoundedDiffstarpopParams (getUnboundedDiffstarpopParams p) = p := by
  obtain ⟨p, h1, h2, h3, h4, h5⟩ := calibration_spec default_good
  exact ⟨p, h1, h2, h3, h4, h5, C37_bounded_of_unbounded p h4⟩

/-- **C38**: a table with a number of values other than 79 (79 + 9 satellite values = 88 fields) is refused. -/
theorem C38_wrong_length_raises (table : List (QF × ℚ)) : calibration table = none ↔ table.length ≠ 79 := by
  have h1 : PF.fields.length = 88 := by decide +kernel
  have h2 : SF.defaultPdict.length = 9 := rfl
  simp only [calibration, List.length_append, List.length_map, h1, h2]
  split_ifs with h <;> simp <;> omega

example : calibration [] = none := (C38_wrong_length_raises []).2 (by decide)

/-! ### C29, C30: quenched fractions -/

/-- **C29**: the quenched fraction used by the Monte Carlo generator is a probability strictly between 0 and
1, for centrals and satellites. -/
theorem C29_frac_quench_in_unit_interval {K : Type} (rng : Rng K) (u : PF → ℝ) (logmp0 tpeak : ℝ)
    (upid : ℤ) (lgmu logmhost gyr : ℝ) (key : K) :
    let r := mcDiffstarParamsSinglegal rng (getBoundedDiffstarpopParams u) logmp0 tpeak upid lgmu logmhost
      gyr key
    0 < r.fracQ ∧ r.fracQ < 1 := by
  have hp := getBounded_in u
  simp only [mcDiffstarParamsSinglegal, mcDiffstarUParamsSinglegalKernel, diffstarpopMeansCovs,
    sfhPdfScalarKernel]
  split_ifs
  · exact fracQuenchCen_mem hp _ _
  · simp only [getQprobSat]
    have h1 := fracQuenchSat_mem hp logmp0 tpeak
    have h2 := fracDelta_mem (satquenchPart_in hp) lgmu logmhost gyr
    constructor <;> nlinarith

/-- **C30**: satellite quenching only adds. -/
theorem C30_qprob_sat_between (p : SF → ℝ) (hp : ∀ f, (SF.bounds f).1 < p f ∧ p f < (SF.bounds f).2)
    (lgmu logmhost gyr q : ℝ) (h1 : q ≤ 1) :
    q ≤ getQprobSat p lgmu logmhost gyr q ∧ getQprobSat p lgmu logmhost gyr q ≤ 1 := by
  have h2 := fracDelta_mem hp lgmu logmhost gyr
  simp only [getQprobSat]
  constructor <;> nlinarith

/-- **C30**: the satellite quenched fraction never decreases with time since infall (strictly increases when
the central fraction is below one). -/
theorem C30_qprob_sat_mono_time (p : SF → ℝ) (hp : ∀ f, (SF.bounds f).1 < p f ∧ p f < (SF.bounds f).2)
    (lgmu logmhost t1 t2 q : ℝ) (ht : t1 < t2) (h1 : q < 1) :
    getQprobSat p lgmu logmhost t1 q < getQprobSat p lgmu logmhost t2 q := by
  simp only [getQprobSat, fracDelta_eq]
  have h := (qprobHi_mem hp lgmu logmhost).1
  have h2 : nnSigmoid (5 * (t1 - tDelayVsLogmhost p logmhost)) <
      nnSigmoid (5 * (t2 - tDelayVsLogmhost p logmhost)) := nnSigmoid_strictMono (by linarith)
  have h3 := mul_lt_mul_of_pos_left h2 h
  have h4 := mul_lt_mul_of_pos_right h3 (sub_pos.2 h1)
  linarith

/-- **C30**: the satellite quenched fraction increases with the central one. -/
theorem C30_qprob_sat_mono_qcen (p : SF → ℝ) (hp : ∀ f, (SF.bounds f).1 < p f ∧ p f < (SF.bounds f).2)
    (lgmu logmhost t q1 q2 : ℝ) (hq : q1 < q2) :
    getQprobSat p lgmu logmhost t q1 < getQprobSat p lgmu logmhost t q2 := by
  simp only [getQprobSat]
  have h := fracDelta_mem hp lgmu logmhost t
  nlinarith

/-- **C30**: the conventional central value `gyr_since_infall = -100` leaves the fraction unchanged to 1e-100. -/
theorem C30_qprob_sat_central_value (p : SF → ℝ)
    (hp : ∀ f, (SF.bounds f).1 < p f ∧ p f < (SF.bounds f).2) (lgmu logmhost q : ℝ)
    (h0 : 0 ≤ q) :
    getQprobSat p lgmu logmhost (-100) q - q ≤ 1 / 10 ^ 100 := by
  simp only [getQprobSat, fracDelta_eq]
  have h := qprobHi_mem hp lgmu logmhost
  have ht := tDelay_mem hp logmhost
  set z := 5 * (-100 - tDelayVsLogmhost p logmhost) with hz
  have hs0 := nnSigmoid_pos z
  have hs : nnSigmoid z ≤ 1 / 10 ^ 100 := by
    unfold nnSigmoid
    apply one_div_le_one_div_of_le (by positivity)
    have e1 : (2 : ℝ) ≤ Real.exp 1 := by linarith [Real.exp_one_gt_d9]
    have e2 : Real.exp 475 ≤ Real.exp (-z) := Real.exp_le_exp.2 (by rw [hz]; linarith)
    have e3 : (2 : ℝ) ^ 475 ≤ Real.exp 475 := by
      rw [show (475 : ℝ) = ((475 : ℕ) : ℝ) * 1 by norm_num, Real.exp_nat_mul]
      exact pow_le_pow_left₀ (by norm_num) e1 475
    have e4 : (10 : ℝ) ^ 100 ≤ 2 ^ 475 := by
      rw [show (100 : ℕ) = 20 * 5 from rfl, show (475 : ℕ) = 95 * 5 from rfl, pow_mul, pow_mul]
      exact pow_le_pow_left₀ (by positivity) (by norm_num) 5
    exact (e4.trans (e3.trans e2)).trans (le_add_of_nonneg_left zero_le_one)
  have h3 : qprobHiVsSubHostMass p lgmu logmhost * nnSigmoid z ≤ nnSigmoid z := by nlinarith
  have h4 : 0 ≤ qprobHiVsSubHostMass p lgmu logmhost * nnSigmoid z := by
    apply mul_nonneg h.1.le hs0.le
  calc q + qprobHiVsSubHostMass p lgmu logmhost * nnSigmoid z * (1 - q) - q
      = qprobHiVsSubHostMass p lgmu logmhost * nnSigmoid z * (1 - q) := by ring
    _ ≤ qprobHiVsSubHostMass p lgmu logmhost * nnSigmoid z * 1 :=
        mul_le_mul_of_nonneg_left (by linarith) h4
    _ ≤ nnSigmoid z := by rw [mul_one]; exact h3
    _ ≤ _ := hs

/-- The shipped satellite parameters satisfy the hypothesis of the C30 theorems. -/
example : ∃ p : SF → ℝ, ∀ f, (SF.bounds f).1 < p f ∧ p f < (SF.bounds f).2 := by
  obtain ⟨p, _, _, _, h, _⟩ := C38_default_calibration_usable
  exact ⟨fun f => p (.inr f), fun f => h (.inr f)⟩

/-! ### C31-C33: Monte Carlo generators -/

/-- **C31**: for centrals (`upid = -1`) the kernel equals the central-only kernel with the same key. -/
theorem C31_central_equals_cen_kernel {K : Type} (rng : Rng K) (p : PF → ℝ) (logmp0 tpeak lgmu logmhost gyr : ℝ)
    (key : K) :
    mcDiffstarUParamsSinglegalKernel rng p logmp0 tpeak (-1) lgmu logmhost gyr key =
      mcDiffstarUParamsSinglegalKernelCen rng p logmp0 tpeak key := by
  simp [mcDiffstarUParamsSinglegalKernel, mcDiffstarUParamsSinglegalKernelCen, diffstarpopMeansCovs,
    diffstarpopMeansCovsCen]

/-- **C31**: infall arguments of centrals are irrelevant, for parameters and for star formation histories. -/
theorem C31_centrals_ignore_infall {K : Type} (rng : Rng K) (logMah : MahParams ℝ → ℝ → ℝ → ℝ) (p : PF → ℝ)
    (mah : MahParams ℝ) (logmp0 lgmu logmhost gyr lgmu' logmhost' gyr' : ℝ) (key : K) (tarr : List ℝ)
    (lgt0 fb : ℝ) :
    mcDiffstarSfhSinglegal rng logMah p mah logmp0 (-1) lgmu logmhost gyr key tarr lgt0 fb =
      mcDiffstarSfhSinglegal rng logMah p mah logmp0 (-1) lgmu' logmhost' gyr' key tarr lgt0 fb := by
  simp only [mcDiffstarSfhSinglegal, mcDiffstarParamsSinglegal, C31_central_equals_cen_kernel]

/-- **C31** for populations: changing the infall arguments of the centrals only changes nothing for the whole
population. -/
theorem C31_centrals_ignore_infall_galpop {K : Type} {n : ℕ} (rng : Rng K) (p : PF → ℝ) (h h' : HaloInputs n)
    (hm : h.logmp0 = h'.logmp0) (ht : h.tpeak = h'.tpeak) (hu : h.upid = h'.upid)
    (hs : ∀ i, h.upid i ≠ -1 → h.lgmuInfall i = h'.lgmuInfall i ∧
      h.logmhostInfall i = h'.logmhostInfall i ∧ h.gyrSinceInfall i = h'.gyrSinceInfall i) (key : K) :
    mcDiffstarParamsGalpop rng p h key = mcDiffstarParamsGalpop rng p h' key := by
  have key' : mcDiffstarUParamsGalpop rng p h key = mcDiffstarUParamsGalpop rng p h' key := by
    funext i
    simp only [mcDiffstarUParamsGalpop]
    by_cases hc : h.upid i = -1
    · rw [← hu, hc, C31_central_equals_cen_kernel, C31_central_equals_cen_kernel, hm, ht]
    · obtain ⟨a, b, c⟩ := hs i hc
      rw [hm, ht, a, b, c, hu]
  simp only [mcDiffstarParamsGalpop, key']

/-- A population with one central and one satellite whose central differs in infall arguments only. -/
example : ∃ h h' : HaloInputs 2, h.logmp0 = h'.logmp0 ∧ h.tpeak = h'.tpeak ∧ h.upid = h'.upid ∧
    (∀ i, h.upid i ≠ -1 → h.lgmuInfall i = h'.lgmuInfall i ∧
      h.logmhostInfall i = h'.logmhostInfall i ∧ h.gyrSinceInfall i = h'.gyrSinceInfall i) ∧
    h.gyrSinceInfall ≠ h'.gyrSinceInfall := by
  refine ⟨⟨![12, 11], ![13, 5], ![-1, 7], ![0, -1], ![0, 13], ![-100, 3]⟩,
    ⟨![12, 11], ![13, 5], ![-1, 7], ![0, -1], ![0, 13], ![5, 3]⟩, rfl, rfl, rfl, ?_, ?_⟩
  · intro i hi
    fin_cases i
    · exact absurd rfl hi
    · exact ⟨rfl, rfl, rfl⟩
  · intro h
    have := congrFun h 0
    norm_num at this

/-- **C32**: the flag is set exactly when the uniform draw (from the fourth sub-key) is below the returned
quenched fraction. -/
theorem C32_flag_iff_draw_below {K : Type} (rng : Rng K) (p : PF → ℝ) (logmp0 tpeak : ℝ) (upid : ℤ)
    (lgmu logmhost gyr : ℝ) (key : K) :
    let r := mcDiffstarParamsSinglegal rng p logmp0 tpeak upid lgmu logmhost gyr key
    r.mcIsQ ↔ rng.uniform (rng.split key 4 3) < r.fracQ := by
  simp [mcDiffstarParamsSinglegal, mcDiffstarUParamsSinglegalKernel]

/-- **C32**: with the same key, a larger quenched fraction never turns a quenched galaxy into an unquenched
one, however the fraction was raised (parameters, mass, infall, ...). -/
theorem C32_flag_monotone {K : Type} (rng : Rng K) (p p' : PF → ℝ) (logmp0 logmp0' tpeak tpeak' : ℝ)
    (upid upid' : ℤ) (lgmu lgmu' logmhost logmhost' gyr gyr' : ℝ) (key : K)
    (hle : (mcDiffstarParamsSinglegal rng p logmp0 tpeak upid lgmu logmhost gyr key).fracQ ≤
      (mcDiffstarParamsSinglegal rng p' logmp0' tpeak' upid' lgmu' logmhost' gyr' key).fracQ)
    (hq : (mcDiffstarParamsSinglegal rng p logmp0 tpeak upid lgmu logmhost gyr key).mcIsQ) :
    (mcDiffstarParamsSinglegal rng p' logmp0' tpeak' upid' lgmu' logmhost' gyr' key).mcIsQ := by
  have h1 := (C32_flag_iff_draw_below rng p logmp0 tpeak upid lgmu logmhost gyr key).1 hq
  exact (C32_flag_iff_draw_below rng p' logmp0' tpeak' upid' lgmu' logmhost' gyr' key).2
    (lt_of_lt_of_le h1 hle)

/-- Waiting longer after infall raises the fraction of a satellite: an instance of the hypothesis
`hle` of `C32_flag_monotone`. -/
example {K : Type} (rng : Rng K) (u : PF → ℝ) (logmp0 tpeak lgmu logmhost gyr : ℝ) (key : K) :
    (mcDiffstarParamsSinglegal rng (getBoundedDiffstarpopParams u) logmp0 tpeak 7 lgmu logmhost gyr
      key).fracQ ≤
    (mcDiffstarParamsSinglegal rng (getBoundedDiffstarpopParams u) logmp0 tpeak 7 lgmu logmhost (gyr + 1)
      key).fracQ := by
  simp only [mcDiffstarParamsSinglegal, mcDiffstarUParamsSinglegalKernel, diffstarpopMeansCovs,
    sfhPdfScalarKernel]
  norm_num
  have hp := getBounded_in u
  exact (C30_qprob_sat_mono_time _ (satquenchPart_in hp) _ _ _ _ _ (by linarith)
    (fracQuenchSat_mem hp _ _).2).le

/-- **C32**: every parameter set returned (NaN-free) is strictly inside the Diffstar bounds, whatever the
sampler drew. -/
theorem C32_mc_params_in_bounds {K : Type} {n : ℕ} (rng : Rng K) (p : PF → ℝ) (h : HaloInputs n) (key : K)
    (i : Fin n) (q : DiffstarParams ℝ)
    (hq : (mcDiffstarParamsGalpop rng p h key i).paramsMs = some q ∨
      (mcDiffstarParamsGalpop rng p h key i).paramsQ = some q) : Spec.InBounds q := by
  simp only [mcDiffstarParamsGalpop, Option.map_eq_some_iff] at hq
  rcases hq with ⟨u, _, rfl⟩ | ⟨u, _, rfl⟩ <;> exact C01_bounded_params_in_bounds u

/-- **C33**: galaxy `i` of a Monte Carlo population is the single-galaxy result with galaxy `i`'s inputs and
the `i`-th split key. -/
theorem C33_galpop_params_eq_single {K : Type} {n : ℕ} (rng : Rng K) (p : PF → ℝ) (h : HaloInputs n) (key : K)
    (i : Fin n) :
    mcDiffstarParamsGalpop rng p h key i =
      mcDiffstarParamsSinglegal rng p (h.logmp0 i) (h.tpeak i) (h.upid i) (h.lgmuInfall i)
        (h.logmhostInfall i) (h.gyrSinceInfall i) (rng.split key n i) := rfl

/-- **C33** for star formation histories. -/
theorem C33_galpop_sfh_eq_single {K : Type} {n : ℕ} (rng : Rng K) (logMah : MahParams ℝ → ℝ → ℝ → ℝ)
    (p : PF → ℝ) (mah : MahParams (Fin n → ℝ)) (logmp0 : Fin n → ℝ) (upid : Fin n → ℤ)
    (lgmu logmhost gyr : Fin n → ℝ) (key : K) (tarr : List ℝ) (lgt0 fb : ℝ) (i : Fin n) :
    mcDiffstarSfhGalpop rng logMah p mah logmp0 upid lgmu logmhost gyr key tarr lgt0 fb i =
      mcDiffstarSfhSinglegal rng logMah p (mah.row i) (logmp0 i) (upid i) (lgmu i) (logmhost i) (gyr i)
        (rng.split key n i) tarr lgt0 fb := rfl

/-- **C33**: the draws of one galaxy use separate sub-keys. Two random generators that split keys alike
give (1) the same main-sequence set if they agree on sub-key 0, (2) the same first four quenched-sequence
parameters if they agree on sub-key 1, (3) the same last four if they agree on sub-key 2, (4) the same flag if
they agree on sub-key 3 -- regardless of what they draw from the other keys. -/
theorem C33_draws_use_separate_keys {K : Type} (rng rng' : Rng K) (hsplit : rng.split = rng'.split)
    (p : PF → ℝ) (logmp0 tpeak : ℝ) (upid : ℤ) (lgmu logmhost gyr : ℝ) (key : K) :
    let r := mcDiffstarUParamsSinglegalKernel rng p logmp0 tpeak upid lgmu logmhost gyr key
    let r' := mcDiffstarUParamsSinglegalKernel rng' p logmp0 tpeak upid lgmu logmhost gyr key
    let agree := fun j : Fin 4 => rng.multivariateNormal (rng.split key 4 j) =
      rng'.multivariateNormal (rng.split key 4 j)
    (agree 0 → r.uMs = r'.uMs) ∧
    (agree 1 → r.uQ.map DiffstarParams.ms = r'.uQ.map DiffstarParams.ms) ∧
    (agree 2 → r.uQ.map DiffstarParams.q = r'.uQ.map DiffstarParams.q) ∧
    (rng.uniform (rng.split key 4 3) = rng'.uniform (rng.split key 4 3) → (r.mcIsQ ↔ r'.mcIsQ)) := by
  simp only [mcDiffstarUParamsSinglegalKernel, ← hsplit]
  generalize diffstarpopMeansCovs p logmp0 tpeak lgmu logmhost gyr = mc
  refine ⟨?_, ?_, ?_, ?_⟩
  · intro h
    simp only [drawMs, h]
  · intro h
    rcases mc.muQseq with _ | mu <;> rcases mc.covQseqMs with _ | c1 <;> rcases mc.covQseqQ with _ | c2 <;>
      simp [drawQ, DiffstarParams.ms, DiffstarParams.join, h]
  · intro h
    rcases mc.muQseq with _ | mu <;> rcases mc.covQseqMs with _ | c1 <;> rcases mc.covQseqQ with _ | c2 <;>
      simp [drawQ, DiffstarParams.q, DiffstarParams.join, h]
  · intro h
    rw [h]

/-- Two generators on keys `ℕ` that split alike, agree on one sub-key and differ elsewhere. -/
example : ∃ rng rng' : Rng ℕ, rng.split = rng'.split ∧
    rng.multivariateNormal (rng.split 0 4 0) = rng'.multivariateNormal (rng.split 0 4 0) ∧
    rng.multivariateNormal (rng.split 0 4 1) ≠ rng'.multivariateNormal (rng.split 0 4 1) := by
  refine ⟨⟨fun k n i => k * n + i.val, fun _ mu _ => mu, fun _ => 0⟩,
    ⟨fun k n i => k * n + i.val, fun k mu _ i => mu i + k, fun _ => 0⟩, rfl, ?_, ?_⟩
  · funext mu c i; simp
  · intro h
    have := congrFun (congrFun (congrFun h 0) 0) 0
    norm_num at this

/-! ### C34: selecting a realisation -/

/-- Row `i` of a population parameter tuple. -/
def dpRow {n : ℕ} (p : DiffstarParams (Fin n → ℝ)) (i : Fin n) : DiffstarParams ℝ :=
  ⟨p.lgmcrit i, p.lgyAtMcrit i, p.indxLo i, p.indxHi i, p.lgQt i, p.qlglgdt i, p.lgDrop i, p.lgRejuv i⟩

/-- **C34**: each galaxy gets a whole parameter set: all eight values from `p1` or all eight from `p0`. -/
theorem C34_select_whole_sets {n : ℕ} (p1 p0 : DiffstarParams (Fin n → ℝ)) (flag : Fin n → Bool) (i : Fin n) :
    dpRow (mcSelectDiffstarParams p1 p0 flag) i = if flag i = true then dpRow p1 i else dpRow p0 i := by
  simp only [mcSelectDiffstarParams, dpRow]
  split_ifs <;> rfl

/-- **C34**: selection preserves bounds. -/
theorem C34_select_preserves_bounds {n : ℕ} (p1 p0 : DiffstarParams (Fin n → ℝ)) (flag : Fin n → Bool)
    (h1 : ∀ i, flag i = true → Spec.InBounds (dpRow p1 i))
    (h0 : ∀ i, flag i = false → Spec.InBounds (dpRow p0 i)) (i : Fin n) :
    Spec.InBounds (dpRow (mcSelectDiffstarParams p1 p0 flag) i) := by
  rw [C34_select_whole_sets]
  cases h : flag i
  · simpa using h0 i h
  · simpa using h1 i h

/-- **C34**: selecting before computing star formation histories equals selecting the histories. -/
theorem C34_select_commutes_with_sfh {n : ℕ} (logMah : MahParams ℝ → ℝ → ℝ → ℝ)
    (p1 p0 : DiffstarParams (Fin n → ℝ)) (flag : Fin n → Bool) (mah : MahParams (Fin n → ℝ)) (tarr : List ℝ)
    (lgt0 fb : ℝ) (i : Fin n) :
    calcSfhGalpop logMah (mcSelectDiffstarParams p1 p0 flag) mah tarr lgt0 fb i =
      if flag i = true then calcSfhGalpop logMah p1 mah tarr lgt0 fb i
      else calcSfhGalpop logMah p0 mah tarr lgt0 fb i := by
  simp only [calcSfhGalpop, sfhGalpopKern, mcSelectDiffstarParams, DiffstarParams.ms, DiffstarParams.q,
    MSParams.row, QParams.row]
  split_ifs <;> rfl

/-- A population with two galaxies, one of each kind. -/
example : ∃ (p1 p0 : DiffstarParams (Fin 2 → ℝ)) (flag : Fin 2 → Bool),
    (∀ i, flag i = true → Spec.InBounds (dpRow p1 i)) ∧ (∀ i, flag i = false → Spec.InBounds (dpRow p0 i)) ∧
    flag 0 ≠ flag 1 := by
  refine ⟨⟨fun _ => 12, fun _ => -10, fun _ => 1, fun _ => -1, fun _ => 1, fun _ => -0.5, fun _ => -1,
    fun _ => -0.2⟩, ⟨fun _ => 11, fun _ => -9, fun _ => 2, fun _ => -2, fun _ => 1, fun _ => -0.5, fun _ => -2,
    fun _ => -0.2⟩, ![true, false], ?_, ?_, by decide⟩ <;>
  · intro i _
    constructor <;> norm_num [dpRow]

end Diffstar.Props
