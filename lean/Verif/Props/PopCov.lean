import Mathlib.Tactic.FinCases
import Verif.Lemmas.Pop
import Mathlib.Algebra.Order.Star.Real

/-!
Properties of the population covariances and parameter overrides: C35, C40, C65.
-/

namespace Diffstar.Props

open Diffstar.Pop

/-! ### C35 -/

/-- The intercept of the standard-deviation lines and the bounds they are clipped to, as documented. -/
theorem std_line {u : PF → ℝ} {fi fs : QF} {hi logm : ℝ}
    (h1 : (QF.boundsQ fi).1 = 1 / 100) (hbh : ((QF.boundsQ fi).2 : ℝ) = hi)
    (hbs : QF.boundsQ fs = (-1, 1)) (hs : u (.inl fs) ≠ 0) :
    ∃ v, lineModel logm (getBoundedDiffstarpopParams u (.inl fi)) (getBoundedDiffstarpopParams u (.inl fs))
      (0.01, hi) = some v ∧ 0.01 < v := by
  have hb := getBounded_in u (.inl fi)
  simp only [PF.bounds, QF.bounds, h1, hbh] at hb
  have hne : getBoundedDiffstarpopParams u (.inl fs) ≠ 0 := by
    rw [getBounded_apply]
    simp only [PF.bounds, QF.bounds, hbs]
    have e : sigmoid (0 : ℝ) (0.5 * (((-1 : ℚ) : ℝ) + ((1 : ℚ) : ℝ))) 0.1 ((-1 : ℚ) : ℝ) ((1 : ℚ) : ℝ) = 0 := by
      simp [sigmoid, nnSigmoid_zero]; norm_num
    rw [← e]
    intro h
    exact hs ((sigmoid_strictMono (x0 := 0.5 * (((-1 : ℚ) : ℝ) + ((1 : ℚ) : ℝ))) (k := 0.1)
      (ymin := ((-1 : ℚ) : ℝ)) (ymax := ((1 : ℚ) : ℝ)) (by norm_num) (by norm_num)).injective h)
  have := lineModel_some (x := logm) (b := (0.01, hi)) hne (by have := hb.1; norm_num at this ⊢; exact this)
    hb.2
  exact this

theorem posDef_diag {s : Fin 4 → ℝ} (h : ∀ i, 0 < s i) : (Matrix.diagonal fun i => s i ^ 2).PosDef :=
  Matrix.PosDef.diagonal fun i => pow_pos (h i) 2

/-- What C35 asserts about one covariance block: it is NaN-free, diagonal with squares of standard deviations
above 0.01, and symmetric positive definite. -/
def ValidCov (c : Option (Matrix (Fin 4) (Fin 4) ℝ)) : Prop :=
  ∃ s : Fin 4 → ℝ, (∀ i, 0.01 < s i) ∧ c = some (Matrix.diagonal fun i => s i ^ 2) ∧
    (Matrix.diagonal fun i => s i ^ 2).PosDef

theorem validCov_mk {c : Option (Matrix (Fin 4) (Fin 4) ℝ)} {a b d e : ℝ}
    (ha : 0.01 < a) (hb : 0.01 < b) (hd : 0.01 < d) (he : 0.01 < e)
    (h : c = some (covarianceFromCovParams ![a, b, d, e] fun _ => 0)) : ValidCov c := by
  have hs : ∀ i, 0.01 < (![a, b, d, e] : Fin 4 → ℝ) i := by
    intro i; fin_cases i <;> assumption
  refine ⟨![a, b, d, e], hs, ?_, posDef_diag fun i => by have := hs i; linarith⟩
  rw [h, covarianceFromCovParams_zero]

/-- **C35** (partial: all twelve standard-deviation slopes non-zero in the unbounded vector): the three
covariance blocks handed to the sampler are NaN-free, diagonal, positive definite, with standard deviations
above 0.01, at every halo mass. Missing: slopes equal to zero, where the statement is false
(`C35_zero_slope_violated`). -/
theorem C35_covariances_valid_partial (u : PF → ℝ) (logmp0 tpeak lgmu logmhost gyr : ℝ)
    (hs : ∀ f ∈ [QF.std_ulgm_mseq_slp, .std_ulgy_mseq_slp, .std_ul_mseq_slp, .std_uh_mseq_slp,
      .std_ulgm_qseq_slp, .std_ulgy_qseq_slp, .std_ul_qseq_slp, .std_uh_qseq_slp, .std_uqt_slp,
      .std_uqs_slp, .std_udrop_slp, .std_urej_slp], u (.inl f) ≠ 0) :
    let mc := diffstarpopMeansCovs (getBoundedDiffstarpopParams u) logmp0 tpeak lgmu logmhost gyr
    ValidCov mc.covMseqMs ∧ ValidCov mc.covQseqMs ∧ ValidCov mc.covQseqQ := by
  simp only [List.mem_cons, List.not_mem_nil, or_false, forall_eq_or_imp, forall_eq] at hs
  obtain ⟨s1, s2, s3, s4, s5, s6, s7, s8, s9, s10, s11, s12⟩ := hs
  simp only [diffstarpopMeansCovs, sfhPdfScalarKernel]
  refine ⟨?_, ?_, ?_⟩
  · obtain ⟨a, ha, ha'⟩ := std_line (u := u) (fi := .std_ulgm_mseq_int) (hi := 1) (logm := logmp0)
      (by norm_num [QF.boundsQ]) (by norm_num [QF.boundsQ]) (by norm_num [QF.boundsQ]) s1
    obtain ⟨b, hb, hb'⟩ := std_line (u := u) (fi := .std_ulgy_mseq_int) (hi := 1) (logm := logmp0)
      (by norm_num [QF.boundsQ]) (by norm_num [QF.boundsQ]) (by norm_num [QF.boundsQ]) s2
    obtain ⟨d, hd, hd'⟩ := std_line (u := u) (fi := .std_ul_mseq_int) (hi := 3) (logm := logmp0)
      (by norm_num [QF.boundsQ]) (by norm_num [QF.boundsQ]) (by norm_num [QF.boundsQ]) s3
    obtain ⟨e, he, he'⟩ := std_line (u := u) (fi := .std_uh_mseq_int) (hi := 3) (logm := logmp0)
      (by norm_num [QF.boundsQ]) (by norm_num [QF.boundsQ]) (by norm_num [QF.boundsQ]) s4
    refine validCov_mk ha' hb' hd' he' ?_
    simp only [getCovarianceMseqMsBlock, getCovParamsMseqMsBlock, sfhPdfPart_apply, BV_std_ulgm, BV_std_ulgy,
      BV_std_ul, BV_std_uh, ha, hb, hd, he]
    rfl
  · obtain ⟨a, ha, ha'⟩ := std_line (u := u) (fi := .std_ulgm_qseq_int) (hi := 1) (logm := logmp0)
      (by norm_num [QF.boundsQ]) (by norm_num [QF.boundsQ]) (by norm_num [QF.boundsQ]) s5
    obtain ⟨b, hb, hb'⟩ := std_line (u := u) (fi := .std_ulgy_qseq_int) (hi := 1) (logm := logmp0)
      (by norm_num [QF.boundsQ]) (by norm_num [QF.boundsQ]) (by norm_num [QF.boundsQ]) s6
    obtain ⟨d, hd, hd'⟩ := std_line (u := u) (fi := .std_ul_qseq_int) (hi := 3) (logm := logmp0)
      (by norm_num [QF.boundsQ]) (by norm_num [QF.boundsQ]) (by norm_num [QF.boundsQ]) s7
    obtain ⟨e, he, he'⟩ := std_line (u := u) (fi := .std_uh_qseq_int) (hi := 3) (logm := logmp0)
      (by norm_num [QF.boundsQ]) (by norm_num [QF.boundsQ]) (by norm_num [QF.boundsQ]) s8
    refine validCov_mk ha' hb' hd' he' ?_
    simp only [getCovarianceQseqMsBlock, getCovParamsQseqMsBlock, sfhPdfPart_apply, BV_std_ulgm, BV_std_ulgy,
      BV_std_ul, BV_std_uh, ha, hb, hd, he]
    rfl
  · obtain ⟨a, ha, ha'⟩ := std_line (u := u) (fi := .std_uqt_int) (hi := 0.5) (logm := logmp0)
      (by norm_num [QF.boundsQ]) (by norm_num [QF.boundsQ]) (by norm_num [QF.boundsQ]) s9
    obtain ⟨b, hb, hb'⟩ := std_line (u := u) (fi := .std_uqs_int) (hi := 1) (logm := logmp0)
      (by norm_num [QF.boundsQ]) (by norm_num [QF.boundsQ]) (by norm_num [QF.boundsQ]) s10
    obtain ⟨d, hd, hd'⟩ := std_line (u := u) (fi := .std_udrop_int) (hi := 2) (logm := logmp0)
      (by norm_num [QF.boundsQ]) (by norm_num [QF.boundsQ]) (by norm_num [QF.boundsQ]) s11
    obtain ⟨e, he, he'⟩ := std_line (u := u) (fi := .std_urej_int) (hi := 2) (logm := logmp0)
      (by norm_num [QF.boundsQ]) (by norm_num [QF.boundsQ]) (by norm_num [QF.boundsQ]) s12
    refine validCov_mk ha' hb' hd' he' ?_
    simp only [getCovarianceQseqQBlock, getCovParamsQseqQBlock, sfhPdfPart_apply, BV_std_uqt, BV_std_uqs,
      BV_std_udrop, BV_std_urej, ha, hb, hd, he]
    rfl

/-- An unbounded vector with no zero slope. -/
example : ∀ f ∈ [QF.std_ulgm_mseq_slp, .std_ulgy_mseq_slp, .std_ul_mseq_slp, .std_uh_mseq_slp,
      .std_ulgm_qseq_slp, .std_ulgy_qseq_slp, .std_ul_qseq_slp, .std_uh_qseq_slp, .std_uqt_slp,
      .std_uqs_slp, .std_udrop_slp, .std_urej_slp], (fun _ : PF => (1 : ℝ)) (.inl f) ≠ 0 := by
  intro f _
  norm_num

theorem bounded_slope_zero {u : PF → ℝ} {fs : QF} (hbs : QF.boundsQ fs = (-1, 1)) (hs : u (.inl fs) = 0) :
    getBoundedDiffstarpopParams u (.inl fs) = 0 := by
  rw [getBounded_apply, hs]
  simp only [PF.bounds, QF.bounds, hbs]
  simp [sigmoid, nnSigmoid_zero]; norm_num

/-- **C35** is false for a zero slope: if any of the four main-sequence standard-deviation slopes of the
unbounded vector is exactly 0 (a legal and natural start value), the main-sequence covariance contains NaN at
every halo mass, and so does the drawn main-sequence parameter set of every galaxy. -/
theorem C35_zero_slope_violated {K : Type} (rng : Rng K) (u : PF → ℝ) (logmp0 tpeak : ℝ) (upid : ℤ)
    (lgmu logmhost gyr : ℝ) (key : K)
    (hs : ∃ f ∈ [QF.std_ulgm_mseq_slp, .std_ulgy_mseq_slp, .std_ul_mseq_slp, .std_uh_mseq_slp],
      u (.inl f) = 0) :
    (diffstarpopMeansCovs (getBoundedDiffstarpopParams u) logmp0 tpeak lgmu logmhost gyr).covMseqMs = none ∧
    (mcDiffstarParamsSinglegal rng (getBoundedDiffstarpopParams u) logmp0 tpeak upid lgmu logmhost gyr
      key).paramsMs = none := by
  have h1 : getCovarianceMseqMsBlock (sfhPdfPart (getBoundedDiffstarpopParams u)) logmp0 = none := by
    simp only [getCovarianceMseqMsBlock, getCovParamsMseqMsBlock, sfhPdfPart_apply]
    simp only [List.mem_cons, List.not_mem_nil, or_false, exists_eq_or_imp, exists_eq_left] at hs
    rcases hs with h | h | h | h <;>
    rw [bounded_slope_zero (by norm_num [QF.boundsQ]) h, lineModel_zero] <;> simp
  refine ⟨h1, ?_⟩
  simp only [mcDiffstarParamsSinglegal, mcDiffstarUParamsSinglegalKernel, diffstarpopMeansCovs,
    sfhPdfScalarKernel, h1, drawMs]
  simp

/-- The unbounded zero vector meets the hypothesis of `C35_zero_slope_violated`. -/
example : ∃ f ∈ [QF.std_ulgm_mseq_slp, .std_ulgy_mseq_slp, .std_ul_mseq_slp, .std_uh_mseq_slp],
    (fun _ : PF => (0 : ℝ)) (.inl f) = 0 := ⟨.std_ulgm_mseq_slp, by simp, rfl⟩

/-- **C35**: the covariance for given standard deviations and correlation coefficients (all zero in the present model). -/
theorem C35_covariance_entries (s : Fin 4 → ℝ) (c : Fin 6 → ℝ) :
    covarianceFromCovParams s c =
      !![s 0 ^ 2, c 0 * s 0 * s 1, c 1 * s 0 * s 2, c 3 * s 0 * s 3;
         c 0 * s 0 * s 1, s 1 ^ 2, c 2 * s 1 * s 2, c 4 * s 1 * s 3;
         c 1 * s 0 * s 2, c 2 * s 1 * s 2, s 2 ^ 2, c 5 * s 2 * s 3;
         c 3 * s 0 * s 3, c 4 * s 1 * s 3, c 5 * s 2 * s 3, s 3 ^ 2] := by
  ext i j
  unfold covarianceFromCovParams
  refine (cov_apply _ s i j).trans ?_
  fin_cases i <;> fin_cases j <;> simp [getCholeskyFromParams] <;> ring_nf <;> (try split_ifs with h) <;> simp_all

/-! ### C40, C65: overriding parameters -/

/-- **C40**: if the call succeeds, the result has the default field names in the default order, the varied
value for varied fields and the default value for all other fields. -/
theorem C40_override_exact {α : Type} (varied defaults r : NamedTuple α)
    (hv : (varied.map Prod.fst).Nodup) (hr : getAllParamsFromVaried varied defaults = some r) :
    r.map Prod.fst = defaults.map Prod.fst ∧
    (∀ k v, (k, v) ∈ varied → k ∈ defaults.map Prod.fst ∧ ∀ w, (k, w) ∈ r → w = v) ∧
    (∀ k v, k ∉ varied.map Prod.fst → ((k, v) ∈ r ↔ (k, v) ∈ defaults)) := by
  simp only [getAllParamsFromVaried, NamedTuple.replace] at hr
  split_ifs at hr with hk
  simp only [Option.some.injEq] at hr
  subst hr
  refine ⟨by simp [Function.comp_def], ?_, ?_⟩
  · intro k v hkv
    refine ⟨hk _ hkv, ?_⟩
    intro w hw
    simp only [List.mem_map, Prod.mk.injEq] at hw
    obtain ⟨⟨k', d⟩, _, rfl, rfl⟩ := hw
    have : varied.lookup k' = some v := by
      clear hk
      induction varied with
      | nil => simp at hkv
      | cons a l ih =>
        obtain ⟨k2, v2⟩ := a
        simp only [List.map_cons, List.nodup_cons] at hv
        rcases List.mem_cons.1 hkv with h | h
        · simp only [Prod.mk.injEq] at h
          obtain ⟨h1, h2⟩ := h
          subst h1; subst h2
          simp [List.lookup]
        · have hne : k' ≠ k2 := by
            rintro rfl
            exact hv.1 (List.mem_map.2 ⟨_, h, rfl⟩)
          rw [List.lookup_cons]
          simp only [beq_eq_false_iff_ne.2 hne]
          exact ih hv.2 h
    rw [this]
    rfl
  · intro k v hkv
    have : varied.lookup k = none := by
      rw [List.lookup_eq_none_iff]
      intro p hp
      apply bne_iff_ne.2
      rintro rfl
      exact hkv (List.mem_map.2 ⟨_, hp, rfl⟩)
    simp only [List.mem_map, Prod.mk.injEq]
    constructor
    · rintro ⟨⟨k', d⟩, hd, rfl, rfl⟩
      simpa [this] using hd
    · intro h
      exact ⟨(k, v), h, rfl, by simp [this]⟩

/-- **C40**: the call raises exactly when some varied field is unknown. -/
theorem C40_unknown_field_raises {α : Type} (varied defaults : NamedTuple α) :
    getAllParamsFromVaried varied defaults = none ↔
      ∃ k ∈ varied.map Prod.fst, k ∉ defaults.map Prod.fst := by
  simp only [getAllParamsFromVaried, NamedTuple.replace]
  constructor
  · intro h
    split_ifs at h with hk
    push Not at hk
    obtain ⟨kw, h1, h2⟩ := hk
    exact ⟨kw.1, List.mem_map.2 ⟨_, h1, rfl⟩, h2⟩
  · rintro ⟨k, h1, h2⟩
    rw [if_neg]
    intro h
    obtain ⟨kw, h3, rfl⟩ := List.mem_map.1 h1
    exact h2 (h kw h3)

/-- **C40**: applying the same override twice changes nothing. -/
theorem C40_override_idempotent {α : Type} (varied defaults r : NamedTuple α)
    (hr : getAllParamsFromVaried varied defaults = some r) :
    getAllParamsFromVaried varied r = some r := by
  simp only [getAllParamsFromVaried, NamedTuple.replace] at hr ⊢
  split_ifs at hr with hk
  simp only [Option.some.injEq] at hr
  subst hr
  rw [if_pos]
  · simp only [List.map_map, Function.comp_def, Option.some.injEq]
    apply List.map_congr_left
    intro a _
    cases varied.lookup a.1 <;> rfl
  · intro kw h
    simpa [Function.comp_def] using hk kw h

/-- A concrete override: one of three fields is varied. -/
example : ([("b", 5)].map Prod.fst).Nodup ∧
    getAllParamsFromVaried [("b", 5)] [("a", 1), ("b", 2), ("c", 3)] =
      some [("a", 1), ("b", 5), ("c", 3)] := by
  constructor <;> decide

/-- The 88 names of the unbounded population parameters are distinct. -/
theorem uPopNames_nodup : uPopNames.Nodup ∧ uPopNames.length = 88 := by decide +kernel

/-- **C65** (violated): the calling convention documented for `get_all_diffstarpop_u_params` -- a namedtuple
with the entries `u_sfh_pdf_cens_params` and `u_satquench_params` -- raises for every content, because the
tuple of defaults is flat. -/
theorem C65_documented_nested_form_violated {α : Type} (defaults : List α) (hd : defaults.length = 88)
    (a b : α) :
    getAllDiffstarpopUParams defaults [("u_sfh_pdf_cens_params", a), ("u_satquench_params", b)] = none := by
  rw [getAllDiffstarpopUParams, Option.map_eq_none_iff, C40_unknown_field_raises]
  refine ⟨"u_sfh_pdf_cens_params", by simp, ?_⟩
  rw [List.map_fst_zip (by rw [hd, uPopNames_nodup.2])]
  decide +kernel

/-- **C65** (partial: the flat form, not the documented nested one): with flat names the function returns the
full 88-field tuple with exactly the varied fields replaced. -/
theorem C65_flat_form_partial {α : Type} (defaults : List α) (hd : defaults.length = 88) (k : String)
    (hk : k ∈ uPopNames) (v : α) :
    ∃ r, getAllDiffstarpopUParams defaults [(k, v)] = some r ∧ r.map Prod.fst = uPopNames ∧ (k, v) ∈ r ∧
      ∀ k' v', k' ≠ k → ((k', v') ∈ r ↔ (k', v') ∈ uPopNames.zip defaults) := by
  have hz : (uPopNames.zip defaults).map Prod.fst = uPopNames :=
    List.map_fst_zip (by rw [hd, uPopNames_nodup.2])
  cases hr : getAllParamsFromVaried [(k, v)] (uPopNames.zip defaults) with
  | none =>
    rw [C40_unknown_field_raises] at hr
    obtain ⟨k', h1, h2⟩ := hr
    simp only [List.map_cons, List.map_nil, List.mem_singleton] at h1
    rw [hz] at h2
    exact absurd (h1 ▸ hk) h2
  | some r =>
    obtain ⟨h1, h2, h3⟩ := C40_override_exact _ _ r (by simp) hr
    rw [hz] at h1
    have e : uPopNames.zip (r.map Prod.snd) = r := by
      rw [← h1]
      exact (List.zip_of_prod rfl rfl).symm
    refine ⟨r, ?_, h1, ?_, ?_⟩
    · rw [getAllDiffstarpopUParams, hr, Option.map_some, e]
    · rw [← h1] at hk
      obtain ⟨⟨k', w⟩, hw, rfl⟩ := List.mem_map.1 hk
      have := (h2 k' v (by simp)).2 w hw
      rwa [← this]
    · intro k' v' hne
      exact h3 k' v' (by simpa using hne)

example : "u_td_mlo" ∈ uPopNames ∧ (List.replicate 88 (0 : ℝ)).length = 88 := by
  constructor
  · decide +kernel
  · simp

end Diffstar.Props
