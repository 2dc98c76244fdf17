import Verif.Props.DrawLaw
import Verif.Props.Concentration
import Verif.Props.PopSmooth
import Verif.Props.FitContinuity

/-!
C123: averages over populations approach the expectation over the distribution of C122 as the population grows.
-/

namespace Diffstar.Props

open Diffstar.Pop Diffstar.PopLoss Diffstar.Spec MeasureTheory ProbabilityTheory

/-- Hoeffding's inequality for one statistic per galaxy. -/
theorem popDraws_hoeffding {n : ℕ} (X : Fin n → GalaxyDraws → ℝ) (hm : ∀ i, Measurable (X i))
    (hX : ∀ i d, 0 ≤ X i d ∧ X i d ≤ 1) (ε : ℝ) (hε : 0 ≤ ε) :
    (popDraws n).real {x | ε * n ≤ |∑ i, X i (x i) - ∑ i, ∫ d, X i d ∂galaxyDraws|} ≤ 2 * Real.exp (-2 * n * ε ^ 2) := by
  rcases Nat.eq_zero_or_pos n with rfl | hn
  · refine (measureReal_le_one).trans ?_
    simp
  have hn' : (0 : ℝ) < n := by exact_mod_cast hn
  have hmean : ∀ i, ∫ x, X i (x i) ∂popDraws n = ∫ d, X i d ∂galaxyDraws := fun i =>
    integral_comp_eval (μ := fun _ : Fin n => galaxyDraws) (hm i).aestronglyMeasurable
  have hmi : ∀ i, Measurable fun x : Fin n → GalaxyDraws => X i (x i) := fun i => (hm i).comp (measurable_pi_apply i)
  have hsub : ∀ i, HasSubgaussianMGF (fun x : Fin n → GalaxyDraws => X i (x i) - ∫ d, X i d ∂galaxyDraws) (1 / 4)
      (popDraws n) := by
    intro i
    have := hasSubgaussianMGF_of_mem_Icc (μ := popDraws n) (a := 0) (b := 1) (hmi i).aemeasurable
      (Filter.Eventually.of_forall fun x => hX i (x i))
    rw [hmean i] at this
    convert this using 1
    norm_num
  have hind : iIndepFun (fun (i : Fin n) (x : Fin n → GalaxyDraws) => X i (x i) - ∫ d, X i d ∂galaxyDraws) (popDraws n) :=
    iIndepFun_pi (μ := fun _ : Fin n => galaxyDraws) (X := fun i d => X i d - ∫ d, X i d ∂galaxyDraws)
      fun i => ((hm i).sub_const _).aemeasurable
  have key : ∀ Y : Fin n → (Fin n → GalaxyDraws) → ℝ, iIndepFun Y (popDraws n) →
      (∀ i, HasSubgaussianMGF (Y i) (1 / 4) (popDraws n)) →
      (popDraws n).real {x | ε * n ≤ ∑ i, Y i x} ≤ Real.exp (-2 * n * ε ^ 2) := by
    intro Y hY hs
    refine (HasSubgaussianMGF.measure_sum_ge_le_of_iIndepFun hY (s := Finset.univ) (fun i _ => hs i)
      (by positivity)).trans (le_of_eq ?_)
    congr 1
    simp
    field_simp
    norm_num
  have h1 := key _ hind hsub
  have h2 := key (fun i x => -(X i (x i) - ∫ d, X i d ∂galaxyDraws))
    (hind.comp (fun _ y => -y) fun _ => measurable_neg) fun i => (hsub i).neg
  have hset : {x : Fin n → GalaxyDraws | ε * n ≤ |∑ i, X i (x i) - ∑ i, ∫ d, X i d ∂galaxyDraws|} ⊆
      {x | ε * n ≤ ∑ i, (X i (x i) - ∫ d, X i d ∂galaxyDraws)} ∪
      {x | ε * n ≤ ∑ i, -(X i (x i) - ∫ d, X i d ∂galaxyDraws)} := by
    intro x hx
    simp only [Set.mem_ofPred_eq, Set.mem_union, Finset.sum_neg_distrib, Finset.sum_sub_distrib] at hx ⊢
    rcases le_abs.1 hx with h | h
    · exact Or.inl h
    · exact Or.inr h
  refine (measureReal_mono hset).trans ((measureReal_union_le _ _).trans ?_)
  linarith

/-- Expectations of functions of the deviates. -/
theorem normals_integral {k : ℕ} (e : Fin k → Fin 3 × Fin 4) (he : Function.Injective e) (m s : Fin k → ℝ)
    (h : (Fin k → ℝ) → ℝ) (hh : Measurable h) :
    ∫ z, h (fun l => m l + s l * z (e l)) ∂(Measure.pi fun _ : Fin 3 × Fin 4 => gaussianReal 0 1) =
      ∫ v, h v ∂normals m s := by
  have hT : Measurable fun (z : Fin 3 × Fin 4 → ℝ) (l : Fin k) => m l + s l * z (e l) := by fun_prop
  have hmap : (Measure.pi fun _ : Fin 3 × Fin 4 => gaussianReal 0 1).map (fun z l => m l + s l * z (e l)) = normals m s :=
    Measure.ext fun A hA => by
      rw [Measure.map_apply hT hA]
      exact normals_of_deviates e he m s A hA
  rw [← hmap, integral_map hT.aemeasurable hh.aestronglyMeasurable]

theorem integrable_unit {α : Type*} [MeasurableSpace α] {μ : Measure α} [IsProbabilityMeasure μ] {h : α → ℝ}
    (hm : Measurable h) (h01 : ∀ a, 0 ≤ h a ∧ h a ≤ 1) : Integrable h μ :=
  Integrable.of_bound hm.aestronglyMeasurable 1 (Filter.Eventually.of_forall fun a => by
    rw [Real.norm_eq_abs, abs_of_nonneg (h01 a).1]; exact (h01 a).2)

open Classical in
/-- **C123**: as the population grows, both the mean of a statistic over the Monte Carlo catalogue and the weighted mean of the
losses approach the expectation of the statistic over the distribution of the parameters. -/
theorem C123_population_limit (u : PF → ℝ) :
    let p := getBoundedDiffstarpopParams u
    ∃ δ : ℝ → ℝ, Switches δ (p (.inl .delta_uqt_x0)) (p (.inl .delta_uqt_k)) (p (.inl .delta_uqt_ylo))
        (p (.inl .delta_uqt_yhi)) ∧
      ∀ {K : Type} {n : ℕ} (key : K) (r : (Fin n → GalaxyDraws) → Rng K) (_ : NormalDraws key r)
        (logMah : MahParams ℝ → ℝ → ℝ → ℝ) (mah : MahParams (Fin n → ℝ)) (logmp0 : Fin n → ℝ) (upid : Fin n → ℤ)
        (lgmu logmhost gyr : Fin n → ℝ) (tarr : List ℝ) (lgt0 fb : ℝ),
        let g := fun x => mcDiffstarSfhGalpop (r x) logMah p mah logmp0 upid lgmu logmhost gyr key tarr lgt0 fb
        (∀ i, ∃ x, (g x i).paramsMs ≠ none ∧ (g x i).paramsQ ≠ none) →
        ∃ (f : Fin n → ℝ) (m s : Fin n → Fin 4 → ℝ) (m' s' : Fin n → Fin 8 → ℝ),
          (∀ i, (∀ x, (g x i).fracQ = f i) ∧
            MsFollows p (logmp0 i) (m i) (s i) ∧ (∀ l, 0 < s i l) ∧
            QFollows p (logmp0 i) (δ (mah.tPeak i)) (m' i) (s' i) ∧ (∀ l, 0 < s' i l)) ∧
          ∀ (h : Fin n → DiffstarParams ℝ → ℝ) (ε : ℝ), (∀ i q, 0 ≤ h i q ∧ h i q ≤ 1) → 0 ≤ ε →
            (∀ i, Measurable (fun v => h i (getBoundedDiffstarParams (msOfVec v))) ∧
              Measurable (fun v => h i (getBoundedDiffstarParams (paramsOfVec v)))) →
            let E := ∑ i, (f i * ∫ v, h i (getBoundedDiffstarParams (paramsOfVec v)) ∂normals (m' i) (s' i) +
              (1 - f i) * ∫ v, h i (getBoundedDiffstarParams (msOfVec v)) ∂normals (m i) (s i))
            (popDraws n).real {x | ε * n ≤ |∑ i, (chosen (g x i)).elim 0 (h i) - E|} ≤ 2 * Real.exp (-2 * n * ε ^ 2) ∧
            (popDraws n).real {x | ε * n ≤ |∑ i, ((1 - (g x i).fracQ) * (g x i).paramsMs.elim 0 (h i) +
                (g x i).fracQ * (g x i).paramsQ.elim 0 (h i)) - E|} ≤ 2 * Real.exp (-2 * n * ε ^ 2) := by
  intro p
  obtain ⟨δ, hδ, H⟩ := galaxy_of_draws u
  refine ⟨δ, hδ, ?_⟩
  intro K n key r hr logMah mah logmp0 upid lgmu logmhost gyr tarr lgt0 fb g hok
  have H' := fun i => H key r hr logMah mah logmp0 upid lgmu logmhost gyr tarr lgt0 fb i
    ((hok i).imp fun x h => h.1) ((hok i).imp fun x h => h.2)
  choose f m s m' s' h0 h1 fM ps fQ ps' hg using H'
  refine ⟨f, m, s, m', s', fun i => ⟨fun x => (hg i x).1, fM i, ps i, fQ i, ps' i⟩, fun h ε h01 hε hmeas => ?_⟩
  intro E
  have hi : Function.Injective qIndex := by decide
  have hi' : Function.Injective fun l : Fin 4 => ((0 : Fin 3), l) := fun a b h => (Prod.mk.inj h).2
  -- the statistic of the two branches as functions of the deviates
  let a : Fin n → (Fin 3 × Fin 4 → ℝ) → ℝ := fun i z =>
    h i (getBoundedDiffstarParams (paramsOfVec fun l => m' i l + s' i l * z (qIndex l)))
  let b : Fin n → (Fin 3 × Fin 4 → ℝ) → ℝ := fun i z =>
    h i (getBoundedDiffstarParams (msOfVec fun l => m i l + s i l * z (0, l)))
  have ha : ∀ i, Measurable (a i) := fun i => (hmeas i).2.comp (g := fun v => h i (getBoundedDiffstarParams (paramsOfVec v)))
    (f := fun (z : Fin 3 × Fin 4 → ℝ) l => m' i l + s' i l * z (qIndex l)) (by fun_prop)
  have hb : ∀ i, Measurable (b i) := fun i => (hmeas i).1.comp (g := fun v => h i (getBoundedDiffstarParams (msOfVec v)))
    (f := fun (z : Fin 3 × Fin 4 → ℝ) l => m i l + s i l * z (0, l)) (by fun_prop)
  have ea : ∀ i, ∫ z, a i z ∂(Measure.pi fun _ : Fin 3 × Fin 4 => gaussianReal 0 1) =
      ∫ v, h i (getBoundedDiffstarParams (paramsOfVec v)) ∂normals (m' i) (s' i) := fun i =>
    normals_integral qIndex hi (m' i) (s' i) _ (hmeas i).2
  have eb : ∀ i, ∫ z, b i z ∂(Measure.pi fun _ : Fin 3 × Fin 4 => gaussianReal 0 1) =
      ∫ v, h i (getBoundedDiffstarParams (msOfVec v)) ∂normals (m i) (s i) := fun i =>
    normals_integral (fun l : Fin 4 => ((0 : Fin 3), l)) hi' (m i) (s i) _ (hmeas i).1
  have ia : ∀ i, Integrable (a i) (Measure.pi fun _ : Fin 3 × Fin 4 => gaussianReal 0 1) := fun i =>
    integrable_unit (ha i) fun z => h01 i _
  have ib : ∀ i, Integrable (b i) (Measure.pi fun _ : Fin 3 × Fin 4 => gaussianReal 0 1) := fun i =>
    integrable_unit (hb i) fun z => h01 i _
  have eE : ∀ i, ∫ z, (f i * a i z + (1 - f i) * b i z) ∂(Measure.pi fun _ : Fin 3 × Fin 4 => gaussianReal 0 1) =
      f i * ∫ v, h i (getBoundedDiffstarParams (paramsOfVec v)) ∂normals (m' i) (s' i) +
        (1 - f i) * ∫ v, h i (getBoundedDiffstarParams (msOfVec v)) ∂normals (m i) (s i) := by
    intro i
    rw [integral_add ((ia i).const_mul _) ((ib i).const_mul _), integral_const_mul, integral_const_mul, ea, eb]
  constructor
  · -- Monte Carlo
    let X : Fin n → GalaxyDraws → ℝ := fun i d => if d.2 < f i then a i d.1 else b i d.1
    have hXm : ∀ i, Measurable (X i) := fun i =>
      Measurable.ite (measurableSet_lt measurable_snd measurable_const) ((ha i).comp measurable_fst)
        ((hb i).comp measurable_fst)
    have hX01 : ∀ i d, 0 ≤ X i d ∧ X i d ≤ 1 := by
      intro i d
      by_cases hd : d.2 < f i
      · simp only [X, if_pos hd]; exact h01 i _
      · simp only [X, if_neg hd]; exact h01 i _
    have hXE : ∑ i, ∫ d, X i d ∂galaxyDraws = E := by
      refine Finset.sum_congr rfl fun i _ => ?_
      rw [← eE i]
      have hint : Integrable (X i) galaxyDraws := integrable_unit (hXm i) (hX01 i)
      rw [galaxyDraws, integral_prod _ hint]
      refine integral_congr_ae (Filter.Eventually.of_forall fun z => ?_)
      have := (unif_ite (h0 i).le (h1 i).le (a i z) (b i z)).2
      simp only [X]
      rw [this]
      ring
    have := popDraws_hoeffding X hXm hX01 ε hε
    rw [hXE] at this
    refine le_trans (le_of_eq ?_) this
    congr 1
    ext x
    refine iff_of_eq (congrArg (fun t => ε * n ≤ |t - E|) (Finset.sum_congr rfl fun i _ => ?_))
    obtain ⟨-, hq, hM, hQ⟩ := hg i x
    by_cases hd : (x i).2 < f i
    · have hc : chosen (g x i) = (g x i).paramsQ := if_pos (hq.mpr hd)
      rw [hc, show (g x i).paramsQ = _ from hQ]
      simp only [X, if_pos hd]
      rfl
    · have hc : chosen (g x i) = (g x i).paramsMs := if_neg fun hh => hd (hq.mp hh)
      rw [hc, show (g x i).paramsMs = _ from hM]
      simp only [X, if_neg hd]
      rfl
  · -- weighted
    let X : Fin n → GalaxyDraws → ℝ := fun i d => f i * a i d.1 + (1 - f i) * b i d.1
    have hXm : ∀ i, Measurable (X i) := fun i =>
      (((ha i).comp measurable_fst).const_mul _).add (((hb i).comp measurable_fst).const_mul _)
    have hX01 : ∀ i d, 0 ≤ X i d ∧ X i d ≤ 1 := by
      intro i d
      have A := h01 i (getBoundedDiffstarParams (paramsOfVec fun l => m' i l + s' i l * d.1 (qIndex l)))
      have B := h01 i (getBoundedDiffstarParams (msOfVec fun l => m i l + s i l * d.1 (0, l)))
      refine ⟨add_nonneg (mul_nonneg (h0 i).le A.1) (mul_nonneg (sub_nonneg.2 (h1 i).le) B.1), ?_⟩
      have := mix_le_one ⟨(h0 i).le, (h1 i).le⟩ B.2 A.2
      show f i * a i d.1 + (1 - f i) * b i d.1 ≤ 1
      exact (add_comm _ _).trans_le this
    have hXE : ∑ i, ∫ d, X i d ∂galaxyDraws = E := by
      refine Finset.sum_congr rfl fun i _ => ?_
      rw [← eE i]
      have hint : Integrable (X i) galaxyDraws := integrable_unit (hXm i) (hX01 i)
      rw [galaxyDraws, integral_prod _ hint]
      refine integral_congr_ae (Filter.Eventually.of_forall fun z => ?_)
      simp [X]
    have := popDraws_hoeffding X hXm hX01 ε hε
    rw [hXE] at this
    refine le_trans (le_of_eq ?_) this
    congr 1
    ext x
    refine iff_of_eq (congrArg (fun t => ε * n ≤ |t - E|) (Finset.sum_congr rfl fun i _ => ?_))
    obtain ⟨hf, -, hM, hQ⟩ := hg i x
    rw [show (g x i).fracQ = _ from hf, show (g x i).paramsQ = _ from hQ, show (g x i).paramsMs = _ from hM, add_comm]
    rfl

/-- Stellar masses are measurable functions of unbounded parameters. -/
theorem mass_measurable (logMah : MahParams ℝ → ℝ → ℝ → ℝ) (mah : MahParams ℝ) (tobs lgt0 fb sigma lo hi : ℝ) :
    Measurable (fun v => NdHist.twBinWeightLaxKern (logMassAt tobs (calcSfhSinglegal logMah
      (getBoundedDiffstarParams (msOfVec v)) mah (obsTimes tobs) lgt0 fb)) sigma lo hi) ∧
    Measurable (fun v => NdHist.twBinWeightLaxKern (logMassAt tobs (calcSfhSinglegal logMah
      (getBoundedDiffstarParams (paramsOfVec v)) mah (obsTimes tobs) lgt0 fb)) sigma lo hi) := by
  have main : Measurable (fun v => NdHist.twBinWeightLaxKern (logMassAt tobs (calcSfhSinglegal logMah
      (getBoundedDiffstarParams (paramsOfVec v)) mah (obsTimes tobs) lgt0 fb)) sigma lo hi) := by
    obtain ⟨c0, c, hc⟩ := cmf_affine (obsTimes tobs) 19
    have e : ∀ v, logMassAt tobs (calcSfhSinglegal logMah (getBoundedDiffstarParams (paramsOfVec v)) mah (obsTimes tobs)
        lgt0 fb) = Real.logb 10 (c0 + ∑ j ∈ Finset.range (obsTimes tobs).length, c j *
          ((obsTimes tobs).map fun x => max (1 / 10 ^ 14)
            (rawSfr logMah mah lgt0 fb (getBoundedDiffstarParams (paramsOfVec v)) x)).getD j 0) := by
      intro v
      have hs := sfh_eq logMah mah (obsTimes tobs) lgt0 fb (getBoundedDiffstarParams (paramsOfVec v))
      change calcSfhSinglegal logMah (getBoundedDiffstarParams (paramsOfVec v)) mah (obsTimes tobs) lgt0 fb = _ at hs
      rw [hs, ← hc _ (by simp), logMassAt]
      have hl : (cumulativeMstarFormed (obsTimes tobs) ((obsTimes tobs).map fun x => max (1 / 10 ^ 14)
          (rawSfr logMah mah lgt0 fb (getBoundedDiffstarParams (paramsOfVec v)) x))).length = 20 := by
        rw [cmf_length] <;> simp [obsTimes_length]
      rw [List.getD_eq_getElem _ _ (by omega), getLastD_of_length hl (List.getElem?_eq_getElem (by omega))]
    simp only [e, ndBin_eq]
    have hm : Measurable fun v => Real.logb 10 (c0 + ∑ j ∈ Finset.range (obsTimes tobs).length, c j *
          ((obsTimes tobs).map fun x => max (1 / 10 ^ 14)
            (rawSfr logMah mah lgt0 fb (getBoundedDiffstarParams (paramsOfVec v)) x)).getD j 0) := by
      unfold Real.logb
      refine (Real.measurable_log.comp (measurable_const.add (Finset.measurable_fun_sum _ fun j hj => ?_))).div_const _
      have hj' : j < (obsTimes tobs).length := Finset.mem_range.1 hj
      simp only [List.getD_eq_getElem?_getD, List.getElem?_map, List.getElem?_eq_getElem hj', Option.map_some,
        Option.getD_some]
      exact (measurable_const.max ((contDiff_rawSfr_unbounded _ _ _).continuous.measurable)).const_mul _
    have hj : Measurable jaxTw := contDiff_jaxTw.continuous.measurable
    exact (hj.comp ((hm.sub_const _).div_const _)).sub (hj.comp ((hm.sub_const _).div_const _))
  refine ⟨?_, main⟩
  have hT : Measurable fun w : Fin 4 → ℝ => (![w 0, w 1, w 2, w 3, DEFAULT_Q_U_PARAMS_UNQUENCHED.lgQt,
      DEFAULT_Q_U_PARAMS_UNQUENCHED.qlglgdt, DEFAULT_Q_U_PARAMS_UNQUENCHED.lgDrop,
      DEFAULT_Q_U_PARAMS_UNQUENCHED.lgRejuv] : Fin 8 → ℝ) := by
    refine measurable_pi_iff.2 fun l => ?_
    fin_cases l
    · exact measurable_pi_apply 0
    · exact measurable_pi_apply 1
    · exact measurable_pi_apply 2
    · exact measurable_pi_apply 3
    all_goals exact measurable_const
  have e : ∀ w : Fin 4 → ℝ, msOfVec w = paramsOfVec ![w 0, w 1, w 2, w 3, DEFAULT_Q_U_PARAMS_UNQUENCHED.lgQt,
      DEFAULT_Q_U_PARAMS_UNQUENCHED.qlglgdt, DEFAULT_Q_U_PARAMS_UNQUENCHED.lgDrop,
      DEFAULT_Q_U_PARAMS_UNQUENCHED.lgRejuv] := fun w => rfl
  simp only [e]
  exact main.comp hT

theorem popDraws_union {n m : ℕ} (P : Fin m → (Fin n → GalaxyDraws) → Prop) (c : ℝ)
    (h : ∀ b, (popDraws n).real {x | P b x} ≤ 2 * c) : (popDraws n).real {x | ∃ b, P b x} ≤ 2 * m * c := by
  have e : {x : Fin n → GalaxyDraws | ∃ b, P b x} = ⋃ b, {x | P b x} := by ext; simp
  rw [e]
  refine (measureReal_iUnion_fintype_le _).trans ((Finset.sum_le_card_nsmul _ _ _ fun b _ => h b).trans ?_)
  simp
  linarith

/-- Normalised histograms of close counts are close. -/
theorem normalised_close {nb : ℕ} {S E : Fin nb → ℝ} {e : ℝ} (hE : ∀ b, 0 ≤ E b) (h : ∀ b, |S b - E b| < e)
    (hN : 2 * nb * e < ∑ b, E b) : 0 < ∑ b, S b ∧
      ∀ b, |S b / ∑ b, S b - E b / ∑ b, E b| < 2 * (1 + nb) * e / ∑ b, E b := by
  have hd : |∑ b, S b - ∑ b, E b| ≤ nb * e := by
    rw [← Finset.sum_sub_distrib]
    refine (Finset.abs_sum_le_sum_abs _ _).trans ((Finset.sum_le_card_nsmul _ _ e fun b _ => (h b).le).trans ?_)
    simp
  have hle : ∀ b, E b ≤ ∑ b, E b := fun b => Finset.single_le_sum (fun b _ => hE b) (Finset.mem_univ b)
  generalize hNE : ∑ b, E b = N at *
  generalize hNS : ∑ b, S b = T at *
  have hd' := abs_le.1 hd
  have hN0 : 0 < N := by
    by_contra hc
    have h1 : N ≤ 0 := not_lt.1 hc
    have h2 : (0 : ℝ) ≤ nb * e := (abs_nonneg _).trans hd
    nlinarith
  have hT : N / 2 < T := by linarith
  have hT0 : 0 < T := by linarith
  refine ⟨hT0, fun b => ?_⟩
  have he : 0 < e := (abs_nonneg _).trans_lt (h b)
  have e1 : S b / T - E b / N = ((S b - E b) * N + E b * (N - T)) / (T * N) := by
    field_simp
    ring
  have h1 : |(S b - E b) * N + E b * (N - T)| < (1 + nb) * e * N := by
    refine (abs_add_le _ _).trans_lt ?_
    rw [abs_mul, abs_mul, abs_of_pos hN0, abs_of_nonneg (hE b), abs_sub_comm N T]
    have a1 : |S b - E b| * N < e * N := mul_lt_mul_of_pos_right (h b) hN0
    have a2 : E b * |T - N| ≤ N * (nb * e) := mul_le_mul (hle b) hd (abs_nonneg _) hN0.le
    linarith
  rw [e1, abs_div, abs_of_pos (mul_pos hT0 hN0), div_lt_div_iff₀ (mul_pos hT0 hN0) hN0]
  have h2 : (1 + nb) * e * N * N ≤ 2 * (1 + nb) * e * (T * N) := by
    have : 0 ≤ (1 + (nb : ℝ)) * e * N := by positivity
    nlinarith
  exact (mul_lt_mul_of_pos_right h1 hN0).trans_le h2

/-- **C123**: the predicted stellar mass function approaches that of the distribution of the parameters. -/
theorem C123_mass_function (u : PF → ℝ) :
    let p := getBoundedDiffstarpopParams u
    ∃ δ : ℝ → ℝ, Switches δ (p (.inl .delta_uqt_x0)) (p (.inl .delta_uqt_k)) (p (.inl .delta_uqt_ylo))
        (p (.inl .delta_uqt_yhi)) ∧
      ∀ {K : Type} {nk n nb : ℕ} (logMah : MahParams ℝ → ℝ → ℝ → ℝ) (samples : Fin nk → HaloSample K n) (k : Fin nk)
        (r : (Fin n → GalaxyDraws) → Rng K) (_ : NormalDraws (samples k).ranKey r) (lgt0 fb : ℝ) (bins : Fin (nb + 1) → ℝ)
        (_ : StrictMono bins) (_ : 0 < nb),
        let g := fun x => mcSample (r x) logMah p (samples k) lgt0 fb
        (∀ i, ∃ x, (g x i).paramsMs ≠ none ∧ (g x i).paramsQ ≠ none) →
        ∃ (f : Fin n → ℝ) (m s : Fin n → Fin 4 → ℝ) (m' s' : Fin n → Fin 8 → ℝ),
          (∀ i, (∀ x, (g x i).fracQ = f i) ∧
            MsFollows p ((samples k).logmp0 i) (m i) (s i) ∧ (∀ l, 0 < s i l) ∧
            QFollows p ((samples k).logmp0 i) (δ ((samples k).mah.tPeak i)) (m' i) (s' i) ∧ (∀ l, 0 < s' i l)) ∧
          let tobs := (samples k).tobs
          let sigma := (bins (Fin.last nb) - bins 0) / nb
          let w := fun (b : Fin nb) (i : Fin n) (q : DiffstarParams ℝ) => NdHist.twBinWeightLaxKern
            (logMassAt tobs (calcSfhSinglegal logMah q ((samples k).mah.row i) (obsTimes tobs) lgt0 fb)) sigma
            (bins b.castSucc) (bins b.succ)
          let E := fun b => ∑ i, (f i * ∫ v, w b i (getBoundedDiffstarParams (paramsOfVec v)) ∂normals (m' i) (s' i) +
            (1 - f i) * ∫ v, w b i (getBoundedDiffstarParams (msOfVec v)) ∂normals (m i) (s i))
          ∀ ε, 0 ≤ ε → 2 * nb * (ε * n) < ∑ b, E b →
            (popDraws n).real {x | ¬ ∃ pdf, mstarKernTobs (r x) logMah u samples lgt0 fb bins k = some pdf ∧
              ∀ b, |pdf b - E b / ∑ b, E b| < 2 * (1 + nb) * (ε * n) / ∑ b, E b} ≤ 2 * nb * Real.exp (-2 * n * ε ^ 2) := by
  intro p
  obtain ⟨δ, hδ, H⟩ := C123_population_limit u
  obtain ⟨δ', hδ', H2⟩ := galaxy_of_draws u
  refine ⟨δ, hδ, ?_⟩
  intro K nk n nb logMah samples k r hr lgt0 fb bins hb hn g hok
  obtain ⟨f, m, s, m', s', hF, hL⟩ := H (samples k).ranKey r hr logMah (samples k).mah (samples k).logmp0 (samples k).upid
    (samples k).lgmuInfall (samples k).logmhostInfall (samples k).gyrSinceInfall (obsTimes (samples k).tobs) lgt0 fb hok
  refine ⟨f, m, s, m', s', hF, ?_⟩
  intro tobs sigma w E ε hε hE
  have hsig : meanDiff bins = sigma := by
    unfold meanDiff
    congr 1
    have : ∀ (m : ℕ) (e : Fin (m + 1) → ℝ), ∑ j : Fin m, (e j.succ - e j.castSucc) = e (Fin.last m) - e 0 := by
      intro m
      induction m with
      | zero => intro e; simp
      | succ m ih =>
        intro e
        rw [Fin.sum_univ_castSucc]
        have := ih (fun j => e j.castSucc)
        simp only [Fin.succ_castSucc, Fin.castSucc_zero] at this ⊢
        rw [this]
        simp
    exact this nb bins
  have hspos : 0 < sigma := hsig ▸ meanDiff_pos hb hn
  have hw : ∀ b i q, 0 ≤ w b i q ∧ w b i q ≤ 1 := fun b i q =>
    ⟨ndBin_nonneg hspos (hb Fin.castSucc_lt_succ).le, ndBin_le_one _ _ _ _⟩
  have hlim := fun b => (hL (w b) ε (hw b) hε fun i => mass_measurable logMah ((samples k).mah.row i) tobs lgt0 fb sigma _ _).2
  have hE0 : ∀ b, 0 ≤ E b := by
    intro b
    refine Finset.sum_nonneg fun i _ => ?_
    obtain ⟨x, -⟩ := hok i
    have h01 := C29_frac_quench_in_unit_interval (r x) u ((samples k).logmp0 i) ((samples k).mah.tPeak i)
      ((samples k).upid i) ((samples k).lgmuInfall i) ((samples k).logmhostInfall i) ((samples k).gyrSinceInfall i)
      ((r x).split (samples k).ranKey n i)
    change 0 < (g x i).fracQ ∧ (g x i).fracQ < 1 at h01
    rw [show (g x i).fracQ = _ from (hF i).1 x] at h01
    exact add_nonneg (mul_nonneg h01.1.le (integral_nonneg fun v => (hw b i _).1))
      (mul_nonneg (sub_nonneg.2 h01.2.le) (integral_nonneg fun v => (hw b i _).1))
  refine le_trans (measureReal_mono ?_) (popDraws_union _ _ hlim)
  intro x hx
  by_contra hno
  simp only [Set.mem_ofPred_eq, not_exists, not_le] at hno
  refine hx ?_
  have hall : ∀ i, (g x i).paramsMs ≠ none ∧ (g x i).paramsQ ≠ none := by
    intro i
    obtain ⟨_, _, _, _, _, _, _, _, _, _, _, hg⟩ := H2 (samples k).ranKey r hr logMah (samples k).mah (samples k).logmp0
      (samples k).upid (samples k).lgmuInfall (samples k).logmhostInfall (samples k).gyrSinceInfall
      (obsTimes (samples k).tobs) lgt0 fb i ((hok i).imp fun x h => h.1) ((hok i).imp fun x h => h.2)
    obtain ⟨-, -, h1, h2⟩ := hg x
    exact ⟨fun h => Option.some_ne_none _ (h1.symm.trans h), fun h => Option.some_ne_none _ (h2.symm.trans h)⟩
  have hsf : ∀ i, ∃ a b, (g x i).paramsMs = some a ∧ (g x i).paramsQ = some b := fun i =>
    let ⟨a, ha⟩ := Option.ne_none_iff_exists'.1 (hall i).1
    let ⟨b, hb⟩ := Option.ne_none_iff_exists'.1 (hall i).2
    ⟨a, b, ha, hb⟩
  choose a b ha hb' using hsf
  have hs : ∀ i, (g x i).sfhMs = some (calcSfhSinglegal logMah (a i) ((samples k).mah.row i) (obsTimes tobs) lgt0 fb) ∧
      (g x i).sfhQ = some (calcSfhSinglegal logMah (b i) ((samples k).mah.row i) (obsTimes tobs) lgt0 fb) := by
    intro i
    have e1 : (g x i).sfhMs = (g x i).paramsMs.map fun q => calcSfhSinglegal logMah q ((samples k).mah.row i) (obsTimes tobs)
      lgt0 fb := rfl
    have e2 : (g x i).sfhQ = (g x i).paramsQ.map fun q => calcSfhSinglegal logMah q ((samples k).mah.row i) (obsTimes tobs)
      lgt0 fb := rfl
    rw [e1, e2, ha i, hb' i]
    exact ⟨rfl, rfl⟩
  have hpdf : mstarKernTobs (r x) logMah u samples lgt0 fb bins k = normalise fun c : Fin nb =>
      ∑ i, ((1 - (g x i).fracQ) * w c i (a i) + (g x i).fracQ * w c i (b i)) := by
    have := mstarPdf_eq (tobs := tobs) (bins := bins) hs
    rw [hsig] at this
    exact this
  obtain ⟨hT, hclose⟩ := normalised_close (S := fun c : Fin nb =>
      ∑ i, ((1 - (g x i).fracQ) * w c i (a i) + (g x i).fracQ * w c i (b i))) hE0 (fun c => by
    refine lt_of_eq_of_lt ?_ (hno c)
    refine congrArg (fun t => |t - E c|) (Finset.sum_congr rfl fun i _ => ?_)
    have h1 := ha i
    have h2 := hb' i
    show _ = (1 - (g x i).fracQ) * (g x i).paramsMs.elim 0 (w c i) + (g x i).fracQ * (g x i).paramsQ.elim 0 (w c i)
    rw [h1, h2]
    rfl) hE
  refine ⟨_, by rw [hpdf, normalise, if_neg hT.ne'], hclose⟩

/-- The 20 times for an observation at 10 Gyr. -/
theorem obsTimes_ten : ∃ ts, obsTimes 10 = 0.1 :: ts ∧ Increasing (0.001 :: 0.1 :: ts) ∧ ∀ t ∈ 0.1 :: ts, t ≤ 10 := by
  have e : obsTimes 10 = (List.range 20).map fun i : ℕ => (10 : ℝ) ^ (-1 + (i : ℝ) * (2 / 19)) := by
    have h10 : Real.logb 10 10 = 1 := Real.logb_self_eq_one (by norm_num)
    simp only [obsTimes, logspace, N_TIMES, h10]
    norm_num
  have h0 : (10 : ℝ) ^ (-1 + ((0 : ℕ) : ℝ) * (2 / 19)) = 0.1 := by norm_num [Real.rpow_neg_one]
  have e' : obsTimes 10 = 0.1 :: (List.range 19).map fun i : ℕ => (10 : ℝ) ^ (-1 + ((i + 1 : ℕ) : ℝ) * (2 / 19)) := by
    rw [e, List.range_succ_eq_map, List.map_cons, h0, List.map_map]
    rfl
  have hmem : ∀ t ∈ obsTimes 10, 0.1 ≤ t ∧ t ≤ 10 := by
    intro t ht
    rw [e, List.mem_map] at ht
    obtain ⟨i, hi, rfl⟩ := ht
    have hi' : (i : ℝ) ≤ 19 := by exact_mod_cast Nat.lt_succ_iff.1 (List.mem_range.1 hi)
    have hi0 : (0 : ℝ) ≤ i := Nat.cast_nonneg i
    constructor
    · have : (10 : ℝ) ^ (-1 : ℝ) ≤ (10 : ℝ) ^ (-1 + (i : ℝ) * (2 / 19)) :=
        Real.rpow_le_rpow_of_exponent_le (by norm_num) (by linarith)
      rw [Real.rpow_neg_one] at this
      norm_num at this ⊢
      linarith
    · have : (10 : ℝ) ^ (-1 + (i : ℝ) * (2 / 19)) ≤ (10 : ℝ) ^ (1 : ℝ) :=
        Real.rpow_le_rpow_of_exponent_le (by norm_num) (by linarith)
      rwa [Real.rpow_one] at this
  refine ⟨_, e', ?_, fun t ht => (hmem t (e' ▸ ht)).2⟩
  unfold Increasing
  rw [List.pairwise_cons, ← e']
  refine ⟨fun t ht => lt_of_lt_of_le (by norm_num) (hmem t ht).1, ?_⟩
  rw [e, List.pairwise_map]
  refine List.pairwise_lt_range.imp fun {a b} hab => Real.rpow_lt_rpow_of_exponent_lt (by norm_num) ?_
  have : (a : ℝ) < b := by exact_mod_cast hab
  linarith

/-- In a halo of constant mass `10 ** 12` no galaxy of the model has a mass outside a fixed range. -/
theorem halo_mass_range (q : DiffstarParams ℝ) (mah : MahParams ℝ) :
    |logMassAt 10 (calcSfhSinglegal (fun (_ : MahParams ℝ) _ _ => (12 : ℝ)) (getBoundedDiffstarParams q) mah (obsTimes 10) 1
      0.16)| < 100 := by
  obtain ⟨ts, hts, hinc, hle⟩ := obsTimes_ten
  have hrate : ∀ s ∈ calcSfhSinglegal (fun (_ : MahParams ℝ) _ _ => (12 : ℝ)) (getBoundedDiffstarParams q) mah (obsTimes 10) 1
      0.16, 1 / 10 ^ 14 ≤ s ∧ s ≤ 10 ^ 5 := by
    intro s hs
    have hs' := hs
    obtain ⟨i, hi, e⟩ := List.getElem_of_mem hs
    have hl : (calcSfhSinglegal (fun (_ : MahParams ℝ) _ _ => (12 : ℝ)) (getBoundedDiffstarParams q) mah (obsTimes 10) 1
      0.16).length = (obsTimes 10).length := by rw [calcSfhSinglegal_eq]; simp
    constructor
    · rw [calcSfhSinglegal_eq] at hs'
      obtain ⟨t, -, ht⟩ := List.mem_map.1 hs'
      rw [← ht]
      exact le_max_left _ _
    · have hi' : i < (obsTimes 10).length := by omega
      have ht : 0 < (obsTimes 10)[i] := by
        have hmem := List.getElem_mem hi'
        generalize (obsTimes 10)[i] = t at hmem
        rw [hts] at hmem
        have := (List.pairwise_cons.1 hinc).1 _ hmem
        exact lt_trans (by norm_num) this
      obtain ⟨s', h1, h2⟩ := C09_sfr_upper_bound (fun (_ : MahParams ℝ) _ _ => (12 : ℝ)) q mah (obsTimes 10) 1 0.16
        (by norm_num) i hi' ht
      rw [List.getElem?_eq_getElem hi, Option.some.injEq] at h1
      rw [← e, h1]
      refine h2.trans (max_le (by norm_num) ?_)
      have hb := (C01_bounded_params_in_bounds q).lgyAtMcrit.2
      have e1 : (10 : ℝ) ^ ((getBoundedDiffstarParams q).lgyAtMcrit + 5 / 27) ≤ (10 : ℝ) ^ (-7 : ℝ) :=
        Real.rpow_le_rpow_of_exponent_le (by norm_num) (by linarith)
      have e2 : (10 : ℝ) ^ (-7 : ℝ) = 1 / 10 ^ 7 := by rw [Real.rpow_neg (by norm_num)]; norm_num
      rw [e2] at e1
      have e3 : (10 : ℝ) ^ (12 : ℝ) = 10 ^ 12 := by norm_num
      rw [e3]
      refine (mul_le_mul_of_nonneg_left e1 (by norm_num)).trans ?_
      norm_num
  have hlen : (calcSfhSinglegal (fun (_ : MahParams ℝ) _ _ => (12 : ℝ)) (getBoundedDiffstarParams q) mah (obsTimes 10) 1
      0.16).length = 20 := by
    rw [calcSfhSinglegal_eq]; simp [obsTimes_length]
  generalize calcSfhSinglegal (fun (_ : MahParams ℝ) _ _ => (12 : ℝ)) (getBoundedDiffstarParams q) mah (obsTimes 10) 1
      0.16 = l at hrate hlen
  have hlm : (cumulativeMstarFormed (obsTimes 10) l).length = 20 := by rw [cmf_length] <;> simp [obsTimes_length, hlen]
  have hne : cumulativeMstarFormed (obsTimes 10) l ≠ [] := by intro h0; simp [h0] at hlm
  have hml : (cumulativeMstarFormed (obsTimes 10) l).getLastD 0 ∈ cumulativeMstarFormed (obsTimes 10) l := by
    rw [List.getLastD_eq_getLast?, List.getLast?_eq_some_getLast hne]
    exact List.getLast_mem hne
  unfold logMassAt
  rw [cmf_eq, hts] at hml
  rw [cmf_eq, hts]
  obtain ⟨m, hm, hme⟩ := List.mem_map.1 hml
  rw [← hme]
  obtain ⟨s0, s, rfl⟩ : ∃ s0 s, l = s0 :: s := by
    cases l with
    | nil => simp at hlen
    | cons s0 s => exact ⟨s0, s, rfl⟩
  have h0 := (hrate s0 List.mem_cons_self).1
  unfold Increasing at hinc
  have hinc2 := (List.pairwise_cons.1 hinc).2
  have hlow : 1 / 10 ^ 16 ≤ m := by
    rw [List.zip_cons_cons, trapFrom_cons] at hm
    have hc : (1 : ℝ) / 10 ^ 16 ≤ 0 + (0.1 - 0.001) * (s0 + 1 / 10 ^ 14) / 2 := by norm_num at h0 ⊢; linarith
    rcases List.mem_cons.1 hm with rfl | hm
    · exact hc
    · refine hc.trans ((trapFrom_mono 0.1 s0 _ (ts.zip s) (le_trans (by positivity) h0)
        (fun p hp => ((List.pairwise_cons.1 hinc2).1 _ (mem_zip_fst hp)).le)
        ((pairwise_zip (List.pairwise_cons.1 hinc2).2 s).imp fun h => h.le)
        (fun p hp => le_trans (by positivity) (hrate _ (List.mem_cons_of_mem _ (mem_zip_snd hp))).1)).1 m hm)
  have hup : m ≤ 10 ^ 6 := by
    have := trapFrom_upper 0.001 (1 / 10 ^ 14) 0 (10 ^ 5) ((0.1 :: ts).zip (s0 :: s)) (by norm_num)
      (fun p hp => ((List.pairwise_cons.1 hinc).1 _ (mem_zip_fst hp)).le)
      ((pairwise_zip hinc2 _).imp fun h => h.le) (fun p hp => (hrate _ (mem_zip_snd hp)).2) 10
      (fun p hp => hle _ (mem_zip_fst hp)) (by norm_num) m hm
    norm_num at this ⊢
    linarith
  have hmp : 0 < m * 10 ^ 9 := by
    have : (0 : ℝ) < 1 / 10 ^ 16 := by norm_num
    have := this.trans_le hlow
    positivity
  rw [abs_lt]
  constructor
  · rw [Real.lt_logb_iff_rpow_lt (by norm_num) hmp, Real.rpow_neg (by norm_num)]
    norm_num at hlow ⊢
    linarith
  · rw [Real.logb_lt_iff_lt_rpow (by norm_num) hmp]
    norm_num at hup ⊢
    linarith

/-- Two halos of mass `10 ** 12` and one wide bin: draws of the assumed form exist, no row is NaN, and the expected number of
galaxies is positive whatever the fractions and lines are, so that the theorem applies with some `ε > 0`. -/
example : ∃ (h : HaloSample (List ℕ) 2) (r : (Fin 2 → GalaxyDraws) → Rng (List ℕ)), h.tobs = 10 ∧ NormalDraws h.ranKey r ∧
    (∀ i, ∃ x, (mcSample (r x) (fun _ _ _ => 12) (getBoundedDiffstarpopParams fun _ => 1) h 1 0.16 i).paramsMs ≠ none ∧
      (mcSample (r x) (fun _ _ _ => 12) (getBoundedDiffstarpopParams fun _ => 1) h 1 0.16 i).paramsQ ≠ none) ∧
    ∀ (f : Fin 2 → ℝ) (m s : Fin 2 → Fin 4 → ℝ) (m' s' : Fin 2 → Fin 8 → ℝ), (∀ i, 0 < f i ∧ f i < 1) →
      let w := fun (i : Fin 2) (q : DiffstarParams ℝ) => NdHist.twBinWeightLaxKern (logMassAt 10 (calcSfhSinglegal
        (fun (_ : MahParams ℝ) _ _ => (12 : ℝ)) q (h.mah.row i) (obsTimes 10) 1 0.16)) 200 (-100) 100
      ∃ ε > 0, 2 * 1 * (ε * 2) < ∑ i, (f i * ∫ v, w i (getBoundedDiffstarParams (paramsOfVec v)) ∂normals (m' i) (s' i) +
            (1 - f i) * ∫ v, w i (getBoundedDiffstarParams (msOfVec v)) ∂normals (m i) (s i)) := by
  refine ⟨⟨⟨fun _ => 12, fun _ => 0, fun _ => 2, fun _ => 1, ![5, 13]⟩, fun _ => 12, ![-1, 7], ![-1, -2], ![12, 14],
    ![2, 3], [], 10⟩, fun x => ⟨fun k _ i => k ++ [i.val],
    fun k m c l => m l + Real.sqrt (c l l) * (x (Fin.ofNat 2 (k.getD 0 0))).1 (Fin.ofNat 3 (k.getD 1 0), l),
    fun k => (x (Fin.ofNat 2 (k.getD 0 0))).2⟩, rfl, ⟨fun x y => rfl, ?_, ?_⟩, ?_, ?_⟩
  · intro x i j mu s hs
    funext l
    simp only [Matrix.diagonal_apply_eq, Real.sqrt_sq (hs l).le]
    fin_cases i <;> fin_cases j <;> rfl
  · intro x i
    fin_cases i <;> rfl
  · intro i
    refine ⟨fun _ => (fun _ => 0, 0), ?_⟩
    obtain ⟨h1, h2⟩ := C94_nan_iff_zero_slope (K := List ℕ) ⟨fun k _ i => k ++ [i.val],
      fun k m c l => m l + Real.sqrt (c l l) * 0, fun k => 0⟩ (fun _ => 1) 12
      ((![5, 13] : Fin 2 → ℝ) i) ((![-1, 7] : Fin 2 → ℤ) i) ((![-1, -2] : Fin 2 → ℝ) i) ((![12, 14] : Fin 2 → ℝ) i)
      ((![2, 3] : Fin 2 → ℝ) i) [i.val]
    exact ⟨h1.not.2 (by simp), h2.not.2 (by simp)⟩
  · intro f m s m' s' hf w
    have hw : ∀ i q, 0 < w i (getBoundedDiffstarParams q) ∧ w i (getBoundedDiffstarParams q) ≤ 1 := by
      intro i q
      refine ⟨(ndBin_pos_iff (by norm_num) (by norm_num)).2 ?_, ndBin_le_one _ _ _ _⟩
      have := abs_lt.1 (halo_mass_range q (MahParams.row
        ⟨fun _ => 12, fun _ => 0, fun _ => 2, fun _ => 1, ![5, 13]⟩ i))
      constructor
      · linarith [this.1]
      · linarith [this.2]
    have pos : ∀ {k : ℕ} (mu : Measure (Fin k → ℝ)) [IsProbabilityMeasure mu] (h : (Fin k → ℝ) → ℝ), Measurable h →
        (∀ v, 0 < h v ∧ h v ≤ 1) → 0 < ∫ v, h v ∂mu := by
      intro k mu _ h hm h01
      rw [integral_pos_iff_support_of_nonneg (fun v => (h01 v).1.le) (integrable_unit hm fun v => ⟨(h01 v).1.le, (h01 v).2⟩)]
      have : Function.support h = Set.univ := Set.eq_univ_of_forall fun v => (h01 v).1.ne'
      rw [this]
      simp
    have hS : 0 < ∑ i, (f i * ∫ v, w i (getBoundedDiffstarParams (paramsOfVec v)) ∂normals (m' i) (s' i) +
            (1 - f i) * ∫ v, w i (getBoundedDiffstarParams (msOfVec v)) ∂normals (m i) (s i)) := by
      refine Finset.sum_pos (fun i _ => ?_) Finset.univ_nonempty
      have hm := mass_measurable (fun _ _ _ => 12) (MahParams.row
        ⟨fun _ => 12, fun _ => 0, fun _ => 2, fun _ => 1, ![5, 13]⟩ i) 10 1 0.16 200 (-100) 100
      exact add_pos (mul_pos (hf i).1 (pos _ _ hm.2 fun v => hw i _))
        (mul_pos (sub_pos.2 (hf i).2) (pos _ _ hm.1 fun v => hw i _))
    refine ⟨_ / 5, div_pos hS (by norm_num), ?_⟩
    linarith

end Diffstar.Props
