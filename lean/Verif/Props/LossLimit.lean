import Verif.Props.PopLimit

/-!
C133: the losses of the population model approach, as the populations grow, the loss of the exact distribution.
-/

namespace Diffstar.Spec

open Diffstar.Pop Diffstar.PopLoss MeasureTheory ProbabilityTheory

/-- `r` is a random generator whose random numbers for a population with key `key` are `X`: independent standard normal
deviates and uniform numbers. Nothing is said about how the random numbers of different populations depend on each other
(with equal keys they are the same). -/
structure Stream {K Ω : Type} [MeasurableSpace Ω] (P : Measure Ω) {n : ℕ} (key : K) (X : Ω → Fin n → GalaxyDraws)
    (r : Ω → Rng K) : Prop where
  onto : Function.Surjective X
  law : MeasurePreserving X P (popDraws n)
  split : ∀ ω ω', (r ω).split = (r ω').split
  normal : ∀ ω i (j : Fin 3) (mu s : Fin 4 → ℝ), (∀ l, 0 < s l) →
    (r ω).multivariateNormal ((r ω).split ((r ω).split key n i) 4 j.castSucc) mu (Matrix.diagonal fun l => s l ^ 2) =
      fun l => mu l + s l * (X ω i).1 (j, l)
  draw : ∀ ω i, (r ω).uniform ((r ω).split ((r ω).split key n i) 4 3) = (X ω i).2

/-- `E` is the expectation of the sum over the galaxies of the weights `w` of their star formation histories: galaxy `i` is
quenched with probability `f i` and has normal unbounded parameters. Means and standard deviations as in C122. -/
def LimitCounts {K : Type} {n : ℕ} {B : Type} (logMah : MahParams ℝ → ℝ → ℝ → ℝ) (u : PF → ℝ) (h : HaloSample K n)
    (lgt0 fb : ℝ) (w : B → List ℝ → ℝ) (E : B → ℝ) : Prop :=
  let p := getBoundedDiffstarpopParams u
  ∃ δ : ℝ → ℝ, Switches δ (p (.inl .delta_uqt_x0)) (p (.inl .delta_uqt_k)) (p (.inl .delta_uqt_ylo))
      (p (.inl .delta_uqt_yhi)) ∧
    ∃ (f : Fin n → ℝ) (m s : Fin n → Fin 4 → ℝ) (m' s' : Fin n → Fin 8 → ℝ),
      (∀ i, (∀ rng : Rng K, (mcSample rng logMah p h lgt0 fb i).fracQ = f i) ∧
        MsFollows p (h.logmp0 i) (m i) (s i) ∧ (∀ l, 0 < s i l) ∧
        QFollows p (h.logmp0 i) (δ (h.mah.tPeak i)) (m' i) (s' i) ∧ (∀ l, 0 < s' i l)) ∧
      ∀ b, E b = ∑ i,
        (f i * ∫ v, w b (calcSfhSinglegal logMah (getBoundedDiffstarParams (paramsOfVec v)) (h.mah.row i) (obsTimes h.tobs)
            lgt0 fb) ∂normals (m' i) (s' i) +
          (1 - f i) * ∫ v, w b (calcSfhSinglegal logMah (getBoundedDiffstarParams (msOfVec v)) (h.mah.row i)
            (obsTimes h.tobs) lgt0 fb) ∂normals (m i) (s i))

/-- Weight of a galaxy in a bin of stellar mass: the smoothing scale is the mean bin width. -/
noncomputable def massWeight {nb : ℕ} (tobs : ℝ) (bins : Fin (nb + 1) → ℝ) (b : Fin nb) (sfh : List ℝ) : ℝ :=
  NdHist.twBinWeightLaxKern (logMassAt tobs sfh) ((bins (Fin.last nb) - bins 0) / nb) (bins b.castSucc) (bins b.succ)

/-- Weight of a galaxy in a bin of stellar mass and specific star formation rate. -/
noncomputable def jointWeight {nms nsf : ℕ} {B : Type} (tobs : ℝ) (lo hi : B → Fin 2 → ℝ) (mb : Fin (nms + 1) → ℝ)
    (sb : Fin (nsf + 1) → ℝ) (b : B) (sfh : List ℝ) : ℝ :=
  NdHist.twBinWeightLaxKern (logMassAt tobs sfh) ((mb (Fin.last nms) - mb 0) / nms) (lo b 0) (hi b 0) *
    NdHist.twBinWeightLaxKern (logSsfrAt tobs sfh) ((sb (Fin.last nsf) - sb 0) / nsf) (lo b 1) (hi b 1)

end Diffstar.Spec

namespace Diffstar.Props

open Diffstar.Pop Diffstar.PopLoss Diffstar.Spec MeasureTheory ProbabilityTheory

/-- Only the random numbers of its own stream matter for a population. -/
theorem stream_congr {K Ω : Type} [MeasurableSpace Ω] {P : Measure Ω} {n : ℕ} (h : HaloSample K n)
    {X : Ω → Fin n → GalaxyDraws} {r : Ω → Rng K} (hr : Stream P h.ranKey X r) (logMah : MahParams ℝ → ℝ → ℝ → ℝ)
    (u : PF → ℝ) (lgt0 fb : ℝ) {ω ω' : Ω} (e : X ω = X ω') :
    mcSample (r ω) logMah (getBoundedDiffstarpopParams u) h lgt0 fb =
      mcSample (r ω') logMah (getBoundedDiffstarpopParams u) h lgt0 fb := by
  obtain ⟨δ, -, H⟩ := singlegal_draws u
  funext i
  obtain ⟨hM, hQ⟩ := H (h.logmp0 i) (h.mah.tPeak i)
  let U := fun ω => mcDiffstarUParamsSinglegalKernel (r ω) (getBoundedDiffstarpopParams u) (h.logmp0 i) (h.mah.tPeak i)
    (h.upid i) (h.lgmuInfall i) (h.logmhostInfall i) (h.gyrSinceInfall i) ((r ω).split h.ranKey n i)
  have e1 : (U ω).uMs = (U ω').uMs := by
    rcases hM with hM | ⟨m, s, -, ps, hM⟩
    · exact (hM _ _ _ _ _ _).trans (hM _ _ _ _ _ _).symm
    · simp only [U, hM]
      have a := hr.normal ω i 0 m s ps
      have b := hr.normal ω' i 0 m s ps
      rw [show (0 : Fin 3).castSucc = (0 : Fin 4) from rfl] at a b
      rw [a, b, e]
  have e2 : (U ω).uQ = (U ω').uQ := by
    rcases hQ with hQ | ⟨m, s, -, ps, hQ⟩
    · exact (hQ _ _ _ _ _ _).trans (hQ _ _ _ _ _ _).symm
    · simp only [U, hQ]
      have a1 := fun ω => hr.normal ω i 1 ![m 0, m 1, m 2, m 3] ![s 0, s 1, s 2, s 3] (by
        intro l; fin_cases l <;> exact ps _)
      have a2 := fun ω => hr.normal ω i 2 ![m 4, m 5, m 6, m 7] ![s 4, s 5, s 6, s 7] (by
        intro l; fin_cases l <;> exact ps _)
      rw [show (1 : Fin 3).castSucc = (1 : Fin 4) from rfl] at a1
      rw [show (2 : Fin 3).castSucc = (2 : Fin 4) from rfl] at a2
      simp only [a1, a2, e]
  have e3 : (U ω).fracQ = (U ω').fracQ := rfl
  have e4 : (U ω).mcIsQ = (U ω').mcIsQ := by
    show ((r ω).uniform ((r ω).split ((r ω).split h.ranKey n i) 4 3) < (U ω).fracQ) =
      ((r ω').uniform ((r ω').split ((r ω').split h.ranKey n i) 4 3) < (U ω').fracQ)
    rw [hr.draw, hr.draw, e, e3]
  have eU : U ω = U ω' := by
    have ext : ∀ a b : McU, a.uMs = b.uMs → a.uQ = b.uQ → a.fracQ = b.fracQ → a.mcIsQ = b.mcIsQ → a = b := by
      rintro ⟨⟩ ⟨⟩ h1 h2 h3 h4
      simp only at h1 h2 h3 h4
      subst h1 h2 h3 h4
      rfl
    exact ext _ _ e1 e2 e3 e4
  have gen : ∀ ω, mcSample (r ω) logMah (getBoundedDiffstarpopParams u) h lgt0 fb i =
      (fun a : McU => (⟨a.uMs.map getBoundedDiffstarParams, a.uQ.map getBoundedDiffstarParams,
        (a.uMs.map getBoundedDiffstarParams).map fun q => sfhSinglegalKern logMah (obsTimes h.tobs) (h.mah.row i) q.ms q.q
          lgt0 fb, (a.uQ.map getBoundedDiffstarParams).map fun q => sfhSinglegalKern logMah (obsTimes h.tobs) (h.mah.row i)
          q.ms q.q lgt0 fb, a.fracQ, a.mcIsQ⟩ : McSfh)) (U ω) := fun ω => rfl
  rw [gen, gen, eU]

theorem msVec_measurable : Measurable fun w : Fin 4 → ℝ => (![w 0, w 1, w 2, w 3, DEFAULT_Q_U_PARAMS_UNQUENCHED.lgQt,
      DEFAULT_Q_U_PARAMS_UNQUENCHED.qlglgdt, DEFAULT_Q_U_PARAMS_UNQUENCHED.lgDrop,
      DEFAULT_Q_U_PARAMS_UNQUENCHED.lgRejuv] : Fin 8 → ℝ) := by
  refine measurable_pi_iff.2 fun l => ?_
  fin_cases l
  · exact measurable_pi_apply 0
  · exact measurable_pi_apply 1
  · exact measurable_pi_apply 2
  · exact measurable_pi_apply 3
  all_goals exact measurable_const

instance popDraws_prob (n : ℕ) : IsProbabilityMeasure (popDraws n) := by unfold popDraws; infer_instance

/-- The weights are close to their expectation (`popDraws`). -/
theorem counts_close_pop {K : Type} {n nb : ℕ} (h : HaloSample K n) {r : (Fin n → GalaxyDraws) → Rng K}
    (hr : NormalDraws h.ranKey r) (logMah : MahParams ℝ → ℝ → ℝ → ℝ) (u : PF → ℝ) (lgt0 fb : ℝ)
    (hok : ∀ i, ∃ x, (mcSample (r x) logMah (getBoundedDiffstarpopParams u) h lgt0 fb i).paramsMs ≠ none ∧
      (mcSample (r x) logMah (getBoundedDiffstarpopParams u) h lgt0 fb i).paramsQ ≠ none)
    (w : Fin nb → List ℝ → ℝ) (hw : ∀ b l, 0 ≤ w b l ∧ w b l ≤ 1)
    (hm : ∀ b i, Measurable fun v => w b (calcSfhSinglegal logMah (getBoundedDiffstarParams (paramsOfVec v)) (h.mah.row i)
      (obsTimes h.tobs) lgt0 fb)) :
    ∃ E, LimitCounts logMah u h lgt0 fb w E ∧ (∀ b, 0 ≤ E b) ∧
      ∀ ε, 0 ≤ ε → (popDraws n).real {x | ∃ b, ε * n ≤ |∑ i,
        ((1 - (mcSample (r x) logMah (getBoundedDiffstarpopParams u) h lgt0 fb i).fracQ) *
          (mcSample (r x) logMah (getBoundedDiffstarpopParams u) h lgt0 fb i).paramsMs.elim 0 (fun q => w b
            (calcSfhSinglegal logMah q (h.mah.row i) (obsTimes h.tobs) lgt0 fb)) +
          (mcSample (r x) logMah (getBoundedDiffstarpopParams u) h lgt0 fb i).fracQ *
          (mcSample (r x) logMah (getBoundedDiffstarpopParams u) h lgt0 fb i).paramsQ.elim 0 (fun q => w b
            (calcSfhSinglegal logMah q (h.mah.row i) (obsTimes h.tobs) lgt0 fb))) - E b|} ≤
        2 * nb * Real.exp (-2 * n * ε ^ 2) := by
  obtain ⟨δ, hδ, H⟩ := C123_population_limit u
  obtain ⟨f, m, s, m', s', hF, hL⟩ := H h.ranKey r hr logMah h.mah h.logmp0 h.upid
    h.lgmuInfall h.logmhostInfall h.gyrSinceInfall (obsTimes h.tobs) lgt0 fb hok
  have hfr : ∀ i (rng : Rng K), (mcSample rng logMah (getBoundedDiffstarpopParams u) h lgt0 fb i).fracQ = f i := by
    intro i rng
    exact (show _ = (mcSample (r fun _ => (fun _ => 0, 0)) logMah (getBoundedDiffstarpopParams u) h lgt0 fb i).fracQ
      from rfl).trans ((hF i).1 fun _ => (fun _ => 0, 0))
  have hm' : ∀ b i, Measurable fun v => w b (calcSfhSinglegal logMah (getBoundedDiffstarParams (msOfVec v)) (h.mah.row i)
      (obsTimes h.tobs) lgt0 fb) := by
    intro b i
    have e : ∀ w : Fin 4 → ℝ, msOfVec w = paramsOfVec ![w 0, w 1, w 2, w 3, DEFAULT_Q_U_PARAMS_UNQUENCHED.lgQt,
      DEFAULT_Q_U_PARAMS_UNQUENCHED.qlglgdt, DEFAULT_Q_U_PARAMS_UNQUENCHED.lgDrop,
      DEFAULT_Q_U_PARAMS_UNQUENCHED.lgRejuv] := fun w => rfl
    simp only [e]
    exact (hm b i).comp msVec_measurable
  let E : Fin nb → ℝ := fun b => ∑ i,
    (f i * ∫ v, w b (calcSfhSinglegal logMah (getBoundedDiffstarParams (paramsOfVec v)) (h.mah.row i) (obsTimes h.tobs)
        lgt0 fb) ∂normals (m' i) (s' i) +
      (1 - f i) * ∫ v, w b (calcSfhSinglegal logMah (getBoundedDiffstarParams (msOfVec v)) (h.mah.row i)
        (obsTimes h.tobs) lgt0 fb) ∂normals (m i) (s i))
  have hE : LimitCounts logMah u h lgt0 fb w E := ⟨δ, hδ, f, m, s, m', s', fun i => ⟨hfr i, (hF i).2⟩, fun b => rfl⟩
  refine ⟨E, hE, ?_, ?_⟩
  · intro b
    refine Finset.sum_nonneg fun i _ => ?_
    have h01 := sample_frac (r fun _ => (fun _ => 0, 0)) logMah u h lgt0 fb i
    rw [hfr] at h01
    exact add_nonneg (mul_nonneg h01.1.le (integral_nonneg fun v => (hw b _).1))
      (mul_nonneg (sub_nonneg.2 h01.2.le) (integral_nonneg fun v => (hw b _).1))
  · intro ε hε
    have hlim := fun b => (hL (fun i q => w b (calcSfhSinglegal logMah q (h.mah.row i) (obsTimes h.tobs) lgt0 fb)) ε
      (fun i q => hw b _) hε fun i => ⟨hm' b i, hm b i⟩).2
    exact popDraws_union _ _ hlim

/-- No row of the population is NaN if none can be. -/
theorem params_ne_none {K : Type} {n : ℕ} (h : HaloSample K n) {r : (Fin n → GalaxyDraws) → Rng K}
    (hr : NormalDraws h.ranKey r) (logMah : MahParams ℝ → ℝ → ℝ → ℝ) (u : PF → ℝ) (lgt0 fb : ℝ)
    (hok : ∀ i, ∃ x, (mcSample (r x) logMah (getBoundedDiffstarpopParams u) h lgt0 fb i).paramsMs ≠ none ∧
      (mcSample (r x) logMah (getBoundedDiffstarpopParams u) h lgt0 fb i).paramsQ ≠ none) (x : Fin n → GalaxyDraws)
    (i : Fin n) :
    ∃ a b, (mcSample (r x) logMah (getBoundedDiffstarpopParams u) h lgt0 fb i).paramsMs = some a ∧
      (mcSample (r x) logMah (getBoundedDiffstarpopParams u) h lgt0 fb i).paramsQ = some b := by
  obtain ⟨δ', hδ', H2⟩ := galaxy_of_draws u
  obtain ⟨_, _, _, _, _, _, _, _, _, _, _, hg⟩ := H2 h.ranKey r hr logMah h.mah h.logmp0
    h.upid h.lgmuInfall h.logmhostInfall h.gyrSinceInfall
    (obsTimes h.tobs) lgt0 fb i ((hok i).imp fun x h => h.1) ((hok i).imp fun x h => h.2)
  obtain ⟨-, -, h1, h2⟩ := hg x
  exact ⟨_, _, h1, h2⟩

/-- Weights of the galaxies of one population are close to their expectation, except with small probability. -/
theorem counts_close {K Ω : Type} [MeasurableSpace Ω] {P : Measure Ω} [IsProbabilityMeasure P] {n nb : ℕ}
    (h : HaloSample K n) {X : Ω → Fin n → GalaxyDraws} {r : Ω → Rng K} (hr : Stream P h.ranKey X r)
    (logMah : MahParams ℝ → ℝ → ℝ → ℝ) (u : PF → ℝ) (lgt0 fb : ℝ)
    (hok : ∀ i, ∃ ω, (mcSample (r ω) logMah (getBoundedDiffstarpopParams u) h lgt0 fb i).paramsMs ≠ none ∧
      (mcSample (r ω) logMah (getBoundedDiffstarpopParams u) h lgt0 fb i).paramsQ ≠ none)
    (w : Fin nb → List ℝ → ℝ) (hw : ∀ b l, 0 ≤ w b l ∧ w b l ≤ 1)
    (hm : ∀ b i, Measurable fun v => w b (calcSfhSinglegal logMah (getBoundedDiffstarParams (paramsOfVec v)) (h.mah.row i)
      (obsTimes h.tobs) lgt0 fb)) :
    ∃ E, LimitCounts logMah u h lgt0 fb w E ∧ (∀ b, 0 ≤ E b) ∧
      ∀ ε, 0 ≤ ε → P.real {ω | ¬ ∃ sM sQ : Fin n → List ℝ,
        (∀ i, (mcSample (r ω) logMah (getBoundedDiffstarpopParams u) h lgt0 fb i).sfhMs = some (sM i) ∧
          (mcSample (r ω) logMah (getBoundedDiffstarpopParams u) h lgt0 fb i).sfhQ = some (sQ i)) ∧
        ∀ b, |∑ i, ((1 - (mcSample (r ω) logMah (getBoundedDiffstarpopParams u) h lgt0 fb i).fracQ) * w b (sM i) +
          (mcSample (r ω) logMah (getBoundedDiffstarpopParams u) h lgt0 fb i).fracQ * w b (sQ i)) - E b| < ε * n} ≤
        2 * nb * Real.exp (-2 * n * ε ^ 2) := by
  let r' : (Fin n → GalaxyDraws) → Rng K := fun x => r (Function.surjInv hr.onto x)
  have hX : ∀ x, X (Function.surjInv hr.onto x) = x := Function.surjInv_eq hr.onto
  have hr' : NormalDraws h.ranKey r' := by
    refine ⟨fun x y => hr.split _ _, fun x i j mu s hs => ?_, fun x i => ?_⟩
    · rw [hr.normal _ i j mu s hs, hX]
    · rw [hr.draw, hX]
  have hrr : ∀ ω, mcSample (r ω) logMah (getBoundedDiffstarpopParams u) h lgt0 fb =
      mcSample (r' (X ω)) logMah (getBoundedDiffstarpopParams u) h lgt0 fb := fun ω =>
    stream_congr h hr logMah u lgt0 fb (hX (X ω)).symm
  have hok' : ∀ i, ∃ x, (mcSample (r' x) logMah (getBoundedDiffstarpopParams u) h lgt0 fb i).paramsMs ≠ none ∧
      (mcSample (r' x) logMah (getBoundedDiffstarpopParams u) h lgt0 fb i).paramsQ ≠ none := by
    intro i
    obtain ⟨ω, hω⟩ := hok i
    exact ⟨X ω, by rwa [← hrr]⟩
  obtain ⟨E, hE, hE0, hlim⟩ := counts_close_pop h hr' logMah u lgt0 fb hok' w hw hm
  refine ⟨E, hE, hE0, fun ε hε => ?_⟩
  refine le_trans ?_ (hlim ε hε)
  have hle := Measure.le_map_apply (μ := P) (f := X) hr.law.measurable.aemeasurable
  rw [hr.law.map_eq] at hle
  refine le_trans ?_ (ENNReal.toReal_mono (measure_ne_top _ _) (hle _))
  refine measureReal_mono ?_
  intro ω hω
  have hsome := params_ne_none h hr' logMah u lgt0 fb hok' (X ω)
  by_contra hno
  refine hω ?_
  rw [hrr]
  choose a b ha hb using hsome
  refine ⟨fun i => calcSfhSinglegal logMah (a i) (h.mah.row i) (obsTimes h.tobs) lgt0 fb,
    fun i => calcSfhSinglegal logMah (b i) (h.mah.row i) (obsTimes h.tobs) lgt0 fb, fun i => ?_, fun c => ?_⟩
  · have e1 : (mcSample (r' (X ω)) logMah (getBoundedDiffstarpopParams u) h lgt0 fb i).sfhMs =
        (mcSample (r' (X ω)) logMah (getBoundedDiffstarpopParams u) h lgt0 fb i).paramsMs.map fun q =>
          calcSfhSinglegal logMah q (h.mah.row i) (obsTimes h.tobs) lgt0 fb := rfl
    have e2 : (mcSample (r' (X ω)) logMah (getBoundedDiffstarpopParams u) h lgt0 fb i).sfhQ =
        (mcSample (r' (X ω)) logMah (getBoundedDiffstarpopParams u) h lgt0 fb i).paramsQ.map fun q =>
          calcSfhSinglegal logMah q (h.mah.row i) (obsTimes h.tobs) lgt0 fb := rfl
    rw [e1, e2, ha, hb]
    exact ⟨rfl, rfl⟩
  · simp only [Set.mem_preimage, Set.mem_ofPred_eq, not_exists, not_le] at hno
    refine lt_of_eq_of_lt ?_ (hno c)
    refine congrArg (fun t => |t - E c|) (Finset.sum_congr rfl fun i _ => ?_)
    rw [ha, hb]
    rfl

theorem meanDiff_eq {nb : ℕ} (bins : Fin (nb + 1) → ℝ) : meanDiff bins = (bins (Fin.last nb) - bins 0) / nb := by
  unfold meanDiff
  congr 1
  have : ∀ (m : ℕ) (e : Fin (m + 1) → ℝ), ∑ j : Fin m, (e j.succ - e j.castSucc) = e (Fin.last m) - e 0 := by
    intro m
    induction m with
    | zero => intro e; simp
    | succ m ih =>
      intro e
      rw [Fin.sum_univ_castSucc]
      have := ih (fun j => e j.castSucc)
      simp only [Fin.succ_castSucc, Fin.castSucc_zero] at this ⊢
      rw [this]
      simp
  exact this nb bins

/-- Mass and specific star formation rate are measurable functions of unbounded parameters. -/
theorem obs_measurable (logMah : MahParams ℝ → ℝ → ℝ → ℝ) (mah : MahParams ℝ) (tobs lgt0 fb : ℝ) :
    Measurable (fun v => logMassAt tobs (calcSfhSinglegal logMah
      (getBoundedDiffstarParams (paramsOfVec v)) mah (obsTimes tobs) lgt0 fb)) ∧
    Measurable (fun v => logSsfrAt tobs (calcSfhSinglegal logMah
      (getBoundedDiffstarParams (paramsOfVec v)) mah (obsTimes tobs) lgt0 fb)) := by
  have hs : ∀ v, calcSfhSinglegal logMah (getBoundedDiffstarParams (paramsOfVec v)) mah (obsTimes tobs) lgt0 fb =
      (obsTimes tobs).map fun x => max (1 / 10 ^ 14) (rawSfr logMah mah lgt0 fb (getBoundedDiffstarParams (paramsOfVec v)) x) :=
    fun v => sfh_eq logMah mah (obsTimes tobs) lgt0 fb (getBoundedDiffstarParams (paramsOfVec v))
  have hr : ∀ x, Measurable fun v => max (1 / 10 ^ 14) (rawSfr logMah mah lgt0 fb (getBoundedDiffstarParams (paramsOfVec v)) x) :=
    fun x => measurable_const.max ((contDiff_rawSfr_unbounded _ _ _).continuous.measurable)
  have h1 : Measurable (fun v => logMassAt tobs (calcSfhSinglegal logMah
      (getBoundedDiffstarParams (paramsOfVec v)) mah (obsTimes tobs) lgt0 fb)) := by
    obtain ⟨c0, c, hc⟩ := cmf_affine (obsTimes tobs) 19
    have e : ∀ v, logMassAt tobs (calcSfhSinglegal logMah (getBoundedDiffstarParams (paramsOfVec v)) mah (obsTimes tobs)
        lgt0 fb) = Real.logb 10 (c0 + ∑ j ∈ Finset.range (obsTimes tobs).length, c j *
          ((obsTimes tobs).map fun x => max (1 / 10 ^ 14)
            (rawSfr logMah mah lgt0 fb (getBoundedDiffstarParams (paramsOfVec v)) x)).getD j 0) := by
      intro v
      rw [hs, ← hc _ (by simp), logMassAt]
      have hl : (cumulativeMstarFormed (obsTimes tobs) ((obsTimes tobs).map fun x => max (1 / 10 ^ 14)
          (rawSfr logMah mah lgt0 fb (getBoundedDiffstarParams (paramsOfVec v)) x))).length = 20 := by
        rw [cmf_length] <;> simp [obsTimes_length]
      rw [List.getD_eq_getElem _ _ (by omega), getLastD_of_length hl (List.getElem?_eq_getElem (by omega))]
    simp only [e]
    unfold Real.logb
    refine (Real.measurable_log.comp (measurable_const.add (Finset.measurable_fun_sum _ fun j hj => ?_))).div_const _
    have hj' : j < (obsTimes tobs).length := Finset.mem_range.1 hj
    simp only [List.getD_eq_getElem?_getD, List.getElem?_map, List.getElem?_eq_getElem hj', Option.map_some,
      Option.getD_some]
    exact (hr _).const_mul _
  refine ⟨h1, ?_⟩
  unfold logSsfrAt
  refine ((Measurable.sub ?_ h1).max measurable_const)
  have hl : 19 < (obsTimes tobs).length := by rw [obsTimes_length]; norm_num
  have e : ∀ v, (calcSfhSinglegal logMah (getBoundedDiffstarParams (paramsOfVec v)) mah (obsTimes tobs) lgt0 fb).getLastD 0 =
      max (1 / 10 ^ 14) (rawSfr logMah mah lgt0 fb (getBoundedDiffstarParams (paramsOfVec v)) (obsTimes tobs)[19]) := by
    intro v
    rw [hs]
    exact getLastD_of_length (by simp [obsTimes_length]) (by simp [List.getElem?_eq_getElem hl])
  simp only [e]
  unfold Real.logb
  exact (Real.measurable_log.comp (hr _)).div_const _

theorem bin_measurable {α : Type} [MeasurableSpace α] {f : α → ℝ} (hf : Measurable f) (sigma lo hi : ℝ) :
    Measurable fun v => NdHist.twBinWeightLaxKern (f v) sigma lo hi := by
  simp only [ndBin_eq]
  have hj : Measurable jaxTw := contDiff_jaxTw.continuous.measurable
  exact (hj.comp ((hf.sub_const _).div_const _)).sub (hj.comp ((hf.sub_const _).div_const _))

/-- `normalised_close` with weak inequalities. -/
theorem normalised_close_le {nb : ℕ} {S E : Fin nb → ℝ} {e : ℝ} (he : 0 ≤ e) (hE : ∀ b, 0 ≤ E b) (h : ∀ b, |S b - E b| ≤ e)
    (hN : 2 * nb * e < ∑ b, E b) : 0 < ∑ b, S b ∧
      ∀ b, |S b / ∑ b, S b - E b / ∑ b, E b| ≤ 2 * (1 + nb) * e / ∑ b, E b := by
  have hd : |∑ b, S b - ∑ b, E b| ≤ nb * e := by
    rw [← Finset.sum_sub_distrib]
    refine (Finset.abs_sum_le_sum_abs _ _).trans ((Finset.sum_le_card_nsmul _ _ e fun b _ => h b).trans ?_)
    simp
  have hle : ∀ b, E b ≤ ∑ b, E b := fun b => Finset.single_le_sum (fun b _ => hE b) (Finset.mem_univ b)
  generalize hNE : ∑ b, E b = N at *
  generalize hNS : ∑ b, S b = T at *
  have hd' := abs_le.1 hd
  have hnb : (0 : ℝ) ≤ nb := Nat.cast_nonneg nb
  have hN0 : 0 < N := lt_of_le_of_lt (by positivity) hN
  have hT : N / 2 < T := by linarith
  have hT0 : 0 < T := by linarith
  refine ⟨hT0, fun b => ?_⟩
  have e1 : S b / T - E b / N = ((S b - E b) * N + E b * (N - T)) / (T * N) := by
    field_simp
    ring
  have h1 : |(S b - E b) * N + E b * (N - T)| ≤ (1 + nb) * e * N := by
    refine (abs_add_le _ _).trans ?_
    rw [abs_mul, abs_mul, abs_of_pos hN0, abs_of_nonneg (hE b), abs_sub_comm N T]
    have a1 : |S b - E b| * N ≤ e * N := mul_le_mul_of_nonneg_right (h b) hN0.le
    have a2 : E b * |T - N| ≤ N * (nb * e) := mul_le_mul (hle b) hd (abs_nonneg _) hN0.le
    linarith
  rw [e1, abs_div, abs_of_pos (mul_pos hT0 hN0), div_le_div_iff₀ (mul_pos hT0 hN0) hN0]
  have h2 : (1 + nb) * e * N * N ≤ 2 * (1 + nb) * e * (T * N) := by
    have : 0 ≤ (1 + (nb : ℝ)) * e * N := by positivity
    nlinarith
  exact (mul_le_mul_of_nonneg_right h1 hN0.le).trans h2

theorem share_unit {nb : ℕ} {S : Fin nb → ℝ} (hS : ∀ b, 0 ≤ S b) (b : Fin nb) :
    0 ≤ S b / ∑ b, S b ∧ S b / ∑ b, S b ≤ 1 :=
  ⟨div_nonneg (hS b) (Finset.sum_nonneg fun b _ => hS b),
    div_le_one_of_le₀ (Finset.single_le_sum (fun b _ => hS b) (Finset.mem_univ b)) (Finset.sum_nonneg fun b _ => hS b)⟩

/-- Mean square errors of close predictions are close. -/
theorem mse_close {ι : Type} [Fintype ι] [Nonempty ι] {pred : ι → Option ℝ} {a e t : ι → ℝ} {η : ℝ}
    (hp : ∀ i, pred i = some (a i)) (ha : ∀ i, 0 ≤ a i ∧ a i ≤ 1) (he : ∀ i, 0 ≤ e i ∧ e i ≤ 1) (ht : ∀ i, 0 ≤ t i ∧ t i ≤ 1)
    (hc : ∀ i, |a i - e i| ≤ η) :
    ∃ l, mse pred t = some l ∧ |l - (∑ i, (e i - t i) ^ 2) / Fintype.card ι| ≤ 2 * η := by
  have hcard : (0 : ℝ) < Fintype.card ι := by exact_mod_cast Fintype.card_pos
  refine ⟨(∑ i, (a i - t i) ^ 2) / Fintype.card ι, ?_, ?_⟩
  · unfold mse
    rw [allSome_eq_some.2 hp, Option.bind_some]
    exact if_neg Fintype.card_pos.ne'
  · rw [← sub_div, ← Finset.sum_sub_distrib, abs_div, abs_of_pos hcard, div_le_iff₀ hcard]
    refine (Finset.abs_sum_le_sum_abs _ _).trans ((Finset.sum_le_card_nsmul _ _ (2 * η) fun i _ => ?_).trans ?_)
    · have : (a i - t i) ^ 2 - (e i - t i) ^ 2 = (a i - e i) * (a i + e i - 2 * t i) := by ring
      rw [this, abs_mul]
      have h2 : |a i + e i - 2 * t i| ≤ 2 := by
        rw [abs_le]
        constructor <;> linarith [ha i, he i, ht i, (ha i).1, (ha i).2, (he i).1, (he i).2, (ht i).1, (ht i).2]
      calc |a i - e i| * |a i + e i - 2 * t i| ≤ η * 2 :=
            mul_le_mul (hc i) h2 (abs_nonneg _) ((abs_nonneg _).trans (hc i))
        _ = 2 * η := by ring
    · rw [nsmul_eq_mul, Finset.card_univ]
      linarith

/-- Union bound. -/
theorem stream_union {Ω : Type} [MeasurableSpace Ω] (P : Measure Ω) [IsProbabilityMeasure P] {nk : ℕ} (A : Fin nk → Set Ω)
    (c : ℝ) (h : ∀ k, P.real (A k) ≤ c) : P.real (⋃ k, A k) ≤ nk * c := by
  refine (measureReal_iUnion_fintype_le _).trans ((Finset.sum_le_card_nsmul _ _ _ fun k _ => h k).trans ?_)
  simp

theorem massWeight_unit {nb : ℕ} (tobs : ℝ) {bins : Fin (nb + 1) → ℝ} (hb : StrictMono bins) (hn : 0 < nb) (b : Fin nb)
    (l : List ℝ) : 0 ≤ massWeight tobs bins b l ∧ massWeight tobs bins b l ≤ 1 :=
  ⟨ndBin_nonneg (meanDiff_eq bins ▸ meanDiff_pos hb hn) (hb Fin.castSucc_lt_succ).le, ndBin_le_one _ _ _ _⟩

theorem jointWeight_unit {nms nsf : ℕ} {B : Type} (tobs : ℝ) {lo hi : B → Fin 2 → ℝ} {mb : Fin (nms + 1) → ℝ}
    {sb : Fin (nsf + 1) → ℝ} (hlh : ∀ b k, lo b k ≤ hi b k) (hmb : StrictMono mb) (hsb : StrictMono sb) (hms : 0 < nms)
    (hsf : 0 < nsf) (b : B) (l : List ℝ) :
    0 ≤ jointWeight tobs lo hi mb sb b l ∧ jointWeight tobs lo hi mb sb b l ≤ 1 := by
  have h1 := ndBin_nonneg (x := logMassAt tobs l) (meanDiff_eq mb ▸ meanDiff_pos hmb hms) (hlh b 0)
  have h2 := ndBin_nonneg (x := logSsfrAt tobs l) (meanDiff_eq sb ▸ meanDiff_pos hsb hsf) (hlh b 1)
  exact ⟨mul_nonneg h1 h2, mul_le_one₀ (ndBin_le_one _ _ _ _) h2 (ndBin_le_one _ _ _ _)⟩

/-- The predicted histogram is close to the normalised expectation. -/
theorem mass_close {n nb : ℕ} {tobs : ℝ} {gals : Fin n → McSfh} {bins : Fin (nb + 1) → ℝ} (hb : StrictMono bins)
    (hnb : 0 < nb) (hf : ∀ i, 0 < (gals i).fracQ ∧ (gals i).fracQ < 1) {sM sQ : Fin n → List ℝ}
    (hs : ∀ i, (gals i).sfhMs = some (sM i) ∧ (gals i).sfhQ = some (sQ i)) {E : Fin nb → ℝ} {e : ℝ} (hE : ∀ b, 0 ≤ E b)
    (hc : ∀ b, |∑ i, ((1 - (gals i).fracQ) * massWeight tobs bins b (sM i) +
      (gals i).fracQ * massWeight tobs bins b (sQ i)) - E b| < e) (hN : 2 * nb * e < ∑ b, E b) :
    ∃ q, mstarPdf tobs gals bins = some q ∧ (∀ b, 0 ≤ q b ∧ q b ≤ 1) ∧
      ∀ b, |q b - E b / ∑ b, E b| ≤ 2 * (1 + nb) * e / ∑ b, E b := by
  have he : 0 ≤ e := (abs_nonneg _).trans (hc ⟨0, hnb⟩).le
  have heq := mstarPdf_eq (tobs := tobs) (bins := bins) hs
  rw [meanDiff_eq] at heq
  set S : Fin nb → ℝ := fun b => ∑ i, ((1 - (gals i).fracQ) * massWeight tobs bins b (sM i) +
      (gals i).fracQ * massWeight tobs bins b (sQ i)) with hS
  have hS0 : ∀ b, 0 ≤ S b := fun b => Finset.sum_nonneg fun i _ =>
    add_nonneg (mul_nonneg (sub_nonneg.2 (hf i).2.le) (massWeight_unit tobs hb hnb b _).1)
      (mul_nonneg (hf i).1.le (massWeight_unit tobs hb hnb b _).1)
  obtain ⟨hT, hcl⟩ := normalised_close_le he hE (fun b => (hc b).le) hN
  refine ⟨fun b => S b / ∑ b, S b, ?_, share_unit hS0, hcl⟩
  rw [heq]
  exact if_neg hT.ne'

/-- The same for mass and specific star formation rate. -/
theorem joint_close {n nms nsf : ℕ} {tobs : ℝ} {gals : Fin n → McSfh} {lo hi : Fin (nms * nsf) → Fin 2 → ℝ}
    {mb : Fin (nms + 1) → ℝ} {sb : Fin (nsf + 1) → ℝ} (hlh : ∀ b k, lo b k ≤ hi b k) (hmb : StrictMono mb)
    (hsb : StrictMono sb) (hms : 0 < nms) (hsf : 0 < nsf)
    (hf : ∀ i, 0 < (gals i).fracQ ∧ (gals i).fracQ < 1) {sM sQ : Fin n → List ℝ}
    (hs : ∀ i, (gals i).sfhMs = some (sM i) ∧ (gals i).sfhQ = some (sQ i)) {E : Fin (nms * nsf) → ℝ} {e : ℝ}
    (hE : ∀ b, 0 ≤ E b)
    (hc : ∀ b, |∑ i, ((1 - (gals i).fracQ) * jointWeight tobs lo hi mb sb b (sM i) +
      (gals i).fracQ * jointWeight tobs lo hi mb sb b (sQ i)) - E b| < e) (hN : 2 * (nms * nsf : ℕ) * e < ∑ b, E b) :
    ∃ q, mstarSsfrPdf tobs gals lo hi mb sb = some q ∧ (∀ b, 0 ≤ q b ∧ q b ≤ 1) ∧
      ∀ b, |q b - E b / ∑ b, E b| ≤ 2 * (1 + (nms * nsf : ℕ)) * e / ∑ b, E b := by
  have he : 0 ≤ e := (abs_nonneg _).trans (hc ⟨0, Nat.mul_pos hms hsf⟩).le
  have heq := mstarSsfrPdf_eq (tobs := tobs) (lo := lo) (hi := hi) (mb := mb) (sb := sb) hs
  rw [meanDiff_eq, meanDiff_eq] at heq
  set S : Fin (nms * nsf) → ℝ := fun b => ∑ i, ((1 - (gals i).fracQ) * jointWeight tobs lo hi mb sb b (sM i) +
      (gals i).fracQ * jointWeight tobs lo hi mb sb b (sQ i)) with hS
  have hS0 : ∀ b, 0 ≤ S b := fun b => Finset.sum_nonneg fun i _ =>
    add_nonneg (mul_nonneg (sub_nonneg.2 (hf i).2.le) (jointWeight_unit tobs hlh hmb hsb hms hsf b _).1)
      (mul_nonneg (hf i).1.le (jointWeight_unit tobs hlh hmb hsb hms hsf b _).1)
  obtain ⟨hT, hcl⟩ := normalised_close_le he hE (fun b => (hc b).le) hN
  refine ⟨fun b => S b / ∑ b, S b, ?_, share_unit hS0, hcl⟩
  rw [heq]
  exact if_neg hT.ne'

/-- **C133**: the loss of the stellar mass functions approaches the loss of the exact distribution, exponentially fast in the
number of halos. `a` is a lower bound on the mean weight that a galaxy has in the bins. -/
theorem C133_mass_loss {K Ω : Type} [MeasurableSpace Ω] (P : Measure Ω) [IsProbabilityMeasure P] {nk n nb : ℕ}
    (logMah : MahParams ℝ → ℝ → ℝ → ℝ) (u : PF → ℝ) (d : MstarData K nk n nb) (X : Fin nk → Ω → Fin n → GalaxyDraws)
    (r : Ω → Rng K) (hr : ∀ k, Stream P (d.samples k).ranKey (X k) r) (hb : StrictMono d.bins) (hk : 0 < nk) (hnb : 0 < nb)
    (hn : 0 < n) (ht : ∀ k b, 0 ≤ d.target k b ∧ d.target k b ≤ 1)
    (hok : ∀ k i, ∃ ω,
      (mcSample (r ω) logMah (getBoundedDiffstarpopParams u) (d.samples k) d.lgt0 d.fb i).paramsMs ≠ none ∧
      (mcSample (r ω) logMah (getBoundedDiffstarpopParams u) (d.samples k) d.lgt0 d.fb i).paramsQ ≠ none) :
    ∃ E : Fin nk → Fin nb → ℝ,
      (∀ k, LimitCounts logMah u (d.samples k) d.lgt0 d.fb (massWeight (d.samples k).tobs d.bins) (E k)) ∧
      ∀ a η, 0 < a → 0 ≤ η → η ≤ 1 → (∀ k, a * n ≤ ∑ b, E k b) →
        P.real {ω | ¬ ∃ l, lossMstar (r ω) logMah u d = some l ∧
          |l - 1000 * ((∑ k, ∑ b, (E k b / ∑ b, E k b - d.target k b) ^ 2) / (nk * nb))| ≤ 2000 * η} ≤
        2 * nk * nb * Real.exp (-(n * (a * η / (1 + nb)) ^ 2 / 2)) := by
  have hex := fun k => counts_close (nb := nb) (d.samples k) (hr k) logMah u d.lgt0 d.fb (hok k)
    (massWeight (d.samples k).tobs d.bins) (massWeight_unit _ hb hnb)
    (fun b i => bin_measurable (obs_measurable logMah ((d.samples k).mah.row i) (d.samples k).tobs d.lgt0 d.fb).1 _ _ _)
  choose E hE hE0 hlim using hex
  refine ⟨E, hE, fun a η ha hη hη1 hN => ?_⟩
  have hnb' : (0 : ℝ) < nb := by exact_mod_cast hnb
  have hn' : (0 : ℝ) < n := by exact_mod_cast hn
  set ε : ℝ := a * η / (2 * (1 + nb)) with hε
  have hε0 : 0 ≤ ε := by positivity
  have hunion := stream_union P _ _ fun k => hlim k ε hε0
  have hexp : -2 * n * ε ^ 2 = -(n * (a * η / (1 + nb)) ^ 2 / 2) := by
    rw [hε]; field_simp
  rw [hexp] at hunion
  refine le_trans (measureReal_mono ?_) (hunion.trans (le_of_eq (by ring)))
  intro ω hω
  by_contra hno
  simp only [Set.mem_iUnion, Set.mem_ofPred_eq] at hno
  rw [not_exists] at hno
  refine hω ?_
  have hpdf : ∀ k, ∃ q, mstarKernTobs (r ω) logMah u d.samples d.lgt0 d.fb d.bins k = some q ∧ (∀ b, 0 ≤ q b ∧ q b ≤ 1) ∧
      ∀ b, |q b - E k b / ∑ b, E k b| ≤ η := by
    intro k
    obtain ⟨sM, sQ, hs, hc⟩ := not_not.1 (hno k)
    have hNk : 0 < ∑ b, E k b := lt_of_lt_of_le (by positivity) (hN k)
    have h1 : (2 * nb * (ε * n) : ℝ) < ∑ b, E k b := by
      refine lt_of_lt_of_le ?_ (hN k)
      rw [hε]
      have : (2 * nb * (a * η / (2 * (1 + nb)) * n) : ℝ) = (a * n) * (η * (nb / (1 + nb))) := by field_simp
      rw [this]
      have h2 : (nb / (1 + nb) : ℝ) < 1 := by rw [div_lt_one (by positivity)]; linarith
      have h3 : η * (nb / (1 + nb) : ℝ) < 1 := by
        refine lt_of_le_of_lt (mul_le_mul_of_nonneg_right hη1 (by positivity)) (by linarith)
      nlinarith [mul_pos ha hn']
    obtain ⟨q, hq, hq01, hcl⟩ := mass_close hb hnb
      (fun i => sample_frac (r ω) logMah u (d.samples k) d.lgt0 d.fb i) hs (hE0 k) hc h1
    refine ⟨q, hq, hq01, fun b => (hcl b).trans ?_⟩
    rw [div_le_iff₀ hNk, hε]
    have : (2 * (1 + nb) * (a * η / (2 * (1 + nb)) * n) : ℝ) = η * (a * n) := by field_simp
    rw [this]
    exact mul_le_mul_of_nonneg_left (hN k) hη
  choose q hq hq01 hcl using hpdf
  have : Nonempty (Fin nk × Fin nb) := ⟨⟨0, hk⟩, ⟨0, hnb⟩⟩
  obtain ⟨l, hl, hl2⟩ := mse_close (ι := Fin nk × Fin nb)
    (pred := fun i => (mstarKernTobs (r ω) logMah u d.samples d.lgt0 d.fb d.bins i.1).map fun f => f i.2)
    (a := fun i => q i.1 i.2) (e := fun i => E i.1 i.2 / ∑ b, E i.1 b) (t := fun i => d.target i.1 i.2) (η := η)
    (fun i => by rw [hq]; rfl) (fun i => hq01 _ _) (fun i => share_unit (hE0 i.1) i.2) (fun i => ht _ _) (fun i => hcl _ _)
  refine ⟨l * 1000, by
    show (mse _ _).map _ = _
    rw [hl]; rfl, ?_⟩
  rw [Fintype.sum_prod_type, Fintype.card_prod, Fintype.card_fin, Fintype.card_fin, Nat.cast_mul] at hl2
  rw [show ∀ x : ℝ, l * 1000 - 1000 * x = 1000 * (l - x) from fun x => by ring, abs_mul, abs_of_pos (by norm_num)]
  linarith

/-- C133: with large populations the losses rank two sets of population parameters like the losses of the exact
distributions. -/
theorem C133_ranking {K Ω : Type} [MeasurableSpace Ω] (P : Measure Ω) [IsProbabilityMeasure P] {nk n nb : ℕ}
    (logMah : MahParams ℝ → ℝ → ℝ → ℝ) (u u' : PF → ℝ) (d : MstarData K nk n nb) (X : Fin nk → Ω → Fin n → GalaxyDraws)
    (r : Ω → Rng K) (hr : ∀ k, Stream P (d.samples k).ranKey (X k) r) (hb : StrictMono d.bins) (hk : 0 < nk) (hnb : 0 < nb)
    (hn : 0 < n) (ht : ∀ k b, 0 ≤ d.target k b ∧ d.target k b ≤ 1)
    (hok : ∀ v ∈ [u, u'], ∀ k i, ∃ ω,
      (mcSample (r ω) logMah (getBoundedDiffstarpopParams v) (d.samples k) d.lgt0 d.fb i).paramsMs ≠ none ∧
      (mcSample (r ω) logMah (getBoundedDiffstarpopParams v) (d.samples k) d.lgt0 d.fb i).paramsQ ≠ none) :
    ∃ E E' : Fin nk → Fin nb → ℝ,
      (∀ k, LimitCounts logMah u (d.samples k) d.lgt0 d.fb (massWeight (d.samples k).tobs d.bins) (E k)) ∧
      (∀ k, LimitCounts logMah u' (d.samples k) d.lgt0 d.fb (massWeight (d.samples k).tobs d.bins) (E' k)) ∧
      ∀ a η, 0 < a → 0 ≤ η → η ≤ 1 → (∀ k, a * n ≤ ∑ b, E k b) → (∀ k, a * n ≤ ∑ b, E' k b) →
        1000 * ((∑ k, ∑ b, (E k b / ∑ b, E k b - d.target k b) ^ 2) / (nk * nb)) + 4000 * η <
          1000 * ((∑ k, ∑ b, (E' k b / ∑ b, E' k b - d.target k b) ^ 2) / (nk * nb)) →
        P.real {ω | ¬ ∃ l l', lossMstar (r ω) logMah u d = some l ∧ lossMstar (r ω) logMah u' d = some l' ∧ l < l'} ≤
          4 * nk * nb * Real.exp (-(n * (a * η / (1 + nb)) ^ 2 / 2)) := by
  obtain ⟨E, hE, h1⟩ := C133_mass_loss P logMah u d X r hr hb hk hnb hn ht (hok u (by simp))
  obtain ⟨E', hE', h2⟩ := C133_mass_loss P logMah u' d X r hr hb hk hnb hn ht (hok u' (by simp))
  refine ⟨E, E', hE, hE', fun a η ha hη hη1 hN hN' hgap => ?_⟩
  refine le_trans (measureReal_mono ?_) ((measureReal_union_le _ _).trans (add_le_add (h1 a η ha hη hη1 hN)
    (h2 a η ha hη hη1 hN') |>.trans (le_of_eq (by ring))))
  intro ω hω
  by_contra hno
  simp only [Set.mem_union, Set.mem_ofPred_eq, not_or, not_not] at hno
  obtain ⟨⟨l, hl, c⟩, l', hl', c'⟩ := hno
  refine hω ⟨l, l', hl, hl', ?_⟩
  have := (abs_le.1 c).2
  have := (abs_le.1 c').1
  linarith

/-- C133: the loss of the distributions of specific star formation rates (centrals or satellites). `a` bounds the mean weight of
a galaxy in the bins and `c` the share of a target stellar mass from below. -/
theorem C133_ssfr_loss {K Ω : Type} [MeasurableSpace Ω] (P : Measure Ω) [IsProbabilityMeasure P]
    {nk n nms nsf nz nm nt : ℕ} (logMah : MahParams ℝ → ℝ → ℝ → ℝ) (u : PF → ℝ) (d : SsfrData K nk n nms nsf nz nm nt)
    (X : Fin nk → Ω → Fin n → GalaxyDraws) (r : Ω → Rng K) (hr : ∀ k, Stream P (d.samples k).ranKey (X k) r)
    (hlh : ∀ b k, d.ndbinsLo b k ≤ d.ndbinsHi b k) (hmb : StrictMono d.mstarBins) (hsb : StrictMono d.ssfrBins)
    (hms : 0 < nms) (hsf : 0 < nsf) (hz : 0 < nz) (hnt : 0 < nt) (hn : 0 < n)
    (hw : ∀ z m, 0 ≤ d.nmhaloPdf z m) (hw1 : ∀ z, ∑ m, d.nmhaloPdf z m ≤ 1)
    (ht : ∀ z t b, 0 ≤ d.target z t b ∧ d.target z t b ≤ 1)
    (hok : ∀ k i, ∃ ω,
      (mcSample (r ω) logMah (getBoundedDiffstarpopParams u) (d.samples k) d.lgt0 d.fb i).paramsMs ≠ none ∧
      (mcSample (r ω) logMah (getBoundedDiffstarpopParams u) (d.samples k) d.lgt0 d.fb i).paramsQ ≠ none) :
    ∃ E : Fin nk → Fin (nms * nsf) → ℝ,
      (∀ k, LimitCounts logMah u (d.samples k) d.lgt0 d.fb
        (jointWeight (d.samples k).tobs d.ndbinsLo d.ndbinsHi d.mstarBins d.ssfrBins) (E k)) ∧
      let row := fun (z : Fin nz) (t : Fin nt) (b : Fin nsf) => ∑ m, d.nmhaloPdf z m *
        (E (d.indxPdf z m) (finProdFinEquiv (d.targetMstarIds t, b)) / ∑ b, E (d.indxPdf z m) b)
      ∀ a c η, 0 < a → 0 < c → 0 ≤ η → η ≤ 1 → (∀ k, a * n ≤ ∑ b, E k b) → (∀ z t, c ≤ ∑ b, row z t b) →
        P.real {ω | ¬ ∃ l, lossMstarSsfr (r ω) logMah u d = some l ∧
          |l - 1000 * ((∑ z, ∑ t, ∑ b, (row z t b / ∑ b, row z t b - d.target z t b) ^ 2) / (nz * (nt * nsf)))| ≤
            2000 * η} ≤
        2 * nk * (nms * nsf) * Real.exp (-(n * (a * c * η / (2 * (1 + nsf) * (1 + nms * nsf))) ^ 2 / 2)) := by
  have hex := fun k => counts_close (nb := nms * nsf) (d.samples k) (hr k) logMah u d.lgt0 d.fb (hok k)
    (jointWeight (d.samples k).tobs d.ndbinsLo d.ndbinsHi d.mstarBins d.ssfrBins)
    (jointWeight_unit _ hlh hmb hsb hms hsf)
    (fun b i => (bin_measurable (obs_measurable logMah ((d.samples k).mah.row i) (d.samples k).tobs d.lgt0 d.fb).1 _ _ _).mul
      (bin_measurable (obs_measurable logMah ((d.samples k).mah.row i) (d.samples k).tobs d.lgt0 d.fb).2 _ _ _))
  choose E hE hE0 hlim using hex
  refine ⟨E, hE, ?_⟩
  intro row a c η ha hc0 hη hη1 hN hrow
  have hsf' : (0 : ℝ) < nsf := by exact_mod_cast hsf
  have hms' : (0 : ℝ) < nms := by exact_mod_cast hms
  have hn' : (0 : ℝ) < n := by exact_mod_cast hn
  have hNk : ∀ k, 0 < ∑ b, E k b := fun k => lt_of_lt_of_le (by positivity) (hN k)
  have hrow0 : ∀ z t b, 0 ≤ row z t b := fun z t b => Finset.sum_nonneg fun m _ =>
    mul_nonneg (hw z m) (share_unit (hE0 _) _).1
  -- shares add up to at most one
  have hc1 : c ≤ 1 := by
    have h1 := hrow ⟨0, hz⟩ ⟨0, hnt⟩
    refine h1.trans ?_
    simp only [row]
    rw [Finset.sum_comm]
    refine le_trans (Finset.sum_le_sum fun m _ => ?_) (hw1 ⟨0, hz⟩)
    rw [← Finset.mul_sum]
    refine mul_le_of_le_one_right (hw _ _) ?_
    rw [← Finset.sum_div]
    refine div_le_one_of_le₀ ?_ (hNk _).le
    have := Finset.sum_le_univ_sum_of_nonneg (s := Finset.univ.image fun b : Fin nsf =>
      finProdFinEquiv (d.targetMstarIds ⟨0, hnt⟩, b)) (hE0 (d.indxPdf ⟨0, hz⟩ m))
    rwa [Finset.sum_image (by intro x _ y _ h; simpa using h)] at this
  set η₁ : ℝ := c * η / (2 * (1 + nsf)) with hη₁
  have hη₁0 : 0 ≤ η₁ := by positivity
  have hη₁1 : η₁ ≤ 1 := by
    rw [hη₁, div_le_one (by positivity)]
    nlinarith
  set ε : ℝ := a * η₁ / (2 * (1 + nms * nsf)) with hε
  have hε0 : 0 ≤ ε := by positivity
  have hunion := stream_union P _ _ fun k => hlim k ε hε0
  have hexp : -2 * n * ε ^ 2 = -(n * (a * c * η / (2 * (1 + nsf) * (1 + nms * nsf))) ^ 2 / 2) := by
    rw [hε, hη₁]; field_simp
  rw [hexp] at hunion
  refine le_trans (measureReal_mono ?_) (hunion.trans (le_of_eq (by push_cast; ring)))
  intro ω hω
  by_contra hno
  simp only [Set.mem_iUnion, Set.mem_ofPred_eq] at hno
  rw [not_exists] at hno
  refine hω ?_
  have hpdf : ∀ k, ∃ q, mstarSsfrPdf (d.samples k).tobs (mcSample (r ω) logMah (getBoundedDiffstarpopParams u) (d.samples k)
      d.lgt0 d.fb) d.ndbinsLo d.ndbinsHi d.mstarBins d.ssfrBins = some q ∧ (∀ b, 0 ≤ q b ∧ q b ≤ 1) ∧
      ∀ b, |q b - E k b / ∑ b, E k b| ≤ η₁ := by
    intro k
    obtain ⟨sM, sQ, hs, hc⟩ := not_not.1 (hno k)
    have h1 : (2 * (nms * nsf : ℕ) * (ε * n) : ℝ) < ∑ b, E k b := by
      refine lt_of_lt_of_le ?_ (hN k)
      rw [hε]
      push_cast
      have : (2 * (nms * nsf) * (a * η₁ / (2 * (1 + nms * nsf)) * n) : ℝ) =
          (a * n) * (η₁ * (nms * nsf / (1 + nms * nsf))) := by field_simp
      rw [this]
      have h2 : (nms * nsf / (1 + nms * nsf) : ℝ) < 1 := by rw [div_lt_one (by positivity)]; linarith
      have h3 : η₁ * (nms * nsf / (1 + nms * nsf) : ℝ) < 1 := by
        refine lt_of_le_of_lt (mul_le_mul_of_nonneg_right hη₁1 (by positivity)) (by linarith)
      nlinarith [mul_pos ha hn']
    obtain ⟨q, hq, hq01, hcl⟩ := joint_close hlh hmb hsb hms hsf
      (fun i => sample_frac (r ω) logMah u (d.samples k) d.lgt0 d.fb i) hs (hE0 k) hc h1
    refine ⟨q, hq, hq01, fun b => (hcl b).trans ?_⟩
    rw [div_le_iff₀ (hNk k), hε]
    push_cast
    have : (2 * (1 + nms * nsf) * (a * η₁ / (2 * (1 + nms * nsf)) * n) : ℝ) = η₁ * (a * n) := by field_simp
    rw [this]
    exact mul_le_mul_of_nonneg_left (hN k) hη₁0
  choose q hq hq01 hcl using hpdf
  -- the rows
  let S := fun (z : Fin nz) (t : Fin nt) (b : Fin nsf) => ∑ m, q (d.indxPdf z m) (finProdFinEquiv (d.targetMstarIds t, b)) *
    d.nmhaloPdf z m
  have hS0 : ∀ z t b, 0 ≤ S z t b := fun z t b => Finset.sum_nonneg fun m _ => mul_nonneg (hq01 _ _).1 (hw z m)
  have hSrow : ∀ z t b, |S z t b - row z t b| ≤ η₁ := by
    intro z t b
    simp only [S, row]
    rw [← Finset.sum_sub_distrib]
    refine (Finset.abs_sum_le_sum_abs _ _).trans ?_
    refine (Finset.sum_le_sum fun m _ => ?_).trans ((Finset.mul_sum _ _ _).symm.trans_le
      (mul_le_of_le_one_right hη₁0 (hw1 z)))
    rw [mul_comm (q _ _), ← mul_sub, abs_mul, abs_of_nonneg (hw z m), mul_comm η₁]
    exact mul_le_mul_of_nonneg_left (hcl _ _) (hw z m)
  have hcond : ∀ z t, 0 < ∑ b, S z t b ∧ ∀ b, |S z t b / ∑ b, S z t b - row z t b / ∑ b, row z t b| ≤ η := by
    intro z t
    have hR : 0 < ∑ b, row z t b := lt_of_lt_of_le hc0 (hrow z t)
    obtain ⟨hT, hcl'⟩ := normalised_close_le hη₁0 (hrow0 z t) (hSrow z t) (by
      refine lt_of_lt_of_le ?_ (hrow z t)
      rw [hη₁]
      have : (2 * nsf * (c * η / (2 * (1 + nsf))) : ℝ) = c * (η * (nsf / (1 + nsf))) := by field_simp
      rw [this]
      have h2 : (nsf / (1 + nsf) : ℝ) < 1 := by rw [div_lt_one (by positivity)]; linarith
      have h3 : η * (nsf / (1 + nsf) : ℝ) < 1 := by
        refine lt_of_le_of_lt (mul_le_mul_of_nonneg_right hη1 (by positivity)) (by linarith)
      nlinarith)
    refine ⟨hT, fun b => (hcl' b).trans ?_⟩
    rw [div_le_iff₀ hR, hη₁]
    have : (2 * (1 + nsf) * (c * η / (2 * (1 + nsf))) : ℝ) = η * c := by field_simp
    rw [this]
    exact mul_le_mul_of_nonneg_left (hrow z t) hη
  have hpred : ∀ z t b, mstarSsfrKernTobs (r ω) logMah u d z t b = some (S z t b / ∑ b, S z t b) := by
    intro z t b
    unfold mstarSsfrKernTobs conditional mixBins
    simp only [hq, Option.map_some]
    rw [allSome_eq_some.2 fun m => rfl]
    simp only [Option.map_some, Option.bind_some]
    exact if_neg (hcond z t).1.ne'
  have : Nonempty (Fin nz × Fin nt × Fin nsf) := ⟨⟨0, hz⟩, ⟨0, hnt⟩, ⟨0, hsf⟩⟩
  obtain ⟨l, hl, hl2⟩ := mse_close (ι := Fin nz × Fin nt × Fin nsf)
    (pred := fun i => mstarSsfrKernTobs (r ω) logMah u d i.1 i.2.1 i.2.2)
    (a := fun i => S i.1 i.2.1 i.2.2 / ∑ b, S i.1 i.2.1 b) (e := fun i => row i.1 i.2.1 i.2.2 / ∑ b, row i.1 i.2.1 b)
    (t := fun i => d.target i.1 i.2.1 i.2.2) (η := η)
    (fun i => hpred _ _ _) (fun i => share_unit (hS0 _ _) _) (fun i => share_unit (hrow0 _ _) _) (fun i => ht _ _ _)
    (fun i => (hcond _ _).2 _)
  refine ⟨l * 1000, by
    show (mse _ _).map _ = _
    rw [hl]; rfl, ?_⟩
  rw [Fintype.sum_prod_type, Fintype.card_prod, Fintype.card_prod, Fintype.card_fin, Fintype.card_fin, Fintype.card_fin,
    Nat.cast_mul, Nat.cast_mul] at hl2
  simp only [Fintype.sum_prod_type] at hl2
  rw [show ∀ x : ℝ, l * 1000 - 1000 * x = 1000 * (l - x) from fun x => by ring, abs_mul, abs_of_pos (by norm_num)]
  linarith

/-- C133: the combined loss is close to the sum of the limits as soon as the three losses are close to theirs. -/
theorem C133_combined {K Ω : Type} [MeasurableSpace Ω] (P : Measure Ω) [IsProbabilityMeasure P]
    {nk n nb nk' n' nms nsf nz nm nt nk'' n'' nms' nsf' nz' nm' nt' : ℕ} (logMah : MahParams ℝ → ℝ → ℝ → ℝ) (u : PF → ℝ)
    (dM : MstarData K nk n nb) (dC : SsfrData K nk' n' nms nsf nz nm nt) (dS : SsfrData K nk'' n'' nms' nsf' nz' nm' nt')
    (r : Ω → Rng K) (L L' L'' e e' e'' : ℝ) :
    P.real {ω | ¬ ∃ l, lossCombined3 (r ω) logMah u dM dC dS = some l ∧ |l - (L + L' + L'')| ≤ e + e' + e''} ≤
      P.real {ω | ¬ ∃ l, lossMstar (r ω) logMah u dM = some l ∧ |l - L| ≤ e} +
      P.real {ω | ¬ ∃ l, lossMstarSsfr (r ω) logMah u dC = some l ∧ |l - L'| ≤ e'} +
      P.real {ω | ¬ ∃ l, lossMstarSsfr (r ω) logMah u dS = some l ∧ |l - L''| ≤ e''} ∧
    P.real {ω | ¬ ∃ l, lossCombined (r ω) logMah u dM dC = some l ∧ |l - (L + L')| ≤ e + e'} ≤
      P.real {ω | ¬ ∃ l, lossMstar (r ω) logMah u dM = some l ∧ |l - L| ≤ e} +
      P.real {ω | ¬ ∃ l, lossMstarSsfr (r ω) logMah u dC = some l ∧ |l - L'| ≤ e'} := by
  constructor
  · refine le_trans (measureReal_mono ?_) ((measureReal_union_le _ _).trans (add_le_add (measureReal_union_le _ _) le_rfl))
    intro ω hω
    by_contra hno
    simp only [Set.mem_union, Set.mem_ofPred_eq, not_or, not_not] at hno
    obtain ⟨⟨⟨l, hl, c⟩, l', hl', c'⟩, l'', hl'', c''⟩ := hno
    refine hω ⟨l' + l + l'', by unfold lossCombined3; rw [hl, hl', hl'']; rfl, ?_⟩
    rw [abs_le] at *
    constructor <;> linarith [c.1, c.2, c'.1, c'.2, c''.1, c''.2]
  · refine le_trans (measureReal_mono ?_) (measureReal_union_le _ _)
    intro ω hω
    by_contra hno
    simp only [Set.mem_union, Set.mem_ofPred_eq, not_or, not_not] at hno
    obtain ⟨⟨l, hl, c⟩, l', hl', c'⟩ := hno
    refine hω ⟨l' + l, by unfold lossCombined; rw [hl, hl']; rfl, ?_⟩
    rw [abs_le] at *
    constructor <;> linarith [c.1, c.2, c'.1, c'.2]

/-- Two target bins of two halos each, with different keys, and one wide bin: a generator of the assumed form exists, no row is
NaN, and the expected weight is positive. -/
example : ∃ (Ω : Type) (_ : MeasurableSpace Ω) (P : Measure Ω) (_ : IsProbabilityMeasure P) (d : MstarData (List ℕ) 2 2 1)
    (X : Fin 2 → Ω → Fin 2 → GalaxyDraws) (r : Ω → Rng (List ℕ)), (∀ k, Stream P (d.samples k).ranKey (X k) r) ∧
    (d.samples 0).ranKey ≠ (d.samples 1).ranKey ∧ StrictMono d.bins ∧ (∀ k b, 0 ≤ d.target k b ∧ d.target k b ≤ 1) ∧
    (∀ k i, ∃ ω, (mcSample (r ω) (fun _ _ _ => 12) (getBoundedDiffstarpopParams fun _ => 1) (d.samples k) d.lgt0 d.fb
        i).paramsMs ≠ none ∧
      (mcSample (r ω) (fun _ _ _ => 12) (getBoundedDiffstarpopParams fun _ => 1) (d.samples k) d.lgt0 d.fb i).paramsQ ≠ none) ∧
    ∀ E : Fin 2 → Fin 1 → ℝ,
      (∀ k, LimitCounts (fun _ _ _ => 12) (fun _ => 1) (d.samples k) d.lgt0 d.fb (massWeight (d.samples k).tobs d.bins) (E k)) →
      ∃ a > 0, ∀ k, a * (2 : ℕ) ≤ ∑ b, E k b := by
  let h : Fin 2 → HaloSample (List ℕ) 2 := fun k => ⟨⟨fun _ => 12, fun _ => 0, fun _ => 2, fun _ => 1, ![5, 13]⟩, fun _ => 12,
    ![-1, 7], ![-1, -2], ![12, 14], ![2, 3], [k.val], 10⟩
  refine ⟨Fin 2 → Fin 2 → GalaxyDraws, inferInstance, Measure.pi fun _ => popDraws 2, inferInstance,
    ⟨h, 1, 0.16, ![-100, 100], fun _ _ => 1⟩, fun k x => x k, fun x => ⟨fun k _ i => k ++ [i.val],
    fun k m c l => m l + Real.sqrt (c l l) * (x (Fin.ofNat 2 (k.getD 0 0)) (Fin.ofNat 2 (k.getD 1 0))).1
      (Fin.ofNat 3 (k.getD 2 0), l),
    fun k => (x (Fin.ofNat 2 (k.getD 0 0)) (Fin.ofNat 2 (k.getD 1 0))).2⟩, ?_, ?_, ?_, ?_, ?_, ?_⟩
  · intro k
    refine ⟨fun x => ⟨fun _ => x, rfl⟩, measurePreserving_eval _ k, fun x y => rfl, ?_, ?_⟩
    · intro x i j mu s hs
      funext l
      simp only [Matrix.diagonal_apply_eq, Real.sqrt_sq (hs l).le]
      fin_cases k <;> fin_cases i <;> fin_cases j <;> rfl
    · intro x i
      fin_cases k <;> fin_cases i <;> rfl
  · decide
  · intro i j hij
    fin_cases i <;> fin_cases j <;> simp_all
  · intro k b
    norm_num
  · intro k i
    refine ⟨fun _ _ => (fun _ => 0, 0), ?_⟩
    obtain ⟨h1, h2⟩ := C94_nan_iff_zero_slope (K := List ℕ) ⟨fun k _ i => k ++ [i.val],
      fun k m c l => m l + Real.sqrt (c l l) * 0, fun k => 0⟩ (fun _ => 1) 12
      ((![5, 13] : Fin 2 → ℝ) i) ((![-1, 7] : Fin 2 → ℤ) i) ((![-1, -2] : Fin 2 → ℝ) i) ((![12, 14] : Fin 2 → ℝ) i)
      ((![2, 3] : Fin 2 → ℝ) i) [k.val, i.val]
    exact ⟨h1.not.2 (by simp), h2.not.2 (by simp)⟩
  · intro E hE
    have hpos : ∀ k, 0 < ∑ b, E k b := by
      intro k
      obtain ⟨δ, -, f, m, s, m', s', hf, he⟩ := hE k
      rw [Fin.sum_univ_one, he]
      have hw : ∀ i q, 0 < massWeight 10 ![-100, 100] 0 (calcSfhSinglegal (fun (_ : MahParams ℝ) _ _ => (12 : ℝ))
          (getBoundedDiffstarParams q) ((h k).mah.row i) (obsTimes 10) 1 0.16) ∧
          massWeight 10 ![-100, 100] 0 (calcSfhSinglegal (fun (_ : MahParams ℝ) _ _ => (12 : ℝ))
          (getBoundedDiffstarParams q) ((h k).mah.row i) (obsTimes 10) 1 0.16) ≤ 1 := by
        intro i q
        refine ⟨?_, ndBin_le_one _ _ _ _⟩
        show 0 < NdHist.twBinWeightLaxKern _ ((100 - -100) / ((1 : ℕ) : ℝ)) (-100) 100
        rw [show (100 - -100) / ((1 : ℕ) : ℝ) = 200 by norm_num]
        refine (ndBin_pos_iff (by norm_num) (by norm_num)).2 ?_
        have := abs_lt.1 (halo_mass_range q ((h k).mah.row i))
        constructor
        · linarith [this.1]
        · linarith [this.2]
      have pos : ∀ {k : ℕ} (mu : Measure (Fin k → ℝ)) [IsProbabilityMeasure mu] (h : (Fin k → ℝ) → ℝ), Measurable h →
          (∀ v, 0 < h v ∧ h v ≤ 1) → 0 < ∫ v, h v ∂mu := by
        intro k mu _ h hm h01
        rw [integral_pos_iff_support_of_nonneg (fun v => (h01 v).1.le) (integrable_unit hm fun v => ⟨(h01 v).1.le, (h01 v).2⟩)]
        have : Function.support h = Set.univ := Set.eq_univ_of_forall fun v => (h01 v).1.ne'
        rw [this]
        simp
      refine Finset.sum_pos (fun i _ => ?_) Finset.univ_nonempty
      have hm := mass_measurable (fun _ _ _ => 12) ((h k).mah.row i) 10 1 0.16 ((![-100, 100] (Fin.last 1) - ![-100, 100] 0) / (1 : ℕ))
        (-100) 100
      have hfi := sample_frac (K := List ℕ) ⟨fun k _ i => k ++ [i.val], fun k m c l => 0, fun k => 0⟩ (fun _ _ _ => 12)
        (fun _ => 1) (h k) 1 0.16 i
      rw [(hf i).1] at hfi
      exact add_pos (mul_pos hfi.1 (pos _ _ hm.2 fun v => hw i _))
        (mul_pos (sub_pos.2 hfi.2) (pos _ _ hm.1 fun v => hw i _))
    refine ⟨min (∑ b, E 0 b) (∑ b, E 1 b) / 2, by have := hpos 0; have := hpos 1; positivity, fun k => ?_⟩
    fin_cases k
    · have := min_le_left (∑ b, E 0 b) (∑ b, E 1 b)
      norm_num at this ⊢
    · have := min_le_right (∑ b, E 0 b) (∑ b, E 1 b)
      norm_num at this ⊢

theorem halo_ssfr_range (q : DiffstarParams ℝ) (mah : MahParams ℝ) :
    |logSsfrAt 10 (calcSfhSinglegal (fun (_ : MahParams ℝ) _ _ => (12 : ℝ)) (getBoundedDiffstarParams q) mah (obsTimes 10) 1
      0.16)| < 200 := by
  have hM := abs_lt.1 (halo_mass_range q mah)
  obtain ⟨ts, hts, hinc, hle⟩ := obsTimes_ten
  have hup : ∀ s ∈ calcSfhSinglegal (fun (_ : MahParams ℝ) _ _ => (12 : ℝ)) (getBoundedDiffstarParams q) mah (obsTimes 10) 1
      0.16, s ≤ 10 ^ 5 := by
    intro s hs
    obtain ⟨i, hi, e⟩ := List.getElem_of_mem hs
    have hl : (calcSfhSinglegal (fun (_ : MahParams ℝ) _ _ => (12 : ℝ)) (getBoundedDiffstarParams q) mah (obsTimes 10) 1
      0.16).length = (obsTimes 10).length := by rw [calcSfhSinglegal_eq]; simp
    have hi' : i < (obsTimes 10).length := by omega
    have ht : 0 < (obsTimes 10)[i] := by
      have hmem := List.getElem_mem hi'
      generalize (obsTimes 10)[i] = t at hmem
      rw [hts] at hmem
      have := (List.pairwise_cons.1 hinc).1 _ hmem
      exact lt_trans (by norm_num) this
    obtain ⟨s', h1, h2⟩ := C09_sfr_upper_bound (fun (_ : MahParams ℝ) _ _ => (12 : ℝ)) q mah (obsTimes 10) 1 0.16
      (by norm_num) i hi' ht
    rw [List.getElem?_eq_getElem hi, Option.some.injEq] at h1
    rw [← e, h1]
    refine h2.trans (max_le (by norm_num) ?_)
    have hb := (C01_bounded_params_in_bounds q).lgyAtMcrit.2
    have e1 : (10 : ℝ) ^ ((getBoundedDiffstarParams q).lgyAtMcrit + 5 / 27) ≤ (10 : ℝ) ^ (-7 : ℝ) :=
      Real.rpow_le_rpow_of_exponent_le (by norm_num) (by linarith)
    have e2 : (10 : ℝ) ^ (-7 : ℝ) = 1 / 10 ^ 7 := by rw [Real.rpow_neg (by norm_num)]; norm_num
    rw [e2] at e1
    have e3 : (10 : ℝ) ^ (12 : ℝ) = 10 ^ 12 := by norm_num
    rw [e3]
    refine (mul_le_mul_of_nonneg_left e1 (by norm_num)).trans ?_
    norm_num
  have hlow : ∀ s ∈ calcSfhSinglegal (fun (_ : MahParams ℝ) _ _ => (12 : ℝ)) (getBoundedDiffstarParams q) mah (obsTimes 10) 1
      0.16, 1 / 10 ^ 14 ≤ s := by
    intro s hs
    rw [calcSfhSinglegal_eq] at hs
    obtain ⟨t, -, ht⟩ := List.mem_map.1 hs
    rw [← ht]
    exact le_max_left _ _
  have hne : calcSfhSinglegal (fun (_ : MahParams ℝ) _ _ => (12 : ℝ)) (getBoundedDiffstarParams q) mah (obsTimes 10) 1
      0.16 ≠ [] := by
    rw [calcSfhSinglegal_eq, hts]; simp
  have hlast : (calcSfhSinglegal (fun (_ : MahParams ℝ) _ _ => (12 : ℝ)) (getBoundedDiffstarParams q) mah (obsTimes 10) 1
      0.16).getLastD 0 ∈ calcSfhSinglegal (fun (_ : MahParams ℝ) _ _ => (12 : ℝ)) (getBoundedDiffstarParams q) mah
        (obsTimes 10) 1 0.16 := by
    rw [List.getLastD_eq_getLast?, List.getLast?_eq_some_getLast hne]
    exact List.getLast_mem hne
  have h1 := hup _ hlast
  have h2 := hlow _ hlast
  unfold logSsfrAt
  generalize logMassAt 10 (calcSfhSinglegal (fun (_ : MahParams ℝ) _ _ => (12 : ℝ)) (getBoundedDiffstarParams q) mah
        (obsTimes 10) 1 0.16) = M at *
  generalize (calcSfhSinglegal (fun (_ : MahParams ℝ) _ _ => (12 : ℝ)) (getBoundedDiffstarParams q) mah (obsTimes 10) 1
      0.16).getLastD 0 = x at *
  have hx : 0 < x := lt_of_lt_of_le (by norm_num) h2
  have h3 : Real.logb 10 x ≤ 5 := by
    rw [Real.logb_le_iff_le_rpow (by norm_num) hx]
    refine h1.trans (le_of_eq ?_)
    norm_num
  rw [abs_lt]
  exact ⟨lt_max_of_lt_right (by norm_num), max_lt (by linarith [hM.1]) (by norm_num)⟩

/-- One target bin of two halos and one wide bin of mass and specific star formation rate. -/
example : ∃ (d : SsfrData (List ℕ) 1 2 1 1 1 1 1) (r : (Fin 2 → GalaxyDraws) → Rng (List ℕ)),
    (∀ k, Stream (popDraws 2) (d.samples k).ranKey id r) ∧
    (∀ b k, d.ndbinsLo b k ≤ d.ndbinsHi b k) ∧ StrictMono d.mstarBins ∧ StrictMono d.ssfrBins ∧
    (∀ z m, 0 ≤ d.nmhaloPdf z m) ∧ (∀ z, ∑ m, d.nmhaloPdf z m ≤ 1) ∧
    (∀ z t b, 0 ≤ d.target z t b ∧ d.target z t b ≤ 1) ∧
    (∀ k i, ∃ ω, (mcSample (r ω) (fun _ _ _ => 12) (getBoundedDiffstarpopParams fun _ => 1) (d.samples k) d.lgt0 d.fb
        i).paramsMs ≠ none ∧
      (mcSample (r ω) (fun _ _ _ => 12) (getBoundedDiffstarpopParams fun _ => 1) (d.samples k) d.lgt0 d.fb i).paramsQ ≠ none) ∧
    ∀ E : Fin 1 → Fin (1 * 1) → ℝ,
      (∀ k, LimitCounts (fun _ _ _ => 12) (fun _ => 1) (d.samples k) d.lgt0 d.fb
        (jointWeight (d.samples k).tobs d.ndbinsLo d.ndbinsHi d.mstarBins d.ssfrBins) (E k)) →
      (∃ a > 0, ∀ k, a * (2 : ℕ) ≤ ∑ b, E k b) ∧ ∀ z t, (1 : ℝ) ≤ ∑ b, ∑ m, d.nmhaloPdf z m *
        (E (d.indxPdf z m) (finProdFinEquiv (d.targetMstarIds t, b)) / ∑ b, E (d.indxPdf z m) b) := by
  let h : HaloSample (List ℕ) 2 := ⟨⟨fun _ => 12, fun _ => 0, fun _ => 2, fun _ => 1, ![5, 13]⟩, fun _ => 12,
    ![-1, 7], ![-1, -2], ![12, 14], ![2, 3], [], 10⟩
  refine ⟨⟨fun _ => h, 1, 0.16, fun _ => ![-100, -200], fun _ => ![100, 200], ![-100, 100], ![-200, 200], fun _ _ => 1,
    fun _ _ => 0, fun _ => 0, fun _ _ _ => 1⟩, fun x => ⟨fun k _ i => k ++ [i.val],
    fun k m c l => m l + Real.sqrt (c l l) * (x (Fin.ofNat 2 (k.getD 0 0))).1 (Fin.ofNat 3 (k.getD 1 0), l),
    fun k => (x (Fin.ofNat 2 (k.getD 0 0))).2⟩, ?_, ?_, ?_, ?_, ?_, ?_, ?_, ?_, ?_⟩
  · intro k
    refine ⟨fun x => ⟨x, rfl⟩, MeasurePreserving.id _, fun x y => rfl, ?_, ?_⟩
    · intro x i j mu s hs
      funext l
      simp only [Matrix.diagonal_apply_eq, Real.sqrt_sq (hs l).le]
      fin_cases i <;> fin_cases j <;> rfl
    · intro x i
      fin_cases i <;> rfl
  · intro b k
    fin_cases k <;> norm_num
  · intro i j hij
    fin_cases i <;> fin_cases j <;> simp_all
  · intro i j hij
    fin_cases i <;> fin_cases j <;> simp_all
  · intro z m
    norm_num
  · intro z
    norm_num
  · intro z t b
    norm_num
  · intro k i
    refine ⟨fun _ => (fun _ => 0, 0), ?_⟩
    obtain ⟨h1, h2⟩ := C94_nan_iff_zero_slope (K := List ℕ) ⟨fun k _ i => k ++ [i.val],
      fun k m c l => m l + Real.sqrt (c l l) * 0, fun k => 0⟩ (fun _ => 1) 12
      ((![5, 13] : Fin 2 → ℝ) i) ((![-1, 7] : Fin 2 → ℤ) i) ((![-1, -2] : Fin 2 → ℝ) i) ((![12, 14] : Fin 2 → ℝ) i)
      ((![2, 3] : Fin 2 → ℝ) i) [i.val]
    exact ⟨h1.not.2 (by simp), h2.not.2 (by simp)⟩
  · intro E hE
    have hpos : 0 < E 0 0 := by
      obtain ⟨δ, -, f, m, s, m', s', hf, he⟩ := hE 0
      rw [he]
      have hw : ∀ i q, 0 < jointWeight (B := Fin (1 * 1)) 10 (fun _ => ![-100, -200]) (fun _ => ![100, 200]) ![-100, 100]
          ![-200, 200] 0 (calcSfhSinglegal (fun (_ : MahParams ℝ) _ _ => (12 : ℝ))
          (getBoundedDiffstarParams q) (h.mah.row i) (obsTimes 10) 1 0.16) ∧
          jointWeight (B := Fin (1 * 1)) 10 (fun _ => ![-100, -200]) (fun _ => ![100, 200]) ![-100, 100]
          ![-200, 200] 0 (calcSfhSinglegal (fun (_ : MahParams ℝ) _ _ => (12 : ℝ))
          (getBoundedDiffstarParams q) (h.mah.row i) (obsTimes 10) 1 0.16) ≤ 1 := by
        intro i q
        have hs := abs_lt.1 (halo_ssfr_range q (h.mah.row i))
        have hm := abs_lt.1 (halo_mass_range q (h.mah.row i))
        show 0 < NdHist.twBinWeightLaxKern _ ((100 - -100) / ((1 : ℕ) : ℝ)) (-100) 100 *
          NdHist.twBinWeightLaxKern _ ((200 - -200) / ((1 : ℕ) : ℝ)) (-200) 200 ∧
          NdHist.twBinWeightLaxKern _ ((100 - -100) / ((1 : ℕ) : ℝ)) (-100) 100 *
          NdHist.twBinWeightLaxKern _ ((200 - -200) / ((1 : ℕ) : ℝ)) (-200) 200 ≤ 1
        rw [show (100 - -100) / ((1 : ℕ) : ℝ) = 200 by norm_num, show (200 - -200) / ((1 : ℕ) : ℝ) = 400 by norm_num]
        have a1 := (ndBin_pos_iff (x := logMassAt 10 (calcSfhSinglegal (fun (_ : MahParams ℝ) _ _ => (12 : ℝ))
          (getBoundedDiffstarParams q) (h.mah.row i) (obsTimes 10) 1 0.16)) (s := 200) (lo := -100) (hi := 100)
          (by norm_num) (by norm_num)).2 ⟨by linarith [hm.1], by linarith [hm.2]⟩
        have a2 := (ndBin_pos_iff (x := logSsfrAt 10 (calcSfhSinglegal (fun (_ : MahParams ℝ) _ _ => (12 : ℝ))
          (getBoundedDiffstarParams q) (h.mah.row i) (obsTimes 10) 1 0.16)) (s := 400) (lo := -200) (hi := 200)
          (by norm_num) (by norm_num)).2 ⟨by linarith [hs.1], by linarith [hs.2]⟩
        exact ⟨mul_pos a1 a2, mul_le_one₀ (ndBin_le_one _ _ _ _) a2.le (ndBin_le_one _ _ _ _)⟩
      have pos : ∀ {k : ℕ} (mu : Measure (Fin k → ℝ)) [IsProbabilityMeasure mu] (h : (Fin k → ℝ) → ℝ), Measurable h →
          (∀ v, 0 < h v ∧ h v ≤ 1) → 0 < ∫ v, h v ∂mu := by
        intro k mu _ h hm h01
        rw [integral_pos_iff_support_of_nonneg (fun v => (h01 v).1.le) (integrable_unit hm fun v => ⟨(h01 v).1.le, (h01 v).2⟩)]
        have : Function.support h = Set.univ := Set.eq_univ_of_forall fun v => (h01 v).1.ne'
        rw [this]
        simp
      refine Finset.sum_pos (fun i _ => ?_) Finset.univ_nonempty
      have ho := obs_measurable (fun _ _ _ => 12) (h.mah.row i) 10 1 0.16
      have hm := (bin_measurable ho.1 ((![-100, 100] (Fin.last 1) - ![-100, 100] 0) / (1 : ℕ)) (-100) 100).mul
        (bin_measurable ho.2 ((![-200, 200] (Fin.last 1) - ![-200, 200] 0) / (1 : ℕ)) (-200) 200)
      have e : ∀ w : Fin 4 → ℝ, msOfVec w = paramsOfVec ![w 0, w 1, w 2, w 3, DEFAULT_Q_U_PARAMS_UNQUENCHED.lgQt,
        DEFAULT_Q_U_PARAMS_UNQUENCHED.qlglgdt, DEFAULT_Q_U_PARAMS_UNQUENCHED.lgDrop,
        DEFAULT_Q_U_PARAMS_UNQUENCHED.lgRejuv] := fun w => rfl
      have hm2 := hm.comp msVec_measurable
      have hfi := sample_frac (K := List ℕ) ⟨fun k _ i => k ++ [i.val], fun k m c l => 0, fun k => 0⟩ (fun _ _ _ => 12)
        (fun _ => 1) h 1 0.16 i
      rw [(hf i).1] at hfi
      simp only [e]
      exact add_pos (mul_pos hfi.1 (pos _ _ hm fun v => hw i _))
        (mul_pos (sub_pos.2 hfi.2) (pos _ _ hm2 fun v => hw i _))
    refine ⟨⟨E 0 0 / 2, by positivity, fun k => ?_⟩, fun z t => ?_⟩
    · have : k = 0 := Subsingleton.elim _ _
      subst this
      simp
    · have : ∀ x : Fin (1 * 1), x = 0 := by decide
      simp [this _, hpos.ne']

end Diffstar.Props
