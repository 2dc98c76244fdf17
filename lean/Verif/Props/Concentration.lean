import Verif.Props.Expectation
import Mathlib.Probability.Moments.SubGaussian
import Mathlib.Probability.Moments.Variance

/-!
C119: the Monte Carlo catalogue scatters around the weighted predictions as binomial counts do.
-/

namespace Diffstar.Props

open Diffstar.Pop Diffstar.PopLoss MeasureTheory ProbabilityTheory

open Classical in
theorem flip_measurable (f a b : ℝ) : Measurable fun y : ℝ => if y < f then a else b :=
  Measurable.ite measurableSet_Iio measurable_const measurable_const

open Classical in
theorem flip_memLp (f a b : ℝ) : MemLp (fun y : ℝ => if y < f then a else b) 2 Spec.unif := by
  refine MemLp.of_bound (flip_measurable f a b).aestronglyMeasurable (max |a| |b|) ?_
  refine Filter.Eventually.of_forall fun y => ?_
  by_cases h : y < f <;> simp [h]

open Classical in
theorem flip_variance {f : ℝ} (h0 : 0 ≤ f) (h1 : f ≤ 1) (a b : ℝ) :
    Var[fun y : ℝ => if y < f then a else b; Spec.unif] = f * (1 - f) * (a - b) ^ 2 := by
  rw [variance_eq_sub (flip_memLp f a b), (unif_ite h0 h1 a b).2]
  have : (fun y : ℝ => if y < f then a else b) ^ 2 = fun y : ℝ => if y < f then a ^ 2 else b ^ 2 := by
    funext y
    by_cases h : y < f <;> simp [h]
  rw [this, (unif_ite h0 h1 _ _).2]
  ring

open Classical in
/-- Variance of a sum of one statistic per galaxy, each decided by the galaxy's own draw. -/
theorem unifs_variance {n : ℕ} (f : Fin n → ℝ) (hf : ∀ i, 0 < f i ∧ f i < 1) (a b : Fin n → ℝ) :
    Var[fun x : Fin n → ℝ => ∑ i, if x i < f i then a i else b i; Spec.unifs n] =
      ∑ i, f i * (1 - f i) * (a i - b i) ^ 2 := by
  have h := variance_sum_pi (μ := fun _ : Fin n => Spec.unif) (X := fun i y => if y < f i then a i else b i)
    fun i => flip_memLp (f i) (a i) (b i)
  have e : (fun x : Fin n → ℝ => ∑ i, if x i < f i then a i else b i) =
      ∑ i, fun x : Fin n → ℝ => if x i < f i then a i else b i := by
    funext x; simp
  rw [e, Spec.unifs, h]
  exact Finset.sum_congr rfl fun i _ => flip_variance (hf i).1.le (hf i).2.le _ _

open Classical in
/-- Hoeffding's inequality for such a sum with terms in `[0, 1]`. -/
theorem unifs_hoeffding {n : ℕ} (f : Fin n → ℝ) (hf : ∀ i, 0 < f i ∧ f i < 1) (a b : Fin n → ℝ)
    (ha : ∀ i, 0 ≤ a i ∧ a i ≤ 1) (hb : ∀ i, 0 ≤ b i ∧ b i ≤ 1) (ε : ℝ) (hε : 0 ≤ ε) :
    (Spec.unifs n).real {x | ε * n ≤ |∑ i, (if x i < f i then a i else b i) - ∑ i, ((1 - f i) * b i + f i * a i)|} ≤
      2 * Real.exp (-2 * n * ε ^ 2) := by
  rcases Nat.eq_zero_or_pos n with rfl | hn
  · refine (measureReal_le_one).trans ?_
    simp
  have hn' : (0 : ℝ) < n := by exact_mod_cast hn
  have hm : ∀ i, Measurable fun y : ℝ => if y < f i then a i else b i := fun i => flip_measurable _ _ _
  have hmean : ∀ i, ∫ x, (if x i < f i then a i else b i) ∂Spec.unifs n = (1 - f i) * b i + f i * a i := by
    intro i
    have hI := unif_ite (hf i).1.le (hf i).2.le (a i) (b i)
    rw [Spec.unifs]
    exact (integral_comp_eval (μ := fun _ => Spec.unif) hI.1.aestronglyMeasurable).trans hI.2
  have hmi : ∀ i, Measurable fun x : Fin n → ℝ => if x i < f i then a i else b i := fun i =>
    (hm i).comp (measurable_pi_apply i)
  have hsub : ∀ i, HasSubgaussianMGF (fun x : Fin n → ℝ => (if x i < f i then a i else b i) -
      ((1 - f i) * b i + f i * a i)) (1 / 4) (Spec.unifs n) := by
    intro i
    have := hasSubgaussianMGF_of_mem_Icc (μ := Spec.unifs n) (a := 0) (b := 1) (hmi i).aemeasurable
      (Filter.Eventually.of_forall fun x => by
        show (if x i < f i then a i else b i) ∈ Set.Icc (0 : ℝ) 1
        split_ifs
        · exact ha i
        · exact hb i)
    rw [hmean i] at this
    convert this using 1
    norm_num
  have hind : iIndepFun (fun (i : Fin n) (x : Fin n → ℝ) => (if x i < f i then a i else b i) -
      ((1 - f i) * b i + f i * a i)) (Spec.unifs n) :=
    iIndepFun_pi (μ := fun _ : Fin n => Spec.unif) (X := fun i y => (if y < f i then a i else b i) -
      ((1 - f i) * b i + f i * a i)) fun i => ((hm i).sub_const _).aemeasurable
  have key : ∀ X : Fin n → (Fin n → ℝ) → ℝ, iIndepFun X (Spec.unifs n) →
      (∀ i, HasSubgaussianMGF (X i) (1 / 4) (Spec.unifs n)) →
      (Spec.unifs n).real {x | ε * n ≤ ∑ i, X i x} ≤ Real.exp (-2 * n * ε ^ 2) := by
    intro X hX hs
    refine (HasSubgaussianMGF.measure_sum_ge_le_of_iIndepFun hX (s := Finset.univ) (fun i _ => hs i)
      (by positivity)).trans (le_of_eq ?_)
    congr 1
    simp
    field_simp
    norm_num
  have h1 := key _ hind hsub
  have h2 := key (fun i x => -((if x i < f i then a i else b i) - ((1 - f i) * b i + f i * a i)))
    (hind.comp (fun _ y => -y) fun _ => measurable_neg) fun i => (hsub i).neg
  have hset : {x : Fin n → ℝ | ε * n ≤ |∑ i, (if x i < f i then a i else b i) - ∑ i, ((1 - f i) * b i + f i * a i)|} ⊆
      {x | ε * n ≤ ∑ i, ((if x i < f i then a i else b i) - ((1 - f i) * b i + f i * a i))} ∪
      {x | ε * n ≤ ∑ i, -((if x i < f i then a i else b i) - ((1 - f i) * b i + f i * a i))} := by
    intro x hx
    simp only [Set.mem_ofPred_eq, Set.mem_union, Finset.sum_neg_distrib, Finset.sum_sub_distrib] at hx ⊢
    rcases le_abs.1 hx with h | h
    · exact Or.inl h
    · exact Or.inr h
  refine (measureReal_mono hset).trans ((measureReal_union_le _ _).trans ?_)
  linarith

open Classical in
/-- The sum of a statistic over the Monte Carlo catalogue, galaxy by galaxy. -/
theorem selected_sum {K : Type} {n : ℕ} (rng : Rng K) (key : K) (r : (Fin n → ℝ) → Rng K)
    (hr : Spec.UniformDraws rng key r) (logMah : MahParams ℝ → ℝ → ℝ → ℝ) (u : PF → ℝ)
    (mah : MahParams (Fin n → ℝ)) (logmp0 : Fin n → ℝ) (upid : Fin n → ℤ)
    (lgmu logmhost gyr : Fin n → ℝ) (tarr : List ℝ) (lgt0 fb : ℝ) (h : Fin n → Option (List ℝ) → ℝ) (x y : Fin n → ℝ) :
    let g := fun (x : Fin n → ℝ) => mcDiffstarSfhGalpop (r x) logMah (getBoundedDiffstarpopParams u) mah logmp0 upid
      lgmu logmhost gyr key tarr lgt0 fb
    (∀ i, 0 < (g y i).fracQ ∧ (g y i).fracQ < 1) ∧
    ∑ i, h i (Spec.selected (g x i)) = ∑ i, if x i < (g y i).fracQ then h i (g y i).sfhQ else h i (g y i).sfhMs := by
  intro g
  have hd := fun x i => galpop_draws hr logMah (getBoundedDiffstarpopParams u) mah logmp0 upid lgmu logmhost gyr tarr
    lgt0 fb x i
  refine ⟨fun i => C29_frac_quench_in_unit_interval (r y) u (logmp0 i) (mah.tPeak i) (upid i) (lgmu i) (logmhost i) (gyr i)
      ((r y).split key n i), Finset.sum_congr rfl fun i _ => ?_⟩
  obtain ⟨-, -, e1, e2, -, e4⟩ := hd x i
  obtain ⟨-, -, e1', e2', e3', -⟩ := hd y i
  show h i (Spec.selected (g x i)) = if x i < (g y i).fracQ then h i (g y i).sfhQ else h i (g y i).sfhMs
  rw [e1', e2', e3']
  by_cases hx : x i < (mcDiffstarSfhGalpop rng logMah (getBoundedDiffstarpopParams u) mah logmp0 upid lgmu logmhost gyr key
    tarr lgt0 fb i).fracQ
  · rw [if_pos hx, Spec.selected, if_pos (e4.2 hx), e2]
  · rw [if_neg hx, Spec.selected, if_neg (fun h => hx (e4.1 h)), e1]

theorem mix_le_one {f a b : ℝ} (hf : 0 ≤ f ∧ f ≤ 1) (ha : a ≤ 1) (hb : b ≤ 1) : (1 - f) * a + f * b ≤ 1 := by
  nlinarith [mul_nonneg (sub_nonneg.2 hf.2) (sub_nonneg.2 ha), mul_nonneg hf.1 (sub_nonneg.2 hb)]

theorem union_bound {n m : ℕ} (P : Fin m → (Fin n → ℝ) → Prop) (c : ℝ)
    (h : ∀ b, (Spec.unifs n).real {x | P b x} ≤ 2 * c) :
    (Spec.unifs n).real {x | ∃ b, P b x} ≤ 2 * m * c := by
  have e : {x : Fin n → ℝ | ∃ b, P b x} = ⋃ b, {x | P b x} := by ext; simp
  rw [e]
  refine (measureReal_iUnion_fintype_le _).trans ((Finset.sum_le_card_nsmul _ _ _ fun b _ => h b).trans ?_)
  simp
  linarith

/-! ### C119 -/

/-- C119: the sum of a statistic over the Monte Carlo catalogue scatters around the weighted prediction with the variance
of independent choices, `frac_q (1 - frac_q)` times the squared difference of the two branches, per galaxy. -/
theorem C119_variance {K : Type} {n : ℕ} (rng : Rng K) (key : K) (r : (Fin n → ℝ) → Rng K)
    (hr : Spec.UniformDraws rng key r) (logMah : MahParams ℝ → ℝ → ℝ → ℝ) (u : PF → ℝ)
    (mah : MahParams (Fin n → ℝ)) (logmp0 : Fin n → ℝ) (upid : Fin n → ℤ)
    (lgmu logmhost gyr : Fin n → ℝ) (tarr : List ℝ) (lgt0 fb : ℝ) (h : Fin n → Option (List ℝ) → ℝ) (y : Fin n → ℝ) :
    let g := fun (x : Fin n → ℝ) => mcDiffstarSfhGalpop (r x) logMah (getBoundedDiffstarpopParams u) mah logmp0 upid
      lgmu logmhost gyr key tarr lgt0 fb
    ∫ x, (∑ i, h i (Spec.selected (g x i)) -
        ∑ i, ((1 - (g y i).fracQ) * h i (g y i).sfhMs + (g y i).fracQ * h i (g y i).sfhQ)) ^ 2 ∂Spec.unifs n =
      ∑ i, (g y i).fracQ * (1 - (g y i).fracQ) * (h i (g y i).sfhQ - h i (g y i).sfhMs) ^ 2 := by
  classical
  intro g
  have hs := fun x => selected_sum rng key r hr logMah u mah logmp0 upid lgmu logmhost gyr tarr lgt0 fb h x y
  have hE := C92_expected_statistic rng key r hr logMah u mah logmp0 upid lgmu logmhost gyr tarr lgt0 fb h y
  have hv := unifs_variance (fun i => (g y i).fracQ) (hs y).1 (fun i => h i (g y i).sfhQ) (fun i => h i (g y i).sfhMs)
  have e : (fun x : Fin n → ℝ => ∑ i, if x i < (g y i).fracQ then h i (g y i).sfhQ else h i (g y i).sfhMs) =
      fun x => ∑ i, h i (Spec.selected (g x i)) := funext fun x => (hs x).2.symm
  have hmeas : Measurable fun x : Fin n → ℝ => ∑ i, if x i < (g y i).fracQ then h i (g y i).sfhQ else h i (g y i).sfhMs :=
    Finset.measurable_fun_sum _ fun i _ => (flip_measurable _ _ _).comp (measurable_pi_apply i)
  rw [variance_eq_integral hmeas.aemeasurable, e] at hv
  rw [← hv]
  refine integral_congr_ae (Filter.Eventually.of_forall fun x => ?_)
  exact congrArg₂ (fun a b => (a - b) ^ 2) (hs x).2 hE.symm

/-- C119: for a statistic with values in `[0, 1]` (such as the weight of a galaxy in a bin) the Monte Carlo mean differs from
the weighted prediction by `ε` or more with probability at most `2 exp(-2 n ε²)`. -/
theorem C119_concentration {K : Type} {n : ℕ} (rng : Rng K) (key : K) (r : (Fin n → ℝ) → Rng K)
    (hr : Spec.UniformDraws rng key r) (logMah : MahParams ℝ → ℝ → ℝ → ℝ) (u : PF → ℝ)
    (mah : MahParams (Fin n → ℝ)) (logmp0 : Fin n → ℝ) (upid : Fin n → ℤ)
    (lgmu logmhost gyr : Fin n → ℝ) (tarr : List ℝ) (lgt0 fb : ℝ) (h : Fin n → Option (List ℝ) → ℝ)
    (hh : ∀ i s, 0 ≤ h i s ∧ h i s ≤ 1) (y : Fin n → ℝ) (ε : ℝ) (hε : 0 ≤ ε) :
    let g := fun (x : Fin n → ℝ) => mcDiffstarSfhGalpop (r x) logMah (getBoundedDiffstarpopParams u) mah logmp0 upid
      lgmu logmhost gyr key tarr lgt0 fb
    (Spec.unifs n).real {x | ε * n ≤ |∑ i, h i (Spec.selected (g x i)) -
        ∑ i, ((1 - (g y i).fracQ) * h i (g y i).sfhMs + (g y i).fracQ * h i (g y i).sfhQ)|} ≤
      2 * Real.exp (-2 * n * ε ^ 2) := by
  classical
  intro g
  have hs := fun x => selected_sum rng key r hr logMah u mah logmp0 upid lgmu logmhost gyr tarr lgt0 fb h x y
  have := unifs_hoeffding (fun i => (g y i).fracQ) (hs y).1 (fun i => h i (g y i).sfhQ) (fun i => h i (g y i).sfhMs)
    (fun i => hh i _) (fun i => hh i _) ε hε
  refine le_trans (le_of_eq ?_) this
  congr 1
  ext x
  exact iff_of_eq (congrArg (fun s => ε * n ≤ |s - _|) (hs x).2)

/-- C119: the histogram of the stellar masses of a Monte Carlo catalogue of `n` galaxies agrees with the predicted mass
function `f` times a common number `N` to better than `ε n` in all bins at once, except with probability
`2 nb exp(-2 n ε²)`. -/
theorem C119_mass_function {K : Type} {nk n nb : ℕ} (rng : Rng K) (logMah : MahParams ℝ → ℝ → ℝ → ℝ)
    (u : PF → ℝ) (samples : Fin nk → HaloSample K n) (k : Fin nk) (r : (Fin n → ℝ) → Rng K)
    (hr : Spec.UniformDraws rng (samples k).ranKey r) (lgt0 fb : ℝ) (bins : Fin (nb + 1) → ℝ) (hb : StrictMono bins)
    (hn : 0 < nb) (y : Fin n → ℝ) (f : Fin nb → ℝ) (ε : ℝ) (hε : 0 ≤ ε) :
    let tobs := (samples k).tobs
    let sigma := (bins (Fin.last nb) - bins 0) / nb
    let count := fun (b : Fin nb) (x : Fin n → ℝ) => ∑ i,
      ((Spec.selected (mcSample (r x) logMah (getBoundedDiffstarpopParams u) (samples k) lgt0 fb i)).elim 0 fun sfh =>
        NdHist.twBinWeightLaxKern (Spec.logMassAt tobs sfh) sigma (bins b.castSucc) (bins b.succ))
    mstarKernTobs (r y) logMah u samples lgt0 fb bins k = some f →
      ∃ N : ℝ, N = ∑ b, ∫ x, count b x ∂Spec.unifs n ∧ 0 < N ∧ N ≤ n ∧
        (Spec.unifs n).real {x | ∃ b, ε * n ≤ |count b x - f b * N|} ≤ 2 * nb * Real.exp (-2 * n * ε ^ 2) := by
  intro tobs sigma count hf
  have hsig : 0 < sigma := div_pos (sub_pos.2 (hb (by rw [Fin.lt_def]; simpa using hn))) (by exact_mod_cast hn)
  obtain ⟨-, hsum, sfhMs, sfhQ, hsome, norm, hnorm, hval⟩ :=
    (C27_mstar_pdf (r y) logMah u samples lgt0 fb bins hb hn k).1 f hf
  have hfr := fun i => C29_frac_quench_in_unit_interval (r y) u ((samples k).logmp0 i) ((samples k).mah.tPeak i)
    ((samples k).upid i) ((samples k).lgmuInfall i) ((samples k).logmhostInfall i) ((samples k).gyrSinceInfall i)
    ((r y).split (samples k).ranKey n i)
  have hE : ∀ b, ∫ x, count b x ∂Spec.unifs n = f b * norm := by
    intro b
    rw [hval b]
    refine (C92_expected_statistic rng (samples k).ranKey r hr logMah u (samples k).mah (samples k).logmp0
      (samples k).upid (samples k).lgmuInfall (samples k).logmhostInfall (samples k).gyrSinceInfall
      (obsTimes (samples k).tobs) lgt0 fb (fun _ s => s.elim 0 fun sfh =>
        NdHist.twBinWeightLaxKern (Spec.logMassAt tobs sfh) sigma (bins b.castSucc) (bins b.succ)) y).trans ?_
    refine Finset.sum_congr rfl fun i _ => ?_
    have h1 := (hsome i).1
    have h2 := (hsome i).2
    unfold mcSample at h1 h2
    rw [h1, h2]
    rfl
  refine ⟨norm, by rw [Finset.sum_congr rfl fun b _ => hE b, ← Finset.sum_mul, hsum, one_mul], hnorm, ?_, ?_⟩
  · have h1 : norm = ∑ b, f b * norm := by rw [← Finset.sum_mul, hsum, one_mul]
    rw [h1, Finset.sum_congr rfl fun b _ => hval b, Finset.sum_comm]
    refine (Finset.sum_le_card_nsmul _ _ 1 fun i _ => ?_).trans (by simp)
    rw [Finset.sum_add_distrib, ← Finset.mul_sum, ← Finset.mul_sum]
    exact mix_le_one ⟨(hfr i).1.le, (hfr i).2.le⟩ (ndBin_sum_le_one nb bins) (ndBin_sum_le_one nb bins)
  · refine union_bound _ _ fun b => ?_
    refine le_trans (le_of_eq ?_) (C119_concentration rng (samples k).ranKey r hr logMah u (samples k).mah
      (samples k).logmp0 (samples k).upid (samples k).lgmuInfall (samples k).logmhostInfall (samples k).gyrSinceInfall
      (obsTimes (samples k).tobs) lgt0 fb (fun _ s => s.elim 0 fun sfh =>
        NdHist.twBinWeightLaxKern (Spec.logMassAt tobs sfh) sigma (bins b.castSucc) (bins b.succ)) (fun _ s => ?_) y ε hε)
    · congr 1
      ext x
      refine iff_of_eq (congrArg (fun s => ε * n ≤ |count b x - s|) ((hval b).trans ?_))
      refine Finset.sum_congr rfl fun i _ => ?_
      have h1 := (hsome i).1
      have h2 := (hsome i).2
      unfold mcSample at h1 h2
      rw [h1, h2]
      rfl
    · cases s with
      | none => exact ⟨le_rfl, zero_le_one⟩
      | some sfh => exact ⟨ndBin_nonneg hsig (hb Fin.castSucc_lt_succ).le, ndBin_le_one _ _ _ _⟩

/-- C119: the same for the joint histogram of stellar mass and specific star formation rate. -/
theorem C119_joint_histogram {K : Type} {n nms nsf : ℕ} (rng : Rng K) (logMah : MahParams ℝ → ℝ → ℝ → ℝ)
    (u : PF → ℝ) (h : HaloSample K n) (r : (Fin n → ℝ) → Rng K) (hr : Spec.UniformDraws rng h.ranKey r)
    (lgt0 fb : ℝ) (lo hi : Fin (nms * nsf) → Fin 2 → ℝ) (hlh : ∀ b k, lo b k ≤ hi b k)
    (mb : Fin (nms + 1) → ℝ) (sb : Fin (nsf + 1) → ℝ) (hmb : StrictMono mb) (hsb : StrictMono sb) (hms : 0 < nms)
    (hsf : 0 < nsf) (y : Fin n → ℝ) (f : Fin (nms * nsf) → ℝ) (ε : ℝ) (hε : 0 ≤ ε) :
    let count := fun (b : Fin (nms * nsf)) (x : Fin n → ℝ) => ∑ i,
      ((Spec.selected (mcSample (r x) logMah (getBoundedDiffstarpopParams u) h lgt0 fb i)).elim 0 fun sfh =>
        NdHist.twBinWeightLaxKern (Spec.logMassAt h.tobs sfh) (meanDiff mb) (lo b 0) (hi b 0) *
        NdHist.twBinWeightLaxKern (Spec.logSsfrAt h.tobs sfh) (meanDiff sb) (lo b 1) (hi b 1))
    mstarSsfrPdf h.tobs (mcSample (r y) logMah (getBoundedDiffstarpopParams u) h lgt0 fb) lo hi mb sb = some f →
      ∃ N : ℝ, N = ∑ b, ∫ x, count b x ∂Spec.unifs n ∧ 0 < N ∧
        (Spec.unifs n).real {x | ∃ b, ε * n ≤ |count b x - f b * N|} ≤ 2 * ↑(nms * nsf) * Real.exp (-2 * n * ε ^ 2) := by
  intro count hf
  obtain ⟨-, hsum, sfhMs, sfhQ, hsome, norm, hnorm, hval⟩ :=
    C27_joint_pdf (r y) logMah u h lgt0 fb lo hi hlh mb sb hmb hsb hms hsf f hf
  have hE : ∀ b, ∫ x, count b x ∂Spec.unifs n = f b * norm := by
    intro b
    rw [hval b]
    refine (C92_expected_statistic rng h.ranKey r hr logMah u h.mah h.logmp0
      h.upid h.lgmuInfall h.logmhostInfall h.gyrSinceInfall
      (obsTimes h.tobs) lgt0 fb (fun _ s => s.elim 0 fun sfh =>
        NdHist.twBinWeightLaxKern (Spec.logMassAt h.tobs sfh) (meanDiff mb) (lo b 0) (hi b 0) *
        NdHist.twBinWeightLaxKern (Spec.logSsfrAt h.tobs sfh) (meanDiff sb) (lo b 1) (hi b 1)) y).trans ?_
    refine Finset.sum_congr rfl fun i _ => ?_
    have h1 := (hsome i).1
    have h2 := (hsome i).2
    unfold mcSample at h1 h2
    rw [h1, h2]
    rfl
  refine ⟨norm, by rw [Finset.sum_congr rfl fun b _ => hE b, ← Finset.sum_mul, hsum, one_mul], hnorm, ?_⟩
  refine union_bound _ _ fun b => ?_
  refine le_trans (le_of_eq ?_) (C119_concentration rng h.ranKey r hr logMah u h.mah h.logmp0
    h.upid h.lgmuInfall h.logmhostInfall h.gyrSinceInfall (obsTimes h.tobs) lgt0 fb (fun _ s => s.elim 0 fun sfh =>
      NdHist.twBinWeightLaxKern (Spec.logMassAt h.tobs sfh) (meanDiff mb) (lo b 0) (hi b 0) *
      NdHist.twBinWeightLaxKern (Spec.logSsfrAt h.tobs sfh) (meanDiff sb) (lo b 1) (hi b 1)) (fun _ s => ?_) y ε hε)
  · congr 1
    ext x
    refine iff_of_eq (congrArg (fun s => ε * n ≤ |count b x - s|) ((hval b).trans ?_))
    refine Finset.sum_congr rfl fun i _ => ?_
    have h1 := (hsome i).1
    have h2 := (hsome i).2
    unfold mcSample at h1 h2
    rw [h1, h2]
    rfl
  · cases s with
    | none => exact ⟨le_rfl, zero_le_one⟩
    | some sfh =>
      have a := ndBin_nonneg (x := Spec.logMassAt h.tobs sfh) (meanDiff_pos hmb hms) (hlh b 0)
      have b' := ndBin_nonneg (x := Spec.logSsfrAt h.tobs sfh) (meanDiff_pos hsb hsf) (hlh b 1)
      exact ⟨mul_nonneg a b', mul_le_one₀ (ndBin_le_one _ _ _ _) b' (ndBin_le_one _ _ _ _)⟩

/-- Non-vacuity: sources of independent uniform draws exist, and with 20 000 galaxies the bound says that a mean is off by
`0.02` or more with probability below one in a thousand. -/
example : (∃ (rng : Rng (List ℕ)) (r : (Fin 2 → ℝ) → Rng (List ℕ)), Spec.UniformDraws (n := 2) rng [] r) ∧
    2 * Real.exp (-2 * (20000 : ℕ) * (0.02 : ℝ) ^ 2) < 0.001 := by
  refine ⟨⟨⟨fun k _ i => i.val :: k, fun _ m _ => m, fun _ => 0⟩, fun x => ⟨fun k _ i => i.val :: k, fun _ m _ => m,
    fun k => if k = [3, 0] then x 0 else x 1⟩, fun _ => rfl, fun _ => rfl, fun x i => ?_⟩, ?_⟩
  · fin_cases i <;> simp
  · have h : (2 : ℝ) ^ 16 ≤ Real.exp 16 := by
      have h1 : (2 : ℝ) ≤ Real.exp 1 := by linarith [Real.add_one_le_exp (1 : ℝ)]
      have h2 := pow_le_pow_left₀ (by norm_num) h1 16
      rwa [← Real.exp_nat_mul, show ((16 : ℕ) : ℝ) * 1 = 16 by norm_num] at h2
    rw [show (-2 * ((20000 : ℕ) : ℝ) * (0.02 : ℝ) ^ 2) = -16 by norm_num, Real.exp_neg]
    have : (Real.exp 16)⁻¹ ≤ ((2 : ℝ) ^ 16)⁻¹ := inv_anti₀ (by norm_num) h
    norm_num at this ⊢
    linarith

end Diffstar.Props
