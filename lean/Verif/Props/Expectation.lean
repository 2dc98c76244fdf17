import Verif.Props.PopLoss
import Mathlib.MeasureTheory.Integral.Pi
import Mathlib.MeasureTheory.Measure.Lebesgue.Basic

/-!
C92: the Monte Carlo flags are independent Bernoulli variables with the returned quenched fractions, and the
weighted predictions of the population losses are ratios of expected counts of the Monte Carlo catalogue.

The uniform generator of `jax.random` is idealised: the draws at the keys of different galaxies are independent
and uniform on `[0, 1)`.
-/

namespace Diffstar.Spec

open Diffstar.Pop MeasureTheory

/-- A uniform draw on `[0, 1)`. -/
noncomputable def unif : Measure ℝ := volume.restrict (Set.Ico 0 1)

/-- Independent uniform draws, one per galaxy. -/
noncomputable def unifs (n : ℕ) : Measure (Fin n → ℝ) := Measure.pi fun _ => unif

/-- `r x` is the generator `rng` in which the uniform draw of galaxy `i` of a population with key `key` is `x i`. -/
structure UniformDraws {K : Type} {n : ℕ} (rng : Rng K) (key : K) (r : (Fin n → ℝ) → Rng K) : Prop where
  split : ∀ x, (r x).split = rng.split
  normal : ∀ x, (r x).multivariateNormal = rng.multivariateNormal
  draw : ∀ x i, (r x).uniform (rng.split (rng.split key n i) 4 3) = x i

open Classical in
/-- The star formation history of the Monte Carlo catalogue: quenched branch if the flag is set. -/
noncomputable def selected (g : McSfh) : Option (List ℝ) := if g.mcIsQ then g.sfhQ else g.sfhMs

end Diffstar.Spec

namespace Diffstar.Props

open Diffstar.Pop Diffstar.PopLoss MeasureTheory

instance unif_prob : IsProbabilityMeasure Spec.unif := ⟨by simp [Spec.unif]⟩

instance unifs_prob (n : ℕ) : IsProbabilityMeasure (Spec.unifs n) := by
  unfold Spec.unifs; infer_instance

theorem unif_lt {f : ℝ} (_h0 : 0 ≤ f) (h1 : f ≤ 1) : Spec.unif {x | x < f} = ENNReal.ofReal f := by
  rw [Spec.unif, Measure.restrict_apply (show MeasurableSet {x : ℝ | x < f} from measurableSet_Iio)]
  have : {x | x < f} ∩ Set.Ico 0 1 = Set.Ico 0 f := by
    ext x
    simp only [Set.mem_inter_iff, Set.mem_ofPred_eq, Set.mem_Ico]
    constructor
    · rintro ⟨a, b, _⟩; exact ⟨b, a⟩
    · rintro ⟨a, b⟩; exact ⟨b, a, lt_of_lt_of_le b h1⟩
  rw [this, Real.volume_Ico, sub_zero]

theorem unif_ge {f : ℝ} (h0 : 0 ≤ f) (_h1 : f ≤ 1) : Spec.unif {x | ¬ x < f} = ENNReal.ofReal (1 - f) := by
  rw [Spec.unif, Measure.restrict_apply (show MeasurableSet {x : ℝ | ¬ x < f} from (measurableSet_Iio (a := f)).compl)]
  have : {x | ¬ x < f} ∩ Set.Ico 0 1 = Set.Ico f 1 := by
    ext x
    simp only [Set.mem_inter_iff, Set.mem_ofPred_eq, Set.mem_Ico, not_lt]
    constructor
    · rintro ⟨a, b, c⟩; exact ⟨a, c⟩
    · rintro ⟨a, b⟩; exact ⟨a, h0.trans a, b⟩
  rw [this, Real.volume_Ico]

open Classical in
theorem unif_ite {f : ℝ} (h0 : 0 ≤ f) (h1 : f ≤ 1) (a b : ℝ) :
    Integrable (fun x => if x < f then a else b) Spec.unif ∧
    ∫ x, (if x < f then a else b) ∂Spec.unif = (1 - f) * b + f * a := by
  have hm : MeasurableSet {x : ℝ | x < f} := measurableSet_Iio
  have he : (fun x => if x < f then a else b) = fun x => Set.indicator {x : ℝ | x < f} (fun _ => a - b) x + b := by
    funext x
    by_cases h : x < f
    · rw [if_pos h, Set.indicator_of_mem (by exact h)]; ring
    · rw [if_neg h, Set.indicator_of_notMem (by exact h)]; ring
  have hi : Integrable (Set.indicator {x : ℝ | x < f} (fun _ => a - b)) Spec.unif :=
    (integrable_const _).indicator hm
  rw [he]
  refine ⟨hi.add (integrable_const _), ?_⟩
  rw [integral_add hi (integrable_const _), integral_indicator_const _ hm]
  simp only [integral_const, measureReal_def, unif_lt h0 h1, ENNReal.toReal_ofReal h0, smul_eq_mul, measure_univ,
    ENNReal.toReal_one]
  ring

/-- What the generator `r x` produces: the galaxies of `rng`, with the flags decided by `x`. -/
theorem galpop_draws {K : Type} {n : ℕ} {rng : Rng K} {key : K} {r : (Fin n → ℝ) → Rng K}
    (hr : Spec.UniformDraws rng key r) (logMah : MahParams ℝ → ℝ → ℝ → ℝ) (p : PF → ℝ)
    (mah : MahParams (Fin n → ℝ)) (logmp0 : Fin n → ℝ) (upid : Fin n → ℤ)
    (lgmu logmhost gyr : Fin n → ℝ) (tarr : List ℝ) (lgt0 fb : ℝ) (x : Fin n → ℝ) (i : Fin n) :
    let g := mcDiffstarSfhGalpop rng logMah p mah logmp0 upid lgmu logmhost gyr key tarr lgt0 fb i
    let gx := mcDiffstarSfhGalpop (r x) logMah p mah logmp0 upid lgmu logmhost gyr key tarr lgt0 fb i
    gx.paramsMs = g.paramsMs ∧ gx.paramsQ = g.paramsQ ∧ gx.sfhMs = g.sfhMs ∧ gx.sfhQ = g.sfhQ ∧
      gx.fracQ = g.fracQ ∧ (gx.mcIsQ ↔ x i < g.fracQ) := by
  simp only [mcDiffstarSfhGalpop, mcDiffstarParamsGalpop, mcDiffstarUParamsGalpop, mcDiffstarUParamsSinglegalKernel,
    drawMs, drawQ, hr.split, hr.normal, hr.draw, and_self]

/-- C92: with independent uniform draws the flags of a population are independent Bernoulli variables whose
success probabilities are the returned quenched fractions: every pattern of flags has the product probability, and
each single flag is set with probability `frac_q`. The other outputs do not depend on the draws. -/
theorem C92_flags_bernoulli {K : Type} {n : ℕ} (rng : Rng K) (key : K) (r : (Fin n → ℝ) → Rng K)
    (hr : Spec.UniformDraws rng key r) (logMah : MahParams ℝ → ℝ → ℝ → ℝ) (u : PF → ℝ)
    (mah : MahParams (Fin n → ℝ)) (logmp0 : Fin n → ℝ) (upid : Fin n → ℤ)
    (lgmu logmhost gyr : Fin n → ℝ) (tarr : List ℝ) (lgt0 fb : ℝ) :
    let g := fun (x : Fin n → ℝ) => mcDiffstarSfhGalpop (r x) logMah (getBoundedDiffstarpopParams u) mah logmp0 upid
      lgmu logmhost gyr key tarr lgt0 fb
    (∀ x y i, (g x i).paramsMs = (g y i).paramsMs ∧ (g x i).paramsQ = (g y i).paramsQ ∧
      (g x i).sfhMs = (g y i).sfhMs ∧ (g x i).sfhQ = (g y i).sfhQ ∧ (g x i).fracQ = (g y i).fracQ) ∧
    (∀ i, Spec.unifs n {x | (g x i).mcIsQ} = ENNReal.ofReal (g 0 i).fracQ) ∧
    (∀ flag : Fin n → Bool, Spec.unifs n {x | ∀ i, (g x i).mcIsQ ↔ flag i = true} =
      ∏ i, ENNReal.ofReal (if flag i then (g 0 i).fracQ else 1 - (g 0 i).fracQ)) := by
  intro g
  have hd := fun x i => galpop_draws hr logMah (getBoundedDiffstarpopParams u) mah logmp0 upid lgmu logmhost gyr tarr
    lgt0 fb x i
  set g0 := mcDiffstarSfhGalpop rng logMah (getBoundedDiffstarpopParams u) mah logmp0 upid lgmu logmhost gyr key tarr
    lgt0 fb with hg0
  have hf : ∀ i, 0 < (g0 i).fracQ ∧ (g0 i).fracQ < 1 := fun i =>
    C29_frac_quench_in_unit_interval rng u (logmp0 i) (mah.tPeak i) (upid i) (lgmu i) (logmhost i) (gyr i)
      (rng.split key n i)
  have hfl : ∀ x i, (g x i).mcIsQ ↔ x i < (g0 i).fracQ := fun x i => (hd x i).2.2.2.2.2
  have hfr : ∀ x i, (g x i).fracQ = (g0 i).fracQ := fun x i => (hd x i).2.2.2.2.1
  refine ⟨fun x y i => ?_, fun i => ?_, fun flag => ?_⟩
  · obtain ⟨a1, a2, a3, a4, a5, _⟩ := hd x i
    obtain ⟨b1, b2, b3, b4, b5, _⟩ := hd y i
    exact ⟨a1.trans b1.symm, a2.trans b2.symm, a3.trans b3.symm, a4.trans b4.symm, a5.trans b5.symm⟩
  · have : {x | (g x i).mcIsQ} = (Function.eval i) ⁻¹' {y : ℝ | y < (g0 i).fracQ} := by
      ext x; exact hfl x i
    rw [this, hfr, Spec.unifs, (measurePreserving_eval (fun _ => Spec.unif) i).measure_preimage
      (show MeasurableSet {y : ℝ | y < (g0 i).fracQ} from measurableSet_Iio).nullMeasurableSet, unif_lt (hf i).1.le (hf i).2.le]
  · have : {x | ∀ i, (g x i).mcIsQ ↔ flag i = true} =
        Set.pi Set.univ fun i => if flag i then {y : ℝ | y < (g0 i).fracQ} else {y : ℝ | ¬ y < (g0 i).fracQ} := by
      ext x
      simp only [Set.mem_pi, Set.mem_univ, forall_const]
      refine forall_congr' fun i => ?_
      rw [hfl]
      cases flag i <;> simp
    rw [this, Spec.unifs, Measure.pi_pi]
    refine Finset.prod_congr rfl fun i _ => ?_
    rw [hfr]
    cases flag i
    · simpa using unif_ge (hf i).1.le (hf i).2.le
    · simpa using unif_lt (hf i).1.le (hf i).2.le

/-- Linearity: the expectation of a sum of one statistic per galaxy, each decided by the galaxy's own draw. -/
theorem unifs_sum {n : ℕ} (f : Fin n → ℝ) (hf : ∀ i, 0 < f i ∧ f i < 1) (a b : Fin n → ℝ)
    (F : (Fin n → ℝ) → Fin n → ℝ) (ha : ∀ x i, x i < f i → F x i = a i) (hb : ∀ x i, ¬ x i < f i → F x i = b i) :
    ∫ x, ∑ i, F x i ∂Spec.unifs n = ∑ i, ((1 - f i) * b i + f i * a i) := by
  classical
  have hF : ∀ i, (fun x => F x i) = fun x => (fun y : ℝ => if y < f i then a i else b i) (x i) := by
    intro i; funext x
    by_cases h : x i < f i
    · simp only [if_pos h]; exact ha x i h
    · simp only [if_neg h]; exact hb x i h
  have hI := fun i => unif_ite (hf i).1.le (hf i).2.le (a i) (b i)
  rw [integral_finsetSum]
  · refine Finset.sum_congr rfl fun i _ => ?_
    rw [hF i, Spec.unifs, integral_comp_eval (μ := fun _ => Spec.unif) (hI i).1.aestronglyMeasurable, (hI i).2]
  · intro i _
    rw [hF i]
    exact integrable_comp_eval (μ := fun _ => Spec.unif) (hI i).1

/-- C92: for every statistic `h` of a single galaxy's star formation history, the sum over galaxies with weight
`1 - frac_q` on the main-sequence history and `frac_q` on the quenched history is the expectation over the uniform
draws of the sum over the Monte Carlo catalogue. -/
theorem C92_expected_statistic {K : Type} {n : ℕ} (rng : Rng K) (key : K) (r : (Fin n → ℝ) → Rng K)
    (hr : Spec.UniformDraws rng key r) (logMah : MahParams ℝ → ℝ → ℝ → ℝ) (u : PF → ℝ)
    (mah : MahParams (Fin n → ℝ)) (logmp0 : Fin n → ℝ) (upid : Fin n → ℤ)
    (lgmu logmhost gyr : Fin n → ℝ) (tarr : List ℝ) (lgt0 fb : ℝ) (h : Fin n → Option (List ℝ) → ℝ) (y : Fin n → ℝ) :
    let g := fun (x : Fin n → ℝ) => mcDiffstarSfhGalpop (r x) logMah (getBoundedDiffstarpopParams u) mah logmp0 upid
      lgmu logmhost gyr key tarr lgt0 fb
    ∫ x, ∑ i, h i (Spec.selected (g x i)) ∂Spec.unifs n =
      ∑ i, ((1 - (g y i).fracQ) * h i (g y i).sfhMs + (g y i).fracQ * h i (g y i).sfhQ) := by
  intro g
  have hd := fun x i => galpop_draws hr logMah (getBoundedDiffstarpopParams u) mah logmp0 upid lgmu logmhost gyr tarr
    lgt0 fb x i
  set g0 := mcDiffstarSfhGalpop rng logMah (getBoundedDiffstarpopParams u) mah logmp0 upid lgmu logmhost gyr key tarr
    lgt0 fb with hg0
  have hf : ∀ i, 0 < (g0 i).fracQ ∧ (g0 i).fracQ < 1 := fun i =>
    C29_frac_quench_in_unit_interval rng u (logmp0 i) (mah.tPeak i) (upid i) (lgmu i) (logmhost i) (gyr i)
      (rng.split key n i)
  rw [unifs_sum (fun i => (g0 i).fracQ) hf (fun i => h i (g0 i).sfhQ) (fun i => h i (g0 i).sfhMs)]
  · refine Finset.sum_congr rfl fun i _ => ?_
    obtain ⟨-, -, e1, e2, e3, -⟩ := hd y i
    show _ = (1 - (g y i).fracQ) * h i (g y i).sfhMs + (g y i).fracQ * h i (g y i).sfhQ
    rw [e1, e2, e3]
  · intro x i hx
    obtain ⟨-, -, -, e2, -, e4⟩ := hd x i
    show h i (Spec.selected (g x i)) = _
    rw [Spec.selected, if_pos (e4.2 hx), e2]
  · intro x i hx
    obtain ⟨-, -, e1, -, -, e4⟩ := hd x i
    show h i (Spec.selected (g x i)) = _
    rw [Spec.selected, if_neg (fun h => hx (e4.1 h)), e1]

/-- C92: the predicted stellar mass function of a target bin is the expected count of Monte Carlo galaxies in each
(triweight-smoothed) mass bin, divided by the expected count in all bins. -/
theorem C92_mstar_pdf_expected_counts {K : Type} {nk n nb : ℕ} (rng : Rng K) (logMah : MahParams ℝ → ℝ → ℝ → ℝ)
    (u : PF → ℝ) (samples : Fin nk → HaloSample K n) (k : Fin nk) (r : (Fin n → ℝ) → Rng K)
    (hr : Spec.UniformDraws rng (samples k).ranKey r) (lgt0 fb : ℝ) (bins : Fin (nb + 1) → ℝ) (hb : StrictMono bins)
    (hn : 0 < nb) (y : Fin n → ℝ) (f : Fin nb → ℝ) :
    let tobs := (samples k).tobs
    let sigma := (bins (Fin.last nb) - bins 0) / nb
    let count := fun (b : Fin nb) (x : Fin n → ℝ) => ∑ i,
      ((Spec.selected (mcSample (r x) logMah (getBoundedDiffstarpopParams u) (samples k) lgt0 fb i)).elim 0 fun sfh =>
        NdHist.twBinWeightLaxKern (Spec.logMassAt tobs sfh) sigma (bins b.castSucc) (bins b.succ))
    mstarKernTobs (r y) logMah u samples lgt0 fb bins k = some f →
      0 < ∑ b, ∫ x, count b x ∂Spec.unifs n ∧
      ∀ b, f b = (∫ x, count b x ∂Spec.unifs n) / ∑ b, ∫ x, count b x ∂Spec.unifs n := by
  intro tobs sigma count hf
  obtain ⟨-, hsum, sfhMs, sfhQ, hsome, norm, hnorm, hval⟩ :=
    (C27_mstar_pdf (r y) logMah u samples lgt0 fb bins hb hn k).1 f hf
  have hE : ∀ b, ∫ x, count b x ∂Spec.unifs n = f b * norm := by
    intro b
    rw [hval b]
    refine (C92_expected_statistic rng (samples k).ranKey r hr logMah u (samples k).mah (samples k).logmp0
      (samples k).upid (samples k).lgmuInfall (samples k).logmhostInfall (samples k).gyrSinceInfall
      (obsTimes (samples k).tobs) lgt0 fb (fun _ s => s.elim 0 fun sfh =>
        NdHist.twBinWeightLaxKern (Spec.logMassAt tobs sfh) sigma (bins b.castSucc) (bins b.succ)) y).trans ?_
    refine Finset.sum_congr rfl fun i _ => ?_
    have h1 := (hsome i).1
    have h2 := (hsome i).2
    unfold mcSample at h1 h2
    rw [h1, h2]
    rfl
  have htot : ∑ b, ∫ x, count b x ∂Spec.unifs n = norm := by
    rw [Finset.sum_congr rfl fun b _ => hE b, ← Finset.sum_mul, hsum, one_mul]
  rw [htot]
  exact ⟨hnorm, fun b => by rw [hE b, mul_div_cancel_right₀ _ hnorm.ne']⟩

/-- C92: the same for the joint distribution of stellar mass and specific star formation rate. -/
theorem C92_joint_pdf_expected_counts {K : Type} {n nms nsf : ℕ} (rng : Rng K) (logMah : MahParams ℝ → ℝ → ℝ → ℝ)
    (u : PF → ℝ) (h : HaloSample K n) (r : (Fin n → ℝ) → Rng K) (hr : Spec.UniformDraws rng h.ranKey r)
    (lgt0 fb : ℝ) (lo hi : Fin (nms * nsf) → Fin 2 → ℝ) (hlh : ∀ b k, lo b k ≤ hi b k)
    (mb : Fin (nms + 1) → ℝ) (sb : Fin (nsf + 1) → ℝ) (hmb : StrictMono mb) (hsb : StrictMono sb) (hms : 0 < nms)
    (hsf : 0 < nsf) (y : Fin n → ℝ) (f : Fin (nms * nsf) → ℝ) :
    let count := fun (b : Fin (nms * nsf)) (x : Fin n → ℝ) => ∑ i,
      ((Spec.selected (mcSample (r x) logMah (getBoundedDiffstarpopParams u) h lgt0 fb i)).elim 0 fun sfh =>
        NdHist.twBinWeightLaxKern (Spec.logMassAt h.tobs sfh) (meanDiff mb) (lo b 0) (hi b 0) *
        NdHist.twBinWeightLaxKern (Spec.logSsfrAt h.tobs sfh) (meanDiff sb) (lo b 1) (hi b 1))
    mstarSsfrPdf h.tobs (mcSample (r y) logMah (getBoundedDiffstarpopParams u) h lgt0 fb) lo hi mb sb = some f →
      0 < ∑ b, ∫ x, count b x ∂Spec.unifs n ∧
      ∀ b, f b = (∫ x, count b x ∂Spec.unifs n) / ∑ b, ∫ x, count b x ∂Spec.unifs n := by
  intro count hf
  obtain ⟨-, hsum, sfhMs, sfhQ, hsome, norm, hnorm, hval⟩ :=
    C27_joint_pdf (r y) logMah u h lgt0 fb lo hi hlh mb sb hmb hsb hms hsf f hf
  have hE : ∀ b, ∫ x, count b x ∂Spec.unifs n = f b * norm := by
    intro b
    rw [hval b]
    refine (C92_expected_statistic rng h.ranKey r hr logMah u h.mah h.logmp0
      h.upid h.lgmuInfall h.logmhostInfall h.gyrSinceInfall
      (obsTimes h.tobs) lgt0 fb (fun _ s => s.elim 0 fun sfh =>
        NdHist.twBinWeightLaxKern (Spec.logMassAt h.tobs sfh) (meanDiff mb) (lo b 0) (hi b 0) *
        NdHist.twBinWeightLaxKern (Spec.logSsfrAt h.tobs sfh) (meanDiff sb) (lo b 1) (hi b 1)) y).trans ?_
    refine Finset.sum_congr rfl fun i _ => ?_
    have h1 := (hsome i).1
    have h2 := (hsome i).2
    unfold mcSample at h1 h2
    rw [h1, h2]
    rfl
  have htot : ∑ b, ∫ x, count b x ∂Spec.unifs n = norm := by
    rw [Finset.sum_congr rfl fun b _ => hE b, ← Finset.sum_mul, hsum, one_mul]
  rw [htot]
  exact ⟨hnorm, fun b => by rw [hE b, mul_div_cancel_right₀ _ hnorm.ne']⟩

/-- A generator with keys as paths of sub-key numbers meets `UniformDraws`, with two galaxies. -/
example : ∃ (rng : Rng (List ℕ)) (r : (Fin 2 → ℝ) → Rng (List ℕ)), Spec.UniformDraws (n := 2) rng [] r := by
  refine ⟨⟨fun k _ i => i.val :: k, fun _ m _ => m, fun _ => 0⟩, fun x => ⟨fun k _ i => i.val :: k, fun _ m _ => m,
    fun k => if k = [3, 0] then x 0 else x 1⟩, fun _ => rfl, fun _ => rfl, fun x i => ?_⟩
  fin_cases i <;> simp

end Diffstar.Props
