import Verif.Props.Concentration

/-!
C121: weighting both branches by the quenched fraction, as the losses do, is never noisier than counting the galaxies of a
Monte Carlo catalogue.
-/

namespace Diffstar.Props

open Diffstar.Pop Diffstar.PopLoss MeasureTheory ProbabilityTheory

/-- Second moment about `c` from variance and mean. -/
theorem second_moment {X : Type*} [MeasurableSpace X] {μ : Measure X} [IsProbabilityMeasure μ] {S : X → ℝ} (hS : MemLp S 2 μ)
    (w v c : ℝ) (hw : ∫ x, S x ∂μ = w) (hv : ∫ x, (S x - w) ^ 2 ∂μ = v) : ∫ x, (S x - c) ^ 2 ∂μ = (w - c) ^ 2 + v := by
  have hi : Integrable S μ := hS.integrable (by norm_num)
  have h1 : Integrable (fun x => (S x - w) ^ 2) μ := (hS.sub (memLp_const w)).integrable_sq
  have e : (fun x => (S x - c) ^ 2) = fun x => (S x - w) ^ 2 + (2 * (w - c) * (S x - w) + (w - c) ^ 2) := by
    funext x; ring
  have h2 : Integrable (fun x => 2 * (w - c) * (S x - w)) μ := (hi.sub (integrable_const w)).const_mul _
  have h3 : Integrable (fun x => 2 * (w - c) * (S x - w) + (w - c) ^ 2) μ := h2.add (integrable_const _)
  rw [e, integral_add h1 h3, integral_add h2 (integrable_const _), hv, integral_const_mul,
    integral_sub hi (integrable_const w), hw]
  simp
  ring

/-- **C121**: the mean square deviation from any number `c` (the truth, or a target count) of the sum of a statistic over a
Monte Carlo catalogue, over all its random draws, is that of the weighted sum plus the noise of the independent flags. The
sampled normal variables are any random variable with values in the possible generators. -/
theorem C121_noise_budget {K Ω : Type} [MeasurableSpace Ω] (P : Measure Ω) [IsProbabilityMeasure P] {n : ℕ}
    (rng : Ω → Rng K) (key : K) (r : Ω → (Fin n → ℝ) → Rng K)
    (hr : ∀ ω, Spec.UniformDraws (rng ω) key (r ω)) (logMah : MahParams ℝ → ℝ → ℝ → ℝ) (u : PF → ℝ)
    (mah : MahParams (Fin n → ℝ)) (logmp0 : Fin n → ℝ) (upid : Fin n → ℤ)
    (lgmu logmhost gyr : Fin n → ℝ) (tarr : List ℝ) (lgt0 fb : ℝ) (h : Fin n → Option (List ℝ) → ℝ)
    (hh : ∀ i s, 0 ≤ h i s ∧ h i s ≤ 1) (c : ℝ) :
    let g := fun ω (x : Fin n → ℝ) => mcDiffstarSfhGalpop (r ω x) logMah (getBoundedDiffstarpopParams u) mah logmp0 upid
      lgmu logmhost gyr key tarr lgt0 fb
    (∀ i, Measurable (fun ω => h i (g ω 0 i).sfhMs) ∧ Measurable fun ω => h i (g ω 0 i).sfhQ) →
    let weighted := fun ω => ∑ i, ((1 - (g ω 0 i).fracQ) * h i (g ω 0 i).sfhMs + (g ω 0 i).fracQ * h i (g ω 0 i).sfhQ)
    let counted := fun ω x => ∑ i, h i (Spec.selected (g ω x i))
    let noise := ∑ i, ∫ ω, (g ω 0 i).fracQ * (1 - (g ω 0 i).fracQ) * (h i (g ω 0 i).sfhQ - h i (g ω 0 i).sfhMs) ^ 2 ∂P
    ∫ ω, ∫ x, counted ω x ∂Spec.unifs n ∂P = ∫ ω, weighted ω ∂P ∧
    ∫ ω, ∫ x, (counted ω x - c) ^ 2 ∂Spec.unifs n ∂P = ∫ ω, (weighted ω - c) ^ 2 ∂P + noise ∧
    0 ≤ noise := by
  classical
  intro g hm weighted counted noise
  have hf : ∀ ω i, 0 < (g ω 0 i).fracQ ∧ (g ω 0 i).fracQ < 1 := fun ω =>
    (selected_sum (rng ω) key (r ω) (hr ω) logMah u mah logmp0 upid lgmu logmhost gyr tarr lgt0 fb h 0 0).1
  have hs : ∀ ω x, counted ω x = ∑ i, if x i < (g ω 0 i).fracQ then h i (g ω 0 i).sfhQ else h i (g ω 0 i).sfhMs := fun ω x =>
    (selected_sum (rng ω) key (r ω) (hr ω) logMah u mah logmp0 upid lgmu logmhost gyr tarr lgt0 fb h x 0).2
  have hE : ∀ ω, ∫ x, counted ω x ∂Spec.unifs n = weighted ω := fun ω =>
    C92_expected_statistic (rng ω) key (r ω) (hr ω) logMah u mah logmp0 upid lgmu logmhost gyr tarr lgt0 fb h 0
  have hV : ∀ ω, ∫ x, (counted ω x - weighted ω) ^ 2 ∂Spec.unifs n =
      ∑ i, (g ω 0 i).fracQ * (1 - (g ω 0 i).fracQ) * (h i (g ω 0 i).sfhQ - h i (g ω 0 i).sfhMs) ^ 2 := fun ω =>
    C119_variance (rng ω) key (r ω) (hr ω) logMah u mah logmp0 upid lgmu logmhost gyr tarr lgt0 fb h 0
  have hL : ∀ ω, MemLp (counted ω) 2 (Spec.unifs n) := by
    intro ω
    have e : counted ω = fun x => ∑ i, if x i < (g ω 0 i).fracQ then h i (g ω 0 i).sfhQ else h i (g ω 0 i).sfhMs :=
      funext (hs ω)
    rw [e]
    refine memLp_finsetSum _ fun i _ => ?_
    exact (flip_memLp (g ω 0 i).fracQ _ _).comp_measurePreserving (measurePreserving_eval (fun _ => Spec.unif) i)
  have hfr : ∀ i, ∃ f : ℝ, (0 < f ∧ f < 1) ∧ ∀ ω, (g ω 0 i).fracQ = f := by
    intro i
    obtain ⟨ω0⟩ : Nonempty Ω := by
      by_contra hne
      rw [not_nonempty_iff] at hne
      have := measure_univ (μ := P)
      rw [Set.univ_eq_empty_iff.2 hne, measure_empty] at this
      exact zero_ne_one this
    exact ⟨(g ω0 0 i).fracQ, hf ω0 i, fun ω => rfl⟩
  choose f hf01 hfe using hfr
  have hbdd : ∀ (F : Ω → ℝ) (B : ℝ), Measurable F → (∀ ω, |F ω| ≤ B) → Integrable F P := fun F B hF hB =>
    Integrable.of_bound hF.aestronglyMeasurable B (Filter.Eventually.of_forall hB)
  have hwm : Measurable weighted := by
    refine Finset.measurable_fun_sum _ fun i _ => ?_
    simp only [hfe i]
    exact ((hm i).1.const_mul _).add ((hm i).2.const_mul _)
  have hwb : ∀ ω, |weighted ω| ≤ n := by
    intro ω
    refine (Finset.abs_sum_le_sum_abs _ _).trans ((Finset.sum_le_card_nsmul _ _ 1 fun i _ => ?_).trans (by simp))
    have h1 := hf ω i
    rw [abs_of_nonneg (add_nonneg (mul_nonneg (by linarith [h1.2]) (hh i _).1) (mul_nonneg h1.1.le (hh i _).1))]
    exact mix_le_one ⟨h1.1.le, h1.2.le⟩ (hh i _).2 (hh i _).2
  have hnm : ∀ i, Integrable (fun ω => (g ω 0 i).fracQ * (1 - (g ω 0 i).fracQ) *
      (h i (g ω 0 i).sfhQ - h i (g ω 0 i).sfhMs) ^ 2) P := by
    intro i
    refine hbdd _ 1 ?_ fun ω => ?_
    · simp only [hfe i]
      exact (((hm i).2.sub (hm i).1).pow_const 2).const_mul _
    · have h1 := hf ω i
      have h2 := hh i (g ω 0 i).sfhQ
      have h3 := hh i (g ω 0 i).sfhMs
      have h4 : (h i (g ω 0 i).sfhQ - h i (g ω 0 i).sfhMs) ^ 2 ≤ 1 := by
        rw [sq_le_one_iff_abs_le_one, abs_le]; constructor <;> linarith [h2.1, h2.2, h3.1, h3.2]
      rw [abs_of_nonneg (mul_nonneg (mul_nonneg h1.1.le (by linarith [h1.2])) (sq_nonneg _))]
      refine mul_le_one₀ ?_ (sq_nonneg _) h4
      nlinarith [h1.1, h1.2]
  refine ⟨by simp only [hE], ?_, ?_⟩
  · have e : ∀ ω, ∫ x, (counted ω x - c) ^ 2 ∂Spec.unifs n = (weighted ω - c) ^ 2 +
        ∑ i, (g ω 0 i).fracQ * (1 - (g ω 0 i).fracQ) * (h i (g ω 0 i).sfhQ - h i (g ω 0 i).sfhMs) ^ 2 := fun ω =>
      second_moment (hL ω) _ _ c (hE ω) (hV ω)
    simp only [e]
    rw [integral_add _ (integrable_finsetSum _ fun i _ => hnm i), integral_finsetSum _ fun i _ => hnm i]
    refine hbdd _ ((n + |c|) ^ 2) ((hwm.sub_const c).pow_const 2) fun ω => ?_
    rw [abs_of_nonneg (sq_nonneg _), ← sq_abs]
    have := abs_sub (weighted ω) c
    gcongr
    linarith [hwb ω]
  · refine Finset.sum_nonneg fun i _ => integral_nonneg fun ω => ?_
    have h1 := hf ω i
    exact mul_nonneg (mul_nonneg h1.1.le (by linarith [h1.2])) (sq_nonneg _)

/-- **C121**: so the weighted sum has the same mean, and is on average at least as close to any number. -/
theorem C121_weighted_less_noisy {K Ω : Type} [MeasurableSpace Ω] (P : Measure Ω) [IsProbabilityMeasure P] {n : ℕ}
    (rng : Ω → Rng K) (key : K) (r : Ω → (Fin n → ℝ) → Rng K)
    (hr : ∀ ω, Spec.UniformDraws (rng ω) key (r ω)) (logMah : MahParams ℝ → ℝ → ℝ → ℝ) (u : PF → ℝ)
    (mah : MahParams (Fin n → ℝ)) (logmp0 : Fin n → ℝ) (upid : Fin n → ℤ)
    (lgmu logmhost gyr : Fin n → ℝ) (tarr : List ℝ) (lgt0 fb : ℝ) (h : Fin n → Option (List ℝ) → ℝ)
    (hh : ∀ i s, 0 ≤ h i s ∧ h i s ≤ 1) (c : ℝ) :
    let g := fun ω (x : Fin n → ℝ) => mcDiffstarSfhGalpop (r ω x) logMah (getBoundedDiffstarpopParams u) mah logmp0 upid
      lgmu logmhost gyr key tarr lgt0 fb
    (∀ i, Measurable (fun ω => h i (g ω 0 i).sfhMs) ∧ Measurable fun ω => h i (g ω 0 i).sfhQ) →
    ∫ ω, (∑ i, ((1 - (g ω 0 i).fracQ) * h i (g ω 0 i).sfhMs + (g ω 0 i).fracQ * h i (g ω 0 i).sfhQ) - c) ^ 2 ∂P ≤
      ∫ ω, ∫ x, (∑ i, h i (Spec.selected (g ω x i)) - c) ^ 2 ∂Spec.unifs n ∂P := by
  intro g hm
  obtain ⟨-, h1, h2⟩ := C121_noise_budget P rng key r hr logMah u mah logmp0 upid lgmu logmhost gyr tarr lgt0 fb h hh c hm
  linarith

/-- Two equally likely sequences of normal draws for a population of two galaxies meet the hypotheses, with any statistic in
`[0, 1]`. -/
example : ∃ (rng : Bool → Rng (List ℕ)) (r : Bool → (Fin 2 → ℝ) → Rng (List ℕ)),
    (∀ ω, Spec.UniformDraws (n := 2) (rng ω) [] (r ω)) ∧
    (rng true).multivariateNormal [] 0 1 ≠ (rng false).multivariateNormal [] 0 1 ∧
    ∀ F : Bool → ℝ, Measurable F := by
  refine ⟨fun ω => ⟨fun k _ i => i.val :: k, fun _ m _ => if ω then m else m + 1, fun _ => 0⟩,
    fun ω x => ⟨fun k _ i => i.val :: k, fun _ m _ => if ω then m else m + 1, fun k => if k = [3, 0] then x 0 else x 1⟩,
    fun ω => ⟨fun _ => rfl, fun _ => rfl, fun x i => ?_⟩, fun h => ?_, fun F => Measurable.of_discrete⟩
  · fin_cases i <;> simp
  · have := congrFun h 0
    simp at this

end Diffstar.Props
