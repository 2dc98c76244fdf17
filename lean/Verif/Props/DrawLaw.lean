import Verif.Props.PopMeaning
import Verif.Props.Expectation
import Mathlib.Probability.Distributions.Gaussian.Real
import Mathlib.Probability.Independence.Basic
import Mathlib.Probability.HasLaw

/-!
C122: the distribution of the galaxies of a Monte Carlo population. With independent standard normal and uniform draws the
galaxies are independent, and each is a draw from a mixture of two populations: with probability `frac_q` all eight unbounded
parameters are independent normal variables, otherwise the four of the main sequence are, and the others are those of an
unquenched galaxy.

`jax.random` is idealised: the draws at the four keys of each galaxy are independent.
-/

namespace Diffstar.Spec

open Diffstar.Pop MeasureTheory ProbabilityTheory

/-- The random numbers of one galaxy: normal deviates of the three keys of the normal draws, and a uniform number. -/
abbrev GalaxyDraws := (Fin 3 × Fin 4 → ℝ) × ℝ

/-- Independent standard normal deviates and a uniform number. -/
noncomputable def galaxyDraws : Measure GalaxyDraws := (Measure.pi fun _ => gaussianReal 0 1).prod unif

/-- The same, independently for the galaxies of a population. -/
noncomputable def popDraws (n : ℕ) : Measure (Fin n → GalaxyDraws) := Measure.pi fun _ => galaxyDraws

/-- `r x` is a generator that gives galaxy `i` of a population with key `key` the random numbers `x i`: the keys do not
depend on the random numbers, a normal draw with positive standard deviations is `mean + standard deviation * deviate`. -/
structure NormalDraws {K : Type} {n : ℕ} (key : K) (r : (Fin n → GalaxyDraws) → Rng K) : Prop where
  split : ∀ x y, (r x).split = (r y).split
  normal : ∀ x i (j : Fin 3) (mu s : Fin 4 → ℝ), (∀ l, 0 < s l) →
    (r x).multivariateNormal ((r x).split ((r x).split key n i) 4 j.castSucc) mu (Matrix.diagonal fun l => s l ^ 2) =
      fun l => mu l + s l * (x i).1 (j, l)
  draw : ∀ x i, (r x).uniform ((r x).split ((r x).split key n i) 4 3) = (x i).2

open Classical in
/-- The parameters of a galaxy of the Monte Carlo catalogue. -/
noncomputable def chosen (g : McSfh) : Option (DiffstarParams ℝ) := if g.mcIsQ then g.paramsQ else g.paramsMs

/-- Independent normal variables. -/
noncomputable def normals {k : ℕ} (m s : Fin k → ℝ) : Measure (Fin k → ℝ) :=
  Measure.pi fun l => gaussianReal (m l) (Real.toNNReal (s l ^ 2))

/-- Unbounded parameters of a galaxy of the main sequence: default unbounded quenching parameters of an unquenched
galaxy. -/
noncomputable def msOfVec (v : Fin 4 → ℝ) : DiffstarParams ℝ :=
  DiffstarParams.join ⟨v 0, v 1, v 2, v 3⟩ DEFAULT_Q_U_PARAMS_UNQUENCHED

/-- Means and standard deviations of the main sequence, as in C100. -/
def MsFollows (p : PF → ℝ) (lgm : ℝ) (m s : Fin 4 → ℝ) : Prop :=
  FollowsBroken (m 0) lgm p .mean_ulgm_mseq_xtp .mean_ulgm_mseq_ytp .mean_ulgm_mseq_lo .mean_ulgm_mseq_hi ∧
  FollowsBroken (m 1) lgm p .mean_ulgy_mseq_xtp .mean_ulgy_mseq_ytp .mean_ulgy_mseq_lo .mean_ulgy_mseq_hi ∧
  FollowsLine (m 2) lgm p .mean_ul_mseq_int .mean_ul_mseq_slp (-3) 5 ∧
  FollowsLine (m 3) lgm p .mean_uh_mseq_int .mean_uh_mseq_slp (-5) 3 ∧
  FollowsLine (s 0) lgm p .std_ulgm_mseq_int .std_ulgm_mseq_slp 0.01 1 ∧
  FollowsLine (s 1) lgm p .std_ulgy_mseq_int .std_ulgy_mseq_slp 0.01 1 ∧
  FollowsLine (s 2) lgm p .std_ul_mseq_int .std_ul_mseq_slp 0.01 3 ∧
  FollowsLine (s 3) lgm p .std_uh_mseq_int .std_uh_mseq_slp 0.01 3

/-- Means and standard deviations of the quenched sequence, as in C100; `δ` is the shift of the quenching time. -/
def QFollows (p : PF → ℝ) (lgm δ : ℝ) (m s : Fin 8 → ℝ) : Prop :=
  FollowsBroken (m 0) lgm p .mean_ulgm_qseq_xtp .mean_ulgm_qseq_ytp .mean_ulgm_qseq_lo .mean_ulgm_qseq_hi ∧
  FollowsBroken (m 1) lgm p .mean_ulgy_qseq_xtp .mean_ulgy_qseq_ytp .mean_ulgy_qseq_lo .mean_ulgy_qseq_hi ∧
  FollowsLine (m 2) lgm p .mean_ul_qseq_int .mean_ul_qseq_slp (-3) 5 ∧
  FollowsLine (m 3) lgm p .mean_uh_qseq_int .mean_uh_qseq_slp (-5) 3 ∧
  FollowsBroken (m 4 - δ - p (.inl .delta_uqt_slope) * (lgm - 12.5)) lgm p .mean_uqt_xtp .mean_uqt_ytp
    .mean_uqt_lo .mean_uqt_hi ∧
  FollowsLine (m 5) lgm p .mean_uqs_int .mean_uqs_slp (-5) 2 ∧
  FollowsLine (m 6) lgm p .mean_udrop_int .mean_udrop_slp (-3) 2 ∧
  FollowsLine (m 7) lgm p .mean_urej_int .mean_urej_slp (-10) 2 ∧
  FollowsLine (s 0) lgm p .std_ulgm_qseq_int .std_ulgm_qseq_slp 0.01 1 ∧
  FollowsLine (s 1) lgm p .std_ulgy_qseq_int .std_ulgy_qseq_slp 0.01 1 ∧
  FollowsLine (s 2) lgm p .std_ul_qseq_int .std_ul_qseq_slp 0.01 3 ∧
  FollowsLine (s 3) lgm p .std_uh_qseq_int .std_uh_qseq_slp 0.01 3 ∧
  FollowsLine (s 4) lgm p .std_uqt_int .std_uqt_slp 0.01 0.5 ∧
  FollowsLine (s 5) lgm p .std_uqs_int .std_uqs_slp 0.01 1 ∧
  FollowsLine (s 6) lgm p .std_udrop_int .std_udrop_slp 0.01 2 ∧
  FollowsLine (s 7) lgm p .std_urej_int .std_urej_slp 0.01 2

/-- Eight coordinates of bounded parameters that can be chosen independently: the parameters, but `lg_rejuv` relative to
`lg_drop`. -/
noncomputable def coords (q : DiffstarParams ℝ) : Fin 8 → ℝ :=
  ![q.lgmcrit, q.lgyAtMcrit, q.indxLo, q.indxHi, q.lgQt, q.qlglgdt, q.lgDrop, -(q.lgRejuv / q.lgDrop)]

end Diffstar.Spec

namespace Diffstar.Props

open Diffstar.Pop Diffstar.Spec MeasureTheory ProbabilityTheory

instance : IsProbabilityMeasure Spec.galaxyDraws := by unfold Spec.galaxyDraws; infer_instance
instance (n : ℕ) : IsProbabilityMeasure (Spec.popDraws n) := by unfold Spec.popDraws; infer_instance
instance {k : ℕ} (m s : Fin k → ℝ) : IsProbabilityMeasure (Spec.normals m s) := by unfold Spec.normals; infer_instance

/-- Means plus standard deviations times different deviates are independent normal variables. -/
theorem normals_of_deviates {k : ℕ} (e : Fin k → Fin 3 × Fin 4) (he : Function.Injective e) (m s : Fin k → ℝ)
    (A : Set (Fin k → ℝ)) (hA : MeasurableSet A) :
    (Measure.pi fun _ : Fin 3 × Fin 4 => gaussianReal 0 1) {z | (fun l => m l + s l * z (e l)) ∈ A} = normals m s A := by
  set N := Measure.pi fun _ : Fin 3 × Fin 4 => gaussianReal 0 1 with hN
  have h1 : iIndepFun (fun (a : Fin 3 × Fin 4) (z : Fin 3 × Fin 4 → ℝ) => z a) N :=
    iIndepFun_pi (X := fun _ x => x) fun _ => aemeasurable_id
  have h2 : iIndepFun (fun (l : Fin k) (z : Fin 3 × Fin 4 → ℝ) => z (e l)) N := h1.precomp he
  have h3 : iIndepFun (fun (l : Fin k) (z : Fin 3 × Fin 4 → ℝ) => m l + s l * z (e l)) N :=
    h2.comp (fun l x => m l + s l * x) fun l => by fun_prop
  rw [iIndepFun_iff_map_fun_eq_pi_map fun l => Measurable.aemeasurable (by fun_prop)] at h3
  have h4 : ∀ l : Fin k, N.map (fun z => m l + s l * z (e l)) = gaussianReal (m l) (Real.toNNReal (s l ^ 2)) := by
    intro l
    have h5 : N.map (fun z => z (e l)) = gaussianReal 0 1 := (measurePreserving_eval _ (e l)).map_eq
    have h6 : N.map (fun z => m l + s l * z (e l)) = ((N.map fun z => z (e l)).map fun x => s l * x).map fun x => m l + x := by
      rw [Measure.map_map (by fun_prop) (by fun_prop), Measure.map_map (by fun_prop) (by fun_prop)]
      rfl
    rw [h6, h5, gaussianReal_map_const_mul, gaussianReal_map_const_add]
    congr 1
    · ring
    · ext; simp [sq_nonneg]
  simp only [h4] at h3
  rw [normals, ← h3, Measure.map_apply (by fun_prop) hA]
  rfl

/-- The two draws of a galaxy in terms of its random numbers. -/
theorem singlegal_draws (u : PF → ℝ) :
    ∃ δ : ℝ → ℝ, Switches δ (getBoundedDiffstarpopParams u (.inl .delta_uqt_x0)) (getBoundedDiffstarpopParams u (.inl .delta_uqt_k))
        (getBoundedDiffstarpopParams u (.inl .delta_uqt_ylo)) (getBoundedDiffstarpopParams u (.inl .delta_uqt_yhi)) ∧
      ∀ lgm tpeak : ℝ,
        ((∀ {K : Type} (rng : Rng K) (upid : ℤ) (lgmu logmhost gyr : ℝ) (key : K),
            (mcDiffstarUParamsSinglegalKernel rng (getBoundedDiffstarpopParams u) lgm tpeak upid lgmu logmhost gyr key).uMs = none) ∨
          ∃ m s : Fin 4 → ℝ, MsFollows (getBoundedDiffstarpopParams u) lgm m s ∧ (∀ l, 0 < s l) ∧
            ∀ {K : Type} (rng : Rng K) (upid : ℤ) (lgmu logmhost gyr : ℝ) (key : K),
            (mcDiffstarUParamsSinglegalKernel rng (getBoundedDiffstarpopParams u) lgm tpeak upid lgmu logmhost gyr key).uMs =
              some (msOfVec (rng.multivariateNormal (rng.split key 4 0) m (Matrix.diagonal fun l => s l ^ 2)))) ∧
        ((∀ {K : Type} (rng : Rng K) (upid : ℤ) (lgmu logmhost gyr : ℝ) (key : K),
            (mcDiffstarUParamsSinglegalKernel rng (getBoundedDiffstarpopParams u) lgm tpeak upid lgmu logmhost gyr key).uQ = none) ∨
          ∃ m s : Fin 8 → ℝ, QFollows (getBoundedDiffstarpopParams u) lgm (δ tpeak) m s ∧ (∀ l, 0 < s l) ∧
            ∀ {K : Type} (rng : Rng K) (upid : ℤ) (lgmu logmhost gyr : ℝ) (key : K),
            (mcDiffstarUParamsSinglegalKernel rng (getBoundedDiffstarpopParams u) lgm tpeak upid lgmu logmhost gyr key).uQ =
              some (
                let a := rng.multivariateNormal (rng.split key 4 1) ![m 0, m 1, m 2, m 3]
                  (Matrix.diagonal fun l => ![s 0, s 1, s 2, s 3] l ^ 2)
                let b := rng.multivariateNormal (rng.split key 4 2) ![m 4, m 5, m 6, m 7]
                  (Matrix.diagonal fun l => ![s 4, s 5, s 6, s 7] l ^ 2)
                ⟨a 0, a 1, a 2, a 3, b 0, b 1, b 2, b 3⟩)) := by
  have hk : 0 < getBoundedDiffstarpopParams u (.inl .delta_uqt_k) := by
    have := (getBounded_in u (.inl .delta_uqt_k)).1
    norm_num [PF.bounds, QF.bounds, QF.boundsQ] at this
    linarith
  refine ⟨_, switches_sigmoid hk _ _ _, fun lgm tpeak => ⟨?_, ?_⟩⟩
  · cases hX : getMeanUParamsMseq (sfhPdfPart (getBoundedDiffstarpopParams u)) lgm with
    | none =>
      left; intro K rng upid lgmu logmhost gyr key
      simp only [mcDiffstarUParamsSinglegalKernel, diffstarpopMeansCovs, sfhPdfScalarKernel, drawMs, hX]
      rfl
    | some mu =>
      cases hY : getCovarianceMseqMsBlock (sfhPdfPart (getBoundedDiffstarpopParams u)) lgm with
      | none =>
        left; intro K rng upid lgmu logmhost gyr key
        simp only [mcDiffstarUParamsSinglegalKernel, diffstarpopMeansCovs, sfhPdfScalarKernel, drawMs, hX, hY]
        rfl
      | some cov =>
        right
        have hX' := hX
        have hY' := hY
        simp only [Option.bind_eq_bind, Option.bind_eq_some_iff, Option.pure_def, Option.some.injEq, getMeanUParamsMseq,
          sfhPdfPart_apply, BV_mean_ul, BV_mean_uh] at hX'
        simp only [Option.bind_eq_bind, Option.bind_eq_some_iff, Option.pure_def, Option.some.injEq, getCovarianceMseqMsBlock,
          getCovParamsMseqMsBlock, sfhPdfPart_apply, Option.map_eq_some_iff, BV_std_ulgm, BV_std_ulgy, BV_std_ul,
          BV_std_uh] at hY'
        obtain ⟨a, ha, b, hb, rfl⟩ := hX'
        obtain ⟨_, ⟨s0, h0, s1, h1, s2, h2, s3, h3, rfl⟩, rfl⟩ := hY'
        have fa := line_follows (by norm_num [QF.boundsQ]) (by norm_num [QF.boundsQ]) ha
        have fb := line_follows (by norm_num [QF.boundsQ]) (by norm_num [QF.boundsQ]) hb
        have f0 := line_follows (by norm_num [QF.boundsQ]) (by norm_num [QF.boundsQ]) h0
        have f1 := line_follows (by norm_num [QF.boundsQ]) (by norm_num [QF.boundsQ]) h1
        have f2 := line_follows (by norm_num [QF.boundsQ]) (by norm_num [QF.boundsQ]) h2
        have f3 := line_follows (by norm_num [QF.boundsQ]) (by norm_num [QF.boundsQ]) h3
        have p0 := std_pos (by norm_num [QF.boundsQ]) (by norm_num) f0
        have p1 := std_pos (by norm_num [QF.boundsQ]) (by norm_num) f1
        have p2 := std_pos (by norm_num [QF.boundsQ]) (by norm_num) f2
        have p3 := std_pos (by norm_num [QF.boundsQ]) (by norm_num) f3
        have hp : ∀ i, 0 < (![s0, s1, s2, s3] : Fin 4 → ℝ) i := by
          intro i; fin_cases i <;> assumption
        refine ⟨![mcritModel lgm _ _ _ _, mcritModel lgm _ _ _ _, a, b], ![s0, s1, s2, s3], ⟨mcrit_follows _ lgm _ _ _ _, mcrit_follows _ lgm _ _ _ _, fa, fb, f0, f1, f2, f3⟩, hp, ?_⟩
        intro K rng upid lgmu logmhost gyr key
        simp only [mcDiffstarUParamsSinglegalKernel, diffstarpopMeansCovs, sfhPdfScalarKernel, drawMs, hX, hY,
          covarianceFromCovParams_zero]
        rfl
  · cases hX : getMeanUParamsQseq (sfhPdfPart (getBoundedDiffstarpopParams u)) lgm tpeak with
    | none =>
      left; intro K rng upid lgmu logmhost gyr key
      simp only [mcDiffstarUParamsSinglegalKernel, diffstarpopMeansCovs, sfhPdfScalarKernel, drawQ, hX]
      rfl
    | some mu =>
      cases hY : getCovarianceQseqMsBlock (sfhPdfPart (getBoundedDiffstarpopParams u)) lgm with
      | none =>
        left; intro K rng upid lgmu logmhost gyr key
        simp only [mcDiffstarUParamsSinglegalKernel, diffstarpopMeansCovs, sfhPdfScalarKernel, drawQ, hX, hY]
        rfl
      | some cov =>
        cases hZ : getCovarianceQseqQBlock (sfhPdfPart (getBoundedDiffstarpopParams u)) lgm with
        | none =>
          left; intro K rng upid lgmu logmhost gyr key
          simp only [mcDiffstarUParamsSinglegalKernel, diffstarpopMeansCovs, sfhPdfScalarKernel, drawQ, hX, hY, hZ]
          rfl
        | some cov' =>
          right
          have hX' := hX
          have hY' := hY
          have hZ' := hZ
          simp only [Option.bind_eq_bind, Option.bind_eq_some_iff, Option.pure_def, Option.some.injEq, getMeanUParamsQseq,
            sfhPdfPart_apply, BV_mean_ul, BV_mean_uh, BV_mean_uqs, BV_mean_udrop, BV_mean_urej] at hX'
          simp only [Option.bind_eq_bind, Option.bind_eq_some_iff, Option.pure_def, Option.some.injEq, getCovarianceQseqMsBlock,
            getCovParamsQseqMsBlock, sfhPdfPart_apply, Option.map_eq_some_iff, BV_std_ulgm, BV_std_ulgy, BV_std_ul,
            BV_std_uh] at hY'
          simp only [Option.bind_eq_bind, Option.bind_eq_some_iff, Option.pure_def, Option.some.injEq, getCovarianceQseqQBlock,
            getCovParamsQseqQBlock, sfhPdfPart_apply, Option.map_eq_some_iff, BV_std_uqt, BV_std_uqs, BV_std_udrop,
            BV_std_urej] at hZ'
          obtain ⟨a, ha, b, hb, c, hc, e, he, g, hg, rfl⟩ := hX'
          obtain ⟨_, ⟨s0, h0, s1, h1, s2, h2, s3, h3, rfl⟩, rfl⟩ := hY'
          obtain ⟨_, ⟨t0, k0, t1, k1, t2, k2, t3, k3, rfl⟩, rfl⟩ := hZ'
          have fa := line_follows (by norm_num [QF.boundsQ]) (by norm_num [QF.boundsQ]) ha
          have fb := line_follows (by norm_num [QF.boundsQ]) (by norm_num [QF.boundsQ]) hb
          have fc := line_follows (by norm_num [QF.boundsQ]) (by norm_num [QF.boundsQ]) hc
          have fe := line_follows (by norm_num [QF.boundsQ]) (by norm_num [QF.boundsQ]) he
          have fg := line_follows (by norm_num [QF.boundsQ]) (by norm_num [QF.boundsQ]) hg
          have f0 := line_follows (by norm_num [QF.boundsQ]) (by norm_num [QF.boundsQ]) h0
          have f1 := line_follows (by norm_num [QF.boundsQ]) (by norm_num [QF.boundsQ]) h1
          have f2 := line_follows (by norm_num [QF.boundsQ]) (by norm_num [QF.boundsQ]) h2
          have f3 := line_follows (by norm_num [QF.boundsQ]) (by norm_num [QF.boundsQ]) h3
          have g0 := line_follows (by norm_num [QF.boundsQ]) (by norm_num [QF.boundsQ]) k0
          have g1 := line_follows (by norm_num [QF.boundsQ]) (by norm_num [QF.boundsQ]) k1
          have g2 := line_follows (by norm_num [QF.boundsQ]) (by norm_num [QF.boundsQ]) k2
          have g3 := line_follows (by norm_num [QF.boundsQ]) (by norm_num [QF.boundsQ]) k3
          have p0 := std_pos (by norm_num [QF.boundsQ]) (by norm_num) f0
          have p1 := std_pos (by norm_num [QF.boundsQ]) (by norm_num) f1
          have p2 := std_pos (by norm_num [QF.boundsQ]) (by norm_num) f2
          have p3 := std_pos (by norm_num [QF.boundsQ]) (by norm_num) f3
          have r0 := std_pos (by norm_num [QF.boundsQ]) (by norm_num) g0
          have r1 := std_pos (by norm_num [QF.boundsQ]) (by norm_num) g1
          have r2 := std_pos (by norm_num [QF.boundsQ]) (by norm_num) g2
          have r3 := std_pos (by norm_num [QF.boundsQ]) (by norm_num) g3
          have hp : ∀ i, 0 < (![s0, s1, s2, s3, t0, t1, t2, t3] : Fin 8 → ℝ) i := by
            intro i; fin_cases i <;> assumption
          have hq := mcrit_follows (getBoundedDiffstarpopParams u) lgm .mean_uqt_xtp .mean_uqt_ytp .mean_uqt_lo .mean_uqt_hi
          refine ⟨![mcritModel lgm _ _ _ _, mcritModel lgm _ _ _ _, a, b,
            mcritModel lgm (getBoundedDiffstarpopParams u (.inl .mean_uqt_xtp)) (getBoundedDiffstarpopParams u (.inl .mean_uqt_ytp))
              (getBoundedDiffstarpopParams u (.inl .mean_uqt_lo)) (getBoundedDiffstarpopParams u (.inl .mean_uqt_hi)) +
              deltaUqt (sfhPdfPart (getBoundedDiffstarpopParams u)) lgm tpeak, c, e, g],
            ![s0, s1, s2, s3, t0, t1, t2, t3],
            ⟨mcrit_follows _ lgm _ _ _ _, mcrit_follows _ lgm _ _ _ _, fa, fb, ?_, fc, fe, fg, f0, f1, f2, f3, g0, g1, g2, g3⟩, hp, ?_⟩
          · convert hq using 1
            simp only [deltaUqt, sfhPdfPart_apply, Matrix.cons_val]
            ring
          · intro K rng upid lgmu logmhost gyr key
            simp only [mcDiffstarUParamsSinglegalKernel, diffstarpopMeansCovs, sfhPdfScalarKernel, drawQ, hX, hY, hZ,
              covarianceFromCovParams_zero]
            rfl

/-- Which deviates make the eight parameters of the quenched sequence. -/
def qIndex : Fin 8 → Fin 3 × Fin 4 :=
  ![(1, 0), (1, 1), (1, 2), (1, 3), (2, 0), (2, 1), (2, 2), (2, 3)]

/-- A galaxy of the population in terms of its random numbers. -/
theorem galaxy_of_draws (u : PF → ℝ) :
    ∃ δ : ℝ → ℝ, Switches δ (getBoundedDiffstarpopParams u (.inl .delta_uqt_x0)) (getBoundedDiffstarpopParams u (.inl .delta_uqt_k))
        (getBoundedDiffstarpopParams u (.inl .delta_uqt_ylo)) (getBoundedDiffstarpopParams u (.inl .delta_uqt_yhi)) ∧
      ∀ {K : Type} {n : ℕ} (key : K) (r : (Fin n → GalaxyDraws) → Rng K) (_ : NormalDraws key r)
        (logMah : MahParams ℝ → ℝ → ℝ → ℝ) (mah : MahParams (Fin n → ℝ)) (logmp0 : Fin n → ℝ) (upid : Fin n → ℤ)
        (lgmu logmhost gyr : Fin n → ℝ) (tarr : List ℝ) (lgt0 fb : ℝ) (i : Fin n),
        let g := fun x => mcDiffstarSfhGalpop (r x) logMah (getBoundedDiffstarpopParams u) mah logmp0 upid lgmu logmhost gyr key
          tarr lgt0 fb i
        (∃ x, (g x).paramsMs ≠ none) → (∃ x, (g x).paramsQ ≠ none) →
        ∃ (f : ℝ) (m s : Fin 4 → ℝ) (m' s' : Fin 8 → ℝ), 0 < f ∧ f < 1 ∧
          MsFollows (getBoundedDiffstarpopParams u) (logmp0 i) m s ∧ (∀ l, 0 < s l) ∧
          QFollows (getBoundedDiffstarpopParams u) (logmp0 i) (δ (mah.tPeak i)) m' s' ∧ (∀ l, 0 < s' l) ∧
          ∀ x, (g x).fracQ = f ∧ ((g x).mcIsQ ↔ (x i).2 < f) ∧
            (g x).paramsMs = some (getBoundedDiffstarParams (msOfVec fun l => m l + s l * (x i).1 (0, l))) ∧
            (g x).paramsQ = some (getBoundedDiffstarParams (paramsOfVec fun l => m' l + s' l * (x i).1 (qIndex l))) := by
  obtain ⟨δ, hδ, H⟩ := singlegal_draws u
  refine ⟨δ, hδ, ?_⟩
  intro K n key r hr logMah mah logmp0 upid lgmu logmhost gyr tarr lgt0 fb i g hMs hQ
  obtain ⟨hM, hQ'⟩ := H (logmp0 i) (mah.tPeak i)
  obtain ⟨x0, hx0⟩ := hMs
  obtain ⟨y0, hy0⟩ := hQ
  have eM : ∀ x, (g x).paramsMs = ((mcDiffstarUParamsSinglegalKernel (r x) (getBoundedDiffstarpopParams u) (logmp0 i)
      (mah.tPeak i) (upid i) (lgmu i) (logmhost i) (gyr i) ((r x).split key n i)).uMs).map getBoundedDiffstarParams := fun x => rfl
  have eQ : ∀ x, (g x).paramsQ = ((mcDiffstarUParamsSinglegalKernel (r x) (getBoundedDiffstarpopParams u) (logmp0 i)
      (mah.tPeak i) (upid i) (lgmu i) (logmhost i) (gyr i) ((r x).split key n i)).uQ).map getBoundedDiffstarParams := fun x => rfl
  rcases hM with hM | ⟨m, s, fM, ps, hM⟩
  · exact absurd (by rw [eM, hM]; rfl) hx0
  rcases hQ' with hQ' | ⟨m', s', fQ, ps', hQ'⟩
  · exact absurd (by rw [eQ, hQ']; rfl) hy0
  have eF : ∀ x, (g x).fracQ = (g x0).fracQ := fun x => rfl
  have h01 := C29_frac_quench_in_unit_interval (r x0) u (logmp0 i) (mah.tPeak i) (upid i) (lgmu i) (logmhost i) (gyr i)
      ((r x0).split key n i)
  refine ⟨(g x0).fracQ, m, s, m', s', h01.1, h01.2, fM, ps, fQ, ps', fun x => ⟨eF x, ?_, ?_, ?_⟩⟩
  · show (r x).uniform ((r x).split ((r x).split key n i) 4 3) < (g x).fracQ ↔ _
    rw [hr.draw, eF]
  · rw [eM, hM]
    have := hr.normal x i 0 m s ps
    rw [show (0 : Fin 3).castSucc = (0 : Fin 4) from rfl] at this
    rw [this]; rfl
  · rw [eQ, hQ']
    have h1 := hr.normal x i 1 ![m' 0, m' 1, m' 2, m' 3] ![s' 0, s' 1, s' 2, s' 3] (by
      intro l; fin_cases l <;> exact ps' _)
    have h2 := hr.normal x i 2 ![m' 4, m' 5, m' 6, m' 7] ![s' 4, s' 5, s' 6, s' 7] (by
      intro l; fin_cases l <;> exact ps' _)
    rw [show (1 : Fin 3).castSucc = (1 : Fin 4) from rfl] at h1
    rw [show (2 : Fin 3).castSucc = (2 : Fin 4) from rfl] at h2
    simp only [h1, h2]
    rfl

/-- The mixture law of one galaxy. -/
theorem galaxy_mixture {f : ℝ} (h0 : 0 < f) (h1 : f < 1) (SM SQ : Set (Fin 3 × Fin 4 → ℝ)) (hM : MeasurableSet SM) :
    galaxyDraws {d | (d.2 < f → d.1 ∈ SQ) ∧ (¬ d.2 < f → d.1 ∈ SM)} =
      ENNReal.ofReal f * (Measure.pi fun _ : Fin 3 × Fin 4 => gaussianReal 0 1) SQ +
      ENNReal.ofReal (1 - f) * (Measure.pi fun _ : Fin 3 × Fin 4 => gaussianReal 0 1) SM := by
  have e : {d : GalaxyDraws | (d.2 < f → d.1 ∈ SQ) ∧ (¬ d.2 < f → d.1 ∈ SM)} = SQ ×ˢ Set.Iio f ∪ SM ×ˢ (Set.Iio f)ᶜ := by
    ext d
    by_cases h : d.2 < f
    · simp [h]
    · have := not_lt.1 h
      simp [this]
  have hd : Disjoint (SQ ×ˢ Set.Iio f) (SM ×ˢ (Set.Iio f)ᶜ) :=
    Set.disjoint_left.mpr fun d h h' => h'.2 h.2
  have hu : unif (Set.Iio f) = ENNReal.ofReal f := unif_lt h0.le h1.le
  have hc : unif (Set.Iio f)ᶜ = ENNReal.ofReal (1 - f) := by
    rw [prob_compl_eq_one_sub measurableSet_Iio, hu, ENNReal.ofReal_sub 1 h0.le, ENNReal.ofReal_one]
  rw [e, measure_union hd (hM.prod measurableSet_Iio.compl), galaxyDraws, Measure.prod_prod, Measure.prod_prod, hu, hc,
    mul_comm, mul_comm (ENNReal.ofReal (1 - f))]

/-- **C122**: the joint distribution of the parameters of a Monte Carlo catalogue. The galaxies are independent; galaxy `i`
is, with probability `frac_q`, a galaxy of the quenched sequence with eight independent normal unbounded parameters, and
otherwise a main-sequence galaxy with four; means and standard deviations follow the lines of the population parameters. -/
theorem C122_catalogue_law (u : PF → ℝ) :
    let p := getBoundedDiffstarpopParams u
    ∃ δ : ℝ → ℝ, Switches δ (p (.inl .delta_uqt_x0)) (p (.inl .delta_uqt_k)) (p (.inl .delta_uqt_ylo))
        (p (.inl .delta_uqt_yhi)) ∧
      ∀ {K : Type} {n : ℕ} (key : K) (r : (Fin n → GalaxyDraws) → Rng K) (_ : NormalDraws key r)
        (logMah : MahParams ℝ → ℝ → ℝ → ℝ) (mah : MahParams (Fin n → ℝ)) (logmp0 : Fin n → ℝ) (upid : Fin n → ℤ)
        (lgmu logmhost gyr : Fin n → ℝ) (tarr : List ℝ) (lgt0 fb : ℝ),
        let g := fun x => mcDiffstarSfhGalpop (r x) logMah p mah logmp0 upid lgmu logmhost gyr key tarr lgt0 fb
        (∀ i, ∃ x, (g x i).paramsMs ≠ none ∧ (g x i).paramsQ ≠ none) →
        ∃ (f : Fin n → ℝ) (m s : Fin n → Fin 4 → ℝ) (m' s' : Fin n → Fin 8 → ℝ),
          (∀ i, (∀ x, (g x i).fracQ = f i) ∧
            MsFollows p (logmp0 i) (m i) (s i) ∧ (∀ l, 0 < s i l) ∧
            QFollows p (logmp0 i) (δ (mah.tPeak i)) (m' i) (s' i) ∧ (∀ l, 0 < s' i l)) ∧
          ∀ A : Fin n → Set (DiffstarParams ℝ),
            (∀ i, MeasurableSet {v | getBoundedDiffstarParams (msOfVec v) ∈ A i} ∧
              MeasurableSet {v | getBoundedDiffstarParams (paramsOfVec v) ∈ A i}) →
            popDraws n {x | ∀ i, ∃ q ∈ A i, chosen (g x i) = some q} =
              ∏ i, (ENNReal.ofReal (f i) * normals (m' i) (s' i) {v | getBoundedDiffstarParams (paramsOfVec v) ∈ A i} +
                ENNReal.ofReal (1 - f i) * normals (m i) (s i) {v | getBoundedDiffstarParams (msOfVec v) ∈ A i}) := by
  intro p
  obtain ⟨δ, hδ, H⟩ := galaxy_of_draws u
  refine ⟨δ, hδ, ?_⟩
  intro K n key r hr logMah mah logmp0 upid lgmu logmhost gyr tarr lgt0 fb g hok
  have H' := fun i => H key r hr logMah mah logmp0 upid lgmu logmhost gyr tarr lgt0 fb i
    ((hok i).imp fun x h => h.1) ((hok i).imp fun x h => h.2)
  choose f m s m' s' h0 h1 fM ps fQ ps' hg using H'
  refine ⟨f, m, s, m', s', fun i => ⟨fun x => (hg i x).1, fM i, ps i, fQ i, ps' i⟩, fun A hA => ?_⟩
  have e : {x | ∀ i, ∃ q ∈ A i, chosen (g x i) = some q} = Set.pi Set.univ fun i =>
      {d : GalaxyDraws | (d.2 < f i → d.1 ∈ {z | (fun l => m' i l + s' i l * z (qIndex l)) ∈
          {v | getBoundedDiffstarParams (paramsOfVec v) ∈ A i}}) ∧
        (¬ d.2 < f i → d.1 ∈ {z | (fun l => m i l + s i l * z (0, l)) ∈ {v | getBoundedDiffstarParams (msOfVec v) ∈ A i}})} := by
    ext x
    simp only [Set.mem_ofPred_eq, Set.mem_pi, Set.mem_univ, true_imp_iff]
    refine forall_congr' fun i => ?_
    obtain ⟨-, hq, hM, hQ⟩ := hg i x
    by_cases h : (x i).2 < f i
    · have hc : chosen (g x i) = (g x i).paramsQ := if_pos (hq.mpr h)
      rw [hc, hQ]
      simp [h]
    · have hc : chosen (g x i) = (g x i).paramsMs := if_neg fun hh => h (hq.mp hh)
      rw [hc, hM]
      simp [h]
  rw [e, popDraws, Measure.pi_pi]
  refine Finset.prod_congr rfl fun i _ => ?_
  have hi : Function.Injective qIndex := by decide
  have hi' : Function.Injective fun l : Fin 4 => ((0 : Fin 3), l) := fun a b h => (Prod.mk.inj h).2
  rw [galaxy_mixture (h0 i) (h1 i) _ _ ?_, normals_of_deviates qIndex hi _ _ _ (hA i).2,
    normals_of_deviates (fun l : Fin 4 => ((0 : Fin 3), l)) hi' _ _ _ (hA i).1]
  exact measurableSet_preimage (by fun_prop) (hA i).1

/-- Half of a normal distribution is below the mean. -/
theorem gaussian_median (m : ℝ) {v : NNReal} (hv : v ≠ 0) : gaussianReal m v (Set.Iic m) = 1 / 2 := by
  have h1 : gaussianReal m v (Set.Iic m) = gaussianReal m v (Set.Ici m) := by
    have h2 : (gaussianReal m v).map (fun x => 2 * m - x) = gaussianReal m v := by
      rw [gaussianReal_map_const_sub]
      congr 1
      ring
    conv_lhs => rw [← h2]
    rw [Measure.map_apply (by fun_prop) measurableSet_Iic]
    congr 1
    ext x
    simp only [Set.mem_preimage, Set.mem_Iic, Set.mem_Ici]
    constructor <;> intro h <;> linarith
  have : NullSingletonClass (gaussianReal m v) := nullSingletonClass_gaussianReal hv
  have h3 : gaussianReal m v (Set.Ici m) = gaussianReal m v (Set.Iic m)ᶜ := by
    rw [Set.compl_Iic, measure_congr Ioi_ae_eq_Ici]
  have h4 : gaussianReal m v (Set.Iic m) + gaussianReal m v (Set.Iic m) = 1 := by
    conv_lhs => rw [h1]
    nth_rewrite 2 [h3]
    rw [← h1]
    exact prob_add_prob_compl measurableSet_Iic
  rw [ENNReal.eq_div_iff (by norm_num) (by norm_num), two_mul, h4]

/-- Each coordinate of the bounded parameters is a strictly increasing function of its unbounded parameter. -/
theorem coords_le (u v : Fin 8 → ℝ) (l : Fin 8) :
    coords (getBoundedDiffstarParams (paramsOfVec u)) l ≤ coords (getBoundedDiffstarParams (paramsOfVec v)) l ↔ u l ≤ v l := by
  have hr : ∀ x y, -(sigmoid x (-1.5) (4 / 3) (sigmoid y (-1.5) (4 / 3) (-3) 0) 0 / sigmoid y (-1.5) (4 / 3) (-3) 0) =
      sigmoid x (-1.5) (4 / 3) (-1) 0 := by
    intro x y
    have hd : sigmoid y (-1.5) (4 / 3) (-3) 0 < 0 := sigmoid_lt (by norm_num)
    generalize sigmoid y (-1.5) (4 / 3) (-3) 0 = D at hd
    have := hd.ne
    simp only [sigmoid]
    field_simp
    ring
  have key : ∀ {x0 k a b : ℝ}, 0 < k → a < b → ∀ x y, sigmoid x x0 k a b ≤ sigmoid y x0 k a b ↔ x ≤ y :=
    fun hk hab x y => (sigmoid_strictMono hk hab).le_iff_le
  rw [bounded_eq, bounded_eq]
  fin_cases l
  · exact key (by norm_num) (by norm_num) _ _
  · exact key (by norm_num) (by norm_num) _ _
  · exact key (by norm_num) (by norm_num) _ _
  · exact key (by norm_num) (by norm_num) _ _
  · exact key (by norm_num) (by norm_num) _ _
  · exact key (by norm_num) (by norm_num) _ _
  · exact key (by norm_num) (by norm_num) _ _
  · show -(sigmoid _ (-1.5) (4 / 3) (sigmoid _ (-1.5) (4 / 3) (-3) 0) 0 / sigmoid _ (-1.5) (4 / 3) (-3) 0) ≤
      -(sigmoid _ (-1.5) (4 / 3) (sigmoid _ (-1.5) (4 / 3) (-3) 0) 0 / sigmoid _ (-1.5) (4 / 3) (-3) 0) ↔ _
    rw [hr, hr]
    exact key (by norm_num) (by norm_num) _ _

theorem coords_ms_le (u v : Fin 4 → ℝ) (l : Fin 4) :
    coords (getBoundedDiffstarParams (msOfVec u)) (l.castAdd 4) ≤ coords (getBoundedDiffstarParams (msOfVec v)) (l.castAdd 4) ↔
      u l ≤ v l := by
  have e : ∀ w : Fin 4 → ℝ, msOfVec w = paramsOfVec ![w 0, w 1, w 2, w 3, DEFAULT_Q_U_PARAMS_UNQUENCHED.lgQt,
      DEFAULT_Q_U_PARAMS_UNQUENCHED.qlglgdt, DEFAULT_Q_U_PARAMS_UNQUENCHED.lgDrop,
      DEFAULT_Q_U_PARAMS_UNQUENCHED.lgRejuv] := fun w => rfl
  rw [e, e, coords_le]
  fin_cases l <;> rfl

/-- The deviates of one galaxy. -/
theorem popDraws_galaxy {n : ℕ} (i : Fin n) {S : Set (Fin 3 × Fin 4 → ℝ)} (hS : MeasurableSet S) :
    popDraws n {x | (x i).1 ∈ S} = (Measure.pi fun _ : Fin 3 × Fin 4 => gaussianReal 0 1) S := by
  have h1 := (measurePreserving_eval (fun _ : Fin n => galaxyDraws) i).measure_preimage
    (measurable_fst hS).nullMeasurableSet
  have h2 : MeasurePreserving (Prod.fst : GalaxyDraws → _) galaxyDraws (Measure.pi fun _ : Fin 3 × Fin 4 => gaussianReal 0 1) :=
    measurePreserving_fst
  exact h1.trans (h2.measure_preimage hS.nullMeasurableSet)

theorem popDraws_deviate {n k : ℕ} (i : Fin n) (e : Fin k → Fin 3 × Fin 4) (he : Function.Injective e) (m s : Fin k → ℝ)
    (l : Fin k) (c : ℝ) :
    popDraws n {x | m l + s l * (x i).1 (e l) ≤ c} = gaussianReal (m l) (Real.toNNReal (s l ^ 2)) (Set.Iic c) := by
  have hA : MeasurableSet {w : Fin k → ℝ | w l ≤ c} := measurableSet_Iic.preimage (measurable_pi_apply l)
  have h1 := popDraws_galaxy i (S := {z | (fun l => m l + s l * z (e l)) ∈ {w : Fin k → ℝ | w l ≤ c}})
    (measurableSet_preimage (by fun_prop) hA)
  rw [normals_of_deviates e he m s _ hA] at h1
  exact h1.trans ((measurePreserving_eval (fun l : Fin k => gaussianReal (m l) (Real.toNNReal (s l ^ 2))) l).measure_preimage
    measurableSet_Iic.nullMeasurableSet)

/-- **C122**: quantiles. The probability that a parameter of a drawn galaxy lies below the bounded image of some unbounded
value is the normal probability of that value; in particular the bounded means are the medians. -/
theorem C122_quantiles (u : PF → ℝ) :
    let p := getBoundedDiffstarpopParams u
    ∃ δ : ℝ → ℝ, Switches δ (p (.inl .delta_uqt_x0)) (p (.inl .delta_uqt_k)) (p (.inl .delta_uqt_ylo))
        (p (.inl .delta_uqt_yhi)) ∧
      ∀ {K : Type} {n : ℕ} (key : K) (r : (Fin n → GalaxyDraws) → Rng K) (_ : NormalDraws key r)
        (logMah : MahParams ℝ → ℝ → ℝ → ℝ) (mah : MahParams (Fin n → ℝ)) (logmp0 : Fin n → ℝ) (upid : Fin n → ℤ)
        (lgmu logmhost gyr : Fin n → ℝ) (tarr : List ℝ) (lgt0 fb : ℝ) (i : Fin n),
        let g := fun x => mcDiffstarSfhGalpop (r x) logMah p mah logmp0 upid lgmu logmhost gyr key tarr lgt0 fb i
        (∃ x, (g x).paramsMs ≠ none ∧ (g x).paramsQ ≠ none) →
        ∃ (m s : Fin 4 → ℝ) (m' s' : Fin 8 → ℝ),
          MsFollows p (logmp0 i) m s ∧ QFollows p (logmp0 i) (δ (mah.tPeak i)) m' s' ∧
          (∀ (l : Fin 4) (v : Fin 4 → ℝ), popDraws n {x | ∃ q, (g x).paramsMs = some q ∧
              coords q (l.castAdd 4) ≤ coords (getBoundedDiffstarParams (msOfVec v)) (l.castAdd 4)} =
            gaussianReal (m l) (Real.toNNReal (s l ^ 2)) (Set.Iic (v l))) ∧
          (∀ l v, popDraws n {x | ∃ q, (g x).paramsQ = some q ∧
              coords q l ≤ coords (getBoundedDiffstarParams (paramsOfVec v)) l} =
            gaussianReal (m' l) (Real.toNNReal (s' l ^ 2)) (Set.Iic (v l))) ∧
          (∀ l : Fin 4, popDraws n {x | ∃ q, (g x).paramsMs = some q ∧
              coords q (l.castAdd 4) ≤ coords (getBoundedDiffstarParams (msOfVec m)) (l.castAdd 4)} = 1 / 2) ∧
          (∀ l, popDraws n {x | ∃ q, (g x).paramsQ = some q ∧
              coords q l ≤ coords (getBoundedDiffstarParams (paramsOfVec m')) l} = 1 / 2) := by
  intro p
  obtain ⟨δ, hδ, H⟩ := galaxy_of_draws u
  refine ⟨δ, hδ, ?_⟩
  intro K n key r hr logMah mah logmp0 upid lgmu logmhost gyr tarr lgt0 fb i g hok
  obtain ⟨f, m, s, m', s', h0, h1, fM, ps, fQ, ps', hg⟩ := H key r hr logMah mah logmp0 upid lgmu logmhost gyr tarr lgt0 fb i
    (hok.imp fun x h => h.1) (hok.imp fun x h => h.2)
  have hi : Function.Injective qIndex := by decide
  have hi' : Function.Injective fun l : Fin 4 => ((0 : Fin 3), l) := fun a b h => (Prod.mk.inj h).2
  have A1 : ∀ (l : Fin 4) (v : Fin 4 → ℝ), popDraws n {x | ∃ q, (g x).paramsMs = some q ∧
      coords q (l.castAdd 4) ≤ coords (getBoundedDiffstarParams (msOfVec v)) (l.castAdd 4)} =
      gaussianReal (m l) (Real.toNNReal (s l ^ 2)) (Set.Iic (v l)) := by
    intro l v
    rw [← popDraws_deviate i _ hi' m s l (v l)]
    congr 1
    ext x
    obtain ⟨-, -, hM, -⟩ := hg x
    simp only [Set.mem_ofPred_eq]
    rw [show (g x).paramsMs = _ from hM]
    simp only [Option.some.injEq, exists_eq_left', coords_ms_le]
  have A2 : ∀ l v, popDraws n {x | ∃ q, (g x).paramsQ = some q ∧
      coords q l ≤ coords (getBoundedDiffstarParams (paramsOfVec v)) l} =
      gaussianReal (m' l) (Real.toNNReal (s' l ^ 2)) (Set.Iic (v l)) := by
    intro l v
    rw [← popDraws_deviate i _ hi m' s' l (v l)]
    congr 1
    ext x
    obtain ⟨-, -, -, hQ⟩ := hg x
    simp only [Set.mem_ofPred_eq]
    rw [show (g x).paramsQ = _ from hQ]
    simp only [Option.some.injEq, exists_eq_left', coords_le]
  have nz : ∀ a : ℝ, 0 < a → Real.toNNReal (a ^ 2) ≠ 0 := fun a ha => (Real.toNNReal_pos.2 (by positivity)).ne'
  exact ⟨m, s, m', s', fM, fQ, A1, A2, fun l => (A1 l m).trans (gaussian_median _ (nz _ (ps l))),
    fun l => (A2 l m').trans (gaussian_median _ (nz _ (ps' l)))⟩

/-- A generator of the assumed form with keys that record how they were split, and a catalogue of two galaxies without NaN. -/
example : ∃ (key : List ℕ) (r : (Fin 2 → GalaxyDraws) → Rng (List ℕ)), NormalDraws key r ∧
    ∀ (logMah : MahParams ℝ → ℝ → ℝ → ℝ) (mah : MahParams (Fin 2 → ℝ)) (i : Fin 2), ∃ x,
      (mcDiffstarSfhGalpop (r x) logMah (getBoundedDiffstarpopParams fun _ => 1) mah ![12, 13] ![-1, 7] ![-1, -2] ![12, 14]
        ![2, 3] key [1, 5, 13] 1 0.16 i).paramsMs ≠ none ∧
      (mcDiffstarSfhGalpop (r x) logMah (getBoundedDiffstarpopParams fun _ => 1) mah ![12, 13] ![-1, 7] ![-1, -2] ![12, 14]
        ![2, 3] key [1, 5, 13] 1 0.16 i).paramsQ ≠ none := by
  refine ⟨[], fun x => ⟨fun k _ i => k ++ [i.val],
    fun k m c l => m l + Real.sqrt (c l l) * (x (Fin.ofNat 2 (k.getD 0 0))).1 (Fin.ofNat 3 (k.getD 1 0), l),
    fun k => (x (Fin.ofNat 2 (k.getD 0 0))).2⟩, ⟨fun x y => rfl, ?_, ?_⟩, ?_⟩
  · intro x i j mu s hs
    funext l
    simp only [Matrix.diagonal_apply_eq, Real.sqrt_sq (hs l).le]
    fin_cases i <;> fin_cases j <;> rfl
  · intro x i
    fin_cases i <;> rfl
  · intro logMah mah i
    refine ⟨fun _ => (fun _ => 0, 0), ?_⟩
    obtain ⟨h1, h2⟩ := C94_nan_iff_zero_slope (K := List ℕ) ⟨fun k _ i => k ++ [i.val],
      fun k m c l => m l + Real.sqrt (c l l) * 0, fun k => 0⟩ (fun _ => 1) ((![12, 13] : Fin 2 → ℝ) i)
      (mah.tPeak i) ((![-1, 7] : Fin 2 → ℤ) i) ((![-1, -2] : Fin 2 → ℝ) i) ((![12, 14] : Fin 2 → ℝ) i)
      ((![2, 3] : Fin 2 → ℝ) i) [i.val]
    have n1 := h1.not.2 (by simp)
    have n2 := h2.not.2 (by simp)
    exact ⟨n1, n2⟩

end Diffstar.Props
