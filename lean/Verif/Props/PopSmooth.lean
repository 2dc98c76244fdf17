import Verif.Lemmas.SmoothPop
import Verif.Props.PopLoss
import Verif.Props.PopNan
import Verif.Props.Smooth

/-! C93: the population losses are smooth functions of the unbounded population parameters. -/

namespace Diffstar.Spec

open Diffstar.Pop Filter Topology

/-- The sampler is smooth in the means and in the variances of a diagonal covariance while these are positive (as
`mean + chol(cov) z` is). -/
def SmoothMvn {K : Type} (rng : Rng K) (n : ℕ) : Prop :=
  ∀ (key : K) (j : Fin 4) (m s : Fin 4 → ℝ), (∀ i, 0 < s i) →
    ContDiffAt ℝ n (fun x : (Fin 4 → ℝ) × (Fin 4 → ℝ) => rng.multivariateNormal key x.1 (Matrix.diagonal x.2) j) (m, s)

/-- No entry of the history is on the point of reaching its floor: it is off the floor, or on it for all nearby
parameters. -/
def OffFloor (S : (PF → ℝ) → Option (List ℝ)) (u : PF → ℝ) : Prop :=
  ∀ l, S u = some l → ∀ (j : ℕ) (s : ℝ), l[j]? = some s →
    s ≠ 1 / 10 ^ 14 ∨ ∀ᶠ v in 𝓝 u, ∀ l', S v = some l' → l'[j]? = some (1 / 10 ^ 14 : ℝ)

/-- The log sSFR before clipping is not exactly at the clipping value. -/
def OffClip (tobs : ℝ) (S : Option (List ℝ)) : Prop :=
  ∀ l, S = some l → Real.logb 10 (l.getLastD 0) - logMassAt tobs l ≠ -12

end Diffstar.Spec

namespace Diffstar.Props

open Diffstar Diffstar.Spec Diffstar.Pop Diffstar.PopLoss Set Filter Topology

section

variable {n : WithTop ℕ∞} {u : PF → ℝ}

local notation "B" => getBoundedDiffstarpopParams

theorem ContDiffAt.mcrit (a b c d : QF) (x : ℝ) :
    ContDiffAt ℝ n (fun v => mcritModel x (B v (.inl a)) (B v (.inl b)) (B v (.inl c)) (B v (.inl d))) u := by
  unfold mcritModel sigSlope
  have h := fun f : PF => contDiffAt_bounded (n := n) (u := u) f
  exact (h _).add ((ContDiffAt.sigm contDiffAt_const (h _) contDiffAt_const (h _) (h _)).mul
    (contDiffAt_const.sub (h _)))

theorem smooth_line (a b : QF) (x : ℝ) (bd : ℝ × ℝ) (h : (lineModel x (B u (.inl a)) (B u (.inl b)) bd).isSome) :
    SmoothOpt n (fun v => lineModel x (B v (.inl a)) (B v (.inl b)) bd) u :=
  smoothOpt_line (contDiffAt_bounded _) (contDiffAt_bounded _) h

theorem smooth_meanMseq (m : ℝ) (h : (getMeanUParamsMseq (sfhPdfPart (B u)) m).isSome) :
    SmoothOpt n (fun v => getMeanUParamsMseq (sfhPdfPart (B v)) m) u := by
  simp only [getMeanUParamsMseq, sfhPdfPart_apply] at h ⊢
  have l1 : (lineModel m (B u (.inl .mean_ul_mseq_int)) (B u (.inl .mean_ul_mseq_slp)) BV_mean_ul).isSome := by
    by_contra hn; rw [Option.not_isSome_iff_eq_none] at hn; simp [hn] at h
  have l2 : (lineModel m (B u (.inl .mean_uh_mseq_int)) (B u (.inl .mean_uh_mseq_slp)) BV_mean_uh).isSome := by
    by_contra hn; rw [Option.not_isSome_iff_eq_none] at hn; simp [hn] at h
  obtain ⟨g1, c1, e1⟩ := smooth_line (n := n) _ _ _ _ l1
  obtain ⟨g2, c2, e2⟩ := smooth_line (n := n) _ _ _ _ l2
  refine ⟨_, contDiffAt_vec4
    (ContDiffAt.mcrit .mean_ulgm_mseq_xtp .mean_ulgm_mseq_ytp .mean_ulgm_mseq_lo .mean_ulgm_mseq_hi m)
    (ContDiffAt.mcrit .mean_ulgy_mseq_xtp .mean_ulgy_mseq_ytp .mean_ulgy_mseq_lo .mean_ulgy_mseq_hi m) c1 c2, ?_⟩
  filter_upwards [e1, e2] with v h1 h2
  rw [h1, h2]
  rfl

theorem smooth_meanQseq (m t : ℝ) (h : (getMeanUParamsQseq (sfhPdfPart (B u)) m t).isSome) :
    SmoothOpt n (fun v => getMeanUParamsQseq (sfhPdfPart (B v)) m t) u := by
  simp only [getMeanUParamsQseq, sfhPdfPart_apply, deltaUqt] at h ⊢
  have l1 : (lineModel m (B u (.inl .mean_ul_qseq_int)) (B u (.inl .mean_ul_qseq_slp)) BV_mean_ul).isSome := by
    by_contra hn; rw [Option.not_isSome_iff_eq_none] at hn; simp [hn] at h
  have l2 : (lineModel m (B u (.inl .mean_uh_qseq_int)) (B u (.inl .mean_uh_qseq_slp)) BV_mean_uh).isSome := by
    by_contra hn; rw [Option.not_isSome_iff_eq_none] at hn; simp [hn] at h
  have l3 : (lineModel m (B u (.inl .mean_uqs_int)) (B u (.inl .mean_uqs_slp)) BV_mean_uqs).isSome := by
    by_contra hn; rw [Option.not_isSome_iff_eq_none] at hn; simp [hn] at h
  have l4 : (lineModel m (B u (.inl .mean_udrop_int)) (B u (.inl .mean_udrop_slp)) BV_mean_udrop).isSome := by
    by_contra hn; rw [Option.not_isSome_iff_eq_none] at hn; simp [hn] at h
  have l5 : (lineModel m (B u (.inl .mean_urej_int)) (B u (.inl .mean_urej_slp)) BV_mean_urej).isSome := by
    by_contra hn; rw [Option.not_isSome_iff_eq_none] at hn; simp [hn] at h
  obtain ⟨g1, c1, e1⟩ := smooth_line (n := n) _ _ _ _ l1
  obtain ⟨g2, c2, e2⟩ := smooth_line (n := n) _ _ _ _ l2
  obtain ⟨g3, c3, e3⟩ := smooth_line (n := n) _ _ _ _ l3
  obtain ⟨g4, c4, e4⟩ := smooth_line (n := n) _ _ _ _ l4
  obtain ⟨g5, c5, e5⟩ := smooth_line (n := n) _ _ _ _ l5
  have hb := fun f : PF => contDiffAt_bounded (n := n) (u := u) f
  refine ⟨_, contDiffAt_vec8
    (ContDiffAt.mcrit .mean_ulgm_qseq_xtp .mean_ulgm_qseq_ytp .mean_ulgm_qseq_lo .mean_ulgm_qseq_hi m)
    (ContDiffAt.mcrit .mean_ulgy_qseq_xtp .mean_ulgy_qseq_ytp .mean_ulgy_qseq_lo .mean_ulgy_qseq_hi m) c1 c2
    ((ContDiffAt.mcrit .mean_uqt_xtp .mean_uqt_ytp .mean_uqt_lo .mean_uqt_hi m).add
      ((ContDiffAt.sigm (contDiffAt_const (c := t)) (hb (.inl .delta_uqt_x0)) (hb (.inl .delta_uqt_k))
        (hb (.inl .delta_uqt_ylo)) (hb (.inl .delta_uqt_yhi))).add
      ((contDiffAt_const (c := m - 12.5)).mul (hb (.inl .delta_uqt_slope))))) c3 c4 c5, ?_⟩
  filter_upwards [e1, e2, e3, e4, e5] with v h1 h2 h3 h4 h5
  rw [h1, h2, h3, h4, h5]
  rfl

/-- A covariance block: diagonal, with smooth standard deviations above 0.01. -/
def SmoothCov (n : WithTop ℕ∞) (F : (PF → ℝ) → Option (Matrix (Fin 4) (Fin 4) ℝ)) (u : PF → ℝ) : Prop :=
  ∃ s : (PF → ℝ) → Fin 4 → ℝ, ContDiffAt ℝ n s u ∧ (∀ i, 0.01 < s u i) ∧
    ∀ᶠ v in 𝓝 u, F v = some (Matrix.diagonal fun i => s v i ^ 2)

theorem smooth_std (fi fs : QF) (hi m : ℝ) (h1 : (QF.boundsQ fi).1 = 1 / 100)
    (hbh : ((QF.boundsQ fi).2 : ℝ) = hi) (hbs : QF.boundsQ fs = (-1, 1))
    (h : (lineModel m (B u (.inl fi)) (B u (.inl fs)) (0.01, hi)).isSome) :
    ∃ g : (PF → ℝ) → ℝ, ContDiffAt ℝ n g u ∧ 0.01 < g u ∧
      ∀ᶠ v in 𝓝 u, lineModel m (B v (.inl fi)) (B v (.inl fs)) (0.01, hi) = some (g v) := by
  obtain ⟨g, c, e⟩ := smooth_line (n := n) fi fs m (0.01, hi) h
  have hs : u (.inl fs) ≠ 0 := by
    intro h0
    rw [bounded_slope_zero hbs h0, lineModel_zero] at h
    simp at h
  obtain ⟨w, hw, hw'⟩ := std_line (logm := m) h1 hbh hbs hs
  have : lineModel m (B u (.inl fi)) (B u (.inl fs)) (0.01, hi) = some (g u) := e.self_of_nhds
  rw [hw, Option.some.injEq] at this
  exact ⟨g, c, this ▸ hw', e⟩

theorem smoothCov_mk {F : (PF → ℝ) → Option (Matrix (Fin 4) (Fin 4) ℝ)} {a b c d : (PF → ℝ) → ℝ}
    (ha : ContDiffAt ℝ n a u) (hb : ContDiffAt ℝ n b u) (hc : ContDiffAt ℝ n c u) (hd : ContDiffAt ℝ n d u)
    (ha' : 0.01 < a u) (hb' : 0.01 < b u) (hc' : 0.01 < c u) (hd' : 0.01 < d u)
    (h : ∀ᶠ v in 𝓝 u, F v = some (covarianceFromCovParams ![a v, b v, c v, d v] fun _ => 0)) : SmoothCov n F u := by
  refine ⟨_, contDiffAt_vec4 ha hb hc hd, fun i => ?_, ?_⟩
  · fin_cases i <;> assumption
  · filter_upwards [h] with v hv
    rw [hv, covarianceFromCovParams_zero]

theorem smooth_covMseq (m : ℝ) (h : (getCovarianceMseqMsBlock (sfhPdfPart (B u)) m).isSome) :
    SmoothCov n (fun v => getCovarianceMseqMsBlock (sfhPdfPart (B v)) m) u := by
  simp only [getCovarianceMseqMsBlock, getCovParamsMseqMsBlock, sfhPdfPart_apply, BV_std_ulgm, BV_std_ulgy,
      BV_std_ul, BV_std_uh] at h ⊢
  obtain ⟨g1, c1, p1, e1⟩ := smooth_std (n := n) (u := u) .std_ulgm_mseq_int .std_ulgm_mseq_slp 1 m
    (by norm_num [QF.boundsQ]) (by norm_num [QF.boundsQ]) (by norm_num [QF.boundsQ])
    (by by_contra hn; rw [Option.not_isSome_iff_eq_none] at hn; simp [hn] at h)
  obtain ⟨g2, c2, p2, e2⟩ := smooth_std (n := n) (u := u) .std_ulgy_mseq_int .std_ulgy_mseq_slp 1 m
    (by norm_num [QF.boundsQ]) (by norm_num [QF.boundsQ]) (by norm_num [QF.boundsQ])
    (by by_contra hn; rw [Option.not_isSome_iff_eq_none] at hn; simp [hn] at h)
  obtain ⟨g3, c3, p3, e3⟩ := smooth_std (n := n) (u := u) .std_ul_mseq_int .std_ul_mseq_slp 3 m
    (by norm_num [QF.boundsQ]) (by norm_num [QF.boundsQ]) (by norm_num [QF.boundsQ])
    (by by_contra hn; rw [Option.not_isSome_iff_eq_none] at hn; simp [hn] at h)
  obtain ⟨g4, c4, p4, e4⟩ := smooth_std (n := n) (u := u) .std_uh_mseq_int .std_uh_mseq_slp 3 m
    (by norm_num [QF.boundsQ]) (by norm_num [QF.boundsQ]) (by norm_num [QF.boundsQ])
    (by by_contra hn; rw [Option.not_isSome_iff_eq_none] at hn; simp [hn] at h)
  refine smoothCov_mk c1 c2 c3 c4 p1 p2 p3 p4 ?_
  filter_upwards [e1, e2, e3, e4] with v h1 h2 h3 h4
  rw [h1, h2, h3, h4]
  rfl

theorem smooth_covQseqMs (m : ℝ) (h : (getCovarianceQseqMsBlock (sfhPdfPart (B u)) m).isSome) :
    SmoothCov n (fun v => getCovarianceQseqMsBlock (sfhPdfPart (B v)) m) u := by
  simp only [getCovarianceQseqMsBlock, getCovParamsQseqMsBlock, sfhPdfPart_apply, BV_std_ulgm, BV_std_ulgy,
      BV_std_ul, BV_std_uh] at h ⊢
  obtain ⟨g1, c1, p1, e1⟩ := smooth_std (n := n) (u := u) .std_ulgm_qseq_int .std_ulgm_qseq_slp 1 m
    (by norm_num [QF.boundsQ]) (by norm_num [QF.boundsQ]) (by norm_num [QF.boundsQ])
    (by by_contra hn; rw [Option.not_isSome_iff_eq_none] at hn; simp [hn] at h)
  obtain ⟨g2, c2, p2, e2⟩ := smooth_std (n := n) (u := u) .std_ulgy_qseq_int .std_ulgy_qseq_slp 1 m
    (by norm_num [QF.boundsQ]) (by norm_num [QF.boundsQ]) (by norm_num [QF.boundsQ])
    (by by_contra hn; rw [Option.not_isSome_iff_eq_none] at hn; simp [hn] at h)
  obtain ⟨g3, c3, p3, e3⟩ := smooth_std (n := n) (u := u) .std_ul_qseq_int .std_ul_qseq_slp 3 m
    (by norm_num [QF.boundsQ]) (by norm_num [QF.boundsQ]) (by norm_num [QF.boundsQ])
    (by by_contra hn; rw [Option.not_isSome_iff_eq_none] at hn; simp [hn] at h)
  obtain ⟨g4, c4, p4, e4⟩ := smooth_std (n := n) (u := u) .std_uh_qseq_int .std_uh_qseq_slp 3 m
    (by norm_num [QF.boundsQ]) (by norm_num [QF.boundsQ]) (by norm_num [QF.boundsQ])
    (by by_contra hn; rw [Option.not_isSome_iff_eq_none] at hn; simp [hn] at h)
  refine smoothCov_mk c1 c2 c3 c4 p1 p2 p3 p4 ?_
  filter_upwards [e1, e2, e3, e4] with v h1 h2 h3 h4
  rw [h1, h2, h3, h4]
  rfl

theorem smooth_covQseqQ (m : ℝ) (h : (getCovarianceQseqQBlock (sfhPdfPart (B u)) m).isSome) :
    SmoothCov n (fun v => getCovarianceQseqQBlock (sfhPdfPart (B v)) m) u := by
  simp only [getCovarianceQseqQBlock, getCovParamsQseqQBlock, sfhPdfPart_apply, BV_std_uqt, BV_std_uqs,
      BV_std_udrop, BV_std_urej] at h ⊢
  obtain ⟨g1, c1, p1, e1⟩ := smooth_std (n := n) (u := u) .std_uqt_int .std_uqt_slp 0.5 m
    (by norm_num [QF.boundsQ]) (by norm_num [QF.boundsQ]) (by norm_num [QF.boundsQ])
    (by by_contra hn; rw [Option.not_isSome_iff_eq_none] at hn; simp [hn] at h)
  obtain ⟨g2, c2, p2, e2⟩ := smooth_std (n := n) (u := u) .std_uqs_int .std_uqs_slp 1 m
    (by norm_num [QF.boundsQ]) (by norm_num [QF.boundsQ]) (by norm_num [QF.boundsQ])
    (by by_contra hn; rw [Option.not_isSome_iff_eq_none] at hn; simp [hn] at h)
  obtain ⟨g3, c3, p3, e3⟩ := smooth_std (n := n) (u := u) .std_udrop_int .std_udrop_slp 2 m
    (by norm_num [QF.boundsQ]) (by norm_num [QF.boundsQ]) (by norm_num [QF.boundsQ])
    (by by_contra hn; rw [Option.not_isSome_iff_eq_none] at hn; simp [hn] at h)
  obtain ⟨g4, c4, p4, e4⟩ := smooth_std (n := n) (u := u) .std_urej_int .std_urej_slp 2 m
    (by norm_num [QF.boundsQ]) (by norm_num [QF.boundsQ]) (by norm_num [QF.boundsQ])
    (by by_contra hn; rw [Option.not_isSome_iff_eq_none] at hn; simp [hn] at h)
  refine smoothCov_mk c1 c2 c3 c4 p1 p2 p3 p4 ?_
  filter_upwards [e1, e2, e3, e4] with v h1 h2 h3 h4
  rw [h1, h2, h3, h4]
  rfl

/-- A drawn parameter set. -/
def SmoothPar (n : WithTop ℕ∞) (F : (PF → ℝ) → Option (DiffstarParams ℝ)) (u : PF → ℝ) : Prop :=
  ∃ P : (PF → ℝ) → Fin 8 → ℝ, ContDiffAt ℝ n P u ∧ ∀ᶠ v in 𝓝 u, F v = some (paramsOfVec (P v))

theorem mvn_smooth {K : Type} {rng : Rng K} {n : ℕ} (hr : SmoothMvn rng n) (key : K) {mu s : (PF → ℝ) → Fin 4 → ℝ}
    (hm : ContDiffAt ℝ n mu u) (hs : ContDiffAt ℝ n s u) (hp : ∀ i, 0.01 < s u i) (j : Fin 4) :
    ContDiffAt ℝ n (fun v => rng.multivariateNormal key (mu v) (Matrix.diagonal fun i => s v i ^ 2) j) u := by
  have h2 : ContDiffAt ℝ n (fun v => (fun i => s v i ^ 2 : Fin 4 → ℝ)) u := by
    rw [contDiffAt_pi] at hs ⊢
    exact fun i => (hs i).pow 2
  exact (hr key j (mu u) (fun i => s u i ^ 2) fun i => by have := hp i; norm_num at this; nlinarith).comp u
    (hm.prodMk h2)

theorem drawMs_smooth {K : Type} {rng : Rng K} {n : ℕ} (hr : SmoothMvn rng n) (key : K)
    {mu : (PF → ℝ) → Option (Fin 4 → ℝ)} {cov : (PF → ℝ) → Option (Matrix (Fin 4) (Fin 4) ℝ)}
    (hm : SmoothOpt n mu u) (hc : SmoothCov n cov u) : SmoothPar n (fun v => drawMs rng key (mu v) (cov v)) u := by
  obtain ⟨g, cg, eg⟩ := hm
  obtain ⟨s, cs, ps, es⟩ := hc
  have h := mvn_smooth hr key cg cs ps
  refine ⟨_, contDiffAt_vec8 (h 0) (h 1) (h 2) (h 3) (contDiffAt_const (c := (5 : ℝ)))
    (contDiffAt_const (c := (5 : ℝ))) (contDiffAt_const (c := (5 : ℝ))) (contDiffAt_const (c := (5 : ℝ))), ?_⟩
  filter_upwards [eg, es] with v h1 h2
  rw [h1, h2]
  rfl

theorem drawQ_smooth {K : Type} {rng : Rng K} {n : ℕ} (hr : SmoothMvn rng n) (k1 k2 : K)
    {mu : (PF → ℝ) → Option (Fin 8 → ℝ)} {c1 c2 : (PF → ℝ) → Option (Matrix (Fin 4) (Fin 4) ℝ)}
    (hm : SmoothOpt n mu u) (hc1 : SmoothCov n c1 u) (hc2 : SmoothCov n c2 u) :
    SmoothPar n (fun v => drawQ rng k1 k2 (mu v) (c1 v) (c2 v)) u := by
  obtain ⟨g, cg, eg⟩ := hm
  obtain ⟨s, cs, ps, es⟩ := hc1
  obtain ⟨s', cs', ps', es'⟩ := hc2
  rw [contDiffAt_pi] at cg
  have h := mvn_smooth hr k1 (contDiffAt_vec4 (cg 0) (cg 1) (cg 2) (cg 3)) cs ps
  have h' := mvn_smooth hr k2 (contDiffAt_vec4 (cg 4) (cg 5) (cg 6) (cg 7)) cs' ps'
  refine ⟨_, contDiffAt_vec8 (h 0) (h 1) (h 2) (h 3) (h' 0) (h' 1) (h' 2) (h' 3), ?_⟩
  filter_upwards [eg, es, es'] with v h1 h2 h3
  rw [h1, h2, h3]
  rfl

/-- The drawn unbounded parameters of one galaxy. -/
theorem uParams_smooth {K : Type} {rng : Rng K} {n : ℕ} (hr : SmoothMvn rng n) (m t : ℝ) (upid : ℤ) (a b c : ℝ)
    (key : K) :
    let F := fun v => mcDiffstarUParamsSinglegalKernel rng (B v) m t upid a b c key
    ((F u).uMs.isSome → SmoothPar n (fun v => (F v).uMs) u) ∧
    ((F u).uQ.isSome → SmoothPar n (fun v => (F v).uQ) u) ∧ ContDiffAt ℝ n (fun v => (F v).fracQ) u := by
  refine ⟨fun h => ?_, fun h => ?_, ?_⟩
  · simp only [mcDiffstarUParamsSinglegalKernel, diffstarpopMeansCovs, sfhPdfScalarKernel] at h ⊢
    refine drawMs_smooth hr _ (smooth_meanMseq m ?_) (smooth_covMseq m ?_)
    · by_contra hn; rw [Option.not_isSome_iff_eq_none] at hn; simp [hn, drawMs] at h
    · by_contra hn; rw [Option.not_isSome_iff_eq_none] at hn; simp [hn, drawMs] at h
  · simp only [mcDiffstarUParamsSinglegalKernel, diffstarpopMeansCovs, sfhPdfScalarKernel] at h ⊢
    refine drawQ_smooth hr _ _ (smooth_meanQseq m t ?_) (smooth_covQseqMs m ?_) (smooth_covQseqQ m ?_)
    · by_contra hn; rw [Option.not_isSome_iff_eq_none] at hn; simp [hn, drawQ] at h
    · by_contra hn; rw [Option.not_isSome_iff_eq_none] at hn; simp [hn, drawQ] at h
    · by_contra hn; rw [Option.not_isSome_iff_eq_none] at hn; simp [hn, drawQ] at h
  · have hb := fun f : PF => contDiffAt_bounded (n := (n : WithTop ℕ∞)) (u := u) f
    have k : ∀ r : ℝ, ContDiffAt ℝ n (fun _ : PF → ℝ => r) u := fun r => contDiffAt_const
    simp only [mcDiffstarUParamsSinglegalKernel, diffstarpopMeansCovs, sfhPdfScalarKernel]
    split_ifs
    · simp only [fracQuenchCen, sfhPdfPart_apply]
      exact ContDiffAt.sigm (k _) (ContDiffAt.sigm (k _) (hb _) (hb _) (hb _) (hb _)) (hb _)
        (ContDiffAt.sigm (k _) (hb _) (hb _) (hb _) (hb _)) (hb _)
    · have hs : ContDiffAt ℝ n (fun v => fracQuenchSat (sfhPdfPart (B v)) m t) u := by
        simp only [fracQuenchSat, sfhPdfPart_apply]
        exact ContDiffAt.sigm (k _) (ContDiffAt.sigm (k _) (hb _) (hb _) (hb _) (hb _)) (hb _)
          (ContDiffAt.sigm (k _) (hb _) (hb _) (hb _) (hb _)) (hb _)
      have hd : ContDiffAt ℝ n (fun v => predictSatFracDeltaQprob (satquenchPart (B v)) a b c) u := by
        simp only [predictSatFracDeltaQprob, satquenchKernel, qprobHiVsSubHostMass, tDelayVsLogmhost,
          satquenchPart_apply]
        exact ContDiffAt.sigm (k _) (ContDiffAt.sigm (k _) (hb _) (k _) (hb _) (hb _)) (k _) (k _)
          (ContDiffAt.sigm (k _) (hb _) (k _) (ContDiffAt.sigm (k _) (hb _) (k _) (hb _) (hb _))
            (ContDiffAt.sigm (k _) (hb _) (k _) (hb _) (hb _)))
      exact hs.add (hd.mul ((k 1).sub hs))

/-! Histories, masses and rates of one galaxy. -/

theorem contDiffAt_max_of {E : Type*} [NormedAddCommGroup E] [NormedSpace ℝ E] {x : E} {f : E → ℝ} (hf : ContDiffAt ℝ n f x)
    (c : ℝ) (h : n = 0 ∨ f x ≠ c) : ContDiffAt ℝ n (fun v => max (f v) c) x := by
  rcases h with rfl | h
  · obtain ⟨s, hs, hc⟩ := contDiffAt_zero.1 hf
    exact contDiffAt_zero.2 ⟨s, hs, continuous_max.comp_continuousOn (ContinuousOn.prodMk hc continuousOn_const)⟩
  · rcases lt_or_gt_of_ne h with h | h
    · refine (contDiffAt_const (c := c)).congr_of_eventuallyEq ?_
      filter_upwards [hf.continuousAt.eventually_lt_const h] with v hv
      exact max_eq_right hv.le
    · refine hf.congr_of_eventuallyEq ?_
      filter_upwards [hf.continuousAt.eventually_const_lt h] with v hv
      exact max_eq_left hv.le

theorem contDiffAt_trapFrom' {E : Type*} [NormedAddCommGroup E] [NormedSpace ℝ E] (x : E) (a : ℝ) (fa c : E → ℝ)
    (hfa : ContDiffAt ℝ n fa x) (hc : ContDiffAt ℝ n c x) (ts : List ℝ) (r : ℝ → E → ℝ)
    (hr : ∀ t ∈ ts, ContDiffAt ℝ n (r t) x) (i : ℕ) (hi : i < ts.length) :
    ∃ f : E → ℝ, (∀ v, (trapFrom a (fa v) (c v) (ts.zip (ts.map fun t => r t v)))[i]? = some (f v)) ∧
      ContDiffAt ℝ n f x := by
  induction ts generalizing a fa c i with
  | nil => simp at hi
  | cons t ts ih =>
    have h1 := hr t List.mem_cons_self
    have h2 : ContDiffAt ℝ n (fun v => c v + (t - a) * (r t v + fa v) / 2) x := by fun_prop
    cases i with
    | zero => exact ⟨_, fun v => by simp, h2⟩
    | succ i =>
      obtain ⟨f, h3, h4⟩ := ih t (r t) _ h1 h2 (fun s hs => hr s (List.mem_cons_of_mem _ hs)) i (by simpa using hi)
      exact ⟨f, fun v => by simpa using h3 v, h4⟩

theorem getLastD_of_length {l : List ℝ} (h : l.length = 20) {x : ℝ} (hx : l[19]? = some x) : l.getLastD 0 = x := by
  rw [List.getLastD_eq_getLast?, List.getLast?_eq_getElem?, h, hx]
  rfl

theorem contDiffAt_logb {f : (PF → ℝ) → ℝ} (hf : ContDiffAt ℝ n f u) (h : 0 < f u) :
    ContDiffAt ℝ n (fun v => Real.logb 10 (f v)) u := by
  unfold Real.logb
  exact (hf.log h.ne').div_const _

theorem obsTimes_length (tobs : ℝ) : (obsTimes tobs).length = 20 := by simp [obsTimes, logspace, N_TIMES]

/-- Mass and rate at the time of observation of one branch of one galaxy. -/
theorem obs_smooth (hn : n ≤ 3) {F : (PF → ℝ) → Option (DiffstarParams ℝ)} (hF : SmoothPar n F u)
    (logMah : MahParams ℝ → ℝ → ℝ → ℝ) (mah : MahParams ℝ) (tobs lgt0 fb : ℝ) (S : (PF → ℝ) → Option (List ℝ))
    (hS : ∀ v, S v = ((F v).map getBoundedDiffstarParams).map fun q =>
      sfhSinglegalKern logMah (obsTimes tobs) mah q.ms q.q lgt0 fb)
    (hreg : n = 0 ∨ OffFloor S u) (hpos : ∀ l, S u = some l → 0 < (obsData tobs l).1 ∧ 0 < (obsData tobs l).2) :
    ∃ m f : (PF → ℝ) → ℝ, ContDiffAt ℝ n m u ∧ ContDiffAt ℝ n f u ∧ ∀ᶠ v in 𝓝 u, ∃ l, S v = some l ∧
      logMassAt tobs l = m v ∧ Real.logb 10 (l.getLastD 0) = f v := by
  obtain ⟨P, cP, eP⟩ := hF
  set raw : ℝ → (Fin 8 → ℝ) → ℝ := fun t w =>
    (10 : ℝ) ^ qExp (Real.logb 10 t) (getBoundedDiffstarParams (paramsOfVec w)).lgQt
      ((10 : ℝ) ^ (getBoundedDiffstarParams (paramsOfVec w)).qlglgdt)
      (getBoundedDiffstarParams (paramsOfVec w)).lgDrop (getBoundedDiffstarParams (paramsOfVec w)).lgRejuv *
        msSfr (getBoundedDiffstarParams (paramsOfVec w)) fb (logMah mah t lgt0) with hraw
  have craw : ∀ t, ContDiffAt ℝ n (fun v => raw t (P v)) u := fun t =>
    ((contDiff_rawSfr_unbounded (Real.logb 10 t) fb (logMah mah t lgt0)).contDiffAt.of_le hn).comp u cP
  set r : ℝ → (PF → ℝ) → ℝ := fun t v => max (1 / 10 ^ 14) (raw t (P v)) with hr
  have eS : ∀ᶠ v in 𝓝 u, S v = some ((obsTimes tobs).map fun t => r t v) := by
    filter_upwards [eP] with v hv
    rw [hS v, hv, Option.map_some, Option.map_some]
    exact congrArg some (calcSfhSinglegal_eq logMah (getBoundedDiffstarParams (paramsOfVec (P v))) mah (obsTimes tobs)
      lgt0 fb)
  have cr : ∀ t ∈ obsTimes tobs, ContDiffAt ℝ n (r t) u := by
    intro t ht
    have comm : r t = fun v => max (raw t (P v)) (1 / 10 ^ 14) := funext fun v => max_comm _ _
    rcases hreg with h0 | hreg
    · rw [comm]; exact contDiffAt_max_of (craw t) _ (Or.inl h0)
    · obtain ⟨j, hj, rfl⟩ := List.mem_iff_getElem.1 ht
      have hel : ∀ v, ((obsTimes tobs).map fun t => r t v)[j]? = some (r (obsTimes tobs)[j] v) := fun v => by
        rw [List.getElem?_map, List.getElem?_eq_getElem hj, Option.map_some]
      rcases hreg _ eS.self_of_nhds j _ (hel u) with h | h
      · rw [comm]
        refine (contDiffAt_max_of (craw _) _ (Or.inr ?_))
        by_contra hc
        exact h (by simp only [hr]; rw [hc, max_self])
      · refine (contDiffAt_const (c := (1 / 10 ^ 14 : ℝ))).congr_of_eventuallyEq ?_
        filter_upwards [h, eS] with v h1 h2
        have := h1 _ h2
        rw [hel v, Option.some.injEq] at this
        exact this
  have hlen := obsTimes_length tobs
  obtain ⟨M, hM, cM⟩ := contDiffAt_trapFrom' u 0.001 (fun _ => 1 / 10 ^ 14) (fun _ => 0) contDiffAt_const
    contDiffAt_const (obsTimes tobs) r cr 19 (by omega)
  have hlastM : ∀ v, (cumulativeMstarFormed (obsTimes tobs) ((obsTimes tobs).map fun t => r t v)).getLastD 0 =
      M v * 10 ^ 9 := by
    intro v
    refine getLastD_of_length (by rw [cmf_length] <;> simp [hlen]) ?_
    rw [cmf_eq, List.getElem?_map, hM v, Option.map_some]
  have hlastS : ∀ v, ((obsTimes tobs).map fun t => r t v).getLastD 0 = r ((obsTimes tobs)[19]'(by omega)) v := by
    intro v
    refine getLastD_of_length (by simp [hlen]) ?_
    rw [List.getElem?_map, List.getElem?_eq_getElem (by omega), Option.map_some]
  have hmem : (obsTimes tobs)[19]'(by omega) ∈ obsTimes tobs := List.getElem_mem _
  have hp := hpos _ eS.self_of_nhds
  simp only [obsData] at hp
  rw [hlastM, hlastS] at hp
  refine ⟨fun v => Real.logb 10 (M v * 10 ^ 9), fun v => Real.logb 10 (r ((obsTimes tobs)[19]'(by omega)) v),
    contDiffAt_logb (cM.mul contDiffAt_const) hp.2, contDiffAt_logb (cr _ hmem) hp.1, ?_⟩
  filter_upwards [eS] with v hv
  exact ⟨_, hv, by rw [logMassAt, hlastM], by rw [hlastS]⟩

/-- Both branches of one galaxy. -/
theorem gal_smooth {K : Type} {rng : Rng K} {n : ℕ} (hr : SmoothMvn rng n) (hn : n ≤ 3) {ng : ℕ}
    (logMah : MahParams ℝ → ℝ → ℝ → ℝ) (h : HaloSample K ng) (lgt0 fb : ℝ) (ht : 0.1 < h.tobs) (i : Fin ng)
    (hMs : (mcSample rng logMah (B u) h lgt0 fb i).sfhMs.isSome)
    (hQ : (mcSample rng logMah (B u) h lgt0 fb i).sfhQ.isSome)
    (hreg : n = 0 ∨ OffFloor (fun v => (mcSample rng logMah (B v) h lgt0 fb i).sfhMs) u ∧
      OffFloor (fun v => (mcSample rng logMah (B v) h lgt0 fb i).sfhQ) u) :
    ∃ mM fM mQ fQ : (PF → ℝ) → ℝ, ContDiffAt ℝ n mM u ∧ ContDiffAt ℝ n fM u ∧ ContDiffAt ℝ n mQ u ∧
      ContDiffAt ℝ n fQ u ∧ ContDiffAt ℝ n (fun v => (mcSample rng logMah (B v) h lgt0 fb i).fracQ) u ∧
      ∀ᶠ v in 𝓝 u, ∃ l l', (mcSample rng logMah (B v) h lgt0 fb i).sfhMs = some l ∧
        (mcSample rng logMah (B v) h lgt0 fb i).sfhQ = some l' ∧ logMassAt h.tobs l = mM v ∧
        Real.logb 10 (l.getLastD 0) = fM v ∧ logMassAt h.tobs l' = mQ v ∧ Real.logb 10 (l'.getLastD 0) = fQ v := by
  have hn' : (n : WithTop ℕ∞) ≤ 3 := by exact_mod_cast hn
  obtain ⟨h1, h2, h3⟩ := uParams_smooth (u := u) hr (h.logmp0 i) (h.mah.tPeak i) (h.upid i) (h.lgmuInfall i)
    (h.logmhostInfall i) (h.gyrSinceInfall i) (rng.split h.ranKey ng i)
  have hpos := fun sfh hs => C27_observables_positive rng logMah (B u) h lgt0 fb ht i sfh hs
  have p14 : (0 : ℝ) < 1 / 10 ^ 14 := by norm_num
  obtain ⟨mM, fM, a1, a2, a3⟩ := obs_smooth hn' (h1 (by
    have : (((mcDiffstarUParamsSinglegalKernel rng (B u) (h.logmp0 i) (h.mah.tPeak i) (h.upid i) (h.lgmuInfall i)
      (h.logmhostInfall i) (h.gyrSinceInfall i) (rng.split h.ranKey ng i)).uMs.map getBoundedDiffstarParams).map
      fun q => sfhSinglegalKern logMah (obsTimes h.tobs) (h.mah.row i) q.ms q.q lgt0 fb).isSome := hMs
    simpa using this)) logMah (h.mah.row i) h.tobs lgt0 fb (fun v => (mcSample rng logMah (B v) h lgt0 fb i).sfhMs)
    (fun v => rfl) (hreg.imp (fun h => by exact_mod_cast h) And.left) (fun l hl =>
      ⟨p14.trans_le (hpos l (Or.inl hl)).2.2.2.2.1, (hpos l (Or.inl hl)).2.2.2.2.2⟩)
  obtain ⟨mQ, fQ, b1, b2, b3⟩ := obs_smooth hn' (h2 (by
    have : (((mcDiffstarUParamsSinglegalKernel rng (B u) (h.logmp0 i) (h.mah.tPeak i) (h.upid i) (h.lgmuInfall i)
      (h.logmhostInfall i) (h.gyrSinceInfall i) (rng.split h.ranKey ng i)).uQ.map getBoundedDiffstarParams).map
      fun q => sfhSinglegalKern logMah (obsTimes h.tobs) (h.mah.row i) q.ms q.q lgt0 fb).isSome := hQ
    simpa using this)) logMah (h.mah.row i) h.tobs lgt0 fb (fun v => (mcSample rng logMah (B v) h lgt0 fb i).sfhQ)
    (fun v => rfl) (hreg.imp (fun h => by exact_mod_cast h) And.right) (fun l hl =>
      ⟨p14.trans_le (hpos l (Or.inr hl)).2.2.2.2.1, (hpos l (Or.inr hl)).2.2.2.2.2⟩)
  refine ⟨mM, fM, mQ, fQ, a1, a2, b1, b2, h3, ?_⟩
  filter_upwards [a3, b3] with v ⟨l, e1, e2, e3⟩ ⟨l', e4, e5, e6⟩
  exact ⟨l, l', e1, e4, e2, e3, e5, e6⟩

/-! Histograms. -/

theorem ndBin_smooth (hn : n ≤ 3) {x : (PF → ℝ) → ℝ} (hx : ContDiffAt ℝ n x u) (s lo hi : ℝ) :
    ContDiffAt ℝ n (fun v => NdHist.twBinWeightLaxKern (x v) s lo hi) u := by
  simp only [ndBin_eq]
  have h := fun y => (contDiff_jaxTw.contDiffAt (x := y)).of_le hn
  exact ((h _).comp u ((hx.sub contDiffAt_const).div_const s)).sub
    ((h _).comp u ((hx.sub contDiffAt_const).div_const s))

theorem normalise_smooth {X : Type*} [Fintype X] {W : (PF → ℝ) → X → ℝ} (hW : ∀ b, ContDiffAt ℝ n (fun v => W v b) u)
    (h : (normalise (W u)).isSome) : SmoothOpt n (fun v => normalise (W v)) u := by
  have h0 : ∑ b, W u b ≠ 0 := by
    intro h0
    simp [normalise, h0] at h
  have hs : ContDiffAt ℝ n (fun v => ∑ b, W v b) u := ContDiffAt.sum fun b _ => hW b
  refine ⟨fun v b => W v b / ∑ b, W v b, contDiffAt_pi.2 fun b => (hW b).div hs h0, ?_⟩
  filter_upwards [hs.continuousAt.eventually_ne h0] with v hv
  simp [normalise, hv]

theorem mstarPdf_eq {ng nb : ℕ} {tobs : ℝ} {gals : Fin ng → McSfh} {bins : Fin (nb + 1) → ℝ}
    {sfhMs sfhQ : Fin ng → List ℝ} (h : ∀ i, (gals i).sfhMs = some (sfhMs i) ∧ (gals i).sfhQ = some (sfhQ i)) :
    mstarPdf tobs gals bins = normalise (fun b : Fin nb => ∑ i, ((1 - (gals i).fracQ) *
          NdHist.twBinWeightLaxKern (Spec.logMassAt tobs (sfhMs i)) (meanDiff bins) (bins b.castSucc) (bins b.succ) +
        (gals i).fracQ * NdHist.twBinWeightLaxKern (Spec.logMassAt tobs (sfhQ i)) (meanDiff bins) (bins b.castSucc)
          (bins b.succ))) := by
  unfold mstarPdf
  rw [allSome_eq_some.2 fun i => (h i).1, Option.bind_some, allSome_eq_some.2 fun i => (h i).2, Option.bind_some]
  unfold diffHistMstar
  simp only [add_zero]
  congr 1
  funext b
  rw [hist_append (fun i _ => Spec.logMassAt tobs (sfhMs i)) (fun i _ => Spec.logMassAt tobs (sfhQ i))
    (fun _ => meanDiff bins)]
  · simp
  · funext j k
    refine Fin.addCases (fun i => ?_) (fun i => ?_) j
    · simp only [Fin.append_left]; rfl
    · simp only [Fin.append_right]; rfl

theorem mstarSsfrPdf_eq {ng nms nsf : ℕ} {tobs : ℝ} {gals : Fin ng → McSfh} {lo hi : Fin (nms * nsf) → Fin 2 → ℝ}
    {mb : Fin (nms + 1) → ℝ} {sb : Fin (nsf + 1) → ℝ} {sfhMs sfhQ : Fin ng → List ℝ}
    (h : ∀ i, (gals i).sfhMs = some (sfhMs i) ∧ (gals i).sfhQ = some (sfhQ i)) :
    mstarSsfrPdf tobs gals lo hi mb sb =
      normalise (fun b : Fin (nms * nsf) => ∑ i, ((1 - (gals i).fracQ) *
          (NdHist.twBinWeightLaxKern (Spec.logMassAt tobs (sfhMs i)) (meanDiff mb) (lo b 0) (hi b 0) *
           NdHist.twBinWeightLaxKern (Spec.logSsfrAt tobs (sfhMs i)) (meanDiff sb) (lo b 1) (hi b 1)) +
        (gals i).fracQ *
          (NdHist.twBinWeightLaxKern (Spec.logMassAt tobs (sfhQ i)) (meanDiff mb) (lo b 0) (hi b 0) *
           NdHist.twBinWeightLaxKern (Spec.logSsfrAt tobs (sfhQ i)) (meanDiff sb) (lo b 1) (hi b 1)))) := by
  unfold mstarSsfrPdf
  rw [allSome_eq_some.2 fun i => (h i).1, Option.bind_some, allSome_eq_some.2 fun i => (h i).2, Option.bind_some]
  unfold diffHistMstarSsfr
  simp only [add_zero]
  congr 1
  funext b
  rw [hist_append (fun i => ![Spec.logMassAt tobs (sfhMs i), Spec.logSsfrAt tobs (sfhMs i)])
    (fun i => ![Spec.logMassAt tobs (sfhQ i), Spec.logSsfrAt tobs (sfhQ i)]) ![meanDiff mb, meanDiff sb]]
  · simp [Fin.prod_univ_two]
  · funext j
    refine Fin.addCases (fun i => ?_) (fun i => ?_) j
    · simp only [Fin.append_left]; rfl
    · simp only [Fin.append_right]; rfl

theorem mstarPdf_smooth {K : Type} {rng : Rng K} {n : ℕ} (hr : SmoothMvn rng n) (hn : n ≤ 3) {ng nb : ℕ}
    (logMah : MahParams ℝ → ℝ → ℝ → ℝ) (h : HaloSample K ng) (lgt0 fb : ℝ) (ht : 0.1 < h.tobs)
    (bins : Fin (nb + 1) → ℝ)
    (hreg : n = 0 ∨ ∀ i, OffFloor (fun v => (mcSample rng logMah (B v) h lgt0 fb i).sfhMs) u ∧
      OffFloor (fun v => (mcSample rng logMah (B v) h lgt0 fb i).sfhQ) u)
    (hs : (mstarPdf h.tobs (mcSample rng logMah (B u) h lgt0 fb) bins).isSome) :
    SmoothOpt n (fun v => mstarPdf h.tobs (mcSample rng logMah (B v) h lgt0 fb) bins) u := by
  have hn' : (n : WithTop ℕ∞) ≤ 3 := by exact_mod_cast hn
  obtain ⟨f, hf⟩ := Option.isSome_iff_exists.1 hs
  obtain ⟨a, b, hab, -⟩ := mstarPdf_some hf
  choose mM fM mQ fQ c1 c2 c3 c4 c5 c6 using fun i => gal_smooth (u := u) hr hn logMah h lgt0 fb ht i
    (by rw [(hab i).1]; rfl) (by rw [(hab i).2]; rfl) (hreg.imp_right fun h => h i)
  have e : ∀ᶠ v in 𝓝 u, mstarPdf h.tobs (mcSample rng logMah (B v) h lgt0 fb) bins =
      normalise (fun b : Fin nb => ∑ i, ((1 - (mcSample rng logMah (B v) h lgt0 fb i).fracQ) *
          NdHist.twBinWeightLaxKern (mM i v) (meanDiff bins) (bins b.castSucc) (bins b.succ) +
        (mcSample rng logMah (B v) h lgt0 fb i).fracQ *
          NdHist.twBinWeightLaxKern (mQ i v) (meanDiff bins) (bins b.castSucc) (bins b.succ))) := by
    filter_upwards [eventually_all.2 c6] with v hv
    choose l l' e1 e2 e3 e4 e5 e6 using hv
    rw [mstarPdf_eq fun i => ⟨e1 i, e2 i⟩]
    simp only [e3, e5]
  refine SmoothOpt.congr (normalise_smooth (fun b => ?_) ?_) e
  · exact ContDiffAt.sum fun i _ => ((contDiffAt_const.sub (c5 i)).mul (ndBin_smooth hn' (c1 i) _ _ _)).add
      ((c5 i).mul (ndBin_smooth hn' (c3 i) _ _ _))
  · rw [← e.self_of_nhds]; exact hs

theorem mstarSsfrPdf_smooth {K : Type} {rng : Rng K} {n : ℕ} (hr : SmoothMvn rng n) (hn : n ≤ 3) {ng nms nsf : ℕ}
    (logMah : MahParams ℝ → ℝ → ℝ → ℝ) (h : HaloSample K ng) (lgt0 fb : ℝ) (ht : 0.1 < h.tobs)
    (lo hi : Fin (nms * nsf) → Fin 2 → ℝ) (mb : Fin (nms + 1) → ℝ) (sb : Fin (nsf + 1) → ℝ)
    (hreg : n = 0 ∨ ∀ i, (OffFloor (fun v => (mcSample rng logMah (B v) h lgt0 fb i).sfhMs) u ∧
      OffFloor (fun v => (mcSample rng logMah (B v) h lgt0 fb i).sfhQ) u) ∧
      OffClip h.tobs (mcSample rng logMah (B u) h lgt0 fb i).sfhMs ∧
      OffClip h.tobs (mcSample rng logMah (B u) h lgt0 fb i).sfhQ)
    (hs : (mstarSsfrPdf h.tobs (mcSample rng logMah (B u) h lgt0 fb) lo hi mb sb).isSome) :
    SmoothOpt n (fun v => mstarSsfrPdf h.tobs (mcSample rng logMah (B v) h lgt0 fb) lo hi mb sb) u := by
  have hn' : (n : WithTop ℕ∞) ≤ 3 := by exact_mod_cast hn
  obtain ⟨f, hf⟩ := Option.isSome_iff_exists.1 hs
  obtain ⟨a, b, hab, -⟩ := mstarSsfrPdf_some hf
  choose mM fM mQ fQ c1 c2 c3 c4 c5 c6 using fun i => gal_smooth (u := u) hr hn logMah h lgt0 fb ht i
    (by rw [(hab i).1]; rfl) (by rw [(hab i).2]; rfl) (hreg.imp_right fun h => (h i).1)
  have e : ∀ᶠ v in 𝓝 u, mstarSsfrPdf h.tobs (mcSample rng logMah (B v) h lgt0 fb) lo hi mb sb =
      normalise (fun b : Fin (nms * nsf) => ∑ i, ((1 - (mcSample rng logMah (B v) h lgt0 fb i).fracQ) *
          (NdHist.twBinWeightLaxKern (mM i v) (meanDiff mb) (lo b 0) (hi b 0) *
           NdHist.twBinWeightLaxKern (max (fM i v - mM i v) (-12)) (meanDiff sb) (lo b 1) (hi b 1)) +
        (mcSample rng logMah (B v) h lgt0 fb i).fracQ *
          (NdHist.twBinWeightLaxKern (mQ i v) (meanDiff mb) (lo b 0) (hi b 0) *
           NdHist.twBinWeightLaxKern (max (fQ i v - mQ i v) (-12)) (meanDiff sb) (lo b 1) (hi b 1)))) := by
    filter_upwards [eventually_all.2 c6] with v hv
    choose l l' e1 e2 e3 e4 e5 e6 using hv
    rw [mstarSsfrPdf_eq fun i => ⟨e1 i, e2 i⟩]
    simp only [logSsfrAt, e3, e4, e5, e6]
  have d1 : ∀ i, ContDiffAt ℝ n (fun v => max (fM i v - mM i v) (-12)) u := fun i => by
    refine contDiffAt_max_of ((c2 i).sub (c1 i)) _ (hreg.imp (fun h => by exact_mod_cast h) fun h => ?_)
    obtain ⟨l, l', e1, e2, e3, e4, e5, e6⟩ := (c6 i).self_of_nhds
    rw [← e3, ← e4]
    exact (h i).2.1 l e1
  have d2 : ∀ i, ContDiffAt ℝ n (fun v => max (fQ i v - mQ i v) (-12)) u := fun i => by
    refine contDiffAt_max_of ((c4 i).sub (c3 i)) _ (hreg.imp (fun h => by exact_mod_cast h) fun h => ?_)
    obtain ⟨l, l', e1, e2, e3, e4, e5, e6⟩ := (c6 i).self_of_nhds
    rw [← e5, ← e6]
    exact (h i).2.2 l' e2
  refine SmoothOpt.congr (normalise_smooth (fun b => ?_) ?_) e
  · exact ContDiffAt.sum fun i _ => ((contDiffAt_const.sub (c5 i)).mul ((ndBin_smooth hn' (c1 i) _ _ _).mul
      (ndBin_smooth hn' (d1 i) _ _ _))).add ((c5 i).mul ((ndBin_smooth hn' (c3 i) _ _ _).mul
      (ndBin_smooth hn' (d2 i) _ _ _)))
  · rw [← e.self_of_nhds]; exact hs

theorem allSome_smooth {ι X : Type*} [Fintype ι] [NormedAddCommGroup X] [NormedSpace ℝ X]
    {F : (PF → ℝ) → ι → Option X} (h : ∀ i, SmoothOpt n (fun v => F v i) u) :
    SmoothOpt n (fun v => allSome (F v)) u := by
  choose g c e using h
  refine ⟨fun v i => g i v, contDiffAt_pi.2 c, ?_⟩
  filter_upwards [eventually_all.2 e] with v hv
  exact allSome_eq_some.2 hv

theorem mse_smooth {ι : Type*} [Fintype ι] {F : (PF → ℝ) → ι → Option ℝ} {target : ι → ℝ}
    (h : ∀ i, SmoothOpt n (fun v => F v i) u) (hs : (mse (F u) target).isSome) :
    SmoothOpt n (fun v => mse (F v) target) u := by
  obtain ⟨g, c, e⟩ := allSome_smooth h
  have hc : Fintype.card ι ≠ 0 := by
    intro h0
    have : allSome (F u) = some (g u) := e.self_of_nhds
    simp [mse, h0, this] at hs
  refine ⟨fun v => (∑ i, (g v i - target i) ^ 2) / Fintype.card ι, ?_, ?_⟩
  · rw [contDiffAt_pi] at c
    exact (ContDiffAt.sum fun i _ => ((c i).sub contDiffAt_const).pow 2).div_const _
  · filter_upwards [e] with v hv
    simp only [mse, hv, Option.bind_some, if_neg hc]

theorem mse_isSome {ι : Type*} [Fintype ι] {F : ι → Option ℝ} {target : ι → ℝ} (hs : (mse F target).isSome) (i : ι) :
    (F i).isSome := by
  by_contra hn
  have : allSome F = none := by
    rw [← Option.not_isSome_iff_eq_none, allSome_isSome]
    exact fun h => hn (h i)
  simp [mse, this] at hs

end

/-- C93: wherever the stellar-mass loss is not NaN it is not NaN nearby, and, as a function of the 88 unbounded
parameters, it is continuous (`n = 0`) and `n ≤ 3` times continuously differentiable if no star formation rate is on the
point of reaching its floor; for samplers with the same smoothness and observation times after 0.1 Gyr. -/
theorem C93_loss_mstar_smooth {K : Type} {rng : Rng K} {n : ℕ} (hr : SmoothMvn rng n) (hn : n ≤ 3) {nk ng nb : ℕ}
    (logMah : MahParams ℝ → ℝ → ℝ → ℝ) (d : MstarData K nk ng nb) (ht : ∀ k, 0.1 < (d.samples k).tobs) (u : PF → ℝ)
    (L : ℝ) (hL : lossMstar rng logMah u d = some L)
    (hreg : n = 0 ∨ ∀ k i,
      OffFloor (fun v => (mcSample rng logMah (getBoundedDiffstarpopParams v) (d.samples k) d.lgt0 d.fb i).sfhMs) u ∧
      OffFloor (fun v => (mcSample rng logMah (getBoundedDiffstarpopParams v) (d.samples k) d.lgt0 d.fb i).sfhQ) u) :
    ∃ g : (PF → ℝ) → ℝ, ContDiffAt ℝ n g u ∧ g u = L ∧ ∀ᶠ v in 𝓝 u, lossMstar rng logMah v d = some (g v) := by
  suffices h : SmoothOpt (n : WithTop ℕ∞) (fun v => lossMstar rng logMah v d) u by
    obtain ⟨g, c, e⟩ := h
    have : lossMstar rng logMah u d = some (g u) := e.self_of_nhds
    rw [hL, Option.some.injEq] at this
    exact ⟨g, c, this.symm, e⟩
  have hs : (lossMstar rng logMah u d).isSome := by rw [hL]; rfl
  unfold lossMstar at hs ⊢
  rw [Option.isSome_map] at hs
  refine SmoothOpt.map (mse_smooth (fun i => ?_) hs) fun x _ => contDiffAt_id.mul contDiffAt_const
  have hi := mse_isSome hs i
  rw [Option.isSome_map] at hi
  exact SmoothOpt.map (mstarPdf_smooth hr hn logMah (d.samples i.1) d.lgt0 d.fb (ht _) d.bins
    (hreg.imp_right fun h => h i.1) hi) fun x _ => contDiffAt_pi.1 contDiffAt_id i.2

/-- C93 for the sSFR losses of centrals and of satellites; for differentiability also no log sSFR may be exactly at its
clipping value -12. -/
theorem C93_loss_mstar_ssfr_smooth {K : Type} {rng : Rng K} {n : ℕ} (hr : SmoothMvn rng n) (hn : n ≤ 3)
    {nk ng nms nsf nz nm nt : ℕ} (logMah : MahParams ℝ → ℝ → ℝ → ℝ) (d : SsfrData K nk ng nms nsf nz nm nt)
    (ht : ∀ k, 0.1 < (d.samples k).tobs) (u : PF → ℝ) (L : ℝ) (hL : lossMstarSsfr rng logMah u d = some L)
    (hreg : n = 0 ∨ ∀ k i,
      (OffFloor (fun v => (mcSample rng logMah (getBoundedDiffstarpopParams v) (d.samples k) d.lgt0 d.fb i).sfhMs) u ∧
      OffFloor (fun v => (mcSample rng logMah (getBoundedDiffstarpopParams v) (d.samples k) d.lgt0 d.fb i).sfhQ) u) ∧
      OffClip (d.samples k).tobs
        (mcSample rng logMah (getBoundedDiffstarpopParams u) (d.samples k) d.lgt0 d.fb i).sfhMs ∧
      OffClip (d.samples k).tobs
        (mcSample rng logMah (getBoundedDiffstarpopParams u) (d.samples k) d.lgt0 d.fb i).sfhQ) :
    ∃ g : (PF → ℝ) → ℝ, ContDiffAt ℝ n g u ∧ g u = L ∧ ∀ᶠ v in 𝓝 u, lossMstarSsfr rng logMah v d = some (g v) := by
  suffices h : SmoothOpt (n : WithTop ℕ∞) (fun v => lossMstarSsfr rng logMah v d) u by
    obtain ⟨g, c, e⟩ := h
    have : lossMstarSsfr rng logMah u d = some (g u) := e.self_of_nhds
    rw [hL, Option.some.injEq] at this
    exact ⟨g, c, this.symm, e⟩
  have hs : (lossMstarSsfr rng logMah u d).isSome := by rw [hL]; rfl
  unfold lossMstarSsfr at hs ⊢
  rw [Option.isSome_map] at hs
  refine SmoothOpt.map (mse_smooth (fun i => ?_) hs) fun x _ => contDiffAt_id.mul contDiffAt_const
  have hi := mse_isSome hs i
  unfold mstarSsfrKernTobs conditional at hi ⊢
  have hmix : (mixBins (fun k => (mstarSsfrPdf (d.samples k).tobs (mcSample rng logMah (getBoundedDiffstarpopParams u)
      (d.samples k) d.lgt0 d.fb) d.ndbinsLo d.ndbinsHi d.mstarBins d.ssfrBins).map reshape) (d.indxPdf i.1)
      (d.nmhaloPdf i.1)).isSome := by
    by_contra hno
    rw [Option.not_isSome_iff_eq_none] at hno
    simp [hno] at hi
  have hall := hmix
  unfold mixBins at hall
  rw [Option.isSome_map, allSome_isSome] at hall
  obtain ⟨g, c, e⟩ := allSome_smooth (n := (n : WithTop ℕ∞)) (u := u) (F := fun v m =>
    (mstarSsfrPdf (d.samples (d.indxPdf i.1 m)).tobs (mcSample rng logMah (getBoundedDiffstarpopParams v)
      (d.samples (d.indxPdf i.1 m)) d.lgt0 d.fb) d.ndbinsLo d.ndbinsHi d.mstarBins d.ssfrBins).map reshape) fun m => by
    have hm := hall m
    rw [Option.isSome_map] at hm
    exact SmoothOpt.map (mstarSsfrPdf_smooth hr hn logMah _ d.lgt0 d.fb (ht _) _ _ _ _
      (hreg.imp_right fun h => h _) hm) fun x _ => contDiffAt_pi.2 fun a => contDiffAt_pi.2 fun b =>
        contDiffAt_pi.1 contDiffAt_id _
  have crow : ∀ b, ContDiffAt ℝ n (fun v => ∑ m, g v m (d.targetMstarIds i.2.1) b * d.nmhaloPdf i.1 m) u := fun b =>
    ContDiffAt.sum fun m _ => (contDiffAt_pi.1 (contDiffAt_pi.1 (contDiffAt_pi.1 c m) _) b).mul contDiffAt_const
  have csum : ContDiffAt ℝ n (fun v => ∑ b, ∑ m, g v m (d.targetMstarIds i.2.1) b * d.nmhaloPdf i.1 m) u :=
    ContDiffAt.sum fun b _ => crow b
  have emix : ∀ᶠ v in 𝓝 u, mixBins (fun k => (mstarSsfrPdf (d.samples k).tobs (mcSample rng logMah
      (getBoundedDiffstarpopParams v) (d.samples k) d.lgt0 d.fb) d.ndbinsLo d.ndbinsHi d.mstarBins d.ssfrBins).map
      reshape) (d.indxPdf i.1) (d.nmhaloPdf i.1) = some fun a b => ∑ m, g v m a b * d.nmhaloPdf i.1 m := by
    filter_upwards [e] with v hv
    unfold mixBins
    rw [hv, Option.map_some]
  have h0 : ∑ b, ∑ m, g u m (d.targetMstarIds i.2.1) b * d.nmhaloPdf i.1 m ≠ 0 := by
    intro h0
    have := emix.self_of_nhds
    simp [this, h0] at hi
  refine ⟨fun v => (∑ m, g v m (d.targetMstarIds i.2.1) i.2.2 * d.nmhaloPdf i.1 m) /
    ∑ b, ∑ m, g v m (d.targetMstarIds i.2.1) b * d.nmhaloPdf i.1 m, (crow _).div csum h0, ?_⟩
  filter_upwards [emix, csum.continuousAt.eventually_ne h0] with v hv hv0
  simp only [hv, Option.bind_some, if_neg hv0]

theorem addNan_smooth {n : WithTop ℕ∞} {u : PF → ℝ} {F G : (PF → ℝ) → Option ℝ} {f g : (PF → ℝ) → ℝ}
    (hf : ContDiffAt ℝ n f u) (hg : ContDiffAt ℝ n g u) (ef : ∀ᶠ v in 𝓝 u, F v = some (f v))
    (eg : ∀ᶠ v in 𝓝 u, G v = some (g v)) :
    ContDiffAt ℝ n (fun v => f v + g v) u ∧ ∀ᶠ v in 𝓝 u, addNan (F v) (G v) = some (f v + g v) := by
  refine ⟨hf.add hg, ?_⟩
  filter_upwards [ef, eg] with v h1 h2
  simp [addNan, h1, h2]

/-- C93 for the two combined losses that the fitting scripts minimise. -/
theorem C93_combined_losses_smooth {K : Type} {rng : Rng K} {n : ℕ} (hr : SmoothMvn rng n) (hn : n ≤ 3)
    {nk ng nb nk' ng' nms nsf nz nm nt nk'' ng'' nms' nsf' nz' nm' nt' : ℕ} (logMah : MahParams ℝ → ℝ → ℝ → ℝ)
    (dMstar : MstarData K nk ng nb) (dCen : SsfrData K nk' ng' nms nsf nz nm nt)
    (dSat : SsfrData K nk'' ng'' nms' nsf' nz' nm' nt') (ht : ∀ k, 0.1 < (dMstar.samples k).tobs)
    (ht' : ∀ k, 0.1 < (dCen.samples k).tobs) (ht'' : ∀ k, 0.1 < (dSat.samples k).tobs) (u : PF → ℝ) (L : ℝ)
    (hreg : n = 0 ∨ ∀ k i,
      OffFloor (fun v => (mcSample rng logMah (getBoundedDiffstarpopParams v) (dMstar.samples k) dMstar.lgt0 dMstar.fb
        i).sfhMs) u ∧
      OffFloor (fun v => (mcSample rng logMah (getBoundedDiffstarpopParams v) (dMstar.samples k) dMstar.lgt0 dMstar.fb
        i).sfhQ) u)
    (hreg' : n = 0 ∨ ∀ k i,
      (OffFloor (fun v => (mcSample rng logMah (getBoundedDiffstarpopParams v) (dCen.samples k) dCen.lgt0 dCen.fb
        i).sfhMs) u ∧
      OffFloor (fun v => (mcSample rng logMah (getBoundedDiffstarpopParams v) (dCen.samples k) dCen.lgt0 dCen.fb
        i).sfhQ) u) ∧
      OffClip (dCen.samples k).tobs
        (mcSample rng logMah (getBoundedDiffstarpopParams u) (dCen.samples k) dCen.lgt0 dCen.fb i).sfhMs ∧
      OffClip (dCen.samples k).tobs
        (mcSample rng logMah (getBoundedDiffstarpopParams u) (dCen.samples k) dCen.lgt0 dCen.fb i).sfhQ)
    (hreg'' : n = 0 ∨ ∀ k i,
      (OffFloor (fun v => (mcSample rng logMah (getBoundedDiffstarpopParams v) (dSat.samples k) dSat.lgt0 dSat.fb
        i).sfhMs) u ∧
      OffFloor (fun v => (mcSample rng logMah (getBoundedDiffstarpopParams v) (dSat.samples k) dSat.lgt0 dSat.fb
        i).sfhQ) u) ∧
      OffClip (dSat.samples k).tobs
        (mcSample rng logMah (getBoundedDiffstarpopParams u) (dSat.samples k) dSat.lgt0 dSat.fb i).sfhMs ∧
      OffClip (dSat.samples k).tobs
        (mcSample rng logMah (getBoundedDiffstarpopParams u) (dSat.samples k) dSat.lgt0 dSat.fb i).sfhQ) :
    (lossCombined rng logMah u dMstar dCen = some L → ∃ g : (PF → ℝ) → ℝ, ContDiffAt ℝ n g u ∧ g u = L ∧
      ∀ᶠ v in 𝓝 u, lossCombined rng logMah v dMstar dCen = some (g v)) ∧
    (lossCombined3 rng logMah u dMstar dCen dSat = some L → ∃ g : (PF → ℝ) → ℝ, ContDiffAt ℝ n g u ∧ g u = L ∧
      ∀ᶠ v in 𝓝 u, lossCombined3 rng logMah v dMstar dCen dSat = some (g v)) := by
  have hc := C28_combined_losses rng logMah u dMstar dCen dSat L
  constructor
  · intro h
    obtain ⟨a, b, ha, hb, hab, -⟩ := hc.1 h
    obtain ⟨g1, c1, e1, f1⟩ := C93_loss_mstar_smooth hr hn logMah dMstar ht u a ha hreg
    obtain ⟨g2, c2, e2, f2⟩ := C93_loss_mstar_ssfr_smooth hr hn logMah dCen ht' u b hb hreg'
    obtain ⟨c, e⟩ := addNan_smooth c2 c1 f2 f1
    exact ⟨_, c, by rw [e1, e2, hab, add_comm], e⟩
  · intro h
    obtain ⟨a, b, w, ha, hb, hw, hab, -⟩ := hc.2.1 h
    obtain ⟨g1, c1, e1, f1⟩ := C93_loss_mstar_smooth hr hn logMah dMstar ht u a ha hreg
    obtain ⟨g2, c2, e2, f2⟩ := C93_loss_mstar_ssfr_smooth hr hn logMah dCen ht' u b hb hreg'
    obtain ⟨g3, c3, e3, f3⟩ := C93_loss_mstar_ssfr_smooth hr hn logMah dSat ht'' u w hw hreg''
    obtain ⟨c, e⟩ := addNan_smooth c2 c1 f2 f1
    obtain ⟨c', e'⟩ := addNan_smooth c c3 e f3
    exact ⟨_, c', by rw [e1, e2, e3, hab, add_comm b a], e'⟩

/-! An instance: one halo, a sampler `mean + sqrt(variance)`, rates far above the floor. -/

/-- A sampler whose draws are one standard deviation above the mean. -/
noncomputable def oneSigmaRng : Rng Unit := ⟨fun _ _ _ => (), fun _ m c j => m j + Real.sqrt (c j j), fun _ => 0⟩

theorem oneSigmaRng_smooth (n : ℕ) : SmoothMvn oneSigmaRng n := by
  intro key j m s hs
  simp only [oneSigmaRng, Matrix.diagonal_apply_eq]
  have h1 : ContDiffAt ℝ n (fun x : (Fin 4 → ℝ) × (Fin 4 → ℝ) => x.1 j) (m, s) :=
    contDiffAt_pi.1 contDiffAt_fst j
  have h2 : ContDiffAt ℝ n (fun x : (Fin 4 → ℝ) × (Fin 4 → ℝ) => x.2 j) (m, s) :=
    contDiffAt_pi.1 contDiffAt_snd j
  exact h1.add (h2.sqrt (hs j).ne')

/-- A halo of `10 ** 12` observed at 0.2 Gyr. -/
noncomputable def oneHalo : HaloSample Unit 1 :=
  ⟨⟨fun _ => 12, fun _ => 0, fun _ => 2, fun _ => 1, fun _ => 13⟩, fun _ => 12, fun _ => -1, fun _ => 0, fun _ => 12,
    fun _ => 0, (), 0.2⟩

theorem trapFrom_upper (a fa c R : ℝ) (l : List (ℝ × ℝ)) (hfa : fa ≤ R) (ha : ∀ p ∈ l, a ≤ p.1)
    (hl : l.Pairwise fun p q => p.1 ≤ q.1) (hs : ∀ p ∈ l, p.2 ≤ R) (T : ℝ) (hT : ∀ p ∈ l, p.1 ≤ T) (hR : 0 ≤ R) :
    ∀ m ∈ trapFrom a fa c l, m ≤ c + R * (T - a) := by
  induction l generalizing a fa c with
  | nil => simp
  | cons x l ih =>
    obtain ⟨b, fb⟩ := x
    have h1 : a ≤ b := ha (b, fb) List.mem_cons_self
    have h2 : b ≤ T := hT (b, fb) List.mem_cons_self
    have h3 : fb ≤ R := hs (b, fb) List.mem_cons_self
    have h4 : c + (b - a) * (fb + fa) / 2 ≤ c + R * (b - a) := by nlinarith
    rw [List.pairwise_cons] at hl
    intro m hm
    rw [trapFrom_cons] at hm
    rcases List.mem_cons.1 hm with rfl | hm
    · nlinarith
    · have := ih b fb _ h3 (fun p hp => hl.1 p hp) hl.2 (fun p hp => hs p (List.mem_cons_of_mem _ hp))
        (fun p hp => hT p (List.mem_cons_of_mem _ hp)) m hm
      nlinarith

/-- Rates of the instance: within a factor 1000 of a rate above 1. -/
theorem rate_range (q : DiffstarParams ℝ) (hb : InBounds q) (mah : MahParams ℝ) (tarr : List ℝ) :
    ∃ R, 1000 < R ∧ ∀ s ∈ sfhSinglegalKern (fun (_ : MahParams ℝ) _ _ => 12) tarr mah q.ms q.q 1 (10 ^ 100),
      R / 1000 ≤ s ∧ s ≤ R := by
  have h3 := hb.lgmcrit
  have h4 := hb.lgyAtMcrit.1
  have h5 := hb.indxLo
  have h6 := hb.indxHi
  have h7 : -40 ≤ msLogEfficiency q 12 := by
    unfold msLogEfficiency
    set e := Real.exp (-(9 * (12 - q.lgmcrit)))
    have he : 0 < e := Real.exp_pos _
    have w0 : 0 < 1 / (1 + e) := by positivity
    have w1 : 1 / (1 + e) < 1 := by rw [div_lt_one (by linarith)]; linarith
    rw [show (q.indxHi - q.indxLo) / (1 + e) = (q.indxHi - q.indxLo) * (1 / (1 + e)) by ring]
    set w := 1 / (1 + e)
    have hlo : -5 ≤ q.indxLo + (q.indxHi - q.indxLo) * w := by nlinarith
    have hhi : q.indxLo + (q.indxHi - q.indxLo) * w ≤ 5 := by nlinarith
    have hmul : |(q.indxLo + (q.indxHi - q.indxLo) * w) * (12 - q.lgmcrit)| ≤ 5 * 3 := by
      rw [abs_mul]
      refine mul_le_mul (abs_le.2 ⟨by linarith, by linarith⟩) (abs_le.2 ⟨?_, ?_⟩) (abs_nonneg _) (by norm_num) <;>
      norm_num at h3 ⊢ <;> linarith
    have := (abs_le.1 hmul).1
    linarith
  have hR : (1000 : ℝ) < msSfr q (10 ^ 100) 12 := by
    unfold msSfr
    have e1 : (10 : ℝ) ^ (-40 : ℝ) ≤ (10 : ℝ) ^ msLogEfficiency q 12 :=
      Real.rpow_le_rpow_of_exponent_le (by norm_num) h7
    have e2 : (10 : ℝ) ^ (-40 : ℝ) = 1 / 10 ^ 40 := by
      rw [Real.rpow_neg (by norm_num)]; norm_num
    have e3 : (10 : ℝ) ^ (12 : ℝ) = 10 ^ 12 := by norm_num
    rw [e2] at e1
    rw [e3]
    calc (1000 : ℝ) < 10 ^ 100 * 10 ^ 12 * (1 / 10 ^ 40) := by norm_num
      _ ≤ _ := mul_le_mul_of_nonneg_left e1 (by positivity)
  refine ⟨_, hR, fun s hs => ?_⟩
  have e := calcSfhSinglegal_eq (fun (_ : MahParams ℝ) _ _ => (12 : ℝ)) q mah tarr 1 (10 ^ 100)
  unfold calcSfhSinglegal at e
  rw [e] at hs
  obtain ⟨t, -, rfl⟩ := List.mem_map.1 hs
  have h1 := qExp_ge_drop (lgt := Real.logb 10 t) (qt := q.lgQt) (dt := (10 : ℝ) ^ q.qlglgdt) hb.lgRejuv.1.le
    hb.lgRejuv.2.le
  have h2 := qExp_le_zero (lgt := Real.logb 10 t) (qt := q.lgQt) (dt := (10 : ℝ) ^ q.qlglgdt) hb.lgRejuv.1.le
    hb.lgRejuv.2.le
  have h8 := hb.lgDrop.1
  set x := qExp (Real.logb 10 t) q.lgQt ((10 : ℝ) ^ q.qlglgdt) q.lgDrop q.lgRejuv
  have k1 : (10 : ℝ) ^ x ≤ 1 := Real.rpow_le_one_of_one_le_of_nonpos (by norm_num) h2
  have k2 : 1 / 1000 ≤ (10 : ℝ) ^ x := by
    have : (10 : ℝ) ^ (-3 : ℝ) ≤ (10 : ℝ) ^ x := Real.rpow_le_rpow_of_exponent_le (by norm_num) (by linarith)
    rw [Real.rpow_neg (by norm_num)] at this
    norm_num at this ⊢
    exact this
  constructor
  · refine le_max_of_le_right ?_
    calc _ = 1 / 1000 * msSfr q (10 ^ 100) 12 := by ring
      _ ≤ _ := mul_le_mul_of_nonneg_right k2 (by linarith)
  · refine max_le ?_ ?_
    · exact (show (1 : ℝ) / 10 ^ 14 ≤ 1000 by norm_num).trans hR.le
    · calc _ ≤ 1 * msSfr q (10 ^ 100) 12 := mul_le_mul_of_nonneg_right k1 (by linarith)
        _ = _ := one_mul _

/-- Every history of the instance is off the floor and off the clipping value, for all parameters. -/
theorem oneHalo_regular (v : PF → ℝ) (l : List ℝ)
    (h : (mcSample oneSigmaRng (fun _ _ _ => 12) (getBoundedDiffstarpopParams v) oneHalo 1 (10 ^ 100) 0).sfhMs = some l ∨
      (mcSample oneSigmaRng (fun _ _ _ => 12) (getBoundedDiffstarpopParams v) oneHalo 1 (10 ^ 100) 0).sfhQ = some l) :
    (∀ s ∈ l, s ≠ 1 / 10 ^ 14) ∧ Real.logb 10 (l.getLastD 0) - logMassAt 0.2 l ≠ -12 := by
  obtain ⟨w, hw⟩ : ∃ w : DiffstarParams ℝ, l = sfhSinglegalKern (fun (_ : MahParams ℝ) _ _ => 12) (obsTimes 0.2)
      (oneHalo.mah.row 0) (getBoundedDiffstarParams w).ms (getBoundedDiffstarParams w).q 1 (10 ^ 100) := by
    rcases h with h | h
    all_goals
      simp only [mcSample, mcDiffstarSfhGalpop, mcDiffstarParamsGalpop, Option.map_map, Option.map_eq_some_iff] at h
      obtain ⟨w, -, hw⟩ := h
      exact ⟨w, hw.symm⟩
  obtain ⟨R, hR, hr⟩ := rate_range _ (C01_bounded_params_in_bounds w) (oneHalo.mah.row 0) (obsTimes 0.2)
  rw [← hw] at hr
  obtain ⟨hlen, hinc, hfirst, hlast, -⟩ := C27_observables_positive oneSigmaRng (fun _ _ _ => 12)
    (getBoundedDiffstarpopParams v) oneHalo 1 (10 ^ 100) (by norm_num [oneHalo]) 0 l h
  change (obsTimes 0.2).length = 20 at hlen
  change Spec.Increasing (obsTimes 0.2) at hinc
  change (obsTimes 0.2)[0]? = some 0.1 at hfirst
  change (obsTimes 0.2)[19]? = some 0.2 at hlast
  refine ⟨fun s hs h0 => ?_, ?_⟩
  · have := (hr s hs).1
    rw [h0] at this
    norm_num at this
    linarith
  have hl : l.length = 20 := by rw [hw]; simp [sfhSinglegalKern, hlen]
  have hlt : l ≠ [] := by intro h0; simp [h0] at hl
  have hle : ∀ t ∈ obsTimes 0.2, 0.1 ≤ t ∧ t ≤ 0.2 := by
    intro t ht
    obtain ⟨j, hj, rfl⟩ := List.mem_iff_getElem.1 ht
    unfold Spec.Increasing at hinc
    rw [List.pairwise_iff_getElem] at hinc
    rw [List.getElem?_eq_some_iff] at hfirst hlast
    obtain ⟨a0, h0⟩ := hfirst
    obtain ⟨a1, h1⟩ := hlast
    constructor
    · rcases Nat.eq_zero_or_pos j with rfl | hj0
      · rw [h0]
      · rw [← h0]; exact (hinc 0 j a0 hj hj0).le
    · rcases (show j ≤ 19 by omega).eq_or_lt with rfl | hj0
      · rw [h1]
      · exact (hinc j 19 hj a1 hj0).le.trans_eq h1
  have hsl : l.getLastD 0 ∈ l := by
    rw [List.getLastD_eq_getLast?, List.getLast?_eq_some_getLast hlt]
    exact List.getLast_mem hlt
  have hs1 := (hr _ hsl).1
  have hlen' : (cumulativeMstarFormed (obsTimes 0.2) l).length = 20 := by rw [cmf_length _ _ (by rw [hl, hlen]), hlen]
  have hne : cumulativeMstarFormed (obsTimes 0.2) l ≠ [] := by intro h0; simp [h0] at hlen'
  have hml : (cumulativeMstarFormed (obsTimes 0.2) l).getLastD 0 ∈ cumulativeMstarFormed (obsTimes 0.2) l := by
    rw [List.getLastD_eq_getLast?, List.getLast?_eq_some_getLast hne]
    exact List.getLast_mem hne
  set M := (cumulativeMstarFormed (obsTimes 0.2) l).getLastD 0 with hM
  have hMpos : 0 < M := (C27_observables_positive oneSigmaRng (fun _ _ _ => 12)
    (getBoundedDiffstarpopParams v) oneHalo 1 (10 ^ 100) (by norm_num [oneHalo]) 0 l h).2.2.2.2.2
  have hMle : M ≤ R * 0.2 * 10 ^ 9 := by
    rw [cmf_eq] at hml
    obtain ⟨m, hm, hme⟩ := List.mem_map.1 hml
    rw [← hme]
    refine mul_le_mul_of_nonneg_right ?_ (by norm_num)
    have := trapFrom_upper 0.001 (1 / 10 ^ 14) 0 R ((obsTimes 0.2).zip l) (by norm_num; linarith)
      (fun p hp => by have := (hle p.1 (List.of_mem_zip hp).1).1; norm_num at this ⊢; linarith)
      (by
        have : ((obsTimes 0.2).zip l).Pairwise fun p q => p.1 < q.1 := by
          have e : ((obsTimes 0.2).zip l).map Prod.fst = obsTimes 0.2 := List.map_fst_zip (by rw [hl, hlen])
          have h' := hinc
          unfold Spec.Increasing at h'
          rw [← e, List.pairwise_map] at h'
          exact h'
        exact this.imp fun h => h.le)
      (fun p hp => (hr _ (List.of_mem_zip hp).2).2) 0.2 (fun p hp => (hle p.1 (List.of_mem_zip hp).1).2) (by linarith)
      m hm
    norm_num at this ⊢
    nlinarith
  have hS : 0 < l.getLastD 0 := by linarith
  unfold logMassAt
  rw [← hM, ← Real.logb_div hS.ne' hMpos.ne']
  have hlt : (-12 : ℝ) < Real.logb 10 (l.getLastD 0 / M) := by
    rw [Real.lt_logb_iff_rpow_lt (by norm_num) (div_pos hS hMpos), lt_div_iff₀ hMpos]
    rw [Real.rpow_neg (by norm_num)]
    refine lt_of_lt_of_le ?_ hs1
    norm_num at hMle ⊢
    linarith
  exact hlt.ne'

end Diffstar.Props
