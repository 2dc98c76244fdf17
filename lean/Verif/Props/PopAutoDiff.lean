import Verif.Lemmas.PopAutoDiff
import Verif.Props.PopGrad
import Verif.Props.LossData

/-!
C136: the gradients of the population losses as reverse-mode differentiation computes them, without an assumption on the
differentiation.
-/

namespace Diffstar.Spec

open Diffstar.Pop Diffstar.PopLoss

/-- The sampler is `mean + sqrt(variance) * z` for a diagonal covariance, with a normal vector `z` that depends only on the
key. -/
def Reparametrised {K : Type} (rng : Rng K) (z : K → Fin 4 → ℝ) : Prop :=
  ∀ (key : K) (m s : Fin 4 → ℝ), (∀ i, 0 < s i) →
    rng.multivariateNormal key m (Matrix.diagonal s) = fun i => m i + Real.sqrt (s i) * z key i

/-- Every group of halos is used for some target. -/
def RowsUsed {K : Type} {nk n nms nsf nz nm nt : ℕ} (d : SsfrData K nk n nms nsf nz nm nt) : Prop :=
  ∀ k, ∃ iz m, d.indxPdf iz m = k

/-- The wrapper returns the loss `L` and 88 finite numbers. -/
def ReturnsFinite (wrapper : List ℝ → Option (Option ℝ × List (Option ℝ))) (flat : List ℝ) (L : ℝ) : Prop :=
  ∃ g : List ℝ, wrapper flat = some (some L, g.map some) ∧ g.length = 88

end Diffstar.Spec

namespace Diffstar.Props

open Diffstar Diffstar.Spec Diffstar.Pop Diffstar.PopLoss Diffstar.Trace Filter Topology

section

variable {u : PF → ℝ} {S : Prop}

local notation "B" => getBoundedDiffstarpopParams

/-! ### Draws -/

theorem std_ad (fi fs : QF) (hi m : ℝ) (h1 : (QF.boundsQ fi).1 = 1 / 100)
    (hbh : ((QF.boundsQ fi).2 : ℝ) = hi) (hbs : QF.boundsQ fs = (-1, 1))
    (h : (Pop.lineModel m (B u (.inl fi)) (B u (.inl fs)) (0.01, hi)).isSome) :
    ∃ g : (PF → ℝ) → ℝ, Ad (Trace.lineModel m (boundedPop (.inl fi)) (boundedPop (.inl fs)) (0.01, hi)) g u S ∧ 0.01 < g u ∧
      ∀ᶠ v in 𝓝 u, Pop.lineModel m (B v (.inl fi)) (B v (.inl fs)) (0.01, hi) = some (g v) := by
  obtain ⟨g, c, e⟩ := line_ad (S := S) fi fs m (0.01, hi) h
  have hs : u (.inl fs) ≠ 0 := by
    intro h0
    rw [bounded_slope_zero hbs h0, lineModel_zero] at h
    simp at h
  obtain ⟨w, hw, hw'⟩ := std_line (logm := m) h1 hbh hbs hs
  have : Pop.lineModel m (B u (.inl fi)) (B u (.inl fs)) (0.01, hi) = some (g u) := e.self_of_nhds
  rw [hw, Option.some.injEq] at this
  exact ⟨g, c, this ▸ hw', e⟩

theorem covMseq_ad (m : ℝ) (h : (getCovarianceMseqMsBlock (sfhPdfPart (B u)) m).isSome) :
    AdC (stdMseqMs (fun f => boundedPop (.inl f)) m) (fun v => getCovarianceMseqMsBlock (sfhPdfPart (B v)) m) u S := by
  simp only [getCovarianceMseqMsBlock, getCovParamsMseqMsBlock, sfhPdfPart_apply, BV_std_ulgm, BV_std_ulgy,
      BV_std_ul, BV_std_uh] at h ⊢
  obtain ⟨g1, c1, p1, e1⟩ := std_ad (S := S) (u := u) .std_ulgm_mseq_int .std_ulgm_mseq_slp 1 m
    (by norm_num [QF.boundsQ]) (by norm_num [QF.boundsQ]) (by norm_num [QF.boundsQ])
    (by by_contra hn; rw [Option.not_isSome_iff_eq_none] at hn; simp [hn] at h)
  obtain ⟨g2, c2, p2, e2⟩ := std_ad (S := S) (u := u) .std_ulgy_mseq_int .std_ulgy_mseq_slp 1 m
    (by norm_num [QF.boundsQ]) (by norm_num [QF.boundsQ]) (by norm_num [QF.boundsQ])
    (by by_contra hn; rw [Option.not_isSome_iff_eq_none] at hn; simp [hn] at h)
  obtain ⟨g3, c3, p3, e3⟩ := std_ad (S := S) (u := u) .std_ul_mseq_int .std_ul_mseq_slp 3 m
    (by norm_num [QF.boundsQ]) (by norm_num [QF.boundsQ]) (by norm_num [QF.boundsQ])
    (by by_contra hn; rw [Option.not_isSome_iff_eq_none] at hn; simp [hn] at h)
  obtain ⟨g4, c4, p4, e4⟩ := std_ad (S := S) (u := u) .std_uh_mseq_int .std_uh_mseq_slp 3 m
    (by norm_num [QF.boundsQ]) (by norm_num [QF.boundsQ]) (by norm_num [QF.boundsQ])
    (by by_contra hn; rw [Option.not_isSome_iff_eq_none] at hn; simp [hn] at h)
  refine adC_mk c1 c2 c3 c4 p1 p2 p3 p4 ?_
  filter_upwards [e1, e2, e3, e4] with v h1 h2 h3 h4
  rw [h1, h2, h3, h4]
  rfl

theorem covQseqMs_ad (m : ℝ) (h : (getCovarianceQseqMsBlock (sfhPdfPart (B u)) m).isSome) :
    AdC (stdQseqMs (fun f => boundedPop (.inl f)) m) (fun v => getCovarianceQseqMsBlock (sfhPdfPart (B v)) m) u S := by
  simp only [getCovarianceQseqMsBlock, getCovParamsQseqMsBlock, sfhPdfPart_apply, BV_std_ulgm, BV_std_ulgy,
      BV_std_ul, BV_std_uh] at h ⊢
  obtain ⟨g1, c1, p1, e1⟩ := std_ad (S := S) (u := u) .std_ulgm_qseq_int .std_ulgm_qseq_slp 1 m
    (by norm_num [QF.boundsQ]) (by norm_num [QF.boundsQ]) (by norm_num [QF.boundsQ])
    (by by_contra hn; rw [Option.not_isSome_iff_eq_none] at hn; simp [hn] at h)
  obtain ⟨g2, c2, p2, e2⟩ := std_ad (S := S) (u := u) .std_ulgy_qseq_int .std_ulgy_qseq_slp 1 m
    (by norm_num [QF.boundsQ]) (by norm_num [QF.boundsQ]) (by norm_num [QF.boundsQ])
    (by by_contra hn; rw [Option.not_isSome_iff_eq_none] at hn; simp [hn] at h)
  obtain ⟨g3, c3, p3, e3⟩ := std_ad (S := S) (u := u) .std_ul_qseq_int .std_ul_qseq_slp 3 m
    (by norm_num [QF.boundsQ]) (by norm_num [QF.boundsQ]) (by norm_num [QF.boundsQ])
    (by by_contra hn; rw [Option.not_isSome_iff_eq_none] at hn; simp [hn] at h)
  obtain ⟨g4, c4, p4, e4⟩ := std_ad (S := S) (u := u) .std_uh_qseq_int .std_uh_qseq_slp 3 m
    (by norm_num [QF.boundsQ]) (by norm_num [QF.boundsQ]) (by norm_num [QF.boundsQ])
    (by by_contra hn; rw [Option.not_isSome_iff_eq_none] at hn; simp [hn] at h)
  refine adC_mk c1 c2 c3 c4 p1 p2 p3 p4 ?_
  filter_upwards [e1, e2, e3, e4] with v h1 h2 h3 h4
  rw [h1, h2, h3, h4]
  rfl

theorem covQseqQ_ad (m : ℝ) (h : (getCovarianceQseqQBlock (sfhPdfPart (B u)) m).isSome) :
    AdC (stdQseqQ (fun f => boundedPop (.inl f)) m) (fun v => getCovarianceQseqQBlock (sfhPdfPart (B v)) m) u S := by
  simp only [getCovarianceQseqQBlock, getCovParamsQseqQBlock, sfhPdfPart_apply, BV_std_uqt, BV_std_uqs,
      BV_std_udrop, BV_std_urej] at h ⊢
  obtain ⟨g1, c1, p1, e1⟩ := std_ad (S := S) (u := u) .std_uqt_int .std_uqt_slp 0.5 m
    (by norm_num [QF.boundsQ]) (by norm_num [QF.boundsQ]) (by norm_num [QF.boundsQ])
    (by by_contra hn; rw [Option.not_isSome_iff_eq_none] at hn; simp [hn] at h)
  obtain ⟨g2, c2, p2, e2⟩ := std_ad (S := S) (u := u) .std_uqs_int .std_uqs_slp 1 m
    (by norm_num [QF.boundsQ]) (by norm_num [QF.boundsQ]) (by norm_num [QF.boundsQ])
    (by by_contra hn; rw [Option.not_isSome_iff_eq_none] at hn; simp [hn] at h)
  obtain ⟨g3, c3, p3, e3⟩ := std_ad (S := S) (u := u) .std_udrop_int .std_udrop_slp 2 m
    (by norm_num [QF.boundsQ]) (by norm_num [QF.boundsQ]) (by norm_num [QF.boundsQ])
    (by by_contra hn; rw [Option.not_isSome_iff_eq_none] at hn; simp [hn] at h)
  obtain ⟨g4, c4, p4, e4⟩ := std_ad (S := S) (u := u) .std_urej_int .std_urej_slp 2 m
    (by norm_num [QF.boundsQ]) (by norm_num [QF.boundsQ]) (by norm_num [QF.boundsQ])
    (by by_contra hn; rw [Option.not_isSome_iff_eq_none] at hn; simp [hn] at h)
  refine adC_mk c1 c2 c3 c4 p1 p2 p3 p4 ?_
  filter_upwards [e1, e2, e3, e4] with v h1 h2 h3 h4
  rw [h1, h2, h3, h4]
  rfl

theorem mvn_ad {K : Type} {rng : Rng K} {z : K → Fin 4 → ℝ} (hr : Reparametrised rng z) (key' : K) {em es : Fin 4 → Expr PF}
    {mu s : (PF → ℝ) → Fin 4 → ℝ} (hm : ∀ i, Ad (em i) (fun v => mu v i) u S) (hs : ∀ i, Ad (es i) (fun v => s v i) u S)
    (hp : ∀ i, 0 < s u i) (j : Fin 4) : Ad (Trace.multivariateNormal (z key') em es j)
      (fun v => rng.multivariateNormal key' (mu v) (Matrix.diagonal fun i => s v i ^ 2) j) u S := by
  have key : ∀ i, Ad ((if i = j then .sqrt (.mul (.mul (es j) (.const 1)) (es j)) else .mul (.mul (es j) (.const 0)) (es i)))
      (fun v => if i = j then Real.sqrt (s v j * 1 * s v j) else s v j * 0 * s v i) u S := by
    intro i
    by_cases h : i = j
    · simp only [if_pos h]
      exact (((hs j).mul (.const 1)).mul (hs j)).sqrt (by have := hp j; positivity)
    · simp only [if_neg h]
      exact ((hs j).mul (.const 0)).mul (hs i)
  refine ((hm j).add (Ad.sum fun i => (key i).mul (.const (z key' i)))).congrNear ?_
  filter_upwards [eventually_all.2 fun i => (hs i).cont.eventually_const_lt (hp i)] with v hv
  rw [hr key' (mu v) _ fun i => pow_pos (hv i) 2]
  simp only [mul_one, mul_zero, zero_mul, ite_mul, Finset.sum_ite_eq', Finset.mem_univ, if_true, sq]

/-- A traced parameter set, NaN-free near `u`. -/
def AdD (p : DiffstarParams (Expr PF)) (F : (PF → ℝ) → Option (DiffstarParams ℝ)) (u : PF → ℝ) (S : Prop) : Prop :=
  ∃ P : (PF → ℝ) → DiffstarParams ℝ, AdP p P u S ∧ ∀ᶠ v in 𝓝 u, F v = some (P v)

theorem drawMs_ad {K : Type} {rng : Rng K} {z : K → Fin 4 → ℝ} (hr : Reparametrised rng z) (key : K)
    {em es : Fin 4 → Expr PF} {mu : (PF → ℝ) → Option (Fin 4 → ℝ)} {cov : (PF → ℝ) → Option (Matrix (Fin 4) (Fin 4) ℝ)}
    (hm : AdV em mu u S) (hc : AdC es cov u S) :
    AdD (Trace.drawMs (z key) em es) (fun v => Pop.drawMs rng key (mu v) (cov v)) u S := by
  obtain ⟨g, cg, eg⟩ := hm
  obtain ⟨s, cs, ps, hs⟩ := hc
  have h := mvn_ad hr key cg cs ps
  refine ⟨fun v =>
    let w := rng.multivariateNormal key (g v) (Matrix.diagonal fun i => s v i ^ 2)
    ⟨w 0, w 1, w 2, w 3, DEFAULT_Q_U_PARAMS_UNQUENCHED.lgQt, DEFAULT_Q_U_PARAMS_UNQUENCHED.qlglgdt,
      DEFAULT_Q_U_PARAMS_UNQUENCHED.lgDrop, DEFAULT_Q_U_PARAMS_UNQUENCHED.lgRejuv⟩,
    ⟨h 0, h 1, h 2, h 3, .const _, .const _, .const _, .const _⟩, ?_⟩
  filter_upwards [eg, hs] with v h1 h2
  rw [h1, h2]
  rfl

theorem drawQ_ad {K : Type} {rng : Rng K} {z : K → Fin 4 → ℝ} (hr : Reparametrised rng z) (k1 k2 : K) {em : Fin 8 → Expr PF}
    {es es' : Fin 4 → Expr PF} {mu : (PF → ℝ) → Option (Fin 8 → ℝ)}
    {c1 c2 : (PF → ℝ) → Option (Matrix (Fin 4) (Fin 4) ℝ)} (hm : AdV em mu u S) (hc1 : AdC es c1 u S) (hc2 : AdC es' c2 u S) :
    AdD (Trace.drawQ (z k1) (z k2) em es es') (fun v => Pop.drawQ rng k1 k2 (mu v) (c1 v) (c2 v)) u S := by
  obtain ⟨g, cg, eg⟩ := hm
  obtain ⟨s, cs, ps, hs⟩ := hc1
  obtain ⟨s', cs', ps', hs'⟩ := hc2
  have h := mvn_ad hr k1 (ad_vec4 (cg 0) (cg 1) (cg 2) (cg 3)) cs ps
  have h' := mvn_ad hr k2 (ad_vec4 (cg 4) (cg 5) (cg 6) (cg 7)) cs' ps'
  refine ⟨fun v =>
    let w := rng.multivariateNormal k1 ![g v 0, g v 1, g v 2, g v 3] (Matrix.diagonal fun i => s v i ^ 2)
    let w' := rng.multivariateNormal k2 ![g v 4, g v 5, g v 6, g v 7] (Matrix.diagonal fun i => s' v i ^ 2)
    ⟨w 0, w 1, w 2, w 3, w' 0, w' 1, w' 2, w' 3⟩, ⟨h 0, h 1, h 2, h 3, h' 0, h' 1, h' 2, h' 3⟩, ?_⟩
  filter_upwards [eg, hs, hs'] with v h1 h2 h3
  rw [h1, h2, h3]
  rfl

theorem fracQuench_ad {K : Type} (rng : Rng K) (m t : ℝ) (upid : ℤ) (a b c : ℝ) (key : K) :
    Ad (Trace.fracQuench boundedPop m t upid a b c)
      (fun v => (mcDiffstarUParamsSinglegalKernel rng (B v) m t upid a b c key).fracQ) u S := by
  have hb := fun f : PF => Ad.bounded (u := u) (S := S) f
  have k : ∀ r : ℝ, Ad (.const r : Expr PF) (fun _ => r) u S := fun r => .const r
  have hcen : Ad (Trace.fracQuenchCen (fun f => boundedPop (.inl f)) m t)
      (fun v => Pop.fracQuenchCen (sfhPdfPart (B v)) m t) u S := by
    simp only [Pop.fracQuenchCen, sfhPdfPart_apply]
    exact (k m).sigmoid ((k t).sigmoid (hb _) (hb _) (hb _) (hb _)) (hb _)
      ((k t).sigmoid (hb _) (hb _) (hb _) (hb _)) (hb _)
  have hsat : Ad (Trace.fracQuenchSat (fun f => boundedPop (.inl f)) m t)
      (fun v => Pop.fracQuenchSat (sfhPdfPart (B v)) m t) u S := by
    simp only [Pop.fracQuenchSat, sfhPdfPart_apply]
    exact (k m).sigmoid ((k t).sigmoid (hb _) (hb _) (hb _) (hb _)) (hb _)
      ((k t).sigmoid (hb _) (hb _) (hb _) (hb _)) (hb _)
  have hdelta : Ad (Trace.predictSatFracDeltaQprob (fun f => boundedPop (.inr f)) a b c)
      (fun v => Pop.predictSatFracDeltaQprob (satquenchPart (B v)) a b c) u S := by
    simp only [Pop.predictSatFracDeltaQprob, satquenchKernel, qprobHiVsSubHostMass, tDelayVsLogmhost, satquenchPart_apply]
    exact (k c).sigmoid ((k b).sigmoid (hb _) (k _) (hb _) (hb _)) (k _) (k 0)
      ((k b).sigmoid (hb _) (k _) ((k a).sigmoid (hb _) (k _) (hb _) (hb _)) ((k a).sigmoid (hb _) (k _) (hb _) (hb _)))
  refine (Ad.selConst 0 (if upid = -1 then 1 else 0) hcen (hsat.add (hdelta.mul ((k 1).sub hsat)))).congr fun v => ?_
  simp only [mcDiffstarUParamsSinglegalKernel, diffstarpopMeansCovs, sfhPdfScalarKernel]
  by_cases h : upid = -1
  · simp [h]
  · simp [h, Pop.getQprobSat]

theorem uParams_ad {K : Type} {rng : Rng K} {z : K → Fin 4 → ℝ} (hr : Reparametrised rng z) (m t : ℝ) (upid : ℤ) (a b c : ℝ)
    (key : K) :
    let F := fun v => mcDiffstarUParamsSinglegalKernel rng (B v) m t upid a b c key
    let q := fun f => boundedPop (.inl f)
    ((F u).uMs.isSome → AdD (Trace.drawMs (z (rng.split key 4 0)) (meanMseq q m) (stdMseqMs q m)) (fun v => (F v).uMs) u S) ∧
    ((F u).uQ.isSome → AdD (Trace.drawQ (z (rng.split key 4 1)) (z (rng.split key 4 2)) (meanQseq q m t) (stdQseqMs q m)
      (stdQseqQ q m)) (fun v => (F v).uQ) u S) := by
  refine ⟨fun h => ?_, fun h => ?_⟩
  · simp only [mcDiffstarUParamsSinglegalKernel, diffstarpopMeansCovs, sfhPdfScalarKernel] at h ⊢
    refine drawMs_ad hr _ (meanMseq_ad m ?_) (covMseq_ad m ?_)
    · by_contra hn; rw [Option.not_isSome_iff_eq_none] at hn; simp [hn, Pop.drawMs] at h
    · by_contra hn; rw [Option.not_isSome_iff_eq_none] at hn; simp [hn, Pop.drawMs] at h
  · simp only [mcDiffstarUParamsSinglegalKernel, diffstarpopMeansCovs, sfhPdfScalarKernel] at h ⊢
    refine drawQ_ad hr _ _ (meanQseq_ad m t ?_) (covQseqMs_ad m ?_) (covQseqQ_ad m ?_)
    · by_contra hn; rw [Option.not_isSome_iff_eq_none] at hn; simp [hn, Pop.drawQ] at h
    · by_contra hn; rw [Option.not_isSome_iff_eq_none] at hn; simp [hn, Pop.drawQ] at h
    · by_contra hn; rw [Option.not_isSome_iff_eq_none] at hn; simp [hn, Pop.drawQ] at h

/-! ### Histories -/

/-- Mass and rate at the time of observation of one branch of one galaxy. -/
theorem obs_ad {p : DiffstarParams (Expr PF)} {F : (PF → ℝ) → Option (DiffstarParams ℝ)} (hF : AdD p F u True)
    (logMah : MahParams ℝ → ℝ → ℝ → ℝ) (mah : MahParams ℝ) (tobs lgt0 fb : ℝ) (H : (PF → ℝ) → Option (List ℝ))
    (hH : ∀ v, H v = ((F v).map Diffstar.getBoundedDiffstarParams).map fun q =>
      sfhSinglegalKern logMah (obsTimes tobs) mah q.ms q.q lgt0 fb)
    (hreg : S → OffFloor H u) (hpos : ∀ l, H u = some l → 0 < (obsData tobs l).1 ∧ 0 < (obsData tobs l).2) :
    let es := (obsTimes tobs).map fun t =>
      Trace.sfhSinglegalScalar t (logMah mah t lgt0) fb (Trace.getBoundedDiffstarParams p)
    ∃ m f : (PF → ℝ) → ℝ, Ad (Trace.logMass tobs es) m u S ∧ Ad (.log10 (es.getLastD (.const 0))) f u S ∧
      ∀ᶠ v in 𝓝 u, ∃ l, H v = some l ∧ logMassAt tobs l = m v ∧ Real.logb 10 (l.getLastD 0) = f v := by
  intro es
  obtain ⟨P, cP, eP⟩ := hF
  set L : (PF → ℝ) → List ℝ := fun v => (obsTimes tobs).map fun t => Diffstar.sfhSinglegalScalar logMah t mah
    (Diffstar.getBoundedDiffstarParams (P v)).ms (Diffstar.getBoundedDiffstarParams (P v)).q lgt0 fb with hL
  have eH : ∀ᶠ v in 𝓝 u, H v = some (L v) := by
    filter_upwards [eP] with v hv
    rw [hH v, hv]
    rfl
  have hlen := obsTimes_length tobs
  have hel : ∀ v j (hj : j < (obsTimes tobs).length), (L v)[j]? = some (Diffstar.sfhSinglegalScalar logMah
      ((obsTimes tobs).getD j 0) mah (Diffstar.getBoundedDiffstarParams (P v)).ms (Diffstar.getBoundedDiffstarParams (P v)).q
      lgt0 fb) := by
    intro v j hj
    rw [hL, List.getElem?_map, List.getElem?_eq_getElem hj, Option.map_some, List.getD_eq_getElem _ _ hj]
  have hS : AdL es L u S := by
    refine ⟨fun v => by simp [hL, es], fun i hi => ?_⟩
    have hi : i < (obsTimes tobs).length := by simpa [es] using hi
    have hv : ∀ v, (L v).getD i 0 = Diffstar.sfhSinglegalScalar logMah ((obsTimes tobs).getD i 0) mah
        (Diffstar.getBoundedDiffstarParams (P v)).ms (Diffstar.getBoundedDiffstarParams (P v)).q lgt0 fb := by
      intro v
      rw [List.getD_eq_getElem?_getD, hel v i hi, Option.getD_some]
    rw [show es.getD i (.const 0) = _ from getD_map_gen _ _ i hi 0 (Expr.const 0)]
    refine (cP.bounded.sfhSinglegalScalar logMah _ mah lgt0 fb fun s => ?_).congr fun v => (hv v).symm
    refine (hreg s _ eH.self_of_nhds i _ (hel u i hi)).imp_right fun h => ?_
    filter_upwards [h, eH] with v h1 h2
    have := h1 _ h2
    rw [hel v i hi, Option.some.injEq] at this
    exact this
  have hne : es ≠ [] := List.length_pos_iff.1 (by simp [es, hlen])
  have hM := hS.cumulativeMstarFormed (obsTimes tobs) (by simp [es])
  have hMne : Trace.cumulativeMstarFormed (obsTimes tobs) es ≠ [] := by
    refine List.length_pos_iff.1 ?_
    rw [← hM.1 u, cmf_length _ _ (by simp [hL])]
    omega
  have hp := hpos _ eH.self_of_nhds
  refine ⟨_, _, (hM.last hMne).log10 hp.2, (hS.last hne).log10 hp.1, ?_⟩
  filter_upwards [eH] with v hv
  exact ⟨_, hv, rfl, rfl⟩

theorem gal_ad {K : Type} {rng : Rng K} {z : K → Fin 4 → ℝ} (hr : Reparametrised rng z) {n : ℕ}
    (logMah : MahParams ℝ → ℝ → ℝ → ℝ) (h : HaloSample K n) (lgt0 fb : ℝ) (ht : 0.1 < h.tobs) (i : Fin n)
    (hMs : (PopLoss.mcSample rng logMah (B u) h lgt0 fb i).sfhMs.isSome)
    (hQ : (PopLoss.mcSample rng logMah (B u) h lgt0 fb i).sfhQ.isSome)
    (hreg : S → OffFloor (fun v => (PopLoss.mcSample rng logMah (B v) h lgt0 fb i).sfhMs) u ∧
      OffFloor (fun v => (PopLoss.mcSample rng logMah (B v) h lgt0 fb i).sfhQ) u) :
    let g := Trace.mcSample rng.split z logMah boundedPop h lgt0 fb i
    ∃ mM fM mQ fQ : (PF → ℝ) → ℝ, Ad (Trace.logMass h.tobs g.sfhMs) mM u S ∧
      Ad (.log10 (g.sfhMs.getLastD (.const 0))) fM u S ∧ Ad (Trace.logMass h.tobs g.sfhQ) mQ u S ∧
      Ad (.log10 (g.sfhQ.getLastD (.const 0))) fQ u S ∧
      Ad g.fracQ (fun v => (PopLoss.mcSample rng logMah (B v) h lgt0 fb i).fracQ) u S ∧
      ∀ᶠ v in 𝓝 u, ∃ l l', (PopLoss.mcSample rng logMah (B v) h lgt0 fb i).sfhMs = some l ∧
        (PopLoss.mcSample rng logMah (B v) h lgt0 fb i).sfhQ = some l' ∧ logMassAt h.tobs l = mM v ∧
        Real.logb 10 (l.getLastD 0) = fM v ∧ logMassAt h.tobs l' = mQ v ∧ Real.logb 10 (l'.getLastD 0) = fQ v := by
  intro g
  obtain ⟨h1, h2⟩ := uParams_ad (u := u) (S := True) hr (h.logmp0 i) (h.mah.tPeak i) (h.upid i) (h.lgmuInfall i)
    (h.logmhostInfall i) (h.gyrSinceInfall i) (rng.split h.ranKey n i)
  have hpos := fun sfh hs => C27_observables_positive rng logMah (B u) h lgt0 fb ht i sfh hs
  have p14 : (0 : ℝ) < 1 / 10 ^ 14 := by norm_num
  obtain ⟨mM, fM, a1, a2, a3⟩ := obs_ad (S := S) (h1 (by
    have : (((mcDiffstarUParamsSinglegalKernel rng (B u) (h.logmp0 i) (h.mah.tPeak i) (h.upid i) (h.lgmuInfall i)
      (h.logmhostInfall i) (h.gyrSinceInfall i) (rng.split h.ranKey n i)).uMs.map Diffstar.getBoundedDiffstarParams).map
      fun q => sfhSinglegalKern logMah (obsTimes h.tobs) (h.mah.row i) q.ms q.q lgt0 fb).isSome := hMs
    simpa using this)) logMah (h.mah.row i) h.tobs lgt0 fb (fun v => (PopLoss.mcSample rng logMah (B v) h lgt0 fb i).sfhMs)
    (fun v => rfl) (fun s => (hreg s).1) (fun l hl =>
      ⟨p14.trans_le (hpos l (Or.inl hl)).2.2.2.2.1, (hpos l (Or.inl hl)).2.2.2.2.2⟩)
  obtain ⟨mQ, fQ, b1, b2, b3⟩ := obs_ad (S := S) (h2 (by
    have : (((mcDiffstarUParamsSinglegalKernel rng (B u) (h.logmp0 i) (h.mah.tPeak i) (h.upid i) (h.lgmuInfall i)
      (h.logmhostInfall i) (h.gyrSinceInfall i) (rng.split h.ranKey n i)).uQ.map Diffstar.getBoundedDiffstarParams).map
      fun q => sfhSinglegalKern logMah (obsTimes h.tobs) (h.mah.row i) q.ms q.q lgt0 fb).isSome := hQ
    simpa using this)) logMah (h.mah.row i) h.tobs lgt0 fb (fun v => (PopLoss.mcSample rng logMah (B v) h lgt0 fb i).sfhQ)
    (fun v => rfl) (fun s => (hreg s).2) (fun l hl =>
      ⟨p14.trans_le (hpos l (Or.inr hl)).2.2.2.2.1, (hpos l (Or.inr hl)).2.2.2.2.2⟩)
  refine ⟨mM, fM, mQ, fQ, a1, a2, b1, b2, fracQuench_ad rng _ _ _ _ _ _ (rng.split h.ranKey n i), ?_⟩
  filter_upwards [a3, b3] with v ⟨l, e1, e2, e3⟩ ⟨l', e4, e5, e6⟩
  exact ⟨l, l', e1, e4, e2, e3, e5, e6⟩

/-! ### Histograms -/

/-- A traced vector, NaN-free near `u`. -/
def AdO {X : Type} (e : X → Expr PF) (F : (PF → ℝ) → Option (X → ℝ)) (u : PF → ℝ) (S : Prop) : Prop :=
  ∃ g : (PF → ℝ) → X → ℝ, (∀ i, Ad (e i) (fun v => g v i) u S) ∧ ∀ᶠ v in 𝓝 u, F v = some (g v)

theorem normalise_ad {nb : ℕ} {w : Fin nb → Expr PF} {W : (PF → ℝ) → Fin nb → ℝ} (h : ∀ b, Ad (w b) (fun v => W v b) u S)
    (h0 : ∑ b, W u b ≠ 0) : AdO (Trace.normalise w) (fun v => PopLoss.normalise (W v)) u S := by
  have hs := Ad.sum h
  refine ⟨fun v b => W v b / ∑ b, W v b, fun b => (h b).div hs h0, ?_⟩
  filter_upwards [hs.cont.eventually_ne h0] with v hv
  simp [PopLoss.normalise, hv]

theorem normalise_sum_ne {X : Type*} [Fintype X] {W : X → ℝ} (h : (PopLoss.normalise W).isSome) : ∑ b, W b ≠ 0 := by
  intro h0
  simp [PopLoss.normalise, h0] at h

theorem binWeight_zero (x lo hi : ℝ) : NdHist.twBinWeightLaxKern x 0 lo hi = 0 := by
  rw [ndBin_eq]
  simp

theorem branchWeights_ad {n : ℕ} {e : Fin n → Expr PF} {f : (PF → ℝ) → Fin n → ℝ} (h : ∀ i, Ad (e i) (fun v => f v i) u S)
    (j : Fin (n + n)) : Ad (Trace.branchWeights e j) (fun v => PopLoss.branchWeights (f v) j) u S :=
  Ad.append (fun i => (Ad.const 1).mul ((Ad.const 1).sub (h i))) (fun i => (Ad.const 1).mul (h i)) j

theorem mstarPdf_core {K : Type} {rng : Rng K} {z : K → Fin 4 → ℝ} (hr : Reparametrised rng z) {n nb : ℕ}
    (logMah : MahParams ℝ → ℝ → ℝ → ℝ) (h : HaloSample K n) (lgt0 fb : ℝ) (ht : 0.1 < h.tobs) (bins : Fin (nb + 1) → ℝ)
    (hreg : S → ∀ i, OffFloor (fun v => (PopLoss.mcSample rng logMah (B v) h lgt0 fb i).sfhMs) u ∧
      OffFloor (fun v => (PopLoss.mcSample rng logMah (B v) h lgt0 fb i).sfhQ) u)
    (hs : ∀ i, (PopLoss.mcSample rng logMah (B u) h lgt0 fb i).sfhMs.isSome ∧
      (PopLoss.mcSample rng logMah (B u) h lgt0 fb i).sfhQ.isSome) (h0 : meanDiff bins + 0 ≠ 0) :
    ∃ (w : Fin nb → Expr PF) (W : (PF → ℝ) → Fin nb → ℝ), Trace.mstarPdf h.tobs
      (Trace.mcSample rng.split z logMah boundedPop h lgt0 fb) bins = Trace.normalise w ∧
      (∀ b, Ad (w b) (fun v => W v b) u S) ∧
      ∀ᶠ v in 𝓝 u, PopLoss.mstarPdf h.tobs (PopLoss.mcSample rng logMah (B v) h lgt0 fb) bins = PopLoss.normalise (W v) := by
  choose mM fM mQ fQ c1 c2 c3 c4 c5 c6 using fun i => gal_ad (u := u) (S := S) hr logMah h lgt0 fb ht i
    (hs i).1 (hs i).2 (fun s => hreg s i)
  set W : (PF → ℝ) → Fin nb → ℝ := fun v b => NdHist.twNdhistWeightedKern
    (fun j (_ : Fin 1) => Fin.append (fun i => mM i v) (fun i => mQ i v) j) (fun _ _ => meanDiff bins + 0)
    (PopLoss.branchWeights fun i => (PopLoss.mcSample rng logMah (B v) h lgt0 fb i).fracQ) (fun _ => bins b.castSucc)
    (fun _ => bins b.succ) with hW
  refine ⟨_, W, rfl, fun b => Ad.hist (fun j _ => Ad.append c1 c3 j) (branchWeights_ad c5) (fun _ => h0) _ _, ?_⟩
  filter_upwards [eventually_all.2 c6] with v hv
  choose l l' e1 e2 e3 e4 e5 e6 using hv
  unfold PopLoss.mstarPdf
  rw [allSome_eq_some.2 e1, Option.bind_some, allSome_eq_some.2 e2, Option.bind_some]
  simp only [hW, ← e3, ← e5]
  rfl

theorem mstarPdf_ad {K : Type} {rng : Rng K} {z : K → Fin 4 → ℝ} (hr : Reparametrised rng z) {n nb : ℕ}
    (logMah : MahParams ℝ → ℝ → ℝ → ℝ) (h : HaloSample K n) (lgt0 fb : ℝ) (ht : 0.1 < h.tobs) (bins : Fin (nb + 1) → ℝ)
    (hreg : S → ∀ i, OffFloor (fun v => (PopLoss.mcSample rng logMah (B v) h lgt0 fb i).sfhMs) u ∧
      OffFloor (fun v => (PopLoss.mcSample rng logMah (B v) h lgt0 fb i).sfhQ) u)
    (hs : (PopLoss.mstarPdf h.tobs (PopLoss.mcSample rng logMah (B u) h lgt0 fb) bins).isSome) :
    AdO (Trace.mstarPdf h.tobs (Trace.mcSample rng.split z logMah boundedPop h lgt0 fb) bins)
      (fun v => PopLoss.mstarPdf h.tobs (PopLoss.mcSample rng logMah (B v) h lgt0 fb) bins) u S := by
  obtain ⟨f, hf⟩ := Option.isSome_iff_exists.1 hs
  obtain ⟨a, b, hab, hno⟩ := mstarPdf_some hf
  have h0 : meanDiff bins + 0 ≠ 0 := by
    intro h0
    rw [add_zero] at h0
    refine normalise_sum_ne (by rw [hno]; rfl) ?_
    simp only [h0, binWeight_zero, mul_zero, add_zero, Finset.sum_const_zero]
  obtain ⟨w, W, ew, cw, e⟩ := mstarPdf_core hr logMah h lgt0 fb ht bins hreg
    (fun i => ⟨by rw [(hab i).1]; rfl, by rw [(hab i).2]; rfl⟩) h0
  obtain ⟨g, cg, eg⟩ := normalise_ad cw (normalise_sum_ne (by rw [← e.self_of_nhds]; exact hs))
  rw [ew]
  refine ⟨g, cg, ?_⟩
  filter_upwards [e, eg] with v h1 h2
  rw [h1, h2]

theorem clipped_ad {m f : Expr PF} {M F : (PF → ℝ) → ℝ} (hm : Ad m M u S) (hf : Ad f F u S) (h : S → F u - M u ≠ -12) :
    Ad (.max (.sub f m) (.const (-12))) (fun v => max (F v - M v) (-12)) u S :=
  (hf.sub hm).max (Sb := True) (.const (-12)) fun s => (lt_or_gt_of_ne (h s)).imp (⟨·, trivial⟩) (⟨·, s⟩)

theorem mstarSsfrPdf_core {K : Type} {rng : Rng K} {z : K → Fin 4 → ℝ} (hr : Reparametrised rng z) {n nms nsf : ℕ}
    (logMah : MahParams ℝ → ℝ → ℝ → ℝ) (h : HaloSample K n) (lgt0 fb : ℝ) (ht : 0.1 < h.tobs)
    (lo hi : Fin (nms * nsf) → Fin 2 → ℝ) (mb : Fin (nms + 1) → ℝ) (sb : Fin (nsf + 1) → ℝ)
    (hreg : S → ∀ i, (OffFloor (fun v => (PopLoss.mcSample rng logMah (B v) h lgt0 fb i).sfhMs) u ∧
      OffFloor (fun v => (PopLoss.mcSample rng logMah (B v) h lgt0 fb i).sfhQ) u) ∧
      OffClip h.tobs (PopLoss.mcSample rng logMah (B u) h lgt0 fb i).sfhMs ∧
      OffClip h.tobs (PopLoss.mcSample rng logMah (B u) h lgt0 fb i).sfhQ)
    (hs : ∀ i, (PopLoss.mcSample rng logMah (B u) h lgt0 fb i).sfhMs.isSome ∧
      (PopLoss.mcSample rng logMah (B u) h lgt0 fb i).sfhQ.isSome)
    (h0 : ∀ k, (![meanDiff mb + 0, meanDiff sb + 0] : Fin 2 → ℝ) k ≠ 0) :
    ∃ (w : Fin (nms * nsf) → Expr PF) (W : (PF → ℝ) → Fin (nms * nsf) → ℝ), Trace.mstarSsfrPdf h.tobs
      (Trace.mcSample rng.split z logMah boundedPop h lgt0 fb) lo hi mb sb = Trace.normalise w ∧
      (∀ b, Ad (w b) (fun v => W v b) u S) ∧
      ∀ᶠ v in 𝓝 u, PopLoss.mstarSsfrPdf h.tobs (PopLoss.mcSample rng logMah (B v) h lgt0 fb) lo hi mb sb =
        PopLoss.normalise (W v) := by
  choose mM fM mQ fQ c1 c2 c3 c4 c5 c6 using fun i => gal_ad (u := u) (S := S) hr logMah h lgt0 fb ht i
    (hs i).1 (hs i).2 (fun s => (hreg s i).1)
  have d1 := fun i => clipped_ad (c1 i) (c2 i) fun s => by
    obtain ⟨l, l', e1, e2, e3, e4, e5, e6⟩ := (c6 i).self_of_nhds
    rw [← e3, ← e4]
    exact (hreg s i).2.1 l e1
  have d2 := fun i => clipped_ad (c3 i) (c4 i) fun s => by
    obtain ⟨l, l', e1, e2, e3, e4, e5, e6⟩ := (c6 i).self_of_nhds
    rw [← e5, ← e6]
    exact (hreg s i).2.2 l' e2
  set D : (PF → ℝ) → Fin (n + n) → Fin 2 → ℝ := fun v j => ![Fin.append (fun i => mM i v) (fun i => mQ i v) j,
    Fin.append (fun i => max (fM i v - mM i v) (-12)) (fun i => max (fQ i v - mQ i v) (-12)) j] with hD
  set W : (PF → ℝ) → Fin (nms * nsf) → ℝ := fun v b => NdHist.twNdhistWeightedKern (D v)
    (fun _ => ![meanDiff mb + 0, meanDiff sb + 0])
    (PopLoss.branchWeights fun i => (PopLoss.mcSample rng logMah (B v) h lgt0 fb i).fracQ) (lo b) (hi b) with hW
  have cD : ∀ j k, Ad ((fun i => ![Fin.append (fun i => Trace.logMass h.tobs
      (Trace.mcSample rng.split z logMah boundedPop h lgt0 fb i).sfhMs) (fun i => Trace.logMass h.tobs
      (Trace.mcSample rng.split z logMah boundedPop h lgt0 fb i).sfhQ) i, Fin.append (fun i => Trace.logSsfr h.tobs
      (Trace.mcSample rng.split z logMah boundedPop h lgt0 fb i).sfhMs) (fun i => Trace.logSsfr h.tobs
      (Trace.mcSample rng.split z logMah boundedPop h lgt0 fb i).sfhQ) i]) j k) (fun v => D v j k) u S := by
    intro j k
    fin_cases k
    · exact Ad.append c1 c3 j
    · exact Ad.append d1 d2 j
  refine ⟨_, W, rfl, fun b => Ad.hist cD (branchWeights_ad c5) h0 _ _, ?_⟩
  filter_upwards [eventually_all.2 c6] with v hv
  choose l l' e1 e2 e3 e4 e5 e6 using hv
  unfold PopLoss.mstarSsfrPdf
  rw [allSome_eq_some.2 e1, Option.bind_some, allSome_eq_some.2 e2, Option.bind_some]
  simp only [hW, hD, ← e3, ← e5, ← e4, ← e6]
  rfl

theorem mstarSsfrPdf_ad {K : Type} {rng : Rng K} {z : K → Fin 4 → ℝ} (hr : Reparametrised rng z) {n nms nsf : ℕ}
    (logMah : MahParams ℝ → ℝ → ℝ → ℝ) (h : HaloSample K n) (lgt0 fb : ℝ) (ht : 0.1 < h.tobs)
    (lo hi : Fin (nms * nsf) → Fin 2 → ℝ) (mb : Fin (nms + 1) → ℝ) (sb : Fin (nsf + 1) → ℝ)
    (hreg : S → ∀ i, (OffFloor (fun v => (PopLoss.mcSample rng logMah (B v) h lgt0 fb i).sfhMs) u ∧
      OffFloor (fun v => (PopLoss.mcSample rng logMah (B v) h lgt0 fb i).sfhQ) u) ∧
      OffClip h.tobs (PopLoss.mcSample rng logMah (B u) h lgt0 fb i).sfhMs ∧
      OffClip h.tobs (PopLoss.mcSample rng logMah (B u) h lgt0 fb i).sfhQ)
    (hs : (PopLoss.mstarSsfrPdf h.tobs (PopLoss.mcSample rng logMah (B u) h lgt0 fb) lo hi mb sb).isSome) :
    AdO (Trace.mstarSsfrPdf h.tobs (Trace.mcSample rng.split z logMah boundedPop h lgt0 fb) lo hi mb sb)
      (fun v => PopLoss.mstarSsfrPdf h.tobs (PopLoss.mcSample rng logMah (B v) h lgt0 fb) lo hi mb sb) u S := by
  obtain ⟨f, hf⟩ := Option.isSome_iff_exists.1 hs
  obtain ⟨a, b, hab, hno⟩ := mstarSsfrPdf_some hf
  have h0 : ∀ k, (![meanDiff mb + 0, meanDiff sb + 0] : Fin 2 → ℝ) k ≠ 0 := by
    intro k hk
    refine normalise_sum_ne (by rw [hno]; rfl) ?_
    fin_cases k
    · have h0 : meanDiff mb = 0 := by simpa using hk
      simp only [h0, binWeight_zero, mul_zero, zero_mul, add_zero, Finset.sum_const_zero]
    · have h0 : meanDiff sb = 0 := by simpa using hk
      simp only [h0, binWeight_zero, mul_zero, add_zero, Finset.sum_const_zero]
  obtain ⟨w, W, ew, cw, e⟩ := mstarSsfrPdf_core hr logMah h lgt0 fb ht lo hi mb sb hreg
    (fun i => ⟨by rw [(hab i).1]; rfl, by rw [(hab i).2]; rfl⟩) h0
  obtain ⟨g, cg, eg⟩ := normalise_ad cw (normalise_sum_ne (by rw [← e.self_of_nhds]; exact hs))
  rw [ew]
  refine ⟨g, cg, ?_⟩
  filter_upwards [e, eg] with v h1 h2
  rw [h1, h2]

/-! ### Losses -/

/-- The traced loss computes the loss near `u`. -/
def AdS (e : Expr PF) (F : (PF → ℝ) → Option ℝ) (u : PF → ℝ) (S : Prop) : Prop :=
  ∃ g : (PF → ℝ) → ℝ, Ad e g u S ∧ ∀ᶠ v in 𝓝 u, F v = some (g v)

theorem mse_card {ι : Type*} [Fintype ι] {F : ι → Option ℝ} {target : ι → ℝ} (hs : (mse F target).isSome) :
    Fintype.card ι ≠ 0 := by
  obtain ⟨x, hx⟩ := Option.isSome_iff_exists.1 hs
  unfold mse at hx
  obtain ⟨y, -, hy⟩ := Option.bind_eq_some_iff.1 hx
  intro h0
  simp [h0] at hy

theorem mse_eq {ι : Type*} [Fintype ι] {F : ι → Option ℝ} {a target : ι → ℝ} (h : ∀ i, F i = some (a i))
    (hc : Fintype.card ι ≠ 0) : mse F target = some ((∑ i, (a i - target i) ^ 2) / Fintype.card ι) := by
  unfold mse
  rw [allSome_eq_some.2 h, Option.bind_some]
  exact if_neg hc

theorem lossMstar_core {K : Type} {rng : Rng K} {z : K → Fin 4 → ℝ} {nk n nb : ℕ} (logMah : MahParams ℝ → ℝ → ℝ → ℝ)
    (d : MstarData K nk n nb) (hc' : nk * nb ≠ 0)
    (hpdf : ∀ k, AdO (Trace.mstarPdf (d.samples k).tobs (Trace.mcSample rng.split z logMah boundedPop (d.samples k) d.lgt0 d.fb)
      d.bins) (fun v => PopLoss.mstarPdf (d.samples k).tobs (PopLoss.mcSample rng logMah (B v) (d.samples k) d.lgt0 d.fb)
      d.bins) u S) :
    AdS (Trace.lossMstar rng.split z logMah d) (fun v => PopLoss.lossMstar rng logMah v d) u S := by
  have hc : Fintype.card (Fin nk × Fin nb) ≠ 0 := by simpa using hc'
  choose g cg eg using hpdf
  refine ⟨_, ((Ad.sum fun k => Ad.sum fun b => ((cg k b).sub (.const (d.target k b))).pow 2).div
    (.const ((nk : ℝ) * nb)) (by exact_mod_cast hc')).mul (.const 1000), ?_⟩
  filter_upwards [eventually_all.2 eg] with v hv
  unfold PopLoss.lossMstar
  dsimp only
  rw [mse_eq (a := fun i => g i.1 v i.2) (fun i => by simp only [mstarKernTobs, hv, Option.map_some]) hc, Option.map_some,
    Fintype.sum_prod_type]
  simp

theorem lossMstar_ad {K : Type} {rng : Rng K} {z : K → Fin 4 → ℝ} (hr : Reparametrised rng z) {nk n nb : ℕ}
    (logMah : MahParams ℝ → ℝ → ℝ → ℝ) (d : MstarData K nk n nb) (ht : ∀ k, 0.1 < (d.samples k).tobs)
    (hs : (PopLoss.lossMstar rng logMah u d).isSome) (hreg : S → RegularMstar rng logMah u d) :
    AdS (Trace.lossMstar rng.split z logMah d) (fun v => PopLoss.lossMstar rng logMah v d) u S := by
  unfold PopLoss.lossMstar at hs
  rw [Option.isSome_map] at hs
  have hc := mse_card hs
  have hc' : nk * nb ≠ 0 := by simpa using hc
  have hb : Nonempty (Fin nb) := ⟨⟨0, Nat.pos_of_ne_zero fun h => hc' (by rw [h, mul_zero])⟩⟩
  have hpdf : ∀ k, AdO (Trace.mstarPdf (d.samples k).tobs (Trace.mcSample rng.split z logMah boundedPop (d.samples k) d.lgt0 d.fb)
      d.bins) (fun v => PopLoss.mstarPdf (d.samples k).tobs (PopLoss.mcSample rng logMah (B v) (d.samples k) d.lgt0 d.fb)
      d.bins) u S := by
    intro k
    refine mstarPdf_ad hr logMah _ _ _ (ht k) _ (fun s => (hreg s).2 k) ?_
    have := mse_isSome hs (k, hb.some)
    rw [Option.isSome_map] at this
    exact this
  exact lossMstar_core logMah d hc' hpdf

/-- The rows of the prediction before the division. -/
noncomputable def traceRow {K : Type} {nk n nms nsf nz nm nt : ℕ} (split : K → (m : ℕ) → Fin m → K) (z : K → Fin 4 → ℝ)
    (logMah : MahParams ℝ → ℝ → ℝ → ℝ) (d : SsfrData K nk n nms nsf nz nm nt) (iz : Fin nz) (t : Fin nt) (b : Fin nsf) : Expr PF :=
  Trace.take (fun a => Trace.sum fun m => Expr.mul (Trace.take (fun k => Trace.mstarSsfrPdf
      (d.samples k).tobs (Trace.mcSample split z logMah boundedPop (d.samples k) d.lgt0 d.fb) d.ndbinsLo d.ndbinsHi
      d.mstarBins d.ssfrBins (finProdFinEquiv (a, b))) (d.indxPdf iz m)) (.const (d.nmhaloPdf iz m))) (d.targetMstarIds t)

theorem lossMstarSsfr_core {K : Type} {rng : Rng K} {z : K → Fin 4 → ℝ} {nk n nms nsf nz nm nt : ℕ}
    (logMah : MahParams ℝ → ℝ → ℝ → ℝ) (d : SsfrData K nk n nms nsf nz nm nt) (hc' : nz * (nt * nsf) ≠ 0)
    (hpdf : (∀ k, AdO (Trace.mstarSsfrPdf (d.samples k).tobs
      (Trace.mcSample rng.split z logMah boundedPop (d.samples k) d.lgt0 d.fb) d.ndbinsLo d.ndbinsHi d.mstarBins d.ssfrBins)
      (fun v => PopLoss.mstarSsfrPdf (d.samples k).tobs (PopLoss.mcSample rng logMah (B v) (d.samples k) d.lgt0 d.fb)
      d.ndbinsLo d.ndbinsHi d.mstarBins d.ssfrBins) u S))
    (hrow : ∀ iz t s, (Trace.sum fun b => traceRow rng.split z logMah d iz t b).eval u = some s →
      (∀ b, (PopLoss.mstarSsfrKernTobs rng logMah u d iz t b).isSome) ∨ s ≠ 0) :
    AdS (Trace.lossMstarSsfr rng.split z logMah d) (fun v => PopLoss.lossMstarSsfr rng logMah v d) u S := by
  have hc : Fintype.card (Fin nz × Fin nt × Fin nsf) ≠ 0 := by simpa using hc'
  have hs0 : Nonempty (Fin nsf) := ⟨⟨0, Nat.pos_of_ne_zero fun h => hc' (by rw [h, mul_zero, mul_zero])⟩⟩
  choose g cg eg using hpdf
  set row : (PF → ℝ) → Fin nz → Fin nt → Fin nsf → ℝ := fun v iz t b =>
    ∑ m, g (d.indxPdf iz m) v (finProdFinEquiv (d.targetMstarIds t, b)) * d.nmhaloPdf iz m with hrow'
  have crow : ∀ iz t b, Ad (traceRow rng.split z logMah d iz t b)
      (fun v => row v iz t b) u S := by
    intro iz t b
    exact Ad.take (f := fun v a => ∑ m, g (d.indxPdf iz m) v (finProdFinEquiv (a, b)) * d.nmhaloPdf iz m) (fun a =>
      Ad.sum fun m => (Ad.take (f := fun v k => g k v (finProdFinEquiv (a, b))) (fun k => cg k _) (d.indxPdf iz m)).mul
        (.const _)) (d.targetMstarIds t)
  have emix : ∀ᶠ v in 𝓝 u, ∀ iz, mixBins (fun k => (PopLoss.mstarSsfrPdf (d.samples k).tobs (PopLoss.mcSample rng logMah
      (B v) (d.samples k) d.lgt0 d.fb) d.ndbinsLo d.ndbinsHi d.mstarBins d.ssfrBins).map
      reshape) (d.indxPdf iz) (d.nmhaloPdf iz) =
        some fun a b => ∑ m, g (d.indxPdf iz m) v (finProdFinEquiv (a, b)) * d.nmhaloPdf iz m := by
    filter_upwards [eventually_all.2 eg] with v hv
    intro iz
    unfold mixBins
    rw [(allSome_eq_some (g := fun m => reshape (g (d.indxPdf iz m) v))).2 fun m => by
      simp only [hv, Option.map_some], Option.map_some]
    rfl
  have h0 : ∀ iz t, ∑ b, row u iz t b ≠ 0 := by
    intro iz t h0
    rcases hrow iz t _ (Ad.sum fun b => crow iz t b).at with hi | hi
    · have hi := hi hs0.some
      unfold PopLoss.mstarSsfrKernTobs conditional at hi
      have := emix.self_of_nhds iz
      simp only [hrow'] at h0
      simp [this, h0] at hi
    · exact hi h0
  have cpred := fun iz t b => (crow iz t b).div (Ad.sum fun b => crow iz t b) (h0 iz t)
  refine ⟨_, ((Ad.sum fun iz => Ad.sum fun t => Ad.sum fun b => ((cpred iz t b).sub (.const (d.target iz t b))).pow 2).div
    (.const ((nz : ℝ) * nt * nsf)) (by rw [mul_assoc]; exact_mod_cast hc')).mul (.const 1000), ?_⟩
  filter_upwards [emix, eventually_all.2 fun iz => eventually_all.2 fun t =>
    (Ad.sum fun b => crow iz t b).cont.eventually_ne (h0 iz t)] with v hv hv0
  unfold PopLoss.lossMstarSsfr
  dsimp only
  rw [mse_eq (a := fun i => row v i.1 i.2.1 i.2.2 / ∑ b, row v i.1 i.2.1 b) (fun i => ?_) hc, Option.map_some,
    Fintype.sum_prod_type]
  · simp [Fintype.sum_prod_type, mul_assoc]
  · unfold PopLoss.mstarSsfrKernTobs conditional
    simp only [hv, Option.bind_some]
    exact if_neg (hv0 i.1 i.2.1)

theorem lossMstarSsfr_ad {K : Type} {rng : Rng K} {z : K → Fin 4 → ℝ} (hr : Reparametrised rng z) {nk n nms nsf nz nm nt : ℕ}
    (logMah : MahParams ℝ → ℝ → ℝ → ℝ) (d : SsfrData K nk n nms nsf nz nm nt) (ht : ∀ k, 0.1 < (d.samples k).tobs)
    (hu : RowsUsed d) (hs : (PopLoss.lossMstarSsfr rng logMah u d).isSome) (hreg : S → RegularSsfr rng logMah u d) :
    AdS (Trace.lossMstarSsfr rng.split z logMah d) (fun v => PopLoss.lossMstarSsfr rng logMah v d) u S := by
  unfold PopLoss.lossMstarSsfr at hs
  rw [Option.isSome_map] at hs
  have hc := mse_card hs
  have hc' : nz * (nt * nsf) ≠ 0 := by simpa using hc
  have ht0 : Nonempty (Fin nt) := ⟨⟨0, Nat.pos_of_ne_zero fun h => hc' (by rw [h, zero_mul, mul_zero])⟩⟩
  have hs0 : Nonempty (Fin nsf) := ⟨⟨0, Nat.pos_of_ne_zero fun h => hc' (by rw [h, mul_zero, mul_zero])⟩⟩
  have hmix : ∀ iz, (mixBins (fun k => (PopLoss.mstarSsfrPdf (d.samples k).tobs (PopLoss.mcSample rng logMah (B u)
      (d.samples k) d.lgt0 d.fb) d.ndbinsLo d.ndbinsHi d.mstarBins d.ssfrBins).map reshape) (d.indxPdf iz)
      (d.nmhaloPdf iz)).isSome := by
    intro iz
    have hi := mse_isSome hs (iz, ht0.some, hs0.some)
    unfold PopLoss.mstarSsfrKernTobs conditional at hi
    by_contra hno
    rw [Option.not_isSome_iff_eq_none] at hno
    simp [hno] at hi
  have hpdf : ∀ k, AdO (Trace.mstarSsfrPdf (d.samples k).tobs
      (Trace.mcSample rng.split z logMah boundedPop (d.samples k) d.lgt0 d.fb) d.ndbinsLo d.ndbinsHi d.mstarBins d.ssfrBins)
      (fun v => PopLoss.mstarSsfrPdf (d.samples k).tobs (PopLoss.mcSample rng logMah (B v) (d.samples k) d.lgt0 d.fb)
      d.ndbinsLo d.ndbinsHi d.mstarBins d.ssfrBins) u S := by
    intro k
    refine mstarSsfrPdf_ad hr logMah _ _ _ (ht k) _ _ _ _ (fun s => (hreg s).2 k) ?_
    obtain ⟨iz, m, rfl⟩ := hu k
    have hall := hmix iz
    unfold mixBins at hall
    rw [Option.isSome_map, allSome_isSome] at hall
    have := hall m
    rw [Option.isSome_map] at this
    exact this
  exact lossMstarSsfr_core logMah d hc' hpdf fun iz t s _ => Or.inl fun b => mse_isSome hs (iz, t, b)

theorem addNan_ad {a b : Expr PF} {F G : (PF → ℝ) → Option ℝ} (ha : AdS a F u S) (hb : AdS b G u S) :
    AdS (.add a b) (fun v => addNan (F v) (G v)) u S := by
  obtain ⟨f, cf, ef⟩ := ha
  obtain ⟨g, cg, eg⟩ := hb
  refine ⟨_, cf.add cg, ?_⟩
  filter_upwards [ef, eg] with v h1 h2
  simp [addNan, h1, h2]

theorem wrapper_ad {e : Expr PF} {F : (PF → ℝ) → Option ℝ} {flat : List ℝ} (h : flat.length = 88)
    (hu : makeUParams flat = some u) (ha : AdS e F u S) {L : ℝ} (hL : F u = some L) :
    ReturnsFinite (Trace.gradWrapper e) flat L ∧ (S → ReturnsGradient (Trace.gradWrapper e) flat L) := by
  rw [makeUParams_eq h, Option.some.injEq] at hu
  subst hu
  obtain ⟨g, cg, eg⟩ := ha
  have hgL : g (makeTuple PF.fields flat) = L := by
    have := eg.self_of_nhds
    rw [hL, Option.some.injEq] at this
    exact this.symm
  have hw : ∀ fl : List ℝ, fl.length = 88 → Trace.gradWrapper e fl =
      some (e.eval (makeTuple PF.fields fl), PF.fields.map (e.grad (makeTuple PF.fields fl))) := by
    intro fl hfl
    unfold Trace.gradWrapper
    rw [makeUParams_eq hfl]
    rfl
  obtain ⟨D, h1, h2⟩ := cg.grad
  have hflat : Trace.gradWrapper e flat = some (some L, (PF.fields.map fun k => D (Pi.single k 1)).map some) := by
    rw [hw flat h, cg.at, hgL, List.map_map]
    refine congrArg (fun x => some (some L, x)) (List.map_congr_left fun k _ => ?_)
    have := congrFun (h1 1) k
    rw [one_mul] at this
    exact this
  refine ⟨⟨_, hflat, by rw [List.length_map, fields_length]⟩, fun s => ?_⟩
  refine returnsGradient_of h (F := e.eval) (fun fl hfl => ⟨_, hw fl hfl⟩) (h2 s).differentiableAt hgL cg.val ?_
  rw [hflat, (h2 s).fderiv]

end

/-- **C136**: reverse-mode differentiation of the stellar mass loss: wherever the loss is not NaN, the wrapper returns it with
88 finite numbers, also when rates are on their floor; away from the edge of the floor they are the gradient. -/
theorem C136_mstar_partial {K : Type} {rng : Rng K} {z : K → Fin 4 → ℝ} (hr : Reparametrised rng z) {nk n nb : ℕ}
    (logMah : MahParams ℝ → ℝ → ℝ → ℝ) (d : MstarData K nk n nb) (ht : ∀ k, 0.1 < (d.samples k).tobs) (flat : List ℝ)
    (h : flat.length = 88) (u : PF → ℝ) (hu : makeUParams flat = some u) (L : ℝ) (hL : PopLoss.lossMstar rng logMah u d = some L) :
    ReturnsFinite (Trace.gradWrapper (Trace.lossMstar rng.split z logMah d)) flat L ∧
    (RegularMstar rng logMah u d → ReturnsGradient (Trace.gradWrapper (Trace.lossMstar rng.split z logMah d)) flat L) :=
  wrapper_ad h hu (lossMstar_ad hr logMah d ht (by rw [hL]; rfl) id) hL

/-- **C136** for the sSFR losses of centrals and of satellites; the clip of the log sSFR at -12 is a second edge. -/
theorem C136_ssfr_partial {K : Type} {rng : Rng K} {z : K → Fin 4 → ℝ} (hr : Reparametrised rng z) {nk n nms nsf nz nm nt : ℕ}
    (logMah : MahParams ℝ → ℝ → ℝ → ℝ) (d : SsfrData K nk n nms nsf nz nm nt) (ht : ∀ k, 0.1 < (d.samples k).tobs)
    (hrow : RowsUsed d) (flat : List ℝ) (h : flat.length = 88) (u : PF → ℝ) (hu : makeUParams flat = some u) (L : ℝ)
    (hL : PopLoss.lossMstarSsfr rng logMah u d = some L) :
    ReturnsFinite (Trace.gradWrapper (Trace.lossMstarSsfr rng.split z logMah d)) flat L ∧
    (RegularSsfr rng logMah u d → ReturnsGradient (Trace.gradWrapper (Trace.lossMstarSsfr rng.split z logMah d)) flat L) :=
  wrapper_ad h hu (lossMstarSsfr_ad hr logMah d ht hrow (by rw [hL]; rfl) id) hL

/-- **C136** for the sum of the stellar mass loss and the sSFR loss of centrals. -/
theorem C136_combined_partial {K : Type} {rng : Rng K} {z : K → Fin 4 → ℝ} (hr : Reparametrised rng z)
    {nk n nb nk' n' nms nsf nz nm nt : ℕ} (logMah : MahParams ℝ → ℝ → ℝ → ℝ) (dMstar : MstarData K nk n nb)
    (dCen : SsfrData K nk' n' nms nsf nz nm nt) (ht : ∀ k, 0.1 < (dMstar.samples k).tobs)
    (ht' : ∀ k, 0.1 < (dCen.samples k).tobs) (hrow : RowsUsed dCen) (flat : List ℝ) (h : flat.length = 88) (u : PF → ℝ)
    (hu : makeUParams flat = some u) (L : ℝ) (hL : PopLoss.lossCombined rng logMah u dMstar dCen = some L) :
    ReturnsFinite (Trace.gradWrapper (Trace.lossCombined rng.split z logMah dMstar dCen)) flat L ∧
    (RegularMstar rng logMah u dMstar ∧ RegularSsfr rng logMah u dCen →
      ReturnsGradient (Trace.gradWrapper (Trace.lossCombined rng.split z logMah dMstar dCen)) flat L) := by
  have hc := hL
  unfold PopLoss.lossCombined addNan at hc
  obtain ⟨a, ha, hc⟩ := Option.bind_eq_some_iff.1 hc
  obtain ⟨b, hb, -⟩ := Option.map_eq_some_iff.1 hc
  exact wrapper_ad h hu (addNan_ad (lossMstarSsfr_ad hr logMah dCen ht' hrow (by rw [ha]; rfl) And.right)
    (lossMstar_ad hr logMah dMstar ht (by rw [hb]; rfl) And.left)) hL

/-- **C136** for the sum with both sSFR losses. -/
theorem C136_combined3_partial {K : Type} {rng : Rng K} {z : K → Fin 4 → ℝ} (hr : Reparametrised rng z)
    {nk n nb nk' n' nms nsf nz nm nt nk'' n'' nms' nsf' nz' nm' nt' : ℕ} (logMah : MahParams ℝ → ℝ → ℝ → ℝ)
    (dMstar : MstarData K nk n nb) (dCen : SsfrData K nk' n' nms nsf nz nm nt) (dSat : SsfrData K nk'' n'' nms' nsf' nz' nm' nt')
    (ht : ∀ k, 0.1 < (dMstar.samples k).tobs) (ht' : ∀ k, 0.1 < (dCen.samples k).tobs)
    (ht'' : ∀ k, 0.1 < (dSat.samples k).tobs) (hrow : RowsUsed dCen) (hrow' : RowsUsed dSat) (flat : List ℝ)
    (h : flat.length = 88) (u : PF → ℝ) (hu : makeUParams flat = some u) (L : ℝ)
    (hL : PopLoss.lossCombined3 rng logMah u dMstar dCen dSat = some L) :
    ReturnsFinite (Trace.gradWrapper (Trace.lossCombined3 rng.split z logMah dMstar dCen dSat)) flat L ∧
    (RegularMstar rng logMah u dMstar ∧ RegularSsfr rng logMah u dCen ∧ RegularSsfr rng logMah u dSat →
      ReturnsGradient (Trace.gradWrapper (Trace.lossCombined3 rng.split z logMah dMstar dCen dSat)) flat L) := by
  have hc := hL
  unfold PopLoss.lossCombined3 addNan at hc
  obtain ⟨ab, hab, hc⟩ := Option.bind_eq_some_iff.1 hc
  obtain ⟨c, hc, -⟩ := Option.map_eq_some_iff.1 hc
  obtain ⟨a, ha, hab⟩ := Option.bind_eq_some_iff.1 hab
  obtain ⟨b, hb, -⟩ := Option.map_eq_some_iff.1 hab
  exact wrapper_ad h hu (addNan_ad (addNan_ad (lossMstarSsfr_ad hr logMah dCen ht' hrow (by rw [ha]; rfl) (·.2.1))
    (lossMstar_ad hr logMah dMstar ht (by rw [hb]; rfl) (·.1)))
    (lossMstarSsfr_ad hr logMah dSat ht'' hrow' (by rw [hc]; rfl) (·.2.2))) hL

/-! ### The index rows of loaded data -/

/-- **C136**: in loss data made by the scripts every group of halos is used, so that `RowsUsed` is met: every group occurs
in the padded index row of some redshift. -/
theorem C136_rows_used {choice : Targets.Choice} (hc : Diffstar.Spec.IsNpChoice choice) (kind : LossData.Kind)
    (samples : List Targets.Sample) (nhalos nm : ℕ) (ages : List ℝ) (nmhaloPdf : List (List ℝ))
    (hlen : nmhaloPdf.length = ages.length) (rows : List (List ℕ × List ℝ))
    (h : LossData.prepareRaggedChecked (LossData.selectLossData choice kind samples nhalos nm ages).indxPdf nmhaloPdf
      (LossData.selectLossData choice kind samples nhalos nm ages).indexMhalo = some rows) (k : ℕ)
    (hk : k < (LossData.selectLossData choice kind samples nhalos nm ages).entries.length) :
    ∃ row ∈ rows, k ∈ row.1 := by
  obtain ⟨-, h2, h3, h4⟩ := C78_selected_bins hc kind samples nhalos nm ages
  generalize LossData.selectLossData choice kind samples nhalos nm ages = sel at *
  have hl : sel.indexMhalo.length = ages.length := by rw [h2]; simp
  have hl' : sel.indxPdf.length = ages.length := by
    have := congrArg List.length h4
    rwa [List.length_map, List.length_map, hl] at this
  have hm : k ∈ sel.indxPdf.flatten := by rw [h3]; exact List.mem_range.2 hk
  obtain ⟨r, hr, hkr⟩ := List.mem_flatten.1 hm
  obtain ⟨i, hi, rfl⟩ := List.getElem_of_mem hr
  unfold LossData.prepareRaggedChecked at h
  split_ifs at h
  rw [Option.some.injEq] at h
  subst h
  have hz : i < (sel.indxPdf.zip (nmhaloPdf.zip sel.indexMhalo)).length := by
    simp only [List.length_zip]; omega
  refine ⟨_, List.mem_map_of_mem (List.getElem_mem hz), ?_⟩
  simp only [List.getElem_zip, Load.padRow]
  exact List.mem_append_left _ hkr

/-! ### The fit -/

/-- The loss of the script as a function of the unbounded parameters. -/
noncomputable def scriptValue {K : Type} (rng : Rng K) (logMah : MahParams ℝ → ℝ → ℝ → ℝ) (u : PF → ℝ) : ScriptLoss K → Option ℝ
  | .mstar dMstar => PopLoss.lossMstar rng logMah u dMstar
  | .mstarSsfrCen dMstar dCen => PopLoss.lossCombined rng logMah u dMstar dCen
  | .mstarSsfrCenSat dMstar dCen dSat => PopLoss.lossCombined3 rng logMah u dMstar dCen dSat

/-- Observation times above 0.1 Gyr and every group of halos used. -/
def GoodData {K : Type} : ScriptLoss K → Prop
  | .mstar dMstar => ∀ k, 0.1 < (dMstar.samples k).tobs
  | .mstarSsfrCen dMstar dCen => (∀ k, 0.1 < (dMstar.samples k).tobs) ∧ (∀ k, 0.1 < (dCen.samples k).tobs) ∧ RowsUsed dCen
  | .mstarSsfrCenSat dMstar dCen dSat => (∀ k, 0.1 < (dMstar.samples k).tobs) ∧ (∀ k, 0.1 < (dCen.samples k).tobs) ∧
      (∀ k, 0.1 < (dSat.samples k).tobs) ∧ RowsUsed dCen ∧ RowsUsed dSat

theorem scriptLoss_finite {K : Type} {rng : Rng K} {z : K → Fin 4 → ℝ} (hr : Reparametrised rng z)
    (logMah : MahParams ℝ → ℝ → ℝ → ℝ) (l : ScriptLoss K) (hd : GoodData l) (flat : List ℝ) (h : flat.length = 88)
    (u : PF → ℝ) (hu : makeUParams flat = some u) (L : ℝ) (hL : scriptValue rng logMah u l = some L) :
    ReturnsFinite (Trace.gradWrapper (Trace.scriptLoss rng.split z logMah l)) flat L := by
  cases l with
  | mstar d => exact (C136_mstar_partial hr logMah d hd flat h u hu L hL).1
  | mstarSsfrCen d dc => exact (C136_combined_partial hr logMah d dc hd.1 hd.2.1 hd.2.2 flat h u hu L hL).1
  | mstarSsfrCenSat d dc ds =>
    exact (C136_combined3_partial hr logMah d dc ds hd.1 hd.2.1 hd.2.2.1 hd.2.2.2.1 hd.2.2.2.2 flat h u hu L hL).1

theorem oneSigmaRng_reparametrised : Reparametrised oneSigmaRng fun _ _ => 1 := by
  intro key m s hs
  funext i
  simp only [oneSigmaRng, Matrix.diagonal_apply_eq, mul_one]

end Diffstar.Props
