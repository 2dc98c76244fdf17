import Verif.Props.HaloDraws
import Verif.Props.PopNan
import Verif.Props.PopNanSsfr
import Mathlib.Analysis.SpecificLimits.Basic
import Mathlib.Topology.Algebra.Order.LiminfLimsup

/-! C152: predicted distributions and losses depend continuously on the halo catalogue. -/

namespace Diffstar.Spec

open Diffstar Diffstar.Pop Diffstar.PopLoss Filter Topology

/-- The halo samples `h' k` approach the sample `h` along the filter `l`: same key and same kind of halos; peak mass, peak time, time of
observation, halo masses at the times of the table and, for satellites, the infall quantities converge. -/
structure Approaches {ι : Type*} {K : Type} {n : ℕ} (logMah : MahParams ℝ → ℝ → ℝ → ℝ) (lgt0 : ℝ) (l : Filter ι) (h' : ι → HaloSample K n)
    (h : HaloSample K n) : Prop where
  ranKey : ∀ k, (h' k).ranKey = h.ranKey
  upid : ∀ k, (h' k).upid = h.upid
  tobs : Tendsto (fun k => (h' k).tobs) l (𝓝 h.tobs)
  logmp0 : ∀ i, Tendsto (fun k => (h' k).logmp0 i) l (𝓝 (h.logmp0 i))
  tpeak : ∀ i, Tendsto (fun k => (h' k).mah.tPeak i) l (𝓝 (h.mah.tPeak i))
  lgmuInfall : ∀ i, h.upid i ≠ -1 → Tendsto (fun k => (h' k).lgmuInfall i) l (𝓝 (h.lgmuInfall i))
  logmhostInfall : ∀ i, h.upid i ≠ -1 → Tendsto (fun k => (h' k).logmhostInfall i) l (𝓝 (h.logmhostInfall i))
  gyrSinceInfall : ∀ i, h.upid i ≠ -1 → Tendsto (fun k => (h' k).gyrSinceInfall i) l (𝓝 (h.gyrSinceInfall i))
  haloMass : ∀ i j, j < 20 → Tendsto (fun k => logMah ((h' k).mah.row i) ((obsTimes (h' k).tobs).getD j 0) lgt0) l
    (𝓝 (logMah (h.mah.row i) ((obsTimes h.tobs).getD j 0) lgt0))

end Diffstar.Spec

namespace Diffstar.Props

open Diffstar Diffstar.Spec Diffstar.Pop Diffstar.PopLoss Filter Topology

variable {ι : Type*} {l : Filter ι}

/-- Parameters converge field by field. -/
structure ParTendsto (q' : ι → DiffstarParams ℝ) (l : Filter ι) (q : DiffstarParams ℝ) : Prop where
  lgmcrit : Tendsto (fun k => (q' k).lgmcrit) l (𝓝 q.lgmcrit)
  lgyAtMcrit : Tendsto (fun k => (q' k).lgyAtMcrit) l (𝓝 q.lgyAtMcrit)
  indxLo : Tendsto (fun k => (q' k).indxLo) l (𝓝 q.indxLo)
  indxHi : Tendsto (fun k => (q' k).indxHi) l (𝓝 q.indxHi)
  lgQt : Tendsto (fun k => (q' k).lgQt) l (𝓝 q.lgQt)
  qlglgdt : Tendsto (fun k => (q' k).qlglgdt) l (𝓝 q.qlglgdt)
  lgDrop : Tendsto (fun k => (q' k).lgDrop) l (𝓝 q.lgDrop)
  lgRejuv : Tendsto (fun k => (q' k).lgRejuv) l (𝓝 q.lgRejuv)

/-- Rate as a function of parameters, time and halo mass. -/
noncomputable def rateAt (q : DiffstarParams ℝ) (fb t m : ℝ) : ℝ :=
  max (1 / 10 ^ 14) ((10 : ℝ) ^ qExp (Real.logb 10 t) q.lgQt ((10 : ℝ) ^ q.qlglgdt) q.lgDrop q.lgRejuv * msSfr q fb m)

theorem tendsto_pow10 {f : ι → ℝ} {x : ℝ} (h : Tendsto f l (𝓝 x)) : Tendsto (fun k => (10 : ℝ) ^ f k) l (𝓝 ((10 : ℝ) ^ x)) :=
  tendsto_const_nhds.rpow h (Or.inl (by norm_num))

theorem tendsto_logb {f : ι → ℝ} {x : ℝ} (h : Tendsto f l (𝓝 x)) (hx : 0 < x) : Tendsto (fun k => Real.logb 10 (f k)) l (𝓝 (Real.logb 10 x)) := by
  unfold Real.logb
  exact ((Real.continuousAt_log hx.ne').tendsto.comp h).div_const _

theorem rate_tendsto {q' : ι → DiffstarParams ℝ} {q : DiffstarParams ℝ} (hq : ParTendsto q' l q) (fb : ℝ) {t' m' : ι → ℝ} {t m : ℝ} (ht : 0 < t)
    (h1 : Tendsto t' l (𝓝 t)) (h2 : Tendsto m' l (𝓝 m)) : Tendsto (fun k => rateAt (q' k) fb (t' k) (m' k)) l (𝓝 (rateAt q fb t m)) := by
  have hT : Continuous jaxTw := (contDiff_jaxTw.of_le (show (0 : WithTop ℕ∞) ≤ 3 by norm_num)).continuous
  have hx := tendsto_logb h1 ht
  have hd : (10 : ℝ) ^ q.qlglgdt / 12 ≠ 0 := by positivity
  have hy := (hx.sub hq.lgQt).div ((tendsto_pow10 hq.qlglgdt).div_const 12) hd
  have hqe : Tendsto (fun k => qExp (Real.logb 10 (t' k)) (q' k).lgQt ((10 : ℝ) ^ (q' k).qlglgdt) (q' k).lgDrop (q' k).lgRejuv) l
      (𝓝 (qExp (Real.logb 10 t) q.lgQt ((10 : ℝ) ^ q.qlglgdt) q.lgDrop q.lgRejuv)) :=
    (hq.lgDrop.mul ((hT.tendsto _).comp (hy.add_const 3))).sub ((hq.lgDrop.sub hq.lgRejuv).mul ((hT.tendsto _).comp (hy.sub_const 3)))
  have hm := h2.sub hq.lgmcrit
  have he : Tendsto (fun k => Real.exp (-(9 * (m' k - (q' k).lgmcrit)))) l (𝓝 (Real.exp (-(9 * (m - q.lgmcrit))))) :=
    (Real.continuous_exp.tendsto _).comp (hm.const_mul 9).neg
  have hden : 1 + Real.exp (-(9 * (m - q.lgmcrit))) ≠ 0 := by positivity
  have heff : Tendsto (fun k => msLogEfficiency (q' k) (m' k)) l (𝓝 (msLogEfficiency q m)) :=
    hq.lgyAtMcrit.add ((hq.indxLo.add ((hq.indxHi.sub hq.indxLo).div (he.const_add 1) hden)).mul hm)
  have hms : Tendsto (fun k => msSfr (q' k) fb (m' k)) l (𝓝 (msSfr q fb m)) :=
    ((tendsto_pow10 h2).const_mul fb).mul (tendsto_pow10 heff)
  exact tendsto_const_nhds.max ((tendsto_pow10 hqe).mul hms)

theorem cmf_zero {t s : List ℝ} (hs : s.length = t.length) (h0 : 0 < t.length) : (cumulativeMstarFormed t s).getD 0 0 =
    10 ^ 9 * ((t.getD 0 0 - 0.001) * (s.getD 0 0 + 1 / 10 ^ 14) / 2) := by
  match t, s, h0, hs with
  | t0 :: t, s0 :: s, _, _ =>
    simp only [cmf_eq, List.zip_cons_cons, trapFrom_cons, List.map_cons, List.getD_cons_zero]
    ring

theorem cmf_tendsto {N : ℕ} {T S : ι → List ℝ} {t s : List ℝ} (hT : ∀ k, (T k).length = N) (hS : ∀ k, (S k).length = N) (ht : t.length = N)
    (hs : s.length = N) (h1 : ∀ j, j < N → Tendsto (fun k => (T k).getD j 0) l (𝓝 (t.getD j 0)))
    (h2 : ∀ j, j < N → Tendsto (fun k => (S k).getD j 0) l (𝓝 (s.getD j 0))) (j : ℕ) (hj : j < N) :
    Tendsto (fun k => (cumulativeMstarFormed (T k) (S k)).getD j 0) l (𝓝 ((cumulativeMstarFormed t s).getD j 0)) := by
  induction j with
  | zero =>
    rw [cmf_zero (hs.trans ht.symm) (ht ▸ hj)]
    refine Tendsto.congr (fun k => (cmf_zero ((hS k).trans (hT k).symm) (hT k ▸ hj)).symm) ?_
    exact ((((h1 0 hj).sub_const _).mul ((h2 0 hj).add_const _)).div_const 2).const_mul _
  | succ j ih =>
    have a := ih (by omega)
    have e : ∀ {x y : List ℝ}, x.length = N → y.length = N → (cumulativeMstarFormed x y).getD (j + 1) 0 =
        (cumulativeMstarFormed x y).getD j 0 + 10 ^ 9 * ((x.getD (j + 1) 0 - x.getD j 0) * (y.getD (j + 1) 0 + y.getD j 0) / 2) := by
      intro x y hx hy
      rw [← cmf_step (hy.trans hx.symm) (hx ▸ hj)]
      ring
    rw [e ht hs]
    refine Tendsto.congr (fun k => (e (hT k) (hS k)).symm) ?_
    exact a.add (((((h1 _ hj).sub (h1 j (by omega))).mul ((h2 _ hj).add (h2 j (by omega)))).div_const 2).const_mul _)

theorem last_getD {x : List ℝ} (h : x.length = 20) : x.getLastD 0 = x.getD 19 0 := by
  refine getLastD_of_length h ?_
  rw [List.getD_eq_getElem _ _ (by omega), List.getElem?_eq_getElem (by omega)]

theorem obsTimes_getD (t : ℝ) {j : ℕ} (hj : j < 20) : (obsTimes t).getD j 0 = (10 : ℝ) ^ (-1 + (j : ℝ) * ((Real.logb 10 t - -1) / ((20 : ℕ) - 1))) := by
  rw [List.getD_eq_getElem _ _ (by rw [obsTimes_length]; exact hj)]
  simp [obsTimes, logspace, N_TIMES]

theorem obsTimes_tendsto {t' : ι → ℝ} {t : ℝ} (h : Tendsto t' l (𝓝 t)) (ht : 0 < t) {j : ℕ} (hj : j < 20) :
    Tendsto (fun k => (obsTimes (t' k)).getD j 0) l (𝓝 ((obsTimes t).getD j 0)) := by
  rw [obsTimes_getD t hj]
  refine Tendsto.congr (fun k => (obsTimes_getD (t' k) hj).symm) ?_
  exact tendsto_pow10 ((((tendsto_logb h ht).sub_const _).div_const _).const_mul _ |>.const_add _)

theorem sfh_getD (logMah : MahParams ℝ → ℝ → ℝ → ℝ) (q : DiffstarParams ℝ) (mah : MahParams ℝ) (tobs lgt0 fb : ℝ) :
    (sfhSinglegalKern logMah (obsTimes tobs) mah q.ms q.q lgt0 fb).length = 20 ∧ ∀ j, j < 20 →
      (sfhSinglegalKern logMah (obsTimes tobs) mah q.ms q.q lgt0 fb).getD j 0 =
        rateAt q fb ((obsTimes tobs).getD j 0) (logMah mah ((obsTimes tobs).getD j 0) lgt0) := by
  have e := calcSfhSinglegal_eq logMah q mah (obsTimes tobs) lgt0 fb
  unfold calcSfhSinglegal at e
  have hl := obsTimes_length tobs
  rw [e]
  refine ⟨by rw [List.length_map, hl], fun j hj => ?_⟩
  have h' : j < (obsTimes tobs).length := hl ▸ hj
  rw [List.getD_eq_getElem _ _ (by rw [List.length_map]; exact h'), List.getElem_map, List.getD_eq_getElem _ _ h']
  rfl

/-- One branch of one galaxy. -/
theorem branch_tendsto {K : Type} {n : ℕ} {logMah : MahParams ℝ → ℝ → ℝ → ℝ} {lgt0 : ℝ} {h' : ι → HaloSample K n} {h : HaloSample K n}
    (H : Approaches logMah lgt0 l h' h) (ht : 0.1 < h.tobs) (fb : ℝ) (i : Fin n) {q' : ι → DiffstarParams ℝ} {q : DiffstarParams ℝ}
    (hq : ParTendsto q' l q)
    (hpos : 0 < (sfhSinglegalKern logMah (obsTimes h.tobs) (h.mah.row i) q.ms q.q lgt0 fb).getLastD 0 ∧
      0 < (cumulativeMstarFormed (obsTimes h.tobs) (sfhSinglegalKern logMah (obsTimes h.tobs) (h.mah.row i) q.ms q.q lgt0 fb)).getLastD 0) :
    Tendsto (fun k => logMassAt (h' k).tobs (sfhSinglegalKern logMah (obsTimes (h' k).tobs) ((h' k).mah.row i) (q' k).ms (q' k).q lgt0 fb)) l
      (𝓝 (logMassAt h.tobs (sfhSinglegalKern logMah (obsTimes h.tobs) (h.mah.row i) q.ms q.q lgt0 fb))) ∧
    Tendsto (fun k => logSsfrAt (h' k).tobs (sfhSinglegalKern logMah (obsTimes (h' k).tobs) ((h' k).mah.row i) (q' k).ms (q' k).q lgt0 fb)) l
      (𝓝 (logSsfrAt h.tobs (sfhSinglegalKern logMah (obsTimes h.tobs) (h.mah.row i) q.ms q.q lgt0 fb))) := by
  have hs := sfh_getD logMah q (h.mah.row i) h.tobs lgt0 fb
  have hs' := fun k => sfh_getD logMah (q' k) ((h' k).mah.row i) (h' k).tobs lgt0 fb
  set s := sfhSinglegalKern logMah (obsTimes h.tobs) (h.mah.row i) q.ms q.q lgt0 fb
  set s' := fun k => sfhSinglegalKern logMah (obsTimes (h' k).tobs) ((h' k).mah.row i) (q' k).ms (q' k).q lgt0 fb
  have t0 : 0 < h.tobs := lt_trans (by norm_num) ht
  have c1 : ∀ j, j < 20 → Tendsto (fun k => (obsTimes (h' k).tobs).getD j 0) l (𝓝 ((obsTimes h.tobs).getD j 0)) := fun j hj => obsTimes_tendsto H.tobs t0 hj
  have c2 : ∀ j, j < 20 → Tendsto (fun k => (s' k).getD j 0) l (𝓝 (s.getD j 0)) := by
    intro j hj
    rw [hs.2 j hj]
    refine Tendsto.congr (fun k => ((hs' k).2 j hj).symm) (rate_tendsto hq fb ?_ (c1 j hj) (H.haloMass i j hj))
    rw [obsTimes_getD _ hj]
    positivity
  have c3 := cmf_tendsto (l := l) (fun k => obsTimes_length (h' k).tobs) (fun k => (hs' k).1) (obsTimes_length h.tobs) hs.1 c1 c2 19 (by norm_num)
  have len : ∀ {a : ℝ} {b : List ℝ}, b.length = 20 → (cumulativeMstarFormed (obsTimes a) b).length = 20 := fun {a b} hb => by
    rw [cmf_length _ _ (hb.trans (obsTimes_length a).symm), obsTimes_length]
  have m1 : Tendsto (fun k => logMassAt (h' k).tobs (s' k)) l (𝓝 (logMassAt h.tobs s)) := by
    unfold logMassAt
    refine tendsto_logb ?_ hpos.2
    rw [last_getD (len hs.1)]
    exact Tendsto.congr (fun k => (last_getD (len (hs' k).1)).symm) c3
  refine ⟨m1, ?_⟩
  unfold logSsfrAt
  refine ((tendsto_logb ?_ hpos.1).sub m1).max tendsto_const_nhds
  rw [last_getD hs.1]
  exact Tendsto.congr (fun k => (last_getD (hs' k).1).symm) (c2 19 (by norm_num))

theorem tendsto_of_lip {f : ι → ℝ} {x : ℝ} {e : ι → ℝ} (h : ∀ k, |x - f k| ≤ e k) (he : Tendsto e l (𝓝 0)) : Tendsto f l (𝓝 x) := by
  rw [tendsto_iff_dist_tendsto_zero]
  refine squeeze_zero (fun _ => dist_nonneg) (fun k => ?_) he
  rw [dist_comm]
  exact h k

theorem tendsto_abs_diff {f : ι → ℝ} {x : ℝ} (h : Tendsto f l (𝓝 x)) : Tendsto (fun k => |x - f k|) l (𝓝 0) := by
  have := (tendsto_const_nhds (x := x)).sub h |>.abs
  rwa [sub_self, abs_zero] at this

/-- Both branches and the quenched fraction of one galaxy. -/
theorem gal_tendsto {K : Type} {rng : Rng K} {z : K → Fin 4 → ℝ} (hr : Reparametrised rng z) {n : ℕ} {logMah : MahParams ℝ → ℝ → ℝ → ℝ} {lgt0 : ℝ}
    {h' : ι → HaloSample K n} {h : HaloSample K n} (H : Approaches logMah lgt0 l h' h) (ht : 0.1 < h.tobs) (u : PF → ℝ) (fb : ℝ) (i : Fin n)
    {a b : List ℝ} (ha : (mcSample rng logMah (getBoundedDiffstarpopParams u) h lgt0 fb i).sfhMs = some a)
    (hb : (mcSample rng logMah (getBoundedDiffstarpopParams u) h lgt0 fb i).sfhQ = some b) :
    ∃ a' b' : ι → List ℝ, (∀ k, (mcSample rng logMah (getBoundedDiffstarpopParams u) (h' k) lgt0 fb i).sfhMs = some (a' k) ∧
        (mcSample rng logMah (getBoundedDiffstarpopParams u) (h' k) lgt0 fb i).sfhQ = some (b' k)) ∧
      Tendsto (fun k => logMassAt (h' k).tobs (a' k)) l (𝓝 (logMassAt h.tobs a)) ∧ Tendsto (fun k => logSsfrAt (h' k).tobs (a' k)) l (𝓝 (logSsfrAt h.tobs a)) ∧
      Tendsto (fun k => logMassAt (h' k).tobs (b' k)) l (𝓝 (logMassAt h.tobs b)) ∧ Tendsto (fun k => logSsfrAt (h' k).tobs (b' k)) l (𝓝 (logSsfrAt h.tobs b)) ∧
      Tendsto (fun k => (mcSample rng logMah (getBoundedDiffstarpopParams u) (h' k) lgt0 fb i).fracQ) l
        (𝓝 (mcSample rng logMah (getBoundedDiffstarpopParams u) h lgt0 fb i).fracQ) := by
  have posA := (C27_observables_positive rng logMah (getBoundedDiffstarpopParams u) h lgt0 fb ht i a (Or.inl ha)).2.2.2.2
  have posB := (C27_observables_positive rng logMah (getBoundedDiffstarpopParams u) h lgt0 fb ht i b (Or.inr hb)).2.2.2.2
  have p14 : (0 : ℝ) < 1 / 10 ^ 14 := by norm_num
  set key := rng.split h.ranKey n i
  set P := mcDiffstarParamsSinglegal rng (getBoundedDiffstarpopParams u) (h.logmp0 i) (h.mah.tPeak i) (h.upid i) (h.lgmuInfall i) (h.logmhostInfall i)
    (h.gyrSinceInfall i) key with hP
  set P' := fun k => mcDiffstarParamsSinglegal rng (getBoundedDiffstarpopParams u) ((h' k).logmp0 i) ((h' k).mah.tPeak i) (h.upid i) ((h' k).lgmuInfall i)
    ((h' k).logmhostInfall i) ((h' k).gyrSinceInfall i) key with hP'
  have e : ∀ k, (mcSample rng logMah (getBoundedDiffstarpopParams u) (h' k) lgt0 fb i).sfhMs =
        (P' k).paramsMs.map (fun q => sfhSinglegalKern logMah (obsTimes (h' k).tobs) ((h' k).mah.row i) q.ms q.q lgt0 fb) ∧
      (mcSample rng logMah (getBoundedDiffstarpopParams u) (h' k) lgt0 fb i).sfhQ =
        (P' k).paramsQ.map (fun q => sfhSinglegalKern logMah (obsTimes (h' k).tobs) ((h' k).mah.row i) q.ms q.q lgt0 fb) ∧
      (mcSample rng logMah (getBoundedDiffstarpopParams u) (h' k) lgt0 fb i).fracQ = (P' k).fracQ := by
    intro k
    simp only [hP', key, ← H.ranKey k, ← H.upid k]
    exact ⟨rfl, rfl, rfl⟩
  obtain ⟨q, hq, rfl⟩ := Option.map_eq_some_iff.1 (show P.paramsMs.map (fun q => sfhSinglegalKern logMah (obsTimes h.tobs) (h.mah.row i) q.ms q.q lgt0 fb) =
    some a from ha)
  obtain ⟨r, hr', rfl⟩ := Option.map_eq_some_iff.1 (show P.paramsQ.map (fun q => sfhSinglegalKern logMah (obsTimes h.tobs) (h.mah.row i) q.ms q.q lgt0 fb) =
    some b from hb)
  have nan := C94_nan_iff_zero_slope rng u (h.logmp0 i) (h.mah.tPeak i) (h.upid i) (h.lgmuInfall i) (h.logmhostInfall i) (h.gyrSinceInfall i) key
  have nan' := fun k => C94_nan_iff_zero_slope rng u ((h' k).logmp0 i) ((h' k).mah.tPeak i) (h.upid i) ((h' k).lgmuInfall i) ((h' k).logmhostInfall i)
    ((h' k).gyrSinceInfall i) key
  have sm : ∀ k, ∃ q, (P' k).paramsMs = some q := by
    intro k
    rw [← Option.ne_none_iff_exists']
    intro h0
    have : P.paramsMs = none := nan.1.2 ((nan' k).1.1 h0)
    rw [this] at hq
    cases hq
  have sq : ∀ k, ∃ q, (P' k).paramsQ = some q := by
    intro k
    rw [← Option.ne_none_iff_exists']
    intro h0
    have : P.paramsQ = none := nan.2.2 ((nan' k).2.1 h0)
    rw [this] at hr'
    cases hr'
  choose q' hq' using sm
  choose r' hr'' using sq
  have dm := tendsto_abs_diff (H.logmp0 i)
  have dt := tendsto_abs_diff (H.tpeak i)
  have cm : ∀ c : ℝ, Tendsto (fun k => c * |h.logmp0 i - (h' k).logmp0 i|) l (𝓝 0) := fun c => by simpa using dm.const_mul c
  have ct : ∀ c : ℝ, Tendsto (fun k => c * |h.mah.tPeak i - (h' k).mah.tPeak i|) l (𝓝 0) := fun c => by simpa using dt.const_mul c
  have A := fun k => C147_params_ms hr u (h.logmp0 i) ((h' k).logmp0 i) _ _ _ _ _ _ _ _ _ _ key hq (hq' k)
  have B := fun k => C147_params_q hr u (h.logmp0 i) ((h' k).logmp0 i) _ _ _ _ _ _ _ _ _ _ key hr' (hr'' k)
  have pm : ParTendsto q' l q :=
    ⟨tendsto_of_lip (fun k => (A k).1) (cm _), tendsto_of_lip (fun k => (A k).2.1) (cm _), tendsto_of_lip (fun k => (A k).2.2.1) (cm _),
      tendsto_of_lip (fun k => (A k).2.2.2.1) (cm _), tendsto_const_nhds.congr fun k => (A k).2.2.2.2.1, tendsto_const_nhds.congr fun k => (A k).2.2.2.2.2.1,
      tendsto_const_nhds.congr fun k => (A k).2.2.2.2.2.2.1, tendsto_const_nhds.congr fun k => (A k).2.2.2.2.2.2.2⟩
  have pq : ParTendsto r' l r :=
    ⟨tendsto_of_lip (fun k => (B k).1) (cm _), tendsto_of_lip (fun k => (B k).2.1) (cm _), tendsto_of_lip (fun k => (B k).2.2.1) (cm _),
      tendsto_of_lip (fun k => (B k).2.2.2.1) (cm _), tendsto_of_lip (fun k => (B k).2.2.2.2.1) (by simpa using (cm _).add (ct _)),
      tendsto_of_lip (fun k => (B k).2.2.2.2.2.1) (cm _), tendsto_of_lip (fun k => (B k).2.2.2.2.2.2.1) (cm _),
      tendsto_of_lip (fun k => (B k).2.2.2.2.2.2.2) (cm _)⟩
  have TA := branch_tendsto H ht fb i pm ⟨p14.trans_le posA.1, posA.2⟩
  have TB := branch_tendsto H ht fb i pq ⟨p14.trans_le posB.1, posB.2⟩
  refine ⟨_, _, fun k => ⟨by rw [(e k).1, hq' k]; rfl, by rw [(e k).2.1, hr'' k]; rfl⟩, TA.1, TA.2, TB.1, TB.2, ?_⟩
  refine Tendsto.congr (fun k => (e k).2.2.symm) ?_
  refine tendsto_of_lip (fun k => C146_frac_quench rng u _ _ _ _ (h.upid i) _ _ _ _ _ _ key) ?_
  by_cases hc : h.upid i = -1
  · simp only [hc, if_true]
    simpa using (cm 1.25).add (ct 12)
  · simp only [hc, if_false]
    have x1 := (tendsto_abs_diff (H.lgmuInfall i hc)).const_mul 0.5
    have x2 := (tendsto_abs_diff (H.logmhostInfall i hc)).const_mul 25
    have x3 := (tendsto_abs_diff (H.gyrSinceInfall i hc)).const_mul 1.25
    have := ((cm 1.25).add (ct 12)).add ((x1.add x2).add x3)
    simpa using this

theorem normalise_tendsto {X : Type*} [Fintype X] {W : ι → X → ℝ} {w f : X → ℝ} (hW : ∀ b, Tendsto (fun k => W k b) l (𝓝 (w b)))
    (h : normalise w = some f) : ∃ f' : ι → X → ℝ, (∀ᶠ k in l, normalise (W k) = some (f' k)) ∧ ∀ b, Tendsto (fun k => f' k b) l (𝓝 (f b)) := by
  unfold normalise at h
  split_ifs at h with h0
  obtain rfl := Option.some.inj h
  have hs : Tendsto (fun k => ∑ b, W k b) l (𝓝 (∑ b, w b)) := tendsto_finsetSum _ fun b _ => hW b
  refine ⟨fun k b => W k b / ∑ b, W k b, ?_, fun b => (hW b).div hs h0⟩
  filter_upwards [hs.eventually_ne h0] with k hk
  simp [normalise, hk]

theorem ndBin_tendsto {x' : ι → ℝ} {x : ℝ} (h : Tendsto x' l (𝓝 x)) (s lo hi : ℝ) :
    Tendsto (fun k => NdHist.twBinWeightLaxKern (x' k) s lo hi) l (𝓝 (NdHist.twBinWeightLaxKern x s lo hi)) := by
  have hT : Continuous jaxTw := (contDiff_jaxTw.of_le (show (0 : WithTop ℕ∞) ≤ 3 by norm_num)).continuous
  simp only [ndBin_eq]
  exact ((hT.tendsto _).comp ((h.sub_const _).div_const s)).sub ((hT.tendsto _).comp ((h.sub_const _).div_const s))

/-- The halo sample with masses, infall times and time of observation off by `e`. -/
noncomputable def shiftedSample {K : Type} {n : ℕ} (h : HaloSample K n) (e : ℝ) : HaloSample K n :=
  ⟨h.mah, fun i => h.logmp0 i + e, h.upid, h.lgmuInfall, h.logmhostInfall, fun i => h.gyrSinceInfall i + e, h.ranKey, h.tobs + e⟩

theorem shifted_approaches {K : Type} {n : ℕ} (h : HaloSample K n) (lgt0 : ℝ) :
    Approaches (fun _ _ _ => 12) lgt0 atTop (fun k : ℕ => shiftedSample h (1 / ((k : ℝ) + 1))) h := by
  have t : ∀ x : ℝ, Tendsto (fun k : ℕ => x + 1 / ((k : ℝ) + 1)) atTop (𝓝 x) := fun x => by
    simpa using tendsto_one_div_add_atTop_nhds_zero_nat.const_add x
  exact ⟨fun _ => rfl, fun _ => rfl, t _, fun i => t _, fun i => tendsto_const_nhds, fun i _ => tendsto_const_nhds, fun i _ => tendsto_const_nhds,
    fun i _ => t _, fun i j _ => tendsto_const_nhds⟩

/-- **C152**, stellar mass function: if it is predicted (not NaN) for a halo sample, it is predicted for all samples that are close enough, and the
values converge as the samples approach it. -/
theorem C152_mass_function {K : Type} {rng : Rng K} {z : K → Fin 4 → ℝ} (hr : Reparametrised rng z) {n nb : ℕ} {logMah : MahParams ℝ → ℝ → ℝ → ℝ}
    {lgt0 : ℝ} {h' : ι → HaloSample K n} {h : HaloSample K n} (H : Approaches logMah lgt0 l h' h) (ht : 0.1 < h.tobs) (u : PF → ℝ) (fb : ℝ)
    (bins : Fin (nb + 1) → ℝ) (f : Fin nb → ℝ)
    (hf : mstarPdf h.tobs (mcSample rng logMah (getBoundedDiffstarpopParams u) h lgt0 fb) bins = some f) :
    ∃ f' : ι → Fin nb → ℝ, (∀ᶠ k in l, mstarPdf (h' k).tobs (mcSample rng logMah (getBoundedDiffstarpopParams u) (h' k) lgt0 fb) bins = some (f' k)) ∧
      ∀ b, Tendsto (fun k => f' k b) l (𝓝 (f b)) := by
  obtain ⟨a, b, hab, -⟩ := mstarPdf_some hf
  choose a' b' e t1 t2 t3 t4 t5 using fun i => gal_tendsto hr H ht u fb i (hab i).1 (hab i).2
  rw [mstarPdf_eq hab] at hf
  obtain ⟨f', x1, x2⟩ := normalise_tendsto (l := l) (W := fun k (b : Fin nb) => ∑ i, ((1 - (mcSample rng logMah (getBoundedDiffstarpopParams u) (h' k) lgt0 fb i).fracQ) *
      NdHist.twBinWeightLaxKern (logMassAt (h' k).tobs (a' i k)) (meanDiff bins) (bins b.castSucc) (bins b.succ) +
      (mcSample rng logMah (getBoundedDiffstarpopParams u) (h' k) lgt0 fb i).fracQ *
        NdHist.twBinWeightLaxKern (logMassAt (h' k).tobs (b' i k)) (meanDiff bins) (bins b.castSucc) (bins b.succ)))
    (fun b => tendsto_finsetSum _ fun i _ => (((t5 i).const_sub 1).mul (ndBin_tendsto (t1 i) _ _ _)).add ((t5 i).mul (ndBin_tendsto (t3 i) _ _ _))) hf
  refine ⟨f', ?_, x2⟩
  filter_upwards [x1] with k hk
  rw [mstarPdf_eq fun i => e i k, hk]

/-- **C152**, joint distribution of stellar mass and specific star formation rate. -/
theorem C152_joint {K : Type} {rng : Rng K} {z : K → Fin 4 → ℝ} (hr : Reparametrised rng z) {n nms nsf : ℕ} {logMah : MahParams ℝ → ℝ → ℝ → ℝ}
    {lgt0 : ℝ} {h' : ι → HaloSample K n} {h : HaloSample K n} (H : Approaches logMah lgt0 l h' h) (ht : 0.1 < h.tobs) (u : PF → ℝ) (fb : ℝ)
    (lo hi : Fin (nms * nsf) → Fin 2 → ℝ) (mb : Fin (nms + 1) → ℝ) (sb : Fin (nsf + 1) → ℝ) (f : Fin (nms * nsf) → ℝ)
    (hf : mstarSsfrPdf h.tobs (mcSample rng logMah (getBoundedDiffstarpopParams u) h lgt0 fb) lo hi mb sb = some f) :
    ∃ f' : ι → Fin (nms * nsf) → ℝ,
      (∀ᶠ k in l, mstarSsfrPdf (h' k).tobs (mcSample rng logMah (getBoundedDiffstarpopParams u) (h' k) lgt0 fb) lo hi mb sb = some (f' k)) ∧
      ∀ b, Tendsto (fun k => f' k b) l (𝓝 (f b)) := by
  have hab : ∀ i, ∃ a b, (mcSample rng logMah (getBoundedDiffstarpopParams u) h lgt0 fb i).sfhMs = some a ∧
      (mcSample rng logMah (getBoundedDiffstarpopParams u) h lgt0 fb i).sfhQ = some b := by
    unfold mstarSsfrPdf at hf
    obtain ⟨x, h1, h2⟩ := Option.bind_eq_some_iff.1 hf
    obtain ⟨y, h3, -⟩ := Option.bind_eq_some_iff.1 h2
    exact fun i => ⟨x i, y i, allSome_eq_some.1 h1 i, allSome_eq_some.1 h3 i⟩
  choose a b hab using hab
  choose a' b' e t1 t2 t3 t4 t5 using fun i => gal_tendsto hr H ht u fb i (hab i).1 (hab i).2
  rw [mstarSsfrPdf_eq hab] at hf
  obtain ⟨f', x1, x2⟩ := normalise_tendsto (l := l) (W := fun k (b : Fin (nms * nsf)) => ∑ i, ((1 - (mcSample rng logMah (getBoundedDiffstarpopParams u) (h' k) lgt0 fb i).fracQ) *
      (NdHist.twBinWeightLaxKern (logMassAt (h' k).tobs (a' i k)) (meanDiff mb) (lo b 0) (hi b 0) *
       NdHist.twBinWeightLaxKern (logSsfrAt (h' k).tobs (a' i k)) (meanDiff sb) (lo b 1) (hi b 1)) +
      (mcSample rng logMah (getBoundedDiffstarpopParams u) (h' k) lgt0 fb i).fracQ *
      (NdHist.twBinWeightLaxKern (logMassAt (h' k).tobs (b' i k)) (meanDiff mb) (lo b 0) (hi b 0) *
       NdHist.twBinWeightLaxKern (logSsfrAt (h' k).tobs (b' i k)) (meanDiff sb) (lo b 1) (hi b 1))))
    (fun b => tendsto_finsetSum _ fun i _ => (((t5 i).const_sub 1).mul ((ndBin_tendsto (t1 i) _ _ _).mul (ndBin_tendsto (t2 i) _ _ _))).add
      ((t5 i).mul ((ndBin_tendsto (t3 i) _ _ _).mul (ndBin_tendsto (t4 i) _ _ _)))) hf
  refine ⟨f', ?_, x2⟩
  filter_upwards [x1] with k hk
  rw [mstarSsfrPdf_eq fun i => e i k, hk]

theorem mse_tendsto {X : Type*} [Fintype X] {F : ι → X → Option ℝ} {g : X → Option ℝ} {target : X → ℝ} {L : ℝ} (hL : mse g target = some L)
    (h : ∀ x v, g x = some v → ∃ v' : ι → ℝ, (∀ᶠ k in l, F k x = some (v' k)) ∧ Tendsto v' l (𝓝 v)) :
    ∃ L' : ι → ℝ, (∀ᶠ k in l, mse (F k) target = some (L' k)) ∧ Tendsto L' l (𝓝 L) := by
  unfold mse at hL
  obtain ⟨v, h1, h2⟩ := Option.bind_eq_some_iff.1 hL
  split_ifs at h2 with h0
  obtain rfl := Option.some.inj h2
  choose v' e t using fun x => h x (v x) (allSome_eq_some.1 h1 x)
  refine ⟨fun k => (∑ x, (v' x k - target x) ^ 2) / Fintype.card X, ?_, (tendsto_finsetSum _ fun x _ => ((t x).sub_const _).pow 2).div_const _⟩
  filter_upwards [eventually_all.2 e] with k hk
  unfold mse
  rw [allSome_eq_some.2 hk, Option.bind_some, if_neg h0]

/-- **C152**, loss of the stellar mass function. -/
theorem C152_loss_mstar {K : Type} {rng : Rng K} {z : K → Fin 4 → ℝ} (hr : Reparametrised rng z) {nk n nb : ℕ} {logMah : MahParams ℝ → ℝ → ℝ → ℝ}
    (d : MstarData K nk n nb) (samples' : ι → Fin nk → HaloSample K n) (H : ∀ j, Approaches logMah d.lgt0 l (fun k => samples' k j) (d.samples j))
    (ht : ∀ j, 0.1 < (d.samples j).tobs) (u : PF → ℝ) (L : ℝ) (hL : lossMstar rng logMah u d = some L) :
    ∃ L' : ι → ℝ, (∀ᶠ k in l, lossMstar rng logMah u { d with samples := samples' k } = some (L' k)) ∧ Tendsto L' l (𝓝 L) := by
  unfold lossMstar at hL
  obtain ⟨x, hx, rfl⟩ := Option.map_eq_some_iff.1 hL
  obtain ⟨x', e, t⟩ := mse_tendsto (l := l) (F := fun k (i : Fin nk × Fin nb) =>
    (mstarKernTobs rng logMah u (samples' k) d.lgt0 d.fb d.bins i.1).map fun f => f i.2) hx fun i v hv => by
      obtain ⟨f, hf, rfl⟩ := Option.map_eq_some_iff.1 hv
      obtain ⟨f', e, t⟩ := C152_mass_function hr (H i.1) (ht i.1) u d.fb d.bins f hf
      refine ⟨fun k => f' k i.2, ?_, t i.2⟩
      filter_upwards [e] with k hk
      exact Option.map_eq_some_iff.2 ⟨f' k, hk, rfl⟩
  refine ⟨fun k => x' k * 1000, ?_, t.mul_const _⟩
  filter_upwards [e] with k hk
  unfold lossMstar
  exact Option.map_eq_some_iff.2 ⟨x' k, hk, rfl⟩

/-- **C152**, loss of the specific star formation rates (centrals or satellites). -/
theorem C152_loss_mstar_ssfr {K : Type} {rng : Rng K} {z : K → Fin 4 → ℝ} (hr : Reparametrised rng z) {nk n nms nsf nz nm nt : ℕ}
    {logMah : MahParams ℝ → ℝ → ℝ → ℝ} (d : SsfrData K nk n nms nsf nz nm nt) (samples' : ι → Fin nk → HaloSample K n)
    (H : ∀ j, Approaches logMah d.lgt0 l (fun k => samples' k j) (d.samples j)) (ht : ∀ j, 0.1 < (d.samples j).tobs) (u : PF → ℝ) (L : ℝ)
    (hL : lossMstarSsfr rng logMah u d = some L) :
    ∃ L' : ι → ℝ, (∀ᶠ k in l, lossMstarSsfr rng logMah u { d with samples := samples' k } = some (L' k)) ∧ Tendsto L' l (𝓝 L) := by
  unfold lossMstarSsfr at hL
  obtain ⟨x, hx, rfl⟩ := Option.map_eq_some_iff.1 hL
  obtain ⟨x', e, t⟩ := mse_tendsto (l := l) (F := fun k (i : Fin nz × Fin nt × Fin nsf) =>
    mstarSsfrKernTobs rng logMah u { d with samples := samples' k } i.1 i.2.1 i.2.2) hx fun i v hv => by
      unfold mstarSsfrKernTobs conditional at hv
      obtain ⟨pdfs, hp, hv⟩ := Option.bind_eq_some_iff.1 hv
      unfold mixBins at hp
      obtain ⟨g, hg, rfl⟩ := Option.map_eq_some_iff.1 hp
      have hg' := fun m => Option.map_eq_some_iff.1 (allSome_eq_some.1 hg m)
      choose f hf hfg using hg'
      choose f' ef tf using fun m => C152_joint hr (H (d.indxPdf i.1 m)) (ht _) u d.fb d.ndbinsLo d.ndbinsHi d.mstarBins d.ssfrBins (f m) (hf m)
      have row : ∀ b, Tendsto (fun k => ∑ m, reshape (f' m k) (d.targetMstarIds i.2.1) b * d.nmhaloPdf i.1 m) l
          (𝓝 (∑ m, g m (d.targetMstarIds i.2.1) b * d.nmhaloPdf i.1 m)) := fun b =>
        tendsto_finsetSum _ fun m _ => by rw [← hfg m]; exact (tf m _).mul_const _
      have tot := tendsto_finsetSum (Finset.univ : Finset (Fin nsf)) fun b _ => row b
      dsimp only at hv
      split_ifs at hv with h0
      obtain rfl := Option.some.inj hv
      refine ⟨_, ?_, (row i.2.2).div tot h0⟩
      filter_upwards [eventually_all.2 ef, tot.eventually_ne h0] with k hk hk0
      unfold mstarSsfrKernTobs conditional
      refine Option.bind_eq_some_iff.2 ⟨fun a b => ∑ m, reshape (f' m k) a b * d.nmhaloPdf i.1 m, ?_, ?_⟩
      · unfold mixBins
        exact Option.map_eq_some_iff.2 ⟨fun m => reshape (f' m k), allSome_eq_some.2 fun m => Option.map_eq_some_iff.2 ⟨f' m k, hk m, rfl⟩, rfl⟩
      · simp only
        rw [if_neg hk0]
        rfl
  refine ⟨fun k => x' k * 1000, ?_, t.mul_const _⟩
  filter_upwards [e] with k hk
  unfold lossMstarSsfr
  exact Option.map_eq_some_iff.2 ⟨x' k, hk, rfl⟩

example : ∃ (d : MstarData Unit 1 1 1) (L : ℝ) (samples' : ℕ → Fin 1 → HaloSample Unit 1), (∀ k j, (samples' k j).logmp0 ≠ (d.samples j).logmp0) ∧
    (∀ j, Approaches (fun _ _ _ => 12) d.lgt0 atTop (fun k => samples' k j) (d.samples j)) ∧ (∀ j, 0.1 < (d.samples j).tobs) ∧
    Reparametrised oneSigmaRng (fun _ _ => 1) ∧ lossMstar oneSigmaRng (fun _ _ _ => 12) (fun _ => 1) d = some L := by
  obtain ⟨d, L, -, h1, h2, -⟩ := oneHalo_mstar_instance
  refine ⟨d, L, fun k j => shiftedSample (d.samples j) (1 / ((k : ℝ) + 1)), fun k j h => ?_, fun j => shifted_approaches (d.samples j) d.lgt0, h1, oneSigmaRng_reparametrised, h2⟩
  have := congrFun h 0
  have hp : (0 : ℝ) < 1 / ((k : ℝ) + 1) := by positivity
  dsimp only [shiftedSample] at this
  linarith

example : ∃ (d : SsfrData Unit 1 1 1 1 1 1 1) (L : ℝ) (samples' : ℕ → Fin 1 → HaloSample Unit 1), (∀ k j, (samples' k j).logmp0 ≠ (d.samples j).logmp0) ∧
    (∀ j, Approaches (fun _ _ _ => 12) d.lgt0 atTop (fun k => samples' k j) (d.samples j)) ∧ (∀ j, 0.1 < (d.samples j).tobs) ∧
    Reparametrised oneSigmaRng (fun _ _ => 1) ∧ lossMstarSsfr oneSigmaRng (fun _ _ _ => 12) (fun _ => 1) d = some L := by
  obtain ⟨d, L, -, -, -, -, h1, h2, -⟩ := oneHalo_ssfr_instance
  refine ⟨d, L, fun k j => shiftedSample (d.samples j) (1 / ((k : ℝ) + 1)), fun k j h => ?_, fun j => shifted_approaches (d.samples j) d.lgt0, h1, oneSigmaRng_reparametrised, h2⟩
  have := congrFun h 0
  have hp : (0 : ℝ) < 1 / ((k : ℝ) + 1) := by positivity
  dsimp only [shiftedSample] at this
  linarith

end Diffstar.Props
