import Verif.Model.PopAutoDiff
import Verif.Lemmas.AutoDiff
import Verif.Lemmas.SmoothPop
import Verif.Lemmas.NdHist

/-! Values, cotangents and derivatives of the traced population kernels. -/

namespace Diffstar.Trace

open Diffstar Diffstar.Pop Diffstar.PopLoss Filter Topology

set_option linter.unusedSectionVars false

section

variable {ι : Type} [Fintype ι] [DecidableEq ι] {u : ι → ℝ} {S : Prop}

theorem Ad.sum {m : ℕ} {e : Fin m → Expr ι} {f : (ι → ℝ) → Fin m → ℝ} (h : ∀ i, Ad (e i) (fun v => f v i) u S) :
    Ad (Trace.sum e) (fun v => ∑ i, f v i) u S := by
  induction m with
  | zero => simpa [Trace.sum] using Ad.const 0
  | succ m ih =>
    have h1 := ih (e := fun i => e i.succ) (f := fun v i => f v i.succ) fun i => h i.succ
    have h2 := (h 0).add h1
    simp only [← Fin.sum_univ_succ] at h2
    simpa [Trace.sum, List.ofFn_succ] using h2

theorem Ad.prod {m : ℕ} {e : Fin m → Expr ι} {f : (ι → ℝ) → Fin m → ℝ} (h : ∀ i, Ad (e i) (fun v => f v i) u S) :
    Ad (Trace.prod e) (fun v => ∏ i, f v i) u S := by
  induction m with
  | zero => simpa [Trace.prod] using Ad.const 1
  | succ m ih =>
    have h1 := ih (e := fun i => e i.succ) (f := fun v i => f v i.succ) fun i => h i.succ
    have h2 := (h 0).mul h1
    simp only [← Fin.prod_univ_succ] at h2
    simpa [Trace.prod, List.ofFn_succ] using h2

theorem Ad.take {m : ℕ} {e : Fin m → Expr ι} {f : (ι → ℝ) → Fin m → ℝ} (h : ∀ i, Ad (e i) (fun v => f v i) u S)
    (i : Fin m) : Ad (Trace.take e i) (fun v => f v i) u S := by
  unfold Trace.take
  have key : ∀ l : List (Expr ι), (∀ x ∈ l, ∃ g, Ad x g u S) → ∀ a (fa : (ι → ℝ) → ℝ), Ad a fa u S →
      Ad (l.foldr (fun other acc => .sel (.const 0) (.const 1) acc other) a) fa u S := by
    intro l
    induction l with
    | nil => intro _ a fa ha; exact ha
    | cons x l ih =>
      intro hl a fa ha
      obtain ⟨g, hg⟩ := hl x List.mem_cons_self
      refine (Ad.selConst 0 1 (ih (fun y hy => hl y (List.mem_cons_of_mem _ hy)) a fa ha) hg).congr fun v => ?_
      rw [if_pos one_pos]
  refine key _ (fun x hx => ?_) _ _ (h i)
  obtain ⟨j, rfl⟩ := List.mem_ofFn.1 hx
  exact ⟨_, h j⟩

theorem Ad.append {m n : ℕ} {a : Fin m → Expr ι} {b : Fin n → Expr ι} {f : (ι → ℝ) → Fin m → ℝ} {g : (ι → ℝ) → Fin n → ℝ}
    (ha : ∀ i, Ad (a i) (fun v => f v i) u S) (hb : ∀ i, Ad (b i) (fun v => g v i) u S) (j : Fin (m + n)) :
    Ad (Fin.append a b j) (fun v => Fin.append (f v) (g v) j) u S := by
  refine Fin.addCases (fun i => ?_) (fun i => ?_) j
  · simpa only [Fin.append_left] using ha i
  · simpa only [Fin.append_right] using hb i

theorem Ad.line {y0 m : Expr ι} {fy fm : (ι → ℝ) → ℝ} (hy : Ad y0 fy u S) (hm : Ad m fm u S) (x : ℝ) (b : ℝ × ℝ)
    (h : (Pop.lineModel x (fy u) (fm u) b).isSome) :
    ∃ g, Ad (Trace.lineModel x y0 m b) g u S ∧ ∀ᶠ v in 𝓝 u, Pop.lineModel x (fy v) (fm v) b = some (g v) := by
  have hne : fm u ≠ 0 ∧ fy u ≠ b.1 := by
    constructor
    · intro h0; rw [h0, lineModel_zero] at h; simp at h
    · intro h0; simp [Pop.lineModel, Diffstar.smoothlyClippedLine, h0] at h
  have c : ∀ r : ℝ, Ad (.const r : Expr ι) (fun _ => r) u S := fun r => .const r
  have xLo := (((c b.1).sub hy).div hm hne.1).add (c LGM_X0)
  have xHi := (((c b.2).sub hy).div hm hne.1).add (c LGM_X0)
  have dxLo := (c LGM_X0).sub xLo
  have dxHi := xHi.sub (c LGM_X0)
  have epsLo := dxLo.div (c 100) (by norm_num)
  have epsHi := dxHi.div (c 100) (by norm_num)
  have xcLo := xLo.add epsLo
  have xcHi := xHi.sub epsHi
  have yLoBound := hy.add (hm.mul (xcLo.sub (c LGM_X0)))
  have yHiBound := hy.add (hm.mul (xcHi.sub (c LGM_X0)))
  have clippingK := (c 20).div epsLo (by
    have h1 : b.1 - fy u ≠ 0 := sub_ne_zero.2 (Ne.symm hne.2)
    have h2 : (b.1 - fy u) / fm u ≠ 0 := div_ne_zero h1 hne.1
    intro h0
    rw [div_eq_zero_iff] at h0
    rcases h0 with h0 | h0
    · exact h2 (by linarith)
    · norm_num at h0)
  have yUnclipped := hy.add (hm.mul (c (x - LGM_X0)))
  have below := (c x).sigmoid xcLo clippingK yLoBound yUnclipped
  refine ⟨_, (c x).sigmoid xcHi clippingK below yHiBound, ?_⟩
  filter_upwards [hm.cont.eventually_ne hne.1, hy.cont.eventually_ne hne.2] with v h1 h2
  have : ¬ (fm v = 0 ∨ fy v = b.1) := fun h => h.elim h1 h2
  simp only [Pop.lineModel, Diffstar.smoothlyClippedLine, if_neg this]

theorem Ad.mcrit {a b c d : Expr ι} {fa fb fc fd : (ι → ℝ) → ℝ} (ha : Ad a fa u S) (hb : Ad b fb u S) (hc : Ad c fc u S)
    (hd : Ad d fd u S) (x : ℝ) :
    Ad (Trace.mcritModel x a b c d) (fun v => Pop.mcritModel x (fa v) (fb v) (fc v) (fd v)) u S :=
  hb.add (((Ad.const x).sigmoid ha (.const 3) hc hd).mul ((Ad.const x).sub ha))

theorem Ad.binWeight {x : Expr ι} {f : (ι → ℝ) → ℝ} (hx : Ad x f u S) {s : ℝ} (hs : s ≠ 0) (lo hi : ℝ) :
    Ad (Trace.twBinWeightLaxKern x s lo hi) (fun v => NdHist.twBinWeightLaxKern (f v) s lo hi) u S :=
  ((((hx.sub (.const lo)).div (.const s) hs).jaxTw).sub (((hx.sub (.const hi)).div (.const s) hs).jaxTw)).congr fun _ =>
    (ndBin_eq ..).symm

theorem Ad.hist {n d : ℕ} {x : Fin n → Fin d → Expr ι} {f : (ι → ℝ) → Fin n → Fin d → ℝ}
    (hx : ∀ i k, Ad (x i k) (fun v => f v i k) u S) {y : Fin n → Expr ι} {g : (ι → ℝ) → Fin n → ℝ}
    (hy : ∀ i, Ad (y i) (fun v => g v i) u S) {s : Fin d → ℝ} (hs : ∀ k, s k ≠ 0) (lo hi : Fin d → ℝ) :
    Ad (Trace.twNdhistWeightedKern x s y lo hi) (fun v => NdHist.twNdhistWeightedKern (f v) (fun _ => s) (g v) lo hi) u S :=
  Ad.sum fun i => (Ad.prod fun k => (hx i k).binWeight (hs k) (lo k) (hi k)).mul (hy i)

end

section

variable {u : PF → ℝ} {S : Prop}

local notation "B" => getBoundedDiffstarpopParams

theorem Ad.bounded (f : PF) : Ad (boundedPop f) (fun v => B v f) u S := by
  simp only [getBounded_apply]
  exact (Ad.var f).sigmoid (.const _) (.const _) (.const _) (.const _)

theorem line_ad (a b : QF) (x : ℝ) (bd : ℝ × ℝ) (h : (Pop.lineModel x (B u (.inl a)) (B u (.inl b)) bd).isSome) :
    ∃ g, Ad (Trace.lineModel x (boundedPop (.inl a)) (boundedPop (.inl b)) bd) g u S ∧
      ∀ᶠ v in 𝓝 u, Pop.lineModel x (B v (.inl a)) (B v (.inl b)) bd = some (g v) :=
  (Ad.bounded _).line (Ad.bounded _) x bd h

/-- A traced vector, NaN-free near `u`. -/
def AdV {m : ℕ} (e : Fin m → Expr PF) (F : (PF → ℝ) → Option (Fin m → ℝ)) (u : PF → ℝ) (S : Prop) : Prop :=
  ∃ g : (PF → ℝ) → Fin m → ℝ, (∀ i, Ad (e i) (fun v => g v i) u S) ∧ ∀ᶠ v in 𝓝 u, F v = some (g v)

theorem ad_vec4 {a b c d : Expr PF} {fa fb fc fd : (PF → ℝ) → ℝ} (ha : Ad a fa u S) (hb : Ad b fb u S) (hc : Ad c fc u S)
    (hd : Ad d fd u S) (i : Fin 4) : Ad (![a, b, c, d] i) (fun v => (fun v => ![fa v, fb v, fc v, fd v]) v i) u S := by
  fin_cases i <;> assumption

theorem ad_vec8 {a b c d a' b' c' d' : Expr PF} {fa fb fc fd fa' fb' fc' fd' : (PF → ℝ) → ℝ} (ha : Ad a fa u S)
    (hb : Ad b fb u S) (hc : Ad c fc u S) (hd : Ad d fd u S) (ha' : Ad a' fa' u S) (hb' : Ad b' fb' u S)
    (hc' : Ad c' fc' u S) (hd' : Ad d' fd' u S) (i : Fin 8) : Ad (![a, b, c, d, a', b', c', d'] i)
      (fun v => (fun v => ![fa v, fb v, fc v, fd v, fa' v, fb' v, fc' v, fd' v]) v i) u S := by
  fin_cases i <;> assumption

theorem meanMseq_ad (m : ℝ) (h : (getMeanUParamsMseq (sfhPdfPart (B u)) m).isSome) :
    AdV (meanMseq (fun f => boundedPop (.inl f)) m) (fun v => getMeanUParamsMseq (sfhPdfPart (B v)) m) u S := by
  simp only [getMeanUParamsMseq, sfhPdfPart_apply] at h ⊢
  have l1 : (Pop.lineModel m (B u (.inl .mean_ul_mseq_int)) (B u (.inl .mean_ul_mseq_slp)) BV_mean_ul).isSome := by
    by_contra hn; rw [Option.not_isSome_iff_eq_none] at hn; simp [hn] at h
  have l2 : (Pop.lineModel m (B u (.inl .mean_uh_mseq_int)) (B u (.inl .mean_uh_mseq_slp)) BV_mean_uh).isSome := by
    by_contra hn; rw [Option.not_isSome_iff_eq_none] at hn; simp [hn] at h
  obtain ⟨g1, c1, e1⟩ := line_ad (S := S) _ _ _ _ l1
  obtain ⟨g2, c2, e2⟩ := line_ad (S := S) _ _ _ _ l2
  have hb := fun f : PF => Ad.bounded (u := u) (S := S) f
  refine ⟨_, ad_vec4 ((hb (.inl .mean_ulgm_mseq_xtp)).mcrit (hb (.inl .mean_ulgm_mseq_ytp)) (hb (.inl .mean_ulgm_mseq_lo))
    (hb (.inl .mean_ulgm_mseq_hi)) m) ((hb (.inl .mean_ulgy_mseq_xtp)).mcrit (hb (.inl .mean_ulgy_mseq_ytp))
    (hb (.inl .mean_ulgy_mseq_lo)) (hb (.inl .mean_ulgy_mseq_hi)) m) c1 c2, ?_⟩
  filter_upwards [e1, e2] with v h1 h2
  rw [h1, h2]
  rfl

theorem meanQseq_ad (m t : ℝ) (h : (getMeanUParamsQseq (sfhPdfPart (B u)) m t).isSome) :
    AdV (meanQseq (fun f => boundedPop (.inl f)) m t) (fun v => getMeanUParamsQseq (sfhPdfPart (B v)) m t) u S := by
  simp only [getMeanUParamsQseq, sfhPdfPart_apply, Pop.deltaUqt] at h ⊢
  have l1 : (Pop.lineModel m (B u (.inl .mean_ul_qseq_int)) (B u (.inl .mean_ul_qseq_slp)) BV_mean_ul).isSome := by
    by_contra hn; rw [Option.not_isSome_iff_eq_none] at hn; simp [hn] at h
  have l2 : (Pop.lineModel m (B u (.inl .mean_uh_qseq_int)) (B u (.inl .mean_uh_qseq_slp)) BV_mean_uh).isSome := by
    by_contra hn; rw [Option.not_isSome_iff_eq_none] at hn; simp [hn] at h
  have l3 : (Pop.lineModel m (B u (.inl .mean_uqs_int)) (B u (.inl .mean_uqs_slp)) BV_mean_uqs).isSome := by
    by_contra hn; rw [Option.not_isSome_iff_eq_none] at hn; simp [hn] at h
  have l4 : (Pop.lineModel m (B u (.inl .mean_udrop_int)) (B u (.inl .mean_udrop_slp)) BV_mean_udrop).isSome := by
    by_contra hn; rw [Option.not_isSome_iff_eq_none] at hn; simp [hn] at h
  have l5 : (Pop.lineModel m (B u (.inl .mean_urej_int)) (B u (.inl .mean_urej_slp)) BV_mean_urej).isSome := by
    by_contra hn; rw [Option.not_isSome_iff_eq_none] at hn; simp [hn] at h
  obtain ⟨g1, c1, e1⟩ := line_ad (S := S) _ _ _ _ l1
  obtain ⟨g2, c2, e2⟩ := line_ad (S := S) _ _ _ _ l2
  obtain ⟨g3, c3, e3⟩ := line_ad (S := S) _ _ _ _ l3
  obtain ⟨g4, c4, e4⟩ := line_ad (S := S) _ _ _ _ l4
  obtain ⟨g5, c5, e5⟩ := line_ad (S := S) _ _ _ _ l5
  have hb := fun f : PF => Ad.bounded (u := u) (S := S) f
  refine ⟨_, ad_vec8 ((hb (.inl .mean_ulgm_qseq_xtp)).mcrit (hb (.inl .mean_ulgm_qseq_ytp)) (hb (.inl .mean_ulgm_qseq_lo))
    (hb (.inl .mean_ulgm_qseq_hi)) m) ((hb (.inl .mean_ulgy_qseq_xtp)).mcrit (hb (.inl .mean_ulgy_qseq_ytp))
    (hb (.inl .mean_ulgy_qseq_lo)) (hb (.inl .mean_ulgy_qseq_hi)) m) c1 c2
    (((hb (.inl .mean_uqt_xtp)).mcrit (hb (.inl .mean_uqt_ytp)) (hb (.inl .mean_uqt_lo)) (hb (.inl .mean_uqt_hi)) m).add
      (((Ad.const t).sigmoid (hb (.inl .delta_uqt_x0)) (hb (.inl .delta_uqt_k)) (hb (.inl .delta_uqt_ylo))
        (hb (.inl .delta_uqt_yhi))).add ((Ad.const (m - 12.5)).mul (hb (.inl .delta_uqt_slope))))) c3 c4 c5, ?_⟩
  filter_upwards [e1, e2, e3, e4, e5] with v h1 h2 h3 h4 h5
  rw [h1, h2, h3, h4, h5]
  rfl

/-- A covariance block: diagonal, with traced standard deviations above 0.01. -/
def AdC (e : Fin 4 → Expr PF) (F : (PF → ℝ) → Option (Matrix (Fin 4) (Fin 4) ℝ)) (u : PF → ℝ) (S : Prop) : Prop :=
  ∃ s : (PF → ℝ) → Fin 4 → ℝ, (∀ i, Ad (e i) (fun v => s v i) u S) ∧ (∀ i, 0 < s u i) ∧
    ∀ᶠ v in 𝓝 u, F v = some (Matrix.diagonal fun i => s v i ^ 2)

theorem adC_mk {F : (PF → ℝ) → Option (Matrix (Fin 4) (Fin 4) ℝ)} {ea eb ec ed : Expr PF} {a b c d : (PF → ℝ) → ℝ}
    (ha : Ad ea a u S) (hb : Ad eb b u S) (hc : Ad ec c u S) (hd : Ad ed d u S) (ha' : 0.01 < a u) (hb' : 0.01 < b u)
    (hc' : 0.01 < c u) (hd' : 0.01 < d u)
    (h : ∀ᶠ v in 𝓝 u, F v = some (covarianceFromCovParams ![a v, b v, c v, d v] fun _ => 0)) :
    AdC ![ea, eb, ec, ed] F u S := by
  norm_num at ha' hb' hc' hd'
  refine ⟨fun v => ![a v, b v, c v, d v], fun i => ?_, fun i => ?_, ?_⟩
  · fin_cases i <;> assumption
  · fin_cases i
    · show 0 < a u; linarith
    · show 0 < b u; linarith
    · show 0 < c u; linarith
    · show 0 < d u; linarith
  · filter_upwards [h] with v hv
    rw [hv, covarianceFromCovParams_zero]

end

end Diffstar.Trace
