import Verif.Lemmas.TraceBad
import Verif.Props.PopAutoDiff

/-!
C136: the traced population losses are NaN exactly where the losses are, and the slope at which a finite loss has a NaN
gradient.
-/

namespace Diffstar.Props

open Diffstar Diffstar.Spec Diffstar.Pop Diffstar.PopLoss Diffstar.Trace Filter Topology

section

variable {u : PF → ℝ}

local notation "B" => getBoundedDiffstarpopParams

theorem sfh_list_nan {tobs : ℝ} {f : ℝ → Expr PF} (h : ∀ t, (f t).eval u = none) :
    (Trace.logMass tobs ((obsTimes tobs).map f)).eval u = none := by
  have hl := obsTimes_length tobs
  have hne : obsTimes tobs ≠ [] := by intro h0; rw [h0] at hl; simp at hl
  refine nan_logMass tobs _ (by simp) (f ((obsTimes tobs).getLast hne)) ?_ (h _)
  rw [List.getLast?_map, List.getLast?_eq_some_getLast hne]
  rfl

theorem ms_slopes_nan (m : ℝ) {f : QF} (hf : f ∈ msSlopes) (h0 : u (.inl f) = 0) :
    (∃ i, (meanMseq (fun f => boundedPop (.inl f)) m i).eval u = none) ∨
    ∃ i, (stdMseqMs (fun f => boundedPop (.inl f)) m i).eval u = none := by
  simp only [msSlopes, List.mem_cons, List.not_mem_nil, or_false] at hf
  rcases hf with rfl | rfl | rfl | rfl | rfl | rfl
  · exact Or.inl ⟨2, nan_slope .mean_ul_mseq_int .mean_ul_mseq_slp m BV_mean_ul (by norm_num [QF.boundsQ]) h0⟩
  · exact Or.inl ⟨3, nan_slope .mean_uh_mseq_int .mean_uh_mseq_slp m BV_mean_uh (by norm_num [QF.boundsQ]) h0⟩
  · exact Or.inr ⟨0, nan_slope .std_ulgm_mseq_int .std_ulgm_mseq_slp m BV_std_ulgm (by norm_num [QF.boundsQ]) h0⟩
  · exact Or.inr ⟨1, nan_slope .std_ulgy_mseq_int .std_ulgy_mseq_slp m BV_std_ulgy (by norm_num [QF.boundsQ]) h0⟩
  · exact Or.inr ⟨2, nan_slope .std_ul_mseq_int .std_ul_mseq_slp m BV_std_ul (by norm_num [QF.boundsQ]) h0⟩
  · exact Or.inr ⟨3, nan_slope .std_uh_mseq_int .std_uh_mseq_slp m BV_std_uh (by norm_num [QF.boundsQ]) h0⟩

theorem q_slopes_nan (m t : ℝ) {f : QF} (hf : f ∈ qSlopes) (hr : f ≠ .mean_urej_slp) (h0 : u (.inl f) = 0) :
    (∃ i, i ≠ 7 ∧ (meanQseq (fun f => boundedPop (.inl f)) m t i).eval u = none) ∨
    (∃ i, (stdQseqMs (fun f => boundedPop (.inl f)) m i).eval u = none) ∨
    ∃ i, (stdQseqQ (fun f => boundedPop (.inl f)) m i).eval u = none := by
  simp only [qSlopes, List.mem_cons, List.not_mem_nil, or_false] at hf
  rcases hf with rfl | rfl | rfl | rfl | rfl | rfl | rfl | rfl | rfl | rfl | rfl | rfl | rfl
  · exact Or.inl ⟨2, by decide, nan_slope .mean_ul_qseq_int .mean_ul_qseq_slp m BV_mean_ul (by norm_num [QF.boundsQ]) h0⟩
  · exact Or.inl ⟨3, by decide, nan_slope .mean_uh_qseq_int .mean_uh_qseq_slp m BV_mean_uh (by norm_num [QF.boundsQ]) h0⟩
  · exact Or.inl ⟨5, by decide, nan_slope .mean_uqs_int .mean_uqs_slp m BV_mean_uqs (by norm_num [QF.boundsQ]) h0⟩
  · exact Or.inl ⟨6, by decide, nan_slope .mean_udrop_int .mean_udrop_slp m BV_mean_udrop (by norm_num [QF.boundsQ]) h0⟩
  · exact absurd rfl hr
  · exact Or.inr (Or.inl ⟨0, nan_slope .std_ulgm_qseq_int .std_ulgm_qseq_slp m BV_std_ulgm (by norm_num [QF.boundsQ]) h0⟩)
  · exact Or.inr (Or.inl ⟨1, nan_slope .std_ulgy_qseq_int .std_ulgy_qseq_slp m BV_std_ulgy (by norm_num [QF.boundsQ]) h0⟩)
  · exact Or.inr (Or.inl ⟨2, nan_slope .std_ul_qseq_int .std_ul_qseq_slp m BV_std_ul (by norm_num [QF.boundsQ]) h0⟩)
  · exact Or.inr (Or.inl ⟨3, nan_slope .std_uh_qseq_int .std_uh_qseq_slp m BV_std_uh (by norm_num [QF.boundsQ]) h0⟩)
  · exact Or.inr (Or.inr ⟨0, nan_slope .std_uqt_int .std_uqt_slp m BV_std_uqt (by norm_num [QF.boundsQ]) h0⟩)
  · exact Or.inr (Or.inr ⟨1, nan_slope .std_uqs_int .std_uqs_slp m BV_std_uqs (by norm_num [QF.boundsQ]) h0⟩)
  · exact Or.inr (Or.inr ⟨2, nan_slope .std_udrop_int .std_udrop_slp m BV_std_udrop (by norm_num [QF.boundsQ]) h0⟩)
  · exact Or.inr (Or.inr ⟨3, nan_slope .std_urej_int .std_urej_slp m BV_std_urej (by norm_num [QF.boundsQ]) h0⟩)

theorem drawMs_nan {z : Fin 4 → ℝ} {mu std : Fin 4 → Expr PF} (h : (∃ i, (mu i).eval u = none) ∨ ∃ i, (std i).eval u = none)
    (t lm fb : ℝ) : (Trace.sfhSinglegalScalar t lm fb (Trace.getBoundedDiffstarParams (Trace.drawMs z mu std))).eval u = none := by
  refine nan_sfh ?_
  unfold Trace.drawMs
  dsimp only
  rcases h with ⟨i, h⟩ | h
  · fin_cases i
    · exact Or.inl (nan_normal 0 (Or.inl h))
    · exact Or.inr (Or.inl (nan_normal 1 (Or.inl h)))
    · exact Or.inr (Or.inr (Or.inl (nan_normal 2 (Or.inl h))))
    · exact Or.inr (Or.inr (Or.inr (Or.inl (nan_normal 3 (Or.inl h)))))
  · exact Or.inl (nan_normal 0 (Or.inr h))

theorem drawQ_nan {z z' : Fin 4 → ℝ} {mu : Fin 8 → Expr PF} {s s' : Fin 4 → Expr PF} (h : (∃ i, i ≠ 7 ∧ (mu i).eval u = none) ∨
    (∃ i, (s i).eval u = none) ∨ ∃ i, (s' i).eval u = none) (t lm fb : ℝ) :
    (Trace.sfhSinglegalScalar t lm fb (Trace.getBoundedDiffstarParams (Trace.drawQ z z' mu s s'))).eval u = none := by
  refine nan_sfh ?_
  unfold Trace.drawQ
  dsimp only
  rcases h with ⟨i, hi, h⟩ | h | h
  · fin_cases i
    · exact Or.inl (nan_normal 0 (Or.inl h))
    · exact Or.inr (Or.inl (nan_normal 1 (Or.inl h)))
    · exact Or.inr (Or.inr (Or.inl (nan_normal 2 (Or.inl h))))
    · exact Or.inr (Or.inr (Or.inr (Or.inl (nan_normal 3 (Or.inl h)))))
    · exact Or.inr (Or.inr (Or.inr (Or.inr (Or.inl (nan_normal 0 (Or.inl h))))))
    · exact Or.inr (Or.inr (Or.inr (Or.inr (Or.inr (Or.inl (nan_normal 1 (Or.inl h)))))))
    · exact Or.inr (Or.inr (Or.inr (Or.inr (Or.inr (Or.inr (nan_normal 2 (Or.inl h)))))))
    · exact absurd rfl hi
  · exact Or.inl (nan_normal 0 (Or.inr h))
  · exact Or.inr (Or.inr (Or.inr (Or.inr (Or.inl (nan_normal 0 (Or.inr h))))))

theorem traced_ms_slopes {K : Type} {n : ℕ} (split : K → (m : ℕ) → Fin m → K) (z : K → Fin 4 → ℝ)
    (logMah : MahParams ℝ → ℝ → ℝ → ℝ) (h : HaloSample K n) (lgt0 fb : ℝ) (i : Fin n)
    (hs : (Trace.logMass h.tobs (Trace.mcSample split z logMah boundedPop h lgt0 fb i).sfhMs).eval u ≠ none) :
    ∀ f ∈ msSlopes, u (.inl f) ≠ 0 := by
  intro f hf h0
  refine hs ?_
  unfold Trace.mcSample
  dsimp only
  have h1 := ms_slopes_nan (u := u) (h.logmp0 i) hf h0
  generalize meanMseq (fun f => boundedPop (.inl f)) (h.logmp0 i) = mu at *
  generalize stdMseqMs (fun f => boundedPop (.inl f)) (h.logmp0 i) = std at *
  exact sfh_list_nan fun t => drawMs_nan h1 t _ fb

theorem traced_q_slopes {K : Type} {n : ℕ} (split : K → (m : ℕ) → Fin m → K) (z : K → Fin 4 → ℝ)
    (logMah : MahParams ℝ → ℝ → ℝ → ℝ) (h : HaloSample K n) (lgt0 fb : ℝ) (i : Fin n)
    (hs : (Trace.logMass h.tobs (Trace.mcSample split z logMah boundedPop h lgt0 fb i).sfhQ).eval u ≠ none) :
    ∀ f ∈ qSlopes, f ≠ .mean_urej_slp → u (.inl f) ≠ 0 := by
  intro f hf hr h0
  refine hs ?_
  unfold Trace.mcSample
  dsimp only
  have h1 := q_slopes_nan (u := u) (h.logmp0 i) (h.mah.tPeak i) hf hr h0
  generalize meanQseq (fun f => boundedPop (.inl f)) (h.logmp0 i) (h.mah.tPeak i) = mu at *
  generalize stdQseqMs (fun f => boundedPop (.inl f)) (h.logmp0 i) = std at *
  generalize stdQseqQ (fun f => boundedPop (.inl f)) (h.logmp0 i) = std' at *
  exact sfh_list_nan fun t => drawQ_nan h1 t _ fb

/-- If the traced masses are numbers and the slope of the rejuvenation mean is not zero, the histories are. -/
theorem traced_histories {K : Type} {n : ℕ} (rng : Rng K) (z : K → Fin 4 → ℝ) (logMah : MahParams ℝ → ℝ → ℝ → ℝ)
    (h : HaloSample K n) (lgt0 fb : ℝ) (i : Fin n) (hu : u (.inl .mean_urej_slp) ≠ 0)
    (h1 : (Trace.logMass h.tobs (Trace.mcSample rng.split z logMah boundedPop h lgt0 fb i).sfhMs).eval u ≠ none)
    (h2 : (Trace.logMass h.tobs (Trace.mcSample rng.split z logMah boundedPop h lgt0 fb i).sfhQ).eval u ≠ none) :
    (PopLoss.mcSample rng logMah (B u) h lgt0 fb i).sfhMs.isSome ∧ (PopLoss.mcSample rng logMah (B u) h lgt0 fb i).sfhQ.isSome := by
  refine ⟨(C94_sample_nan_iff rng logMah u h lgt0 fb i).1.2 (traced_ms_slopes _ z logMah h lgt0 fb i h1),
    (C94_sample_nan_iff rng logMah u h lgt0 fb i).2.2 fun f hf => ?_⟩
  by_cases hr : f = .mean_urej_slp
  · rw [hr]; exact hu
  · exact traced_q_slopes _ z logMah h lgt0 fb i h2 f hf hr

theorem empty_hist {d m : ℕ} {x : Fin m → Fin (0 + 0) → Fin d → Expr PF} {s : Fin d → ℝ} {y : Fin m → Fin (0 + 0) → Expr PF}
    {lo hi : Fin m → Fin d → ℝ} :
    (Trace.sum fun b => Trace.twNdhistWeightedKern (x b) s (y b) (lo b) (hi b)).eval u = some 0 := by
  have := (Ad.sum (u := u) (S := True) (f := fun _ _ => (0 : ℝ)) (e := fun b : Fin m => Trace.twNdhistWeightedKern (x b) s
    (y b) (lo b) (hi b)) fun _ => Ad.const 0).at
  simpa using this

/-- A normalised histogram that is a number: its weights are, and their sum is not zero. -/
theorem traced_normalise {nb : ℕ} {w : Fin nb → Expr PF} {b : Fin nb} (h : (Trace.normalise w b).eval u ≠ none) :
    (∀ b, (w b).eval u ≠ none) ∧ (Trace.sum w).eval u ≠ none ∧ (Trace.sum w).eval u ≠ some 0 :=
  ⟨fun b' hb => h (nan_div (Or.inr (Or.inl (nan_sum b' hb)))), fun hb => h (nan_div (Or.inr (Or.inl hb))),
    fun hb => h (nan_div (Or.inr (Or.inr hb)))⟩

theorem traced_bin {x : Expr PF} {s lo hi : ℝ} (h : (Trace.twBinWeightLaxKern x s lo hi).eval u ≠ none) :
    x.eval u ≠ none ∧ s ≠ 0 :=
  ⟨fun hx => h (nan_sub (Or.inl (nan_jaxTw (nan_div (Or.inl (nan_sub (Or.inl hx))))))),
    fun hs => h (nan_sub (Or.inl (nan_jaxTw (nan_div (Or.inr (Or.inr (by rw [hs]; rfl)))))))⟩

theorem traced_hist {n d : ℕ} {x : Fin n → Fin d → Expr PF} {s : Fin d → ℝ} {y : Fin n → Expr PF} {lo hi : Fin d → ℝ}
    (h : (Trace.twNdhistWeightedKern x s y lo hi).eval u ≠ none) (i : Fin n) (k : Fin d) :
    (x i k).eval u ≠ none ∧ s k ≠ 0 :=
  traced_bin fun hb => h (nan_sum i (nan_mul (Or.inl (nan_prod k hb))))

theorem traced_mstarPdf {K : Type} {rng : Rng K} {z : K → Fin 4 → ℝ} (hr : Reparametrised rng z) {n nb : ℕ}
    (logMah : MahParams ℝ → ℝ → ℝ → ℝ) (h : HaloSample K n) (lgt0 fb : ℝ) (ht : 0.1 < h.tobs) (bins : Fin (nb + 1) → ℝ)
    (hu : u (.inl .mean_urej_slp) ≠ 0) (b : Fin nb) (hs : (Trace.mstarPdf h.tobs (Trace.mcSample rng.split z logMah boundedPop h
      lgt0 fb) bins b).eval u ≠ none) :
    (PopLoss.mstarPdf h.tobs (PopLoss.mcSample rng logMah (B u) h lgt0 fb) bins).isSome := by
  have hs' := hs
  unfold Trace.mstarPdf at hs'
  obtain ⟨h1, h2, h3⟩ := traced_normalise hs'
  have hn : 0 < n := by
    rcases Nat.eq_zero_or_pos n with rfl | hn
    · exact absurd empty_hist h3
    · exact hn
  have hm := fun j => (traced_hist (h1 b) j 0).1
  have h0 := (traced_hist (h1 b) ⟨0, by omega⟩ 0).2
  obtain ⟨w, W, ew, cw, e⟩ := mstarPdf_core (S := False) hr logMah h lgt0 fb ht bins (fun hf => hf.elim) (fun i => traced_histories
    rng z logMah h lgt0 fb i hu (by simpa only [Fin.append_left] using hm (Fin.castAdd n i))
    (by simpa only [Fin.append_right] using hm (Fin.natAdd n i))) h0
  rw [ew] at hs
  have := (traced_normalise hs).2.2
  rw [(Ad.sum cw).at] at this
  have hne : ∑ b, W u b ≠ 0 := fun h => this (by rw [h])
  rw [e.self_of_nhds, PopLoss.normalise, if_neg hne]
  rfl

theorem traced_mstarSsfrPdf {K : Type} {rng : Rng K} {z : K → Fin 4 → ℝ} (hr : Reparametrised rng z) {n nms nsf : ℕ}
    (logMah : MahParams ℝ → ℝ → ℝ → ℝ) (h : HaloSample K n) (lgt0 fb : ℝ) (ht : 0.1 < h.tobs)
    (lo hi : Fin (nms * nsf) → Fin 2 → ℝ) (mb : Fin (nms + 1) → ℝ) (sb : Fin (nsf + 1) → ℝ)
    (hu : u (.inl .mean_urej_slp) ≠ 0) (b : Fin (nms * nsf)) (hs : (Trace.mstarSsfrPdf h.tobs (Trace.mcSample rng.split z logMah
      boundedPop h lgt0 fb) lo hi mb sb b).eval u ≠ none) :
    (PopLoss.mstarSsfrPdf h.tobs (PopLoss.mcSample rng logMah (B u) h lgt0 fb) lo hi mb sb).isSome := by
  have hs' := hs
  unfold Trace.mstarSsfrPdf at hs'
  obtain ⟨h1, h2, h3⟩ := traced_normalise hs'
  have hn : 0 < n := by
    rcases Nat.eq_zero_or_pos n with rfl | hn
    · exact absurd empty_hist h3
    · exact hn
  have hm := fun j => (traced_hist (h1 b) j 0).1
  have h0 := fun k => (traced_hist (h1 b) ⟨0, by omega⟩ k).2
  obtain ⟨w, W, ew, cw, e⟩ := mstarSsfrPdf_core (S := False) hr logMah h lgt0 fb ht lo hi mb sb (fun hf => hf.elim)
    (fun i => traced_histories rng z logMah h lgt0 fb i hu
      (by simpa only [Fin.append_left, Matrix.cons_val_zero] using hm (Fin.castAdd n i))
      (by simpa only [Fin.append_right, Matrix.cons_val_zero] using hm (Fin.natAdd n i))) h0
  rw [ew] at hs
  have := (traced_normalise hs).2.2
  rw [(Ad.sum cw).at] at this
  have hne : ∑ b, W u b ≠ 0 := fun h => this (by rw [h])
  rw [e.self_of_nhds, PopLoss.normalise, if_neg hne]
  rfl

/-- The traced stellar mass loss and the loss agree, NaN included. -/
theorem lossMstar_eval {K : Type} {rng : Rng K} {z : K → Fin 4 → ℝ} (hr : Reparametrised rng z) {nk n nb : ℕ}
    (logMah : MahParams ℝ → ℝ → ℝ → ℝ) (d : MstarData K nk n nb) (ht : ∀ k, 0.1 < (d.samples k).tobs)
    (hu : u (.inl .mean_urej_slp) ≠ 0) :
    (Trace.lossMstar rng.split z logMah d).eval u = PopLoss.lossMstar rng logMah u d := by
  have main : ∀ {S : Prop}, AdS (Trace.lossMstar rng.split z logMah d) (fun v => PopLoss.lossMstar rng logMah v d) u S →
      (Trace.lossMstar rng.split z logMah d).eval u = PopLoss.lossMstar rng logMah u d := by
    rintro S ⟨g, cg, eg⟩
    rw [cg.at]
    exact eg.self_of_nhds.symm
  by_cases hL : (PopLoss.lossMstar rng logMah u d).isSome
  · exact main (S := False) (lossMstar_ad hr logMah d ht hL fun h => h.elim)
  · by_contra hne
    rw [Option.not_isSome_iff_eq_none] at hL
    rw [hL] at hne
    have hc : nk * nb ≠ 0 := by
      intro h0
      refine hne (nan_mul (Or.inl (nan_div (Or.inr (Or.inr ?_)))))
      rw [Expr.eval]
      exact congrArg some (by exact_mod_cast h0)
    have hb : 0 < nb := Nat.pos_of_ne_zero fun h => hc (by rw [h, mul_zero])
    have hpdf := fun k => traced_mstarPdf (u := u) hr logMah (d.samples k) d.lgt0 d.fb (ht k) d.bins hu ⟨0, hb⟩ fun hn => hne
      (nan_mul (Or.inl (nan_div (Or.inl (nan_sum k (nan_sum ⟨0, hb⟩ (nan_pow (nan_sub (Or.inl hn)))))))))
    have := main (S := False) (lossMstar_core logMah d hc fun k => mstarPdf_ad hr logMah _ _ _ (ht k) _ (fun h => h.elim)
      (hpdf k))
    rw [hL] at this
    exact hne this

/-- The traced sSFR losses and the losses agree, NaN included. -/
theorem lossMstarSsfr_eval {K : Type} {rng : Rng K} {z : K → Fin 4 → ℝ} (hr : Reparametrised rng z)
    {nk n nms nsf nz nm nt : ℕ} (logMah : MahParams ℝ → ℝ → ℝ → ℝ) (d : SsfrData K nk n nms nsf nz nm nt)
    (ht : ∀ k, 0.1 < (d.samples k).tobs) (hrow : RowsUsed d) (hu : u (.inl .mean_urej_slp) ≠ 0) :
    (Trace.lossMstarSsfr rng.split z logMah d).eval u = PopLoss.lossMstarSsfr rng logMah u d := by
  have main : ∀ {S : Prop}, AdS (Trace.lossMstarSsfr rng.split z logMah d) (fun v => PopLoss.lossMstarSsfr rng logMah v d) u S →
      (Trace.lossMstarSsfr rng.split z logMah d).eval u = PopLoss.lossMstarSsfr rng logMah u d := by
    rintro S ⟨g, cg, eg⟩
    rw [cg.at]
    exact eg.self_of_nhds.symm
  by_cases hL : (PopLoss.lossMstarSsfr rng logMah u d).isSome
  · exact main (S := False) (lossMstarSsfr_ad hr logMah d ht hrow hL fun h => h.elim)
  · by_contra hne
    rw [Option.not_isSome_iff_eq_none] at hL
    rw [hL] at hne
    have hc : nz * (nt * nsf) ≠ 0 := by
      intro h0
      refine hne (nan_mul (Or.inl (nan_div (Or.inr (Or.inr ?_)))))
      rw [Expr.eval, mul_assoc]
      exact congrArg some (by exact_mod_cast h0)
    have ht0 : 0 < nt := Nat.pos_of_ne_zero fun h => hc (by rw [h, zero_mul, mul_zero])
    have hs0 : 0 < nsf := Nat.pos_of_ne_zero fun h => hc (by rw [h, mul_zero, mul_zero])
    have hdiv : ∀ iz t, (Expr.div (traceRow rng.split z logMah d iz t ⟨0, hs0⟩)
        (Trace.sum fun b => traceRow rng.split z logMah d iz t b)).eval u ≠ none := fun iz t hn => hne
      (nan_mul (Or.inl (nan_div (Or.inl (nan_sum iz (nan_sum t (nan_sum ⟨0, hs0⟩ (nan_pow (nan_sub (Or.inl hn))))))))))
    have hpdf : ∀ k, (PopLoss.mstarSsfrPdf (d.samples k).tobs (PopLoss.mcSample rng logMah (B u) (d.samples k) d.lgt0 d.fb)
        d.ndbinsLo d.ndbinsHi d.mstarBins d.ssfrBins).isSome := fun k => by
      obtain ⟨iz, m, hk⟩ := hrow k
      refine traced_mstarSsfrPdf (u := u) hr logMah (d.samples k) d.lgt0 d.fb (ht k) d.ndbinsLo d.ndbinsHi d.mstarBins
        d.ssfrBins hu (finProdFinEquiv (d.targetMstarIds ⟨0, ht0⟩, ⟨0, hs0⟩)) fun hn => hdiv iz ⟨0, ht0⟩ (nan_div (Or.inl ?_))
      unfold traceRow
      rw [eval_take]
      refine nan_sum m (nan_mul (Or.inl ?_))
      rw [eval_take, hk]
      exact hn
    have := main (S := False) (lossMstarSsfr_core logMah d hc (fun k => mstarSsfrPdf_ad hr logMah _ _ _ (ht k) _ _ _ _
      (fun h => h.elim) (hpdf k)) fun iz t s hs => Or.inr fun h0 => hdiv iz t (nan_div (Or.inr (Or.inr (by rw [hs, h0])))))
    rw [hL] at this
    exact hne this

theorem scriptLoss_eval {K : Type} {rng : Rng K} {z : K → Fin 4 → ℝ} (hr : Reparametrised rng z)
    (logMah : MahParams ℝ → ℝ → ℝ → ℝ) (l : ScriptLoss K) (hd : GoodData l) (hu : u (.inl .mean_urej_slp) ≠ 0) :
    (Trace.scriptLoss rng.split z logMah l).eval u = scriptValue rng logMah u l := by
  cases l with
  | mstar d => exact lossMstar_eval hr logMah d hd hu
  | mstarSsfrCen d dc =>
    exact congrArg₂ fadd (lossMstarSsfr_eval hr logMah dc hd.2.1 hd.2.2 hu) (lossMstar_eval hr logMah d hd.1 hu)
  | mstarSsfrCenSat d dc ds =>
    exact congrArg₂ fadd (congrArg₂ fadd (lossMstarSsfr_eval hr logMah dc hd.2.1 hd.2.2.2.1 hu)
      (lossMstar_eval hr logMah d hd.1 hu)) (lossMstarSsfr_eval hr logMah ds hd.2.2.1 hd.2.2.2.2 hu)

theorem obsTimes_ne_nil (tobs : ℝ) : obsTimes tobs ≠ [] := by
  intro h0
  have hl := obsTimes_length tobs
  rw [h0] at hl
  simp at hl

theorem obsTimes_le {tobs : ℝ} (h1 : 0.1 < tobs) : ∀ t ∈ obsTimes tobs, Real.logb 10 t ≤ Real.logb 10 tobs := by
  intro t ht
  unfold obsTimes logspace at ht
  obtain ⟨i, hi, rfl⟩ := List.mem_map.1 ht
  have hi' : (i : ℝ) ≤ 19 := by
    have := List.mem_range.1 hi
    unfold N_TIMES at this
    exact_mod_cast (by omega : i ≤ 19)
  have hl : -1 < Real.logb 10 tobs := by
    rw [Real.lt_logb_iff_rpow_lt (by norm_num) (by linarith), Real.rpow_neg (by norm_num), Real.rpow_one]
    norm_num at h1 ⊢
    exact h1
  rw [Real.logb_rpow (by norm_num) (by norm_num)]
  have : ((N_TIMES : ℕ) : ℝ) - 1 = 19 := by norm_num [N_TIMES]
  rw [this]
  nlinarith [mul_le_mul_of_nonneg_right hi' (by linarith : 0 ≤ (Real.logb 10 tobs - -1) / 19)]

/-- At the zero slope a stellar mass loss that is a number has a NaN derivative. -/
theorem bad_lossMstar {K : Type} {nk n nb : ℕ} (split : K → (m : ℕ) → Fin m → K) (z : K → Fin 4 → ℝ)
    (logMah : MahParams ℝ → ℝ → ℝ → ℝ) (d : MstarData K nk n nb) (h0 : u (.inl .mean_urej_slp) = 0)
    (hs : (Trace.lossMstar split z logMah d).eval u ≠ none) :
    Bad u (.inl .mean_urej_slp) (Trace.lossMstar split z logMah d) := by
  have hc : nk * nb ≠ 0 := by
    intro h0
    refine hs (nan_mul (Or.inl (nan_div (Or.inr (Or.inr ?_)))))
    rw [Expr.eval]
    exact congrArg some (by exact_mod_cast h0)
  have hk : 0 < nk := Nat.pos_of_ne_zero fun h => hc (by rw [h, zero_mul])
  have hb : 0 < nb := Nat.pos_of_ne_zero fun h => hc (by rw [h, mul_zero])
  have hp : (Trace.mstarPdf (d.samples ⟨0, hk⟩).tobs (Trace.mcSample split z logMah boundedPop (d.samples ⟨0, hk⟩) d.lgt0 d.fb)
      d.bins ⟨0, hb⟩).eval u ≠ none := fun hn => hs
    (nan_mul (Or.inl (nan_div (Or.inl (nan_sum ⟨0, hk⟩ (nan_sum ⟨0, hb⟩ (nan_pow (nan_sub (Or.inl hn)))))))))
  have hn : 0 < n := by
    unfold Trace.mstarPdf at hp
    rcases Nat.eq_zero_or_pos n with rfl | hn
    · exact absurd empty_hist (traced_normalise hp).2.2
    · exact hn
  refine bad_mul (Or.inl (bad_div (Or.inl (bad_sum ⟨0, hk⟩ (bad_sum ⟨0, hb⟩ (bad_pow (bad_sub (Or.inl (bad_div (Or.inl
    (bad_sum (Fin.natAdd n ⟨0, hn⟩) (bad_mul (Or.inl (bad_prod 0 (bad_sub (Or.inl (bad_jaxTw (bad_div (Or.inl (bad_sub
      (Or.inl ?_)))))))))))))))))))))
  beta_reduce
  rw [Fin.append_right]
  exact bad_sfhQ split z logMah _ d.lgt0 d.fb ⟨0, hn⟩ (obsTimes_ne_nil _) h0

theorem bad_scriptLoss {K : Type} (split : K → (m : ℕ) → Fin m → K) (z : K → Fin 4 → ℝ)
    (logMah : MahParams ℝ → ℝ → ℝ → ℝ) (l : ScriptLoss K) (h0 : u (.inl .mean_urej_slp) = 0)
    (hs : (Trace.scriptLoss split z logMah l).eval u ≠ none) :
    Bad u (.inl .mean_urej_slp) (Trace.scriptLoss split z logMah l) := by
  cases l with
  | mstar d => exact bad_lossMstar split z logMah d h0 hs
  | mstarSsfrCen d dc => exact bad_add (Or.inr (bad_lossMstar split z logMah d h0 fun h => hs (nan_add (Or.inr h))))
  | mstarSsfrCenSat d dc ds =>
    exact bad_add (Or.inl (bad_add (Or.inr (bad_lossMstar split z logMah d h0 fun h => hs
      (nan_add (Or.inl (nan_add (Or.inr h))))))))

/-- Up to 1.25 Gyr the stellar mass loss does not depend on the slope of the rejuvenation mean. -/
theorem same_lossMstar {v : PF → ℝ} {K : Type} {nk n nb : ℕ} (split : K → (m : ℕ) → Fin m → K) (z : K → Fin 4 → ℝ)
    (logMah : MahParams ℝ → ℝ → ℝ → ℝ) (d : MstarData K nk n nb) (ht : ∀ k, 0.1 < (d.samples k).tobs)
    (ht' : ∀ k, (d.samples k).tobs ≤ 1.25) (huv : ∀ f, f ≠ .inl .mean_urej_slp → u f = v f) :
    (Trace.lossMstar split z logMah d).eval u = (Trace.lossMstar split z logMah d).eval v := by
  have hlog : Real.logb 10 1.25 ≤ 0.1 := by
    rw [Real.logb_le_iff_le_rpow (by norm_num) (by norm_num)]
    have h := Real.rpow_natCast ((10 : ℝ) ^ (0.1 : ℝ)) 10
    rw [← Real.rpow_mul (by norm_num)] at h
    norm_num at h
    by_contra hlt
    push Not at hlt
    have h2 : ((10 : ℝ) ^ (1 / 10 : ℝ)) ^ 10 < (1.25 : ℝ) ^ 10 := by
      refine pow_lt_pow_left₀ ?_ (by positivity) (by norm_num)
      norm_num at hlt ⊢
      exact hlt
    rw [← h] at h2
    norm_num at h2
  have hts : ∀ k, ∀ t ∈ obsTimes (d.samples k).tobs, Real.logb 10 t ≤ 0.1 := fun k t h =>
    (obsTimes_le (ht k) t h).trans ((Real.logb_le_logb_of_le (by norm_num) (by linarith [ht k]) (ht' k)).trans hlog)
  have hw : ∀ k (b : Fin nb), (Trace.twNdhistWeightedKern (fun i (_ : Fin 1) => Fin.append
        (fun i => Trace.logMass (d.samples k).tobs (Trace.mcSample split z logMah boundedPop (d.samples k) d.lgt0 d.fb i).sfhMs)
        (fun i => Trace.logMass (d.samples k).tobs (Trace.mcSample split z logMah boundedPop (d.samples k) d.lgt0 d.fb i).sfhQ) i)
        (fun _ => meanDiff d.bins + 0) (Trace.branchWeights fun i => (Trace.mcSample split z logMah boundedPop (d.samples k)
          d.lgt0 d.fb i).fracQ) (fun _ => d.bins b.castSucc) (fun _ => d.bins b.succ)).eval u =
      (Trace.twNdhistWeightedKern (fun i (_ : Fin 1) => Fin.append
        (fun i => Trace.logMass (d.samples k).tobs (Trace.mcSample split z logMah boundedPop (d.samples k) d.lgt0 d.fb i).sfhMs)
        (fun i => Trace.logMass (d.samples k).tobs (Trace.mcSample split z logMah boundedPop (d.samples k) d.lgt0 d.fb i).sfhQ) i)
        (fun _ => meanDiff d.bins + 0) (Trace.branchWeights fun i => (Trace.mcSample split z logMah boundedPop (d.samples k)
          d.lgt0 d.fb i).fracQ) (fun _ => d.bins b.castSucc) (fun _ => d.bins b.succ)).eval v := by
    intro k b
    have hf := fun i => same_fracQuench huv ((d.samples k).logmp0 i) ((d.samples k).mah.tPeak i) ((d.samples k).upid i)
      ((d.samples k).lgmuInfall i) ((d.samples k).logmhostInfall i) ((d.samples k).gyrSinceInfall i)
    refine same_hist (fun i _ => ?_) fun i => ?_
    · refine Fin.addCases (fun i => ?_) (fun i => ?_) i
      · simp only [Fin.append_left]
        exact same_logMass _ _ (same_sfhMs split z logMah _ _ _ i huv (hts k))
      · simp only [Fin.append_right]
        exact same_logMass _ _ (same_sfhQ split z logMah _ _ _ i huv (hts k))
    · unfold Trace.branchWeights
      refine Fin.addCases (fun i => ?_) (fun i => ?_) i
      · simp only [Fin.append_left]
        exact congrArg₂ fmul rfl (congrArg (Option.map _) (hf i))
      · simp only [Fin.append_right]
        exact congrArg₂ fmul rfl (hf i)
  have hpdf : ∀ k b, (Trace.mstarPdf (d.samples k).tobs (Trace.mcSample split z logMah boundedPop (d.samples k) d.lgt0 d.fb)
      d.bins b).eval u = (Trace.mstarPdf (d.samples k).tobs (Trace.mcSample split z logMah boundedPop (d.samples k) d.lgt0 d.fb)
      d.bins b).eval v := by
    intro k b
    unfold Trace.mstarPdf Trace.normalise
    dsimp only
    rw [Expr.eval, Expr.eval, hw k b, same_sum (hw k)]
  unfold Trace.lossMstar
  have hsum := same_sum (u := u) (v := v) (f := fun k => Trace.sum fun b => Expr.pow (.sub (Trace.mstarPdf (d.samples k).tobs
    (Trace.mcSample split z logMah boundedPop (d.samples k) d.lgt0 d.fb) d.bins b) (.const (d.target k b))) 2) fun k =>
      same_sum fun b => by simp only [Expr.eval, hpdf]
  simp only [Expr.eval]
  rw [hsum]

end

theorem fields_urej (vals : List ℝ) : makeTuple PF.fields vals (.inl .mean_urej_slp) = vals.getD 49 0 := rfl

theorem makeUParams_urej {flat : List ℝ} {u : PF → ℝ} (hu : makeUParams flat = some u) {x : ℝ} (h : flat[49]? = some x) :
    u (.inl .mean_urej_slp) = x := by
  unfold makeUParams at hu
  split_ifs at hu
  rw [← Option.some.inj hu, fields_urej, List.getD_eq_getElem?_getD, h]
  rfl

theorem makeTuple_set {F : Type} [DecidableEq F] {fields : List F} (vals : List ℝ) (i : ℕ) (x : ℝ) {f : F} (hm : f ∈ fields)
    (hf : fields[i]? ≠ some f) : makeTuple fields (vals.set i x) f = makeTuple fields vals f := by
  have hi : i ≠ fields.idxOf f := by
    rintro rfl
    exact hf (List.getElem?_idxOf hm)
  unfold makeTuple
  rw [List.getD_eq_getElem?_getD, List.getD_eq_getElem?_getD, List.getElem?_set_ne hi]

theorem makeUParams_set {flat : List ℝ} {x : ℝ} {u : PF → ℝ} (hu : makeUParams (flat.set 49 x) = some u) :
    u (.inl .mean_urej_slp) = x ∧ ∃ w, makeUParams (flat.set 49 0) = some w ∧ ∀ f, f ≠ .inl .mean_urej_slp → w f = u f := by
  have hlen : flat.length = 88 := by
    unfold makeUParams at hu
    split_ifs at hu with h
    rw [List.length_set, fields_length] at h
    exact h
  refine ⟨makeUParams_urej hu (by rw [List.getElem?_set_self (by omega)]), _, makeUParams_eq (by rw [List.length_set, hlen]), ?_⟩
  intro f hf
  rw [makeUParams_eq (by rw [List.length_set, hlen])] at hu
  have h49 : PF.fields[49]? ≠ some f := fun h => hf (Option.some.inj h).symm
  rw [← Option.some.inj hu, makeTuple_set flat 49 0 (PF.mem_fields f) h49, makeTuple_set flat 49 x (PF.mem_fields f) h49]

/-- **C136** (value): as long as the slope of the rejuvenation mean is not zero, what the traced program computes is the
loss, NaN for NaN. -/
theorem C136_value_partial {K : Type} {rng : Rng K} {z : K → Fin 4 → ℝ} (hr : Reparametrised rng z)
    (logMah : MahParams ℝ → ℝ → ℝ → ℝ) (l : ScriptLoss K) (hd : GoodData l) (flat : List ℝ) (u : PF → ℝ)
    (hu : makeUParams flat = some u) (hne : u (.inl .mean_urej_slp) ≠ 0) :
    ∃ g, Trace.gradWrapper (Trace.scriptLoss rng.split z logMah l) flat = some (scriptValue rng logMah u l, g) := by
  refine ⟨PF.fields.map ((Trace.scriptLoss rng.split z logMah l).grad u), ?_⟩
  unfold Trace.gradWrapper
  rw [hu, Option.map_some, scriptLoss_eval hr logMah l hd hne]

/-- **C136** at the zero slope: the losses of the scripts, where they are numbers, come with a NaN in entry 49 of the
gradient. -/
theorem C136_nan_gradient {K : Type} (split : K → (m : ℕ) → Fin m → K) (z : K → Fin 4 → ℝ)
    (logMah : MahParams ℝ → ℝ → ℝ → ℝ) (l : ScriptLoss K) (flat : List ℝ) (L : ℝ) (g : List (Option ℝ))
    (h0 : flat[49]? = some 0) (hw : Trace.gradWrapper (Trace.scriptLoss split z logMah l) flat = some (some L, g)) :
    g[49]? = some none := by
  unfold Trace.gradWrapper at hw
  obtain ⟨u, hu, he⟩ := Option.map_eq_some_iff.1 hw
  have hz : u (.inl .mean_urej_slp) = 0 := makeUParams_urej hu h0
  obtain ⟨e1, e2⟩ := Prod.mk.inj he
  rw [← e2, List.getElem?_map]
  have : PF.fields[49]? = some (.inl .mean_urej_slp) := by decide
  rw [this, Option.map_some]
  exact congrArg some (bad_scriptLoss split z logMah l hz (by rw [e1]; simp) _)

/-- **C136** at the zero slope: for observation times up to 1.25 Gyr the stellar mass loss is a number there, the same as for
slopes that are not zero. -/
theorem C136_zero_slope_value {K : Type} {rng : Rng K} {z : K → Fin 4 → ℝ} (hr : Reparametrised rng z)
    (logMah : MahParams ℝ → ℝ → ℝ → ℝ) {nk n nb : ℕ} (d : MstarData K nk n nb) (ht : ∀ k, 0.1 < (d.samples k).tobs)
    (ht' : ∀ k, (d.samples k).tobs ≤ 1.25) (flat : List ℝ) (x : ℝ) (hx : x ≠ 0) (u : PF → ℝ)
    (hu : makeUParams (flat.set 49 x) = some u) (L : ℝ) (hL : PopLoss.lossMstar rng logMah u d = some L) :
    ∃ g, Trace.gradWrapper (Trace.lossMstar rng.split z logMah d) (flat.set 49 0) = some (some L, g) := by
  obtain ⟨hux, w, hw, hwu⟩ := makeUParams_set hu
  refine ⟨PF.fields.map ((Trace.lossMstar rng.split z logMah d).grad w), ?_⟩
  unfold Trace.gradWrapper
  rw [hw, Option.map_some, same_lossMstar rng.split z logMah d ht ht' hwu, lossMstar_eval hr logMah d ht (by rw [hux]; exact hx),
    hL]

/-- **C136** fails at the zero slope: one halo observed at 0.2 Gyr, all unbounded parameters one except the slope of the
rejuvenation mean; the loss is a number and its gradient has a NaN. -/
theorem C136_finite_gradient_violated : ∃ (d : MstarData Unit 1 1 1) (L : ℝ) (g : List (Option ℝ)) (flat : List ℝ),
    (∀ k, 0.1 < (d.samples k).tobs) ∧ flat.length = 88 ∧
    Trace.gradWrapper (Trace.scriptLoss oneSigmaRng.split (fun _ _ => 1) (fun _ _ _ => 12) (.mstar d)) flat = some (some L, g) ∧
    none ∈ g := by
  obtain ⟨d, L, hs, -, ht, hL, -⟩ := oneHalo_mstar_data
  have hset : (PF.fields.map fun _ => (1 : ℝ)).set 49 1 = PF.fields.map fun _ => (1 : ℝ) := by
    refine List.ext_getElem? fun i => ?_
    by_cases hi : 49 = i
    · subst hi
      rw [List.getElem?_set_self (by rw [List.length_map, fields_length]; norm_num), List.getElem?_map]
      rfl
    · rw [List.getElem?_set_ne hi]
  obtain ⟨g, hg⟩ := C136_zero_slope_value oneSigmaRng_reparametrised (fun _ _ _ => 12) d ht (fun k => by rw [hs]; norm_num [oneHalo])
    (PF.fields.map fun _ => (1 : ℝ)) 1 one_ne_zero (fun _ => 1) (by rw [hset]; exact ones_makeUParams) L hL
  refine ⟨d, L, g, (PF.fields.map fun _ => (1 : ℝ)).set 49 0, ht, by rw [List.length_set, List.length_map, fields_length], hg, ?_⟩
  have := C136_nan_gradient oneSigmaRng.split (fun _ _ => 1) (fun _ _ _ => 12) (.mstar d) _ L g
    (List.getElem?_set_self (by rw [List.length_map, fields_length]; norm_num)) hg
  exact List.mem_of_getElem? this

/-- A vector with a finite loss and gradient as the script sees it has a loss which is a number. -/
theorem script_value_of_finite {K : Type} {rng : Rng K} {z : K → Fin 4 → ℝ} (hr : Reparametrised rng z)
    (logMah : MahParams ℝ → ℝ → ℝ → ℝ) (l : ScriptLoss K) (hd : GoodData l) (nanCase : PopFit.Vec → Option ℝ × PopFit.Vec)
    (flat' : List ℝ) (hl' : flat'.length = 88) (L : ℝ)
    (h2 : Diffstar.Props.Spec.FiniteAt (scriptKernel (Trace.gradWrapper (Trace.scriptLoss rng.split z logMah l)) nanCase)
      (flat'.map some) L) :
    ∃ p u', savedArrays flat' = some (p, flat') ∧ makeUParams flat' = some u' ∧ scriptValue rng logMah u' l = some L := by
  set W := Trace.gradWrapper (Trace.scriptLoss rng.split z logMah l) with hW
  obtain ⟨q, u'', hs, -⟩ := C96_saved_arrays flat' hl'
  have hw' : W flat' = some ((Trace.scriptLoss rng.split z logMah l).eval (makeTuple PF.fields flat'),
      PF.fields.map ((Trace.scriptLoss rng.split z logMah l).grad (makeTuple PF.fields flat'))) := by
    rw [hW, Trace.gradWrapper, makeUParams_eq hl']
    rfl
  have hk' : scriptKernel W nanCase (flat'.map some) = ((Trace.scriptLoss rng.split z logMah l).eval (makeTuple PF.fields flat'),
      PF.fields.map ((Trace.scriptLoss rng.split z logMah l).grad (makeTuple PF.fields flat'))) := by
    unfold scriptKernel
    rw [finiteVals_map, Option.bind_some, hw']
  have hv : (Trace.scriptLoss rng.split z logMah l).eval (makeTuple PF.fields flat') = some L := by
    rw [← h2.2.1, hk']
  have hne : makeTuple PF.fields flat' (.inl .mean_urej_slp) ≠ 0 := by
    intro hz
    have hb := bad_scriptLoss rng.split z logMah l hz (by rw [hv]; simp)
    have hfin := h2.2.2
    rw [hk'] at hfin
    have hmem : none ∈ PF.fields.map ((Trace.scriptLoss rng.split z logMah l).grad (makeTuple PF.fields flat')) :=
      List.mem_map.2 ⟨_, PF.mem_fields _, hb (some 1)⟩
    exact absurd rfl (hfin none hmem)
  exact ⟨q, _, hs, makeUParams_eq hl', by rw [← scriptLoss_eval hr logMah l hd hne]; exact hv⟩

/-- **C136** for a run of the fitting script: from a start at which the loss is a number, whatever the optimiser does, the run
saves a vector at which the loss is a number, not above the loss at the start. No assumption on the gradients is needed. -/
theorem C136_fit_partial {K S : Type} {rng : Rng K} {z : K → Fin 4 → ℝ} (hr : Reparametrised rng z)
    (logMah : MahParams ℝ → ℝ → ℝ → ℝ) (l : ScriptLoss K) (hd : GoodData l) (nanCase : PopFit.Vec → Option ℝ × PopFit.Vec)
    (o : PopFit.Optimizer S) (hlen : ∀ s, (o.params s).length = 88) (flat : List ℝ)
    (hinit : o.params (o.init (flat.map some)) = flat.map some) (u : PF → ℝ) (hu : makeUParams flat = some u) (L0 : ℝ)
    (h0 : scriptValue rng logMah u l = some L0) (n : ℕ) (hn : 0 < n) :
    ∃ flat' p u' L, PopFit.runFit o (scriptKernel (Trace.gradWrapper (Trace.scriptLoss rng.split z logMah l)) nanCase) n
        (flat.map some) = some (flat'.map some) ∧ savedArrays flat' = some (p, flat') ∧ makeUParams flat' = some u' ∧
      scriptValue rng logMah u' l = some L ∧ L ≤ L0 := by
  set W := Trace.gradWrapper (Trace.scriptLoss rng.split z logMah l) with hW
  have hfl : flat.length = 88 := by rw [← List.length_map (as := flat) some, ← hinit, hlen]
  obtain ⟨g, hw, hgl⟩ := scriptLoss_finite hr logMah l hd flat hfl u hu L0 h0
  have hk : scriptKernel W nanCase (flat.map some) = (some L0, g.map some) := by
    unfold scriptKernel
    rw [finiteVals_map, Option.bind_some, hW, hw]
  obtain ⟨p, L, h1, h2, h3, s, hs'⟩ := C82_saved_no_worse_than_start_partial o (scriptKernel W nanCase) n hn (flat.map some) L0
    ⟨by rw [hinit]; simp, by rw [hinit, hk], by rw [hinit, hk]; simp⟩
  obtain ⟨flat', rfl⟩ := exists_map_of_finite h2.1
  have hl' : flat'.length = 88 := by
    rw [← hlen s, ← hs', List.length_map]
  obtain ⟨q, u', e1, e2, e3⟩ := script_value_of_finite hr logMah l hd nanCase flat' hl' L h2
  exact ⟨flat', q, u', L, h1, e1, e2, e3, h3⟩

/-- With a zero main-sequence slope the stellar mass loss is NaN. -/
theorem lossMstar_nan_of_ms {u : PF → ℝ} {K : Type} {nk n nb : ℕ} (split : K → (m : ℕ) → Fin m → K) (z : K → Fin 4 → ℝ)
    (logMah : MahParams ℝ → ℝ → ℝ → ℝ) (d : MstarData K nk n nb) (h0 : u (.inl .mean_ul_mseq_slp) = 0) :
    (Trace.lossMstar split z logMah d).eval u = none := by
  by_contra hs
  have hc : nk * nb ≠ 0 := by
    intro h0
    refine hs (nan_mul (Or.inl (nan_div (Or.inr (Or.inr ?_)))))
    rw [Expr.eval]
    exact congrArg some (by exact_mod_cast h0)
  have hk : 0 < nk := Nat.pos_of_ne_zero fun h => hc (by rw [h, zero_mul])
  have hb : 0 < nb := Nat.pos_of_ne_zero fun h => hc (by rw [h, mul_zero])
  have hp : (Trace.mstarPdf (d.samples ⟨0, hk⟩).tobs (Trace.mcSample split z logMah boundedPop (d.samples ⟨0, hk⟩) d.lgt0 d.fb)
      d.bins ⟨0, hb⟩).eval u ≠ none := fun hn => hs
    (nan_mul (Or.inl (nan_div (Or.inl (nan_sum ⟨0, hk⟩ (nan_sum ⟨0, hb⟩ (nan_pow (nan_sub (Or.inl hn)))))))))
  unfold Trace.mstarPdf at hp
  obtain ⟨h1, -, h3⟩ := traced_normalise hp
  have hn : 0 < n := by
    rcases Nat.eq_zero_or_pos n with rfl | hn
    · exact absurd empty_hist h3
    · exact hn
  have hm := (traced_hist (h1 ⟨0, hb⟩) (Fin.castAdd n ⟨0, hn⟩) 0).1
  rw [Fin.append_left] at hm
  exact traced_ms_slopes split z logMah _ _ _ _ hm .mean_ul_mseq_slp (by simp [msSlopes]) h0

/-- **C136** fails for runs of the fitting script that start at the zero slope: the loss at the start is a number, but the run
ends at once, whatever the optimiser and the number of steps, and saves 88 zeros, at which the loss is NaN. -/
theorem C136_fit_zero_slope_violated : ∃ (d : MstarData Unit 1 1 1) (L : ℝ) (flat : List ℝ), GoodData (.mstar d) ∧
    (∃ g, Trace.gradWrapper (Trace.scriptLoss oneSigmaRng.split (fun _ _ => 1) (fun _ _ _ => 12) (.mstar d)) flat =
      some (some L, g)) ∧
    (∀ (S : Type) (o : PopFit.Optimizer S), o.params (o.init (flat.map some)) = flat.map some → ∀ nanCase n, 0 < n →
      PopFit.runFit o (scriptKernel (Trace.gradWrapper (Trace.scriptLoss oneSigmaRng.split (fun _ _ => 1) (fun _ _ _ => 12)
        (.mstar d))) nanCase) n (flat.map some) = some ((List.replicate 88 (0 : ℝ)).map some)) ∧
    ∃ g, Trace.gradWrapper (Trace.scriptLoss oneSigmaRng.split (fun _ _ => 1) (fun _ _ _ => 12) (.mstar d))
      (List.replicate 88 0) = some (none, g) := by
  obtain ⟨d, L, g, flat, ht, hl, hw, hg⟩ := C136_finite_gradient_violated
  refine ⟨d, L, flat, ht, ⟨g, hw⟩, fun S o hinit nanCase n hn => ?_, ?_⟩
  · have hk : scriptKernel (Trace.gradWrapper (Trace.scriptLoss oneSigmaRng.split (fun _ _ => 1) (fun _ _ _ => 12) (.mstar d)))
        nanCase (flat.map some) = (some L, g) := by
      unfold scriptKernel
      rw [finiteVals_map, Option.bind_some, hw]
    rw [C82_nan_gradient_at_start_violated o _ n hn (flat.map some) L (by rw [hinit, hk]) (by rw [hinit, hk]; exact ⟨none, hg, rfl⟩),
      List.length_map, hl, List.map_replicate]
  · unfold Trace.gradWrapper
    rw [makeUParams_eq (by simp), Option.map_some]
    refine ⟨_, congrArg (fun x => some (x, _)) (lossMstar_nan_of_ms _ _ _ d ?_)⟩
    show (List.replicate 88 (0 : ℝ)).getD _ 0 = 0
    rw [List.getD_eq_getElem?_getD, List.getElem?_replicate]
    split_ifs <;> rfl

/-- **C136** for a run in which the loss is a number at every iterate: the first iterate with the lowest loss is saved. -/
theorem C136_best_iterate_partial {K S : Type} {rng : Rng K} {z : K → Fin 4 → ℝ} (hr : Reparametrised rng z)
    (logMah : MahParams ℝ → ℝ → ℝ → ℝ) (l : ScriptLoss K) (hd : GoodData l) (nanCase : PopFit.Vec → Option ℝ × PopFit.Vec)
    (o : PopFit.Optimizer S) (p0 : PopFit.Vec) (n : ℕ) (hn : 0 < n) (flat : ℕ → List ℝ) (u : ℕ → PF → ℝ) (L : ℕ → ℝ)
    (hit : ∀ k < n, o.params (Diffstar.Props.Spec.optState o (scriptKernel (Trace.gradWrapper (Trace.scriptLoss rng.split z logMah l))
      nanCase) p0 k) = (flat k).map some) (hu : ∀ k < n, makeUParams (flat k) = some (u k))
    (hL : ∀ k < n, scriptValue rng logMah (u k) l = some (L k)) :
    ∃ k < n, PopFit.runFit o (scriptKernel (Trace.gradWrapper (Trace.scriptLoss rng.split z logMah l)) nanCase) n p0 =
      some ((flat k).map some) ∧ (∀ j < n, L k ≤ L j) ∧ ∀ j < k, L k < L j := by
  obtain ⟨k, hk, h1, h2, h3⟩ := C82_saved_is_best_iterate_partial o (scriptKernel (Trace.gradWrapper (Trace.scriptLoss rng.split z
    logMah l)) nanCase) p0 n hn L fun k hk => by
      have hfl : (flat k).length = 88 := by
        have := hu k hk
        unfold makeUParams at this
        split_ifs at this with h
        rw [fields_length] at h
        exact h
      obtain ⟨g, hw, hgl⟩ := scriptLoss_finite hr logMah l hd (flat k) hfl (u k) (hu k hk) (L k) (hL k hk)
      have hker : scriptKernel (Trace.gradWrapper (Trace.scriptLoss rng.split z logMah l)) nanCase ((flat k).map some) =
          (some (L k), g.map some) := by
        unfold scriptKernel
        rw [finiteVals_map, Option.bind_some, hw]
      rw [hit k hk]
      exact ⟨by simp, by rw [hker], by rw [hker]; simp⟩
  exact ⟨k, hk, by rw [h1, hit k hk], h2, h3⟩

/-- C136 meets its hypotheses: the data of C93 and C94. -/
theorem oneHalo_script : ∃ (l : ScriptLoss Unit) (L : ℝ), GoodData l ∧
    scriptValue oneSigmaRng (fun _ _ _ => 12) (fun _ => 1) l = some L := by
  obtain ⟨d, dc, L1, L2, -, h1, h2, r1, r2⟩ := oneHalo_gradient
  have hrow : RowsUsed dc := fun k => ⟨0, 0, Subsingleton.elim _ _⟩
  refine ⟨.mstarSsfrCenSat d dc dc, L2 + L1 + L2, ⟨r1.1, r2.1, r2.1, hrow, hrow⟩, ?_⟩
  show PopLoss.lossCombined3 _ _ _ d dc dc = _
  unfold PopLoss.lossCombined3
  rw [h1, h2]
  rfl

example : ∃ (l : ScriptLoss Unit) (L : ℝ) (flat : List ℝ), GoodData l ∧ flat.length = 88 ∧
    ReturnsFinite (Trace.gradWrapper (Trace.scriptLoss oneSigmaRng.split (fun _ _ => 1) (fun _ _ _ => 12) l)) flat L := by
  obtain ⟨l, L, hd, hL⟩ := oneHalo_script
  exact ⟨l, L, PF.fields.map fun _ => 1, hd, by rw [List.length_map, fields_length], scriptLoss_finite oneSigmaRng_reparametrised _ l
    hd _ (by rw [List.length_map, fields_length]) _ ones_makeUParams L hL⟩

example : ∃ (d : MstarData Unit 1 1 1) (dc : SsfrData Unit 1 1 1 1 1 1 1) (L1 L2 : ℝ) (flat : List ℝ),
    ReturnsGradient (Trace.gradWrapper (Trace.lossMstar oneSigmaRng.split (fun _ _ => 1) (fun _ _ _ => 12) d)) flat L1 ∧
    ReturnsGradient (Trace.gradWrapper (Trace.lossMstarSsfr oneSigmaRng.split (fun _ _ => 1) (fun _ _ _ => 12) dc)) flat L2 := by
  obtain ⟨d, dc, L1, L2, -, h1, h2, r1, r2⟩ := oneHalo_gradient
  have hl : (PF.fields.map fun _ => (1 : ℝ)).length = 88 := by rw [List.length_map, fields_length]
  exact ⟨d, dc, L1, L2, PF.fields.map fun _ => 1,
    (C136_mstar_partial oneSigmaRng_reparametrised _ d r1.1 _ hl _ ones_makeUParams L1 h1).2 r1,
    (C136_ssfr_partial oneSigmaRng_reparametrised _ dc r2.1 (fun k => ⟨0, 0, Subsingleton.elim _ _⟩) _ hl _ ones_makeUParams L2
      h2).2 r2⟩

/-- An optimiser which stays where it is. -/
noncomputable def restOptimizer : PopFit.Optimizer {v : PopFit.Vec // v.length = 88} :=
  ⟨fun v => if h : v.length = 88 then ⟨v, h⟩ else ⟨List.replicate 88 none, by simp⟩, fun _ _ s => s, Subtype.val⟩

example : ∃ (l : ScriptLoss Unit) (L0 : ℝ) (flat : List ℝ) (u : PF → ℝ), GoodData l ∧ (∀ s, (restOptimizer.params s).length = 88) ∧
    restOptimizer.params (restOptimizer.init (flat.map some)) = flat.map some ∧ makeUParams flat = some u ∧
    scriptValue oneSigmaRng (fun _ _ _ => 12) u l = some L0 := by
  obtain ⟨l, L, hd, hL⟩ := oneHalo_script
  refine ⟨l, L, PF.fields.map fun _ => 1, _, hd, fun s => s.2, ?_, ones_makeUParams, hL⟩
  unfold restOptimizer
  simp only
  rw [dif_pos (by rw [List.length_map, List.length_map, fields_length])]

end Diffstar.Props
