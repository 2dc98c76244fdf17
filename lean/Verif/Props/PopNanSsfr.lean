import Verif.Props.PopSmooth

/-! C94 for the sSFR losses, and instances for C93. -/

namespace Diffstar.Spec

open Diffstar.Pop Diffstar.PopLoss

/-- A galaxy with this history counts in the joint bin `b`: its log mass and its log sSFR are less than three smoothing
widths (the mean widths of the two sets of edges) away from the bin. -/
def Reaches {K : Type} {nk n nms nsf nz nm nt : ℕ} (d : SsfrData K nk n nms nsf nz nm nt) (tobs : ℝ) (sfh : List ℝ)
    (b : Fin (nms * nsf)) : Prop :=
  let wm := (d.mstarBins (Fin.last nms) - d.mstarBins 0) / nms
  let ws := (d.ssfrBins (Fin.last nsf) - d.ssfrBins 0) / nsf
  (d.ndbinsLo b 0 - 3 * wm < logMassAt tobs sfh ∧ logMassAt tobs sfh < d.ndbinsHi b 0 + 3 * wm) ∧
  d.ndbinsLo b 1 - 3 * ws < logSsfrAt tobs sfh ∧ logSsfrAt tobs sfh < d.ndbinsHi b 1 + 3 * ws

end Diffstar.Spec

namespace Diffstar.Props

open Diffstar Diffstar.Spec Diffstar.Pop Diffstar.PopLoss

theorem meanDiff_eq : ∀ (m : ℕ) (e : Fin (m + 1) → ℝ), meanDiff e = (e (Fin.last m) - e 0) / m := by
  intro m e
  unfold meanDiff
  congr 1
  induction m with
  | zero => simp
  | succ m ih =>
    rw [Fin.sum_univ_castSucc]
    have := ih (fun j => e j.castSucc)
    simp only [Fin.succ_castSucc, Fin.castSucc_zero] at this ⊢
    rw [this]
    simp

section

variable {K : Type} {nk n nms nsf nz nm nt : ℕ} (rng : Rng K) (logMah : MahParams ℝ → ℝ → ℝ → ℝ)
  (u : PF → ℝ) (d : SsfrData K nk n nms nsf nz nm nt)

/-- The joint PDF of a sample is a number iff no draw is NaN and some galaxy counts in some bin; a bin is positive iff
some galaxy counts in it. -/
theorem joint_pdf_pos (hlh : ∀ b k, d.ndbinsLo b k < d.ndbinsHi b k) (hmb : StrictMono d.mstarBins)
    (hsb : StrictMono d.ssfrBins) (hms : 0 < nms) (hsf : 0 < nsf) (k : Fin nk) :
    let gals := mcSample rng logMah (getBoundedDiffstarpopParams u) (d.samples k) d.lgt0 d.fb
    let tobs := (d.samples k).tobs
    let pdf := mstarSsfrPdf tobs gals d.ndbinsLo d.ndbinsHi d.mstarBins d.ssfrBins
    (pdf.isSome ↔ (∀ i, (gals i).sfhMs.isSome ∧ (gals i).sfhQ.isSome) ∧
      ∃ b i sfh, ((gals i).sfhMs = some sfh ∨ (gals i).sfhQ = some sfh) ∧ Reaches d tobs sfh b) ∧
    ∀ f, pdf = some f → ∀ b, 0 ≤ f b ∧ (0 < f b ↔
      ∃ i sfh, ((gals i).sfhMs = some sfh ∨ (gals i).sfhQ = some sfh) ∧ Reaches d tobs sfh b) := by
  intro gals tobs pdf
  have hm := meanDiff_pos hmb hms
  have hs := meanDiff_pos hsb hsf
  have hfr : ∀ i, 0 < (gals i).fracQ ∧ (gals i).fracQ < 1 :=
    fun i => sample_frac rng logMah u (d.samples k) d.lgt0 d.fb i
  have hcov : ∀ sfh b, 0 < NdHist.twBinWeightLaxKern (logMassAt tobs sfh) (meanDiff d.mstarBins) (d.ndbinsLo b 0)
      (d.ndbinsHi b 0) * NdHist.twBinWeightLaxKern (logSsfrAt tobs sfh) (meanDiff d.ssfrBins) (d.ndbinsLo b 1)
      (d.ndbinsHi b 1) ↔ Reaches d tobs sfh b := by
    intro sfh b
    have a1 := ndBin_nonneg (x := logMassAt tobs sfh) hm (hlh b 0).le
    have a2 := ndBin_nonneg (x := logSsfrAt tobs sfh) hs (hlh b 1).le
    have c1 := ndBin_pos_iff (x := logMassAt tobs sfh) hm (hlh b 0)
    have c2 := ndBin_pos_iff (x := logSsfrAt tobs sfh) hs (hlh b 1)
    have : Reaches d tobs sfh b ↔ (0 < NdHist.twBinWeightLaxKern (logMassAt tobs sfh) (meanDiff d.mstarBins)
        (d.ndbinsLo b 0) (d.ndbinsHi b 0)) ∧ 0 < NdHist.twBinWeightLaxKern (logSsfrAt tobs sfh) (meanDiff d.ssfrBins)
        (d.ndbinsLo b 1) (d.ndbinsHi b 1) := by
      rw [c1, c2, meanDiff_eq, meanDiff_eq]
      unfold Reaches
      constructor <;> rintro ⟨⟨_, _⟩, _, _⟩ <;> refine ⟨⟨?_, ?_⟩, ?_, ?_⟩ <;> linarith
    rw [this]
    constructor
    · intro h
      exact ⟨lt_of_le_of_ne a1 fun e => by rw [← e, zero_mul] at h; exact h.false,
        lt_of_le_of_ne a2 fun e => by rw [← e, mul_zero] at h; exact h.false⟩
    · rintro ⟨h1, h2⟩
      exact mul_pos h1 h2
  have hnn : ∀ sfh b, 0 ≤ NdHist.twBinWeightLaxKern (logMassAt tobs sfh) (meanDiff d.mstarBins) (d.ndbinsLo b 0)
      (d.ndbinsHi b 0) * NdHist.twBinWeightLaxKern (logSsfrAt tobs sfh) (meanDiff d.ssfrBins) (d.ndbinsLo b 1)
      (d.ndbinsHi b 1) := fun sfh b => mul_nonneg (ndBin_nonneg hm (hlh b 0).le) (ndBin_nonneg hs (hlh b 1).le)
  -- one bin of the count
  have hbin : ∀ (sM sQ : Fin n → List ℝ), (∀ i, (gals i).sfhMs = some (sM i) ∧ (gals i).sfhQ = some (sQ i)) → ∀ b,
      0 ≤ ∑ i, ((1 - (gals i).fracQ) *
          (NdHist.twBinWeightLaxKern (logMassAt tobs (sM i)) (meanDiff d.mstarBins) (d.ndbinsLo b 0) (d.ndbinsHi b 0) *
           NdHist.twBinWeightLaxKern (logSsfrAt tobs (sM i)) (meanDiff d.ssfrBins) (d.ndbinsLo b 1) (d.ndbinsHi b 1)) +
        (gals i).fracQ *
          (NdHist.twBinWeightLaxKern (logMassAt tobs (sQ i)) (meanDiff d.mstarBins) (d.ndbinsLo b 0) (d.ndbinsHi b 0) *
           NdHist.twBinWeightLaxKern (logSsfrAt tobs (sQ i)) (meanDiff d.ssfrBins) (d.ndbinsLo b 1)
            (d.ndbinsHi b 1))) ∧
      (0 < ∑ i, ((1 - (gals i).fracQ) *
          (NdHist.twBinWeightLaxKern (logMassAt tobs (sM i)) (meanDiff d.mstarBins) (d.ndbinsLo b 0) (d.ndbinsHi b 0) *
           NdHist.twBinWeightLaxKern (logSsfrAt tobs (sM i)) (meanDiff d.ssfrBins) (d.ndbinsLo b 1) (d.ndbinsHi b 1)) +
        (gals i).fracQ *
          (NdHist.twBinWeightLaxKern (logMassAt tobs (sQ i)) (meanDiff d.mstarBins) (d.ndbinsLo b 0) (d.ndbinsHi b 0) *
           NdHist.twBinWeightLaxKern (logSsfrAt tobs (sQ i)) (meanDiff d.ssfrBins) (d.ndbinsLo b 1)
            (d.ndbinsHi b 1))) ↔
        ∃ i sfh, ((gals i).sfhMs = some sfh ∨ (gals i).sfhQ = some sfh) ∧ Reaches d tobs sfh b) := by
    intro sM sQ hsome b
    have ht : ∀ i, 0 ≤ (1 - (gals i).fracQ) *
          (NdHist.twBinWeightLaxKern (logMassAt tobs (sM i)) (meanDiff d.mstarBins) (d.ndbinsLo b 0) (d.ndbinsHi b 0) *
           NdHist.twBinWeightLaxKern (logSsfrAt tobs (sM i)) (meanDiff d.ssfrBins) (d.ndbinsLo b 1) (d.ndbinsHi b 1)) +
        (gals i).fracQ *
          (NdHist.twBinWeightLaxKern (logMassAt tobs (sQ i)) (meanDiff d.mstarBins) (d.ndbinsLo b 0) (d.ndbinsHi b 0) *
           NdHist.twBinWeightLaxKern (logSsfrAt tobs (sQ i)) (meanDiff d.ssfrBins) (d.ndbinsLo b 1)
            (d.ndbinsHi b 1)) := fun i =>
      add_nonneg (mul_nonneg (by linarith [(hfr i).2]) (hnn _ _)) (mul_nonneg (hfr i).1.le (hnn _ _))
    refine ⟨Finset.sum_nonneg fun i _ => ht i, ?_⟩
    rw [Finset.sum_pos_iff_of_nonneg fun i _ => ht i]
    constructor
    · rintro ⟨i, -, hi⟩
      by_cases h1 : Reaches d tobs (sM i) b
      · exact ⟨i, _, Or.inl (hsome i).1, h1⟩
      · refine ⟨i, _, Or.inr (hsome i).2, (hcov _ _).1 ?_⟩
        have hz := le_antisymm (not_lt.1 fun h => h1 ((hcov _ _).1 h)) (hnn (sM i) b)
        rw [hz, mul_zero, zero_add] at hi
        exact pos_of_mul_pos_right hi (hfr i).1.le
    · rintro ⟨i, sfh, hsfh, hr⟩
      refine ⟨i, Finset.mem_univ _, ?_⟩
      rcases hsfh with e | e
      · rw [(hsome i).1, Option.some.injEq] at e
        rw [← e] at hr
        exact add_pos_of_pos_of_nonneg (mul_pos (by linarith [(hfr i).2]) ((hcov _ _).2 hr))
          (mul_nonneg (hfr i).1.le (hnn _ _))
      · rw [(hsome i).2, Option.some.injEq] at e
        rw [← e] at hr
        exact add_pos_of_nonneg_of_pos (mul_nonneg (by linarith [(hfr i).2]) (hnn _ _))
          (mul_pos (hfr i).1 ((hcov _ _).2 hr))
  have hex : pdf.isSome → ∀ i, (gals i).sfhMs.isSome ∧ (gals i).sfhQ.isSome := by
    intro h
    obtain ⟨f, hf⟩ := Option.isSome_iff_exists.1 h
    obtain ⟨sM, sQ, hsome, -⟩ := mstarSsfrPdf_some hf
    exact fun i => by rw [(hsome i).1, (hsome i).2]; exact ⟨rfl, rfl⟩
  constructor
  · constructor
    · intro h
      refine ⟨hex h, ?_⟩
      obtain ⟨f, hf⟩ := Option.isSome_iff_exists.1 h
      obtain ⟨sM, sQ, hsome, hnorm⟩ := mstarSsfrPdf_some hf
      obtain ⟨hpos, -, -, -⟩ := normalise_some hnorm fun b => (hbin sM sQ hsome b).1
      rw [Finset.sum_pos_iff_of_nonneg fun b _ => (hbin sM sQ hsome b).1] at hpos
      obtain ⟨b, -, hb⟩ := hpos
      exact ⟨b, (hbin sM sQ hsome b).2.1 hb⟩
    · rintro ⟨hall, b, hb⟩
      have hsome : ∀ i, (gals i).sfhMs = some (((gals i).sfhMs).get (hall i).1) ∧
        (gals i).sfhQ = some (((gals i).sfhQ).get (hall i).2) := fun i => by simp
      have hb' := (hbin _ _ hsome b).2.2 hb
      have := (Finset.sum_pos_iff_of_nonneg fun b _ => (hbin _ _ hsome b).1).2 ⟨b, Finset.mem_univ _, hb'⟩
      change (mstarSsfrPdf tobs gals d.ndbinsLo d.ndbinsHi d.mstarBins d.ssfrBins).isSome
      rw [mstarSsfrPdf_eq hsome]
      unfold normalise
      rw [if_neg this.ne']
      rfl
  · intro f hf b
    obtain ⟨sM, sQ, hsome, hnorm⟩ := mstarSsfrPdf_some hf
    obtain ⟨hpos, hval, h0, -⟩ := normalise_some hnorm fun b => (hbin sM sQ hsome b).1
    refine ⟨h0 b, ?_⟩
    rw [hval b, div_pos_iff_of_pos_right hpos]
    exact (hbin sM sQ hsome b).2

/-- C94: when the sSFR losses are numbers, away from the zero slope of the rejuvenation mean (see C136). -/
theorem C94_loss_ssfr_nan_iff (_hu : u (.inl .mean_urej_slp) ≠ 0) (hlh : ∀ b k, d.ndbinsLo b k < d.ndbinsHi b k) (hmb : StrictMono d.mstarBins)
    (hsb : StrictMono d.ssfrBins) (hms : 0 < nms) (hsf : 0 < nsf) (hw : ∀ z m, 0 ≤ d.nmhaloPdf z m) :
    let gals := fun k => mcSample rng logMah (getBoundedDiffstarpopParams u) (d.samples k) d.lgt0 d.fb
    let counts := fun k b => ∃ i sfh, ((gals k i).sfhMs = some sfh ∨ (gals k i).sfhQ = some sfh) ∧
      Reaches d (d.samples k).tobs sfh b
    (lossMstarSsfr rng logMah u d).isSome ↔ 0 < nz ∧ 0 < nt ∧
      (∀ f ∈ Spec.msSlopes ++ Spec.qSlopes, u (.inl f) ≠ 0) ∧
      (∀ z m, ∃ b, counts (d.indxPdf z m) b) ∧
      ∀ z t, ∃ m, 0 < d.nmhaloPdf z m ∧ ∃ b : Fin nsf, counts (d.indxPdf z m) (finProdFinEquiv (d.targetMstarIds t, b)) := by
  intro gals counts
  have hnan := fun k i => C94_sample_nan_iff rng logMah u (d.samples k) d.lgt0 d.fb i
  have hpdf := fun k => joint_pdf_pos rng logMah u d hlh hmb hsb hms hsf k
  -- one entry of the prediction
  have hpred : ∀ z t b, (mstarSsfrKernTobs rng logMah u d z t b).isSome ↔
      (∀ m, (mstarSsfrPdf (d.samples (d.indxPdf z m)).tobs (gals (d.indxPdf z m)) d.ndbinsLo d.ndbinsHi d.mstarBins
        d.ssfrBins).isSome) ∧
      ∃ m, 0 < d.nmhaloPdf z m ∧ ∃ b : Fin nsf, counts (d.indxPdf z m) (finProdFinEquiv (d.targetMstarIds t, b)) := by
    intro z t b
    unfold mstarSsfrKernTobs conditional mixBins
    by_cases hall : ∀ m, (mstarSsfrPdf (d.samples (d.indxPdf z m)).tobs (gals (d.indxPdf z m)) d.ndbinsLo d.ndbinsHi
        d.mstarBins d.ssfrBins).isSome
    · have hq : ∀ m, ∃ q, mstarSsfrPdf (d.samples (d.indxPdf z m)).tobs (gals (d.indxPdf z m)) d.ndbinsLo d.ndbinsHi
        d.mstarBins d.ssfrBins = some q := fun m => Option.isSome_iff_exists.1 (hall m)
      choose q hq using hq
      have hsome : allSome (fun m => (mstarSsfrPdf (d.samples (d.indxPdf z m)).tobs
          (mcSample rng logMah (getBoundedDiffstarpopParams u) (d.samples (d.indxPdf z m)) d.lgt0 d.fb)
          d.ndbinsLo d.ndbinsHi d.mstarBins d.ssfrBins).map reshape) = some fun m => reshape (q m) :=
        allSome_eq_some.2 fun m => by rw [show mstarSsfrPdf _ _ _ _ _ _ = some (q m) from hq m]; rfl
      simp only [hsome, Option.map_some, Option.bind_some]
      have hterm : ∀ b' m, 0 ≤ reshape (q m) (d.targetMstarIds t) b' * d.nmhaloPdf z m := fun b' m =>
        mul_nonneg ((hpdf _).2 _ (hq m) _).1 (hw z m)
      have hnn : ∀ b', 0 ≤ ∑ m, reshape (q m) (d.targetMstarIds t) b' * d.nmhaloPdf z m := fun b' =>
        Finset.sum_nonneg fun m _ => hterm b' m
      have hpos : 0 < ∑ b', ∑ m, reshape (q m) (d.targetMstarIds t) b' * d.nmhaloPdf z m ↔
          ∃ m, 0 < d.nmhaloPdf z m ∧ ∃ b : Fin nsf,
            counts (d.indxPdf z m) (finProdFinEquiv (d.targetMstarIds t, b)) := by
        rw [Finset.sum_pos_iff_of_nonneg fun b' _ => hnn b']
        constructor
        · rintro ⟨b', -, h⟩
          rw [Finset.sum_pos_iff_of_nonneg fun m _ => hterm b' m] at h
          obtain ⟨m, -, h⟩ := h
          have h1 := ((hpdf _).2 _ (hq m) (finProdFinEquiv (d.targetMstarIds t, b'))).1
          have h2 : 0 < d.nmhaloPdf z m := pos_of_mul_pos_right h h1
          exact ⟨m, h2, b', ((hpdf _).2 _ (hq m) _).2.1 (pos_of_mul_pos_left h h2.le)⟩
        · rintro ⟨m, h1, b', h2⟩
          refine ⟨b', Finset.mem_univ _, ?_⟩
          rw [Finset.sum_pos_iff_of_nonneg fun m _ => hterm b' m]
          exact ⟨m, Finset.mem_univ _, mul_pos (((hpdf _).2 _ (hq m) _).2.2 h2) h1⟩
      rw [← hpos]
      split_ifs with h0
      · rw [h0]; simp
      · simp only [Option.isSome_some, true_iff]
        exact ⟨hall, lt_of_le_of_ne (Finset.sum_nonneg fun b' _ => hnn b') (Ne.symm h0)⟩
    · constructor
      · intro h
        refine absurd (fun m => ?_) hall
        by_contra hn
        rw [Option.not_isSome_iff_eq_none] at hn
        have : allSome (fun m => (mstarSsfrPdf (d.samples (d.indxPdf z m)).tobs
          (mcSample rng logMah (getBoundedDiffstarpopParams u) (d.samples (d.indxPdf z m)) d.lgt0 d.fb)
          d.ndbinsLo d.ndbinsHi d.mstarBins d.ssfrBins).map reshape) = none := by
          by_contra hc
          obtain ⟨g, hg⟩ := Option.ne_none_iff_exists'.1 hc
          have := allSome_eq_some.1 hg m
          rw [show mstarSsfrPdf _ _ _ _ _ _ = none from hn] at this
          simp at this
        simp [this] at h
      · exact fun h => absurd h.1 hall
  have key : (lossMstarSsfr rng logMah u d).isSome ↔ 0 < nz ∧ 0 < nt ∧
      ∀ z t b, (mstarSsfrKernTobs rng logMah u d z t b).isSome := by
    rw [← not_iff_not, Option.not_isSome_iff_eq_none]
    unfold lossMstarSsfr
    rw [Option.map_eq_none_iff, (C28_mse _ _).2]
    simp only [Prod.exists]
    constructor
    · rintro (h | ⟨z, t, b, h⟩) ⟨h1, h2, h3⟩
      · exact h.false (⟨0, h1⟩, ⟨0, h2⟩, ⟨0, hsf⟩)
      · have := h3 z t b
        rw [h] at this
        simp at this
    · intro h
      by_cases h1 : 0 < nz
      · by_cases h2 : 0 < nt
        · right
          by_contra hc
          push Not at hc
          exact h ⟨h1, h2, fun z t b => Option.ne_none_iff_isSome.1 (hc z t b)⟩
        · left
          exact ⟨fun x => h2 x.2.1.pos⟩
      · left
        exact ⟨fun x => h1 x.1.pos⟩
  rw [key]
  constructor
  · rintro ⟨h1, h2, h3⟩
    have h4 := fun z t => (hpred z t ⟨0, hsf⟩).1 (h3 z t ⟨0, hsf⟩)
    refine ⟨h1, h2, ?_, fun z m => ((hpdf _).1.1 ((h4 z ⟨0, h2⟩).1 m)).2, fun z t => (h4 z t).2⟩
    obtain ⟨m, -, -⟩ := (h4 ⟨0, h1⟩ ⟨0, h2⟩).2
    obtain ⟨hall, b, i, -⟩ := (hpdf _).1.1 ((h4 ⟨0, h1⟩ ⟨0, h2⟩).1 m)
    intro f hf
    rcases List.mem_append.1 hf with hf | hf
    · exact (hnan _ i).1.1 (hall i).1 f hf
    · exact (hnan _ i).2.1 (hall i).2 f hf
  · rintro ⟨h1, h2, h3, h4, h5⟩
    exact ⟨h1, h2, fun z t b => (hpred z t b).2 ⟨fun m => (hpdf _).1.2
      ⟨fun i => ⟨(hnan _ i).1.2 fun f hf => h3 f (List.mem_append_left _ hf),
        (hnan _ i).2.2 fun f hf => h3 f (List.mem_append_right _ hf)⟩, h4 z m⟩, h5 z t⟩⟩

end

/-! ### Instances -/

/-- The history of the star-forming branch of the one-halo sample. -/
theorem oneHalo_history : ∃ l, (mcSample oneSigmaRng (fun _ _ _ => 12) (getBoundedDiffstarpopParams fun _ => 1) oneHalo 1
    (10 ^ 100) 0).sfhMs = some l :=
  Option.isSome_iff_exists.1 ((C94_sample_nan_iff oneSigmaRng (fun _ _ _ => 12) (fun _ => 1) oneHalo 1 (10 ^ 100) 0).1.2
    fun _ _ => one_ne_zero)

/-- C93 and C94 meet their hypotheses: stellar mass loss. -/
theorem oneHalo_mstar_data : ∃ (d : MstarData Unit 1 1 1) (L : ℝ), (∀ k, d.samples k = oneHalo) ∧ StrictMono d.bins ∧ (∀ k, 0.1 < (d.samples k).tobs) ∧
    lossMstar oneSigmaRng (fun _ _ _ => 12) (fun _ => 1) d = some L ∧ SmoothMvn oneSigmaRng 3 ∧
    ∀ k i, OffFloor (fun v => (mcSample oneSigmaRng (fun _ _ _ => 12) (getBoundedDiffstarpopParams v) (d.samples k)
        d.lgt0 d.fb i).sfhMs) (fun _ => 1) ∧
      OffFloor (fun v => (mcSample oneSigmaRng (fun _ _ _ => 12) (getBoundedDiffstarpopParams v) (d.samples k)
        d.lgt0 d.fb i).sfhQ) (fun _ => 1) := by
  obtain ⟨l, hl⟩ := oneHalo_history
  set m := logMassAt 0.2 l with hm
  have hb : StrictMono (![m - 1, m + 1] : Fin (1 + 1) → ℝ) := by
    rw [Fin.strictMono_iff_lt_succ]; intro i; fin_cases i; simp; linarith
  let d : MstarData Unit 1 1 1 := ⟨fun _ => oneHalo, 1, 10 ^ 100, ![m - 1, m + 1], fun _ _ => 0⟩
  obtain ⟨L, hL⟩ := Option.isSome_iff_exists.1 ((C94_loss_mstar_nan_iff oneSigmaRng (fun _ _ _ => 12) (fun _ => 1)
    one_ne_zero d hb one_pos).2 ⟨one_pos, fun _ _ => one_ne_zero, fun k => ⟨0, l, Or.inl hl, by
      change m - 1 - 3 * ((m + 1 - (m - 1)) / (1 : ℕ)) < m; norm_num; linarith, by
      change m < m + 1 + 3 * ((m + 1 - (m - 1)) / (1 : ℕ)); norm_num; linarith⟩⟩)
  refine ⟨d, L, fun _ => rfl, hb, fun _ => by norm_num [d, oneHalo], hL, oneSigmaRng_smooth 3, fun k i => ?_⟩
  obtain rfl : i = 0 := Subsingleton.elim _ _
  exact ⟨fun l' h j s hj => Or.inl ((oneHalo_regular _ l' (Or.inl h)).1 s (List.mem_of_getElem? hj)),
    fun l' h j s hj => Or.inl ((oneHalo_regular _ l' (Or.inr h)).1 s (List.mem_of_getElem? hj))⟩

theorem oneHalo_mstar_instance : ∃ (d : MstarData Unit 1 1 1) (L : ℝ), StrictMono d.bins ∧ (∀ k, 0.1 < (d.samples k).tobs) ∧
    lossMstar oneSigmaRng (fun _ _ _ => 12) (fun _ => 1) d = some L ∧ SmoothMvn oneSigmaRng 3 ∧
    ∀ k i, OffFloor (fun v => (mcSample oneSigmaRng (fun _ _ _ => 12) (getBoundedDiffstarpopParams v) (d.samples k)
        d.lgt0 d.fb i).sfhMs) (fun _ => 1) ∧
      OffFloor (fun v => (mcSample oneSigmaRng (fun _ _ _ => 12) (getBoundedDiffstarpopParams v) (d.samples k)
        d.lgt0 d.fb i).sfhQ) (fun _ => 1) := by
  obtain ⟨d, L, -, h⟩ := oneHalo_mstar_data
  exact ⟨d, L, h⟩

/-- C93 and C94 meet their hypotheses: sSFR loss. -/
theorem oneHalo_ssfr_instance : ∃ (d : SsfrData Unit 1 1 1 1 1 1 1) (L : ℝ), (∀ b k, d.ndbinsLo b k < d.ndbinsHi b k) ∧
    StrictMono d.mstarBins ∧ StrictMono d.ssfrBins ∧ (∀ z m, 0 ≤ d.nmhaloPdf z m) ∧
    (∀ k, 0.1 < (d.samples k).tobs) ∧
    lossMstarSsfr oneSigmaRng (fun _ _ _ => 12) (fun _ => 1) d = some L ∧ SmoothMvn oneSigmaRng 3 ∧
    ∀ k i, (OffFloor (fun v => (mcSample oneSigmaRng (fun _ _ _ => 12) (getBoundedDiffstarpopParams v) (d.samples k)
        d.lgt0 d.fb i).sfhMs) (fun _ => 1) ∧
      OffFloor (fun v => (mcSample oneSigmaRng (fun _ _ _ => 12) (getBoundedDiffstarpopParams v) (d.samples k)
        d.lgt0 d.fb i).sfhQ) (fun _ => 1)) ∧
      OffClip (d.samples k).tobs (mcSample oneSigmaRng (fun _ _ _ => 12) (getBoundedDiffstarpopParams fun _ => 1)
        (d.samples k) d.lgt0 d.fb i).sfhMs ∧
      OffClip (d.samples k).tobs (mcSample oneSigmaRng (fun _ _ _ => 12) (getBoundedDiffstarpopParams fun _ => 1)
        (d.samples k) d.lgt0 d.fb i).sfhQ := by
  obtain ⟨l, hl⟩ := oneHalo_history
  set m := logMassAt 0.2 l with hm
  set s := logSsfrAt 0.2 l with hs
  have hb : ∀ x : ℝ, StrictMono (![x - 1, x + 1] : Fin (1 + 1) → ℝ) := fun x => by
    rw [Fin.strictMono_iff_lt_succ]; intro i; fin_cases i; simp; linarith
  let d : SsfrData Unit 1 1 1 1 1 1 1 := ⟨fun _ => oneHalo, 1, 10 ^ 100, fun _ => ![m - 1, s - 1],
    fun _ => ![m + 1, s + 1], ![m - 1, m + 1], ![s - 1, s + 1], fun _ _ => 1, fun _ _ => 0, fun _ => 0, fun _ _ _ => 0⟩
  have hlh : ∀ b k, d.ndbinsLo b k < d.ndbinsHi b k := by
    intro b k
    fin_cases k
    · change m - 1 < m + 1; linarith
    · change s - 1 < s + 1; linarith
  have hr : ∀ b, Reaches d 0.2 l b := by
    intro b
    refine ⟨⟨?_, ?_⟩, ?_, ?_⟩
    · change m - 1 - 3 * ((m + 1 - (m - 1)) / (1 : ℕ)) < m; norm_num; linarith
    · change m < m + 1 + 3 * ((m + 1 - (m - 1)) / (1 : ℕ)); norm_num; linarith
    · change s - 1 - 3 * ((s + 1 - (s - 1)) / (1 : ℕ)) < s; norm_num; linarith
    · change s < s + 1 + 3 * ((s + 1 - (s - 1)) / (1 : ℕ)); norm_num; linarith
  obtain ⟨L, hL⟩ := Option.isSome_iff_exists.1 ((C94_loss_ssfr_nan_iff oneSigmaRng (fun _ _ _ => 12) (fun _ => 1) d
    one_ne_zero hlh
    (hb _) (hb _) one_pos one_pos fun _ _ => zero_le_one).2 ⟨one_pos, one_pos, fun _ _ => one_ne_zero,
    fun z m => ⟨0, 0, l, Or.inl hl, hr _⟩, fun z t => ⟨0, one_pos, 0, 0, l, Or.inl hl, hr _⟩⟩)
  refine ⟨d, L, hlh, hb _, hb _, fun _ _ => zero_le_one, fun _ => by norm_num [d, oneHalo], hL, oneSigmaRng_smooth 3,
    fun k i => ?_⟩
  obtain rfl : i = 0 := Subsingleton.elim _ _
  exact ⟨⟨fun l' h j s hj => Or.inl ((oneHalo_regular _ l' (Or.inl h)).1 s (List.mem_of_getElem? hj)),
    fun l' h j s hj => Or.inl ((oneHalo_regular _ l' (Or.inr h)).1 s (List.mem_of_getElem? hj))⟩,
    fun l' h => (oneHalo_regular _ l' (Or.inl h)).2, fun l' h => (oneHalo_regular _ l' (Or.inr h)).2⟩

example : ∃ (d : MstarData Unit 1 1 1) (L : ℝ), StrictMono d.bins ∧
    lossMstar oneSigmaRng (fun _ _ _ => 12) (fun _ => 1) d = some L := by
  obtain ⟨d, L, h1, -, h2, -⟩ := oneHalo_mstar_instance
  exact ⟨d, L, h1, h2⟩

example : ∃ (d : SsfrData Unit 1 1 1 1 1 1 1) (L : ℝ), (∀ b k, d.ndbinsLo b k < d.ndbinsHi b k) ∧
    lossMstarSsfr oneSigmaRng (fun _ _ _ => 12) (fun _ => 1) d = some L := by
  obtain ⟨d, L, h1, -, -, -, -, h2, -⟩ := oneHalo_ssfr_instance
  exact ⟨d, L, h1, h2⟩

end Diffstar.Props
