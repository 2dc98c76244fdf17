import Verif.Model.PopLoss
import Verif.Lemmas.NdHist
import Verif.Props.Pop
import Verif.Props.Smh
import Mathlib.Data.Fintype.BigOperators

/-!
Properties C27, C28 (predicted PDFs and losses of the population fits) and the NaN side of C63.
-/

namespace Diffstar.Props

open Diffstar.Pop Diffstar.PopLoss

theorem allSome_eq_some {ι α : Type*} {f : ι → Option α} {g : ι → α} :
    allSome f = some g ↔ ∀ i, f i = some (g i) := by
  unfold allSome
  constructor
  · intro h i
    split_ifs at h with hs
    rw [Option.some.injEq] at h
    rw [← h]; simp
  · intro h
    have hs : ∀ i, (f i).isSome := fun i => by rw [h i]; rfl
    rw [dif_pos hs, Option.some.injEq]
    funext i
    simp [h i]

theorem allSome_isSome {ι α : Type*} {f : ι → Option α} : (allSome f).isSome ↔ ∀ i, (f i).isSome := by
  unfold allSome
  split_ifs with h <;> simp [h]

/-! ### C27 -/

/-- C27: galaxy `i` enters twice, in the main-sequence half with weight `1 - frac_q` and in the quenched half with
weight `frac_q`; the weights of `n` halos sum to `n`. -/
theorem C27_weights_sum {n : ℕ} (f : Fin n → ℝ) :
    (∀ i, branchWeights f (Fin.castAdd n i) = 1 - f i ∧ branchWeights f (Fin.natAdd n i) = f i) ∧
    ∑ j, branchWeights f j = n := by
  unfold branchWeights
  constructor
  · intro i
    rw [Fin.append_left, Fin.append_right, one_mul, one_mul]
    exact ⟨rfl, rfl⟩
  · rw [Fin.sum_univ_add]
    simp only [Fin.append_left, Fin.append_right]
    rw [← Finset.sum_add_distrib]
    simp

theorem normalise_some {B : Type*} [Fintype B] {w f : B → ℝ} (h : normalise w = some f) (hw : ∀ b, 0 ≤ w b) :
    0 < ∑ b, w b ∧ (∀ b, f b = w b / ∑ b, w b) ∧ (∀ b, 0 ≤ f b) ∧ ∑ b, f b = 1 := by
  unfold normalise at h
  split_ifs at h with h0
  have hpos : 0 < ∑ b, w b := lt_of_le_of_ne (Finset.sum_nonneg fun b _ => hw b) (Ne.symm h0)
  rw [Option.some.injEq] at h
  subst h
  refine ⟨hpos, fun b => rfl, fun b => div_nonneg (hw b) hpos.le, ?_⟩
  rw [← Finset.sum_div, div_self h0]

theorem meanDiff_pos {nb : ℕ} {bins : Fin (nb + 1) → ℝ} (hb : StrictMono bins) (hn : 0 < nb) : 0 < meanDiff bins := by
  unfold meanDiff
  have : Nonempty (Fin nb) := ⟨⟨0, hn⟩⟩
  refine div_pos (Finset.sum_pos (fun j _ => ?_) Finset.univ_nonempty) (by exact_mod_cast hn)
  linarith [hb (Fin.castSucc_lt_succ (i := j))]

/-- The galaxies of a sample have quenched fractions strictly between 0 and 1. -/
theorem sample_frac {K : Type} {n : ℕ} (rng : Rng K) (logMah : MahParams ℝ → ℝ → ℝ → ℝ) (u : PF → ℝ)
    (h : HaloSample K n) (lgt0 fb : ℝ) (i : Fin n) :
    0 < (mcSample rng logMah (getBoundedDiffstarpopParams u) h lgt0 fb i).fracQ ∧
    (mcSample rng logMah (getBoundedDiffstarpopParams u) h lgt0 fb i).fracQ < 1 := by
  have := C29_frac_quench_in_unit_interval rng u (h.logmp0 i) (h.mah.tPeak i) (h.upid i) (h.lgmuInfall i)
    (h.logmhostInfall i) (h.gyrSinceInfall i) (rng.split h.ranKey n i)
  exact this

theorem branchWeights_pos {n : ℕ} {f : Fin n → ℝ} (hf : ∀ i, 0 < f i ∧ f i < 1) (j : Fin (n + n)) :
    0 < branchWeights f j := by
  refine Fin.addCases (fun i => ?_) (fun i => ?_) j
  · rw [((C27_weights_sum f).1 i).1]; linarith [(hf i).2]
  · rw [((C27_weights_sum f).1 i).2]; exact (hf i).1

end Diffstar.Props

namespace Diffstar.Spec

/-- Log stellar mass at `tobs` of a galaxy with the given star formation history on the 20 log-spaced times. -/
noncomputable def logMassAt (tobs : ℝ) (sfh : List ℝ) : ℝ :=
  Real.logb 10 ((cumulativeMstarFormed (PopLoss.obsTimes tobs) sfh).getLastD 0)

/-- Log specific star formation rate at `tobs`, floored at -12. -/
noncomputable def logSsfrAt (tobs : ℝ) (sfh : List ℝ) : ℝ :=
  max (Real.logb 10 (sfh.getLastD 0) - logMassAt tobs sfh) (-12)

end Diffstar.Spec

namespace Diffstar.Props

open Diffstar.Pop Diffstar.PopLoss

theorem hist_append {n d : ℕ} {B : Type*} (x x' : Fin n → Fin d → ℝ) (s : Fin d → ℝ) (f : Fin n → ℝ)
    (X : Fin (n + n) → Fin d → ℝ) (hX : X = Fin.append x x') (lo hi : B → Fin d → ℝ) (b : B) :
    NdHist.twNdhistWeighted X (fun _ => s) (branchWeights f) lo hi b =
      ∑ i, ((1 - f i) * ∏ k, NdHist.twBinWeightLaxKern (x i k) (s k) (lo b k) (hi b k) +
        f i * ∏ k, NdHist.twBinWeightLaxKern (x' i k) (s k) (lo b k) (hi b k)) := by
  subst hX
  simp only [NdHist.twNdhistWeighted, NdHist.twNdhistWeightedKern, NdHist.twNdhistWeightedSumKern, branchWeights]
  rw [Fin.sum_univ_add]
  simp only [Fin.append_left, Fin.append_right]
  rw [← Finset.sum_add_distrib]
  refine Finset.sum_congr rfl fun i _ => ?_
  ring

theorem mstarPdf_some {n nb : ℕ} {tobs : ℝ} {gals : Fin n → McSfh} {bins : Fin (nb + 1) → ℝ} {f : Fin nb → ℝ}
    (h : mstarPdf tobs gals bins = some f) :
    ∃ sfhMs sfhQ : Fin n → List ℝ, (∀ i, (gals i).sfhMs = some (sfhMs i) ∧ (gals i).sfhQ = some (sfhQ i)) ∧
      normalise (fun b : Fin nb => ∑ i, ((1 - (gals i).fracQ) *
          NdHist.twBinWeightLaxKern (Spec.logMassAt tobs (sfhMs i)) (meanDiff bins) (bins b.castSucc) (bins b.succ) +
        (gals i).fracQ * NdHist.twBinWeightLaxKern (Spec.logMassAt tobs (sfhQ i)) (meanDiff bins) (bins b.castSucc)
          (bins b.succ))) = some f := by
  unfold mstarPdf at h
  rw [Option.bind_eq_some_iff] at h
  obtain ⟨sfhMs, h1, h⟩ := h
  rw [Option.bind_eq_some_iff] at h
  obtain ⟨sfhQ, h2, h⟩ := h
  rw [allSome_eq_some] at h1 h2
  refine ⟨sfhMs, sfhQ, fun i => ⟨h1 i, h2 i⟩, ?_⟩
  rw [← h]
  unfold diffHistMstar
  simp only [add_zero]
  congr 1
  funext b
  rw [hist_append (fun i _ => Spec.logMassAt tobs (sfhMs i)) (fun i _ => Spec.logMassAt tobs (sfhQ i))
    (fun _ => meanDiff bins)]
  · simp
  · funext j k
    refine Fin.addCases (fun i => ?_) (fun i => ?_) j
    · simp only [Fin.append_left]; rfl
    · simp only [Fin.append_right]; rfl

/-- C27: the predicted `P(M*)` of every target bin is non-negative and sums to one, and is the mixture in which each
galaxy has weight `1 - frac_q` on its main-sequence mass and `frac_q` on its quenched mass; it is NaN exactly when
some draw is NaN or no galaxy mass is within three bin widths of the mass range. -/
theorem C27_mstar_pdf {K : Type} {nk n nb : ℕ} (rng : Rng K) (logMah : MahParams ℝ → ℝ → ℝ → ℝ) (u : PF → ℝ)
    (samples : Fin nk → HaloSample K n) (lgt0 fb : ℝ) (bins : Fin (nb + 1) → ℝ) (hb : StrictMono bins) (hn : 0 < nb)
    (k : Fin nk) :
    let gals := mcSample rng logMah (getBoundedDiffstarpopParams u) (samples k) lgt0 fb
    let pdf := mstarKernTobs rng logMah u samples lgt0 fb bins k
    let tobs := (samples k).tobs
    let sigma := (bins (Fin.last nb) - bins 0) / nb
    (∀ f, pdf = some f → (∀ b, 0 ≤ f b) ∧ ∑ b, f b = 1 ∧
      ∃ sfhMs sfhQ : Fin n → List ℝ, (∀ i, (gals i).sfhMs = some (sfhMs i) ∧ (gals i).sfhQ = some (sfhQ i)) ∧ ∃ norm > 0, ∀ b,
        f b * norm = ∑ i,
          ((1 - (gals i).fracQ) * NdHist.twBinWeightLaxKern (Spec.logMassAt tobs (sfhMs i)) sigma (bins b.castSucc)
              (bins b.succ) +
           (gals i).fracQ * NdHist.twBinWeightLaxKern (Spec.logMassAt tobs (sfhQ i)) sigma (bins b.castSucc)
              (bins b.succ))) ∧
    (pdf.isSome ↔ (∀ i, (gals i).sfhMs.isSome ∧ (gals i).sfhQ.isSome) ∧
      ∃ i, ∃ sfh, ((gals i).sfhMs = some sfh ∨ (gals i).sfhQ = some sfh) ∧
        bins 0 - 3 * sigma < Spec.logMassAt tobs sfh ∧ Spec.logMassAt tobs sfh < bins (Fin.last nb) + 3 * sigma) := by
  intro gals pdf tobs sigma
  have hsig : meanDiff bins = sigma := by
    unfold meanDiff
    congr 1
    have : ∀ (m : ℕ) (e : Fin (m + 1) → ℝ), ∑ j : Fin m, (e j.succ - e j.castSucc) = e (Fin.last m) - e 0 := by
      intro m
      induction m with
      | zero => intro e; simp
      | succ m ih =>
        intro e
        rw [Fin.sum_univ_castSucc]
        have := ih (fun j => e j.castSucc)
        simp only [Fin.succ_castSucc, Fin.castSucc_zero] at this ⊢
        rw [this]
        simp
    exact this nb bins
  have hs : 0 < meanDiff bins := meanDiff_pos hb hn
  have hfr : ∀ i, 0 < (gals i).fracQ ∧ (gals i).fracQ < 1 := fun i => sample_frac rng logMah u (samples k) lgt0 fb i
  have hnn : ∀ (sfhMs sfhQ : Fin n → List ℝ) (b : Fin nb), 0 ≤ ∑ i, ((1 - (gals i).fracQ) *
          NdHist.twBinWeightLaxKern (Spec.logMassAt tobs (sfhMs i)) (meanDiff bins) (bins b.castSucc) (bins b.succ) +
        (gals i).fracQ * NdHist.twBinWeightLaxKern (Spec.logMassAt tobs (sfhQ i)) (meanDiff bins) (bins b.castSucc)
          (bins b.succ)) := by
    intro sfhMs sfhQ b
    refine Finset.sum_nonneg fun i _ => ?_
    have h1 := ndBin_nonneg (x := Spec.logMassAt tobs (sfhMs i)) hs (hb (Fin.castSucc_lt_succ (i := b))).le
    have h2 := ndBin_nonneg (x := Spec.logMassAt tobs (sfhQ i)) hs (hb (Fin.castSucc_lt_succ (i := b))).le
    have h3 := hfr i
    exact add_nonneg (mul_nonneg (by linarith [h3.2]) h1) (mul_nonneg h3.1.le h2)
  constructor
  · intro f hf
    obtain ⟨sfhMs, sfhQ, hsome, hnorm⟩ := mstarPdf_some (show mstarPdf tobs gals bins = some f from hf)
    obtain ⟨hpos, hval, h0, h1⟩ := normalise_some hnorm (hnn sfhMs sfhQ)
    refine ⟨h0, h1, sfhMs, sfhQ, hsome, _, hpos, fun b => ?_⟩
    rw [hval b, div_mul_cancel₀ _ hpos.ne', hsig]
  · -- total count
    have htot : ∀ (sfhMs sfhQ : Fin n → List ℝ), ∑ b : Fin nb, ∑ i, ((1 - (gals i).fracQ) *
          NdHist.twBinWeightLaxKern (Spec.logMassAt tobs (sfhMs i)) (meanDiff bins) (bins b.castSucc) (bins b.succ) +
        (gals i).fracQ * NdHist.twBinWeightLaxKern (Spec.logMassAt tobs (sfhQ i)) (meanDiff bins) (bins b.castSucc)
          (bins b.succ)) =
        ∑ i, ((1 - (gals i).fracQ) *
          NdHist.twBinWeightLaxKern (Spec.logMassAt tobs (sfhMs i)) (meanDiff bins) (bins 0) (bins (Fin.last nb)) +
        (gals i).fracQ * NdHist.twBinWeightLaxKern (Spec.logMassAt tobs (sfhQ i)) (meanDiff bins) (bins 0)
          (bins (Fin.last nb))) := by
      intro sfhMs sfhQ
      rw [Finset.sum_comm]
      refine Finset.sum_congr rfl fun i _ => ?_
      rw [Finset.sum_add_distrib, ← Finset.mul_sum, ← Finset.mul_sum, ndBin_sum, ndBin_sum, ndBin_eq, ndBin_eq]
    have hlast : bins 0 < bins (Fin.last nb) := hb (by rw [Fin.lt_def]; simpa using hn)
    have hcov : ∀ x, 0 < NdHist.twBinWeightLaxKern x (meanDiff bins) (bins 0) (bins (Fin.last nb)) ↔
        bins 0 - 3 * sigma < x ∧ x < bins (Fin.last nb) + 3 * sigma := by
      intro x
      rw [ndBin_pos_iff hs hlast, hsig]
      constructor <;> rintro ⟨a, b⟩ <;> constructor <;> linarith
    have hge : ∀ x, 0 ≤ NdHist.twBinWeightLaxKern x (meanDiff bins) (bins 0) (bins (Fin.last nb)) :=
      fun x => ndBin_nonneg hs hlast.le
    constructor
    · intro hsm
      obtain ⟨f, hf⟩ := Option.isSome_iff_exists.mp hsm
      obtain ⟨sfhMs, sfhQ, hsome, hnorm⟩ := mstarPdf_some (show mstarPdf tobs gals bins = some f from hf)
      obtain ⟨hpos, -, -, -⟩ := normalise_some hnorm (hnn sfhMs sfhQ)
      refine ⟨fun i => by rw [(hsome i).1, (hsome i).2]; exact ⟨rfl, rfl⟩, ?_⟩
      rw [htot] at hpos
      obtain ⟨i, _, hi⟩ := Finset.exists_lt_of_sum_lt (s := Finset.univ) (f := fun _ : Fin n => (0 : ℝ))
        (lt_of_eq_of_lt Finset.sum_const_zero hpos)
      have h3 := hfr i
      by_cases hm : 0 < NdHist.twBinWeightLaxKern (Spec.logMassAt tobs (sfhMs i)) (meanDiff bins) (bins 0)
          (bins (Fin.last nb))
      · exact ⟨i, sfhMs i, Or.inl (hsome i).1, (hcov _).mp hm⟩
      · refine ⟨i, sfhQ i, Or.inr (hsome i).2, (hcov _).mp ?_⟩
        have hz := le_antisymm (not_lt.mp hm) (hge _)
        rw [hz, mul_zero, zero_add] at hi
        exact pos_of_mul_pos_right hi h3.1.le
    · rintro ⟨hall, i, sfh, hsfh, hin⟩
      have h1 : allSome (fun i => (gals i).sfhMs) = some (fun i => ((gals i).sfhMs).get (hall i).1) :=
        allSome_eq_some.mpr fun i => by simp
      have h2 : allSome (fun i => (gals i).sfhQ) = some (fun i => ((gals i).sfhQ).get (hall i).2) :=
        allSome_eq_some.mpr fun i => by simp
      by_contra hno
      have hnone : mstarPdf tobs gals bins = none := Option.not_isSome_iff_eq_none.mp hno
      unfold mstarPdf at hnone
      rw [h1, Option.bind_some, h2, Option.bind_some] at hnone
      unfold diffHistMstar normalise at hnone
      simp only [add_zero] at hnone
      split_ifs at hnone with hz
      rw [Finset.sum_congr rfl fun b _ => hist_append
        (fun i _ => Spec.logMassAt tobs (((gals i).sfhMs).get (hall i).1))
        (fun i _ => Spec.logMassAt tobs (((gals i).sfhQ).get (hall i).2)) (fun _ => meanDiff bins)
        (fun i => (gals i).fracQ) _ (by
          funext j k
          refine Fin.addCases (fun i => ?_) (fun i => ?_) j
          · simp only [Fin.append_left]; rfl
          · simp only [Fin.append_right]; rfl) _ _ b] at hz
      simp only [Fin.prod_univ_one] at hz
      rw [htot (fun i => ((gals i).sfhMs).get (hall i).1) (fun i => ((gals i).sfhQ).get (hall i).2),
        Finset.sum_eq_zero_iff_of_nonneg] at hz
      · have hzi := hz i (Finset.mem_univ i)
        have h3 := hfr i
        have e1 := hge (Spec.logMassAt tobs (((gals i).sfhMs).get (hall i).1))
        have e2 := hge (Spec.logMassAt tobs (((gals i).sfhQ).get (hall i).2))
        have hp := (hcov _).mpr hin
        have m1 := mul_nonneg (by linarith [h3.2] : (0 : ℝ) ≤ 1 - (gals i).fracQ) e1
        have m2 := mul_nonneg h3.1.le e2
        rcases hsfh with hsfh | hsfh
        · have : ((gals i).sfhMs).get (hall i).1 = sfh := by simp [hsfh]
          rw [this] at hzi m1
          have := mul_pos (by linarith [h3.2] : (0 : ℝ) < 1 - (gals i).fracQ) hp
          linarith
        · have : ((gals i).sfhQ).get (hall i).2 = sfh := by simp [hsfh]
          rw [this] at hzi m2
          have := mul_pos h3.1 hp
          linarith
      · intro i _
        have h3 := hfr i
        exact add_nonneg (mul_nonneg (by linarith [h3.2]) (hge _)) (mul_nonneg h3.1.le (hge _))

example : StrictMono (![9, 10, 11.5] : Fin (2 + 1) → ℝ) := by
  rw [Fin.strictMono_iff_lt_succ]
  intro i
  fin_cases i <;> simp <;> norm_num

theorem mstarSsfrPdf_some {n nms nsf : ℕ} {tobs : ℝ} {gals : Fin n → McSfh} {lo hi : Fin (nms * nsf) → Fin 2 → ℝ}
    {mb : Fin (nms + 1) → ℝ} {sb : Fin (nsf + 1) → ℝ} {f : Fin (nms * nsf) → ℝ}
    (h : mstarSsfrPdf tobs gals lo hi mb sb = some f) :
    ∃ sfhMs sfhQ : Fin n → List ℝ, (∀ i, (gals i).sfhMs = some (sfhMs i) ∧ (gals i).sfhQ = some (sfhQ i)) ∧
      normalise (fun b : Fin (nms * nsf) => ∑ i, ((1 - (gals i).fracQ) *
          (NdHist.twBinWeightLaxKern (Spec.logMassAt tobs (sfhMs i)) (meanDiff mb) (lo b 0) (hi b 0) *
           NdHist.twBinWeightLaxKern (Spec.logSsfrAt tobs (sfhMs i)) (meanDiff sb) (lo b 1) (hi b 1)) +
        (gals i).fracQ *
          (NdHist.twBinWeightLaxKern (Spec.logMassAt tobs (sfhQ i)) (meanDiff mb) (lo b 0) (hi b 0) *
           NdHist.twBinWeightLaxKern (Spec.logSsfrAt tobs (sfhQ i)) (meanDiff sb) (lo b 1) (hi b 1)))) = some f := by
  unfold mstarSsfrPdf at h
  rw [Option.bind_eq_some_iff] at h
  obtain ⟨sfhMs, h1, h⟩ := h
  rw [Option.bind_eq_some_iff] at h
  obtain ⟨sfhQ, h2, h⟩ := h
  rw [allSome_eq_some] at h1 h2
  refine ⟨sfhMs, sfhQ, fun i => ⟨h1 i, h2 i⟩, ?_⟩
  rw [← h]
  unfold diffHistMstarSsfr
  simp only [add_zero]
  congr 1
  funext b
  rw [hist_append (fun i => ![Spec.logMassAt tobs (sfhMs i), Spec.logSsfrAt tobs (sfhMs i)])
    (fun i => ![Spec.logMassAt tobs (sfhQ i), Spec.logSsfrAt tobs (sfhQ i)]) ![meanDiff mb, meanDiff sb]]
  · simp [Fin.prod_univ_two]
  · funext j
    refine Fin.addCases (fun i => ?_) (fun i => ?_) j
    · simp only [Fin.append_left]; rfl
    · simp only [Fin.append_right]; rfl

/-- C27: the joint `P(M*, sSFR)` of a target bin is non-negative, sums to one over the flat bins, and is the mixture of
both branches with weights `1 - frac_q` and `frac_q`, for every choice of bins with `lo ≤ hi`. -/
theorem C27_joint_pdf {K : Type} {n nms nsf : ℕ} (rng : Rng K) (logMah : MahParams ℝ → ℝ → ℝ → ℝ) (u : PF → ℝ)
    (h : HaloSample K n) (lgt0 fb : ℝ) (lo hi : Fin (nms * nsf) → Fin 2 → ℝ) (hlh : ∀ b k, lo b k ≤ hi b k)
    (mb : Fin (nms + 1) → ℝ) (sb : Fin (nsf + 1) → ℝ) (hmb : StrictMono mb) (hsb : StrictMono sb) (hms : 0 < nms)
    (hsf : 0 < nsf) (f : Fin (nms * nsf) → ℝ) :
    let gals := mcSample rng logMah (getBoundedDiffstarpopParams u) h lgt0 fb
    mstarSsfrPdf h.tobs gals lo hi mb sb = some f →
      (∀ b, 0 ≤ f b) ∧ ∑ b, f b = 1 ∧
      ∃ sfhMs sfhQ : Fin n → List ℝ, (∀ i, (gals i).sfhMs = some (sfhMs i) ∧ (gals i).sfhQ = some (sfhQ i)) ∧
        ∃ norm > 0, ∀ b, f b * norm = ∑ i, ((1 - (gals i).fracQ) *
          (NdHist.twBinWeightLaxKern (Spec.logMassAt h.tobs (sfhMs i)) (meanDiff mb) (lo b 0) (hi b 0) *
           NdHist.twBinWeightLaxKern (Spec.logSsfrAt h.tobs (sfhMs i)) (meanDiff sb) (lo b 1) (hi b 1)) +
        (gals i).fracQ *
          (NdHist.twBinWeightLaxKern (Spec.logMassAt h.tobs (sfhQ i)) (meanDiff mb) (lo b 0) (hi b 0) *
           NdHist.twBinWeightLaxKern (Spec.logSsfrAt h.tobs (sfhQ i)) (meanDiff sb) (lo b 1) (hi b 1))) := by
  intro gals hf
  obtain ⟨sfhMs, sfhQ, hsome, hnorm⟩ := mstarSsfrPdf_some hf
  have hm := meanDiff_pos hmb hms
  have hs := meanDiff_pos hsb hsf
  obtain ⟨hpos, hval, h0, h1⟩ := normalise_some hnorm (by
    intro b
    refine Finset.sum_nonneg fun i _ => ?_
    have h3 := sample_frac rng logMah u h lgt0 fb i
    exact add_nonneg
      (mul_nonneg (by linarith [h3.2]) (mul_nonneg (ndBin_nonneg hm (hlh b 0)) (ndBin_nonneg hs (hlh b 1))))
      (mul_nonneg h3.1.le (mul_nonneg (ndBin_nonneg hm (hlh b 0)) (ndBin_nonneg hs (hlh b 1)))))
  refine ⟨h0, h1, sfhMs, sfhQ, hsome, _, hpos, fun b => ?_⟩
  rw [hval b, div_mul_cancel₀ _ hpos.ne']

example : ∀ (b : Fin (1 * 1)) (k : Fin 2), (fun (_ : Fin (1 * 1)) => ![9, -12]) b k ≤
    (fun (_ : Fin (1 * 1)) => (![10, -11] : Fin 2 → ℝ)) b k := by
  intro b k
  fin_cases k <;> norm_num

/-- C27: each row of the predicted `P(sSFR | M*)` (one redshift, one target stellar mass) either is entirely NaN or is
non-negative, sums to one, and is proportional to the mean of the joint PDFs of the halo bins of that redshift, weighted
with the halo mass function, at that stellar mass. -/
theorem C27_conditional_pdf {K : Type} {nk n nms nsf nz nm nt : ℕ} (rng : Rng K) (logMah : MahParams ℝ → ℝ → ℝ → ℝ)
    (u : PF → ℝ) (d : SsfrData K nk n nms nsf nz nm nt) (hlh : ∀ b k, d.ndbinsLo b k ≤ d.ndbinsHi b k)
    (hmb : StrictMono d.mstarBins) (hsb : StrictMono d.ssfrBins) (hms : 0 < nms) (hsf : 0 < nsf)
    (hw : ∀ z m, 0 ≤ d.nmhaloPdf z m) (z : Fin nz) (t : Fin nt) :
    let pred := mstarSsfrKernTobs rng logMah u d
    (∀ b, pred z t b = none) ∨
    ∃ f : Fin nsf → ℝ, (∀ b, pred z t b = some (f b)) ∧ (∀ b, 0 ≤ f b) ∧ ∑ b, f b = 1 ∧
      ∃ pdfs : Fin nm → Fin (nms * nsf) → ℝ,
        (∀ m, mstarSsfrPdf (d.samples (d.indxPdf z m)).tobs
          (mcSample rng logMah (getBoundedDiffstarpopParams u) (d.samples (d.indxPdf z m)) d.lgt0 d.fb)
          d.ndbinsLo d.ndbinsHi d.mstarBins d.ssfrBins = some (pdfs m)) ∧
        ∃ norm > 0, ∀ b : Fin nsf, f b * norm =
          ∑ m, d.nmhaloPdf z m * pdfs m (finProdFinEquiv (d.targetMstarIds t, b)) := by
  intro pred
  by_cases hnone : ∀ b, pred z t b = none
  · exact Or.inl hnone
  · right
    push Not at hnone
    obtain ⟨b0, hb0⟩ := hnone
    obtain ⟨v, hv⟩ := Option.ne_none_iff_exists'.mp hb0
    have hpred : ∀ b, pred z t b = conditional (mixBins (fun k => (mstarSsfrPdf (d.samples k).tobs
        (mcSample rng logMah (getBoundedDiffstarpopParams u) (d.samples k) d.lgt0 d.fb)
        d.ndbinsLo d.ndbinsHi d.mstarBins d.ssfrBins).map reshape) (d.indxPdf z) (d.nmhaloPdf z))
        d.targetMstarIds t b := fun b => rfl
    rw [hpred] at hv
    unfold conditional at hv
    rw [Option.bind_eq_some_iff] at hv
    obtain ⟨P, hP, hv⟩ := hv
    have hP' := hP
    unfold mixBins at hP'
    rw [Option.map_eq_some_iff] at hP'
    obtain ⟨pdfs, hpdfs, rfl⟩ := hP'
    rw [allSome_eq_some] at hpdfs
    simp only at hv
    split_ifs at hv with hz
    have hex : ∀ m, ∃ q, mstarSsfrPdf (d.samples (d.indxPdf z m)).tobs
          (mcSample rng logMah (getBoundedDiffstarpopParams u) (d.samples (d.indxPdf z m)) d.lgt0 d.fb)
          d.ndbinsLo d.ndbinsHi d.mstarBins d.ssfrBins = some q ∧ reshape q = pdfs m := fun m =>
      Option.map_eq_some_iff.mp (hpdfs m)
    choose q hq hqr using hex
    have hrow : ∀ b, ∑ m, pdfs m (d.targetMstarIds t) b * d.nmhaloPdf z m =
        ∑ m, d.nmhaloPdf z m * q m (finProdFinEquiv (d.targetMstarIds t, b)) := by
      intro b
      refine Finset.sum_congr rfl fun m _ => ?_
      rw [← hqr m, mul_comm]; rfl
    have hnn : ∀ b, 0 ≤ ∑ m, pdfs m (d.targetMstarIds t) b * d.nmhaloPdf z m := by
      intro b
      rw [hrow]
      refine Finset.sum_nonneg fun m _ => mul_nonneg (hw z m) ?_
      exact (C27_joint_pdf rng logMah u (d.samples (d.indxPdf z m)) d.lgt0 d.fb d.ndbinsLo d.ndbinsHi hlh d.mstarBins
        d.ssfrBins hmb hsb hms hsf (q m) (hq m)).1 _
    have hpos : 0 < ∑ b, ∑ m, pdfs m (d.targetMstarIds t) b * d.nmhaloPdf z m :=
      lt_of_le_of_ne (Finset.sum_nonneg fun b _ => hnn b) (Ne.symm hz)
    refine ⟨fun b => (∑ m, pdfs m (d.targetMstarIds t) b * d.nmhaloPdf z m) /
      ∑ b, ∑ m, pdfs m (d.targetMstarIds t) b * d.nmhaloPdf z m, ?_, ?_, ?_, q, hq, _, hpos, ?_⟩
    · intro b
      rw [hpred]
      unfold conditional
      rw [hP, Option.bind_some]
      exact if_neg hz
    · exact fun b => div_nonneg (hnn b) hpos.le
    · rw [← Finset.sum_div, div_self hz]
    · intro b
      rw [div_mul_cancel₀ _ hpos.ne', hrow]

/-- C27 (arguments of the logarithms): for observation times after 0.1 Gyr the 20 times increase strictly from 0.1 to
`tobs`, and every galaxy has positive star formation rate (at least 1e-14) and positive mass at `tobs` in both branches. -/
theorem C27_observables_positive {K : Type} {n : ℕ} (rng : Rng K) (logMah : MahParams ℝ → ℝ → ℝ → ℝ) (p : PF → ℝ)
    (h : HaloSample K n) (lgt0 fb : ℝ) (ht : 0.1 < h.tobs) (i : Fin n) (sfh : List ℝ)
    (hs : (mcSample rng logMah p h lgt0 fb i).sfhMs = some sfh ∨ (mcSample rng logMah p h lgt0 fb i).sfhQ = some sfh) :
    (obsTimes h.tobs).length = 20 ∧ Spec.Increasing (obsTimes h.tobs) ∧ (obsTimes h.tobs)[0]? = some (0.1 : ℝ) ∧
    (obsTimes h.tobs)[19]? = some h.tobs ∧
    1 / 10 ^ 14 ≤ (obsData h.tobs sfh).1 ∧ 0 < (obsData h.tobs sfh).2 := by
  have h0 : (0 : ℝ) < h.tobs := by norm_num at ht; linarith
  have hlen : (obsTimes h.tobs).length = 20 := by simp [obsTimes, logspace, N_TIMES]
  have hstop : -1 < Real.logb 10 h.tobs := by
    rw [Real.lt_logb_iff_rpow_lt (by norm_num) h0, Real.rpow_neg_one]
    norm_num at ht ⊢; linarith
  have helem : ∀ j (hj : j < (obsTimes h.tobs).length), (obsTimes h.tobs)[j] =
      (10 : ℝ) ^ (-1 + (j : ℝ) * ((Real.logb 10 h.tobs - -1) / 19)) := by
    intro j hj
    show ((List.range 20).map fun i : ℕ => (10 : ℝ) ^ (-1 + (i : ℝ) * ((Real.logb 10 h.tobs - -1) /
      (((20 : ℕ) : ℝ) - 1))))[j]'(by rw [hlen] at hj; simpa using hj) = _
    rw [List.getElem_map, List.getElem_range]
    norm_num
  have hinc : Spec.Increasing (obsTimes h.tobs) := by
    unfold Spec.Increasing
    rw [List.pairwise_iff_getElem]
    intro a b ha hb hab
    rw [helem a ha, helem b hb]
    refine Real.rpow_lt_rpow_of_exponent_lt (by norm_num) ?_
    have : (a : ℝ) < b := by exact_mod_cast hab
    have hp : 0 < (Real.logb 10 h.tobs - -1) / 19 := by linarith
    nlinarith
  have hfirst : (obsTimes h.tobs)[0]? = some (0.1 : ℝ) := by
    rw [List.getElem?_eq_getElem (by omega), helem 0 (by omega)]
    norm_num [Real.rpow_neg_one]
  have hlast : (obsTimes h.tobs)[19]? = some h.tobs := by
    rw [List.getElem?_eq_getElem (by omega), helem 19 (by omega)]
    have : (-1 : ℝ) + ((19 : ℕ) : ℝ) * ((Real.logb 10 h.tobs - -1) / 19) = Real.logb 10 h.tobs := by
      push_cast; ring
    rw [this, Real.rpow_logb (by norm_num) (by norm_num) h0]
  have hinc' : Spec.Increasing (0.001 :: obsTimes h.tobs) := by
    unfold Spec.Increasing at hinc ⊢
    rw [List.pairwise_cons]
    refine ⟨fun x hx => ?_, hinc⟩
    obtain ⟨j, hj, rfl⟩ := List.getElem_of_mem hx
    rw [helem j hj]
    have : (10 : ℝ) ^ (-1 : ℝ) ≤ (10 : ℝ) ^ (-1 + (j : ℝ) * ((Real.logb 10 h.tobs - -1) / 19)) := by
      refine Real.rpow_le_rpow_of_exponent_le (by norm_num) ?_
      have hp : 0 < (Real.logb 10 h.tobs - -1) / 19 := by linarith
      have : (0 : ℝ) ≤ j := Nat.cast_nonneg j
      nlinarith
    rw [Real.rpow_neg_one] at this
    norm_num at this ⊢
    linarith
  have hfloor : sfh.length = 20 ∧ ∀ s ∈ sfh, 1 / 10 ^ 14 ≤ s := by
    have hq : ∃ q, sfh = calcSfhSinglegal logMah q (h.mah.row i) (obsTimes h.tobs) lgt0 fb := by
      rcases hs with hs | hs
      · obtain ⟨q, _, hq⟩ := Option.map_eq_some_iff.mp hs
        exact ⟨q, hq.symm⟩
      · obtain ⟨q, _, hq⟩ := Option.map_eq_some_iff.mp hs
        exact ⟨q, hq.symm⟩
    obtain ⟨q, rfl⟩ := hq
    constructor
    · unfold calcSfhSinglegal; simp [sfhSinglegalKern, hlen]
    · exact (C04_sfr_floor logMah (fun _ _ _ => 0) logMah (fun _ _ _ => 0) q (h.mah.row i)
        (n := 0) ⟨nofun, nofun, nofun, nofun, nofun, nofun, nofun, nofun⟩ ⟨nofun, nofun, nofun, nofun, nofun⟩
        (obsTimes h.tobs) (fun t ht => by
          have := (List.pairwise_cons.mp hinc').1 t ht
          norm_num at this; linarith) lgt0 fb).1
  refine ⟨hlen, hinc, hfirst, hlast, ?_, ?_⟩
  · show 1 / 10 ^ 14 ≤ sfh.getLastD 0
    rw [List.getLastD_eq_getLast?, List.getLast?_eq_getElem?, List.getElem?_eq_getElem (by omega), Option.getD_some]
    exact hfloor.2 _ (List.getElem_mem _)
  · have := (C12_smh_increasing (obsTimes h.tobs) sfh (by rw [hfloor.1, hlen]) hinc').1
      (fun y hy => lt_of_lt_of_le (by norm_num) (hfloor.2 y hy))
    show 0 < (cumulativeMstarFormed (obsTimes h.tobs) sfh).getLastD 0
    rw [List.getLastD_eq_getLast?, List.getLast?_eq_getElem?, List.getElem?_eq_getElem (by rw [this.1]; omega),
      Option.getD_some]
    exact this.2.1 _ (List.getElem_mem _)

example : (0.1 : ℝ) < 13.8 := by norm_num

/-! ### C28 -/

/-- C28: the mean squared error over a non-empty NaN-free prediction is non-negative and is zero exactly if the
prediction equals the target everywhere; its value is the mean of the squared differences; it is NaN exactly if the
arrays are empty or the prediction has a NaN. -/
theorem C28_mse {ι : Type*} [Fintype ι] (pred : ι → Option ℝ) (target : ι → ℝ) :
    (∀ v, mse pred target = some v → 0 ≤ v ∧ (v = 0 ↔ ∀ i, pred i = some (target i)) ∧
      ∃ p : ι → ℝ, (∀ i, pred i = some (p i)) ∧ v * Fintype.card ι = ∑ i, (p i - target i) ^ 2) ∧
    (mse pred target = none ↔ IsEmpty ι ∨ ∃ i, pred i = none) := by
  constructor
  · intro v hv
    unfold mse at hv
    rw [Option.bind_eq_some_iff] at hv
    obtain ⟨p, hp, hv⟩ := hv
    rw [allSome_eq_some] at hp
    simp only at hv
    split_ifs at hv with hc
    have hcp : (0 : ℝ) < Fintype.card ι := by exact_mod_cast Nat.pos_of_ne_zero hc
    rw [Option.some.injEq] at hv
    have hnn : 0 ≤ ∑ i, (p i - target i) ^ 2 := Finset.sum_nonneg fun i _ => sq_nonneg _
    refine ⟨by rw [← hv]; positivity, ?_, p, hp, by rw [← hv]; field_simp⟩
    rw [← hv, div_eq_zero_iff, or_iff_left hcp.ne', Finset.sum_eq_zero_iff_of_nonneg fun i _ => sq_nonneg _]
    constructor
    · intro h i
      have := h i (Finset.mem_univ i)
      rw [pow_eq_zero_iff (by norm_num), sub_eq_zero] at this
      rw [hp i, this]
    · intro h i _
      have := h i
      rw [hp i, Option.some.injEq] at this
      rw [this, sub_self]; norm_num
  · unfold mse
    rw [Option.bind_eq_none_iff]
    constructor
    · intro h
      by_cases he : IsEmpty ι
      · exact Or.inl he
      · right
        by_contra hne
        push Not at hne
        have hsome : ∀ i, (pred i).isSome := fun i => Option.isSome_iff_ne_none.mpr (hne i)
        have := h (fun i => (pred i).get (hsome i)) (allSome_eq_some.mpr fun i => by simp)
        simp only at this
        split_ifs at this with hc
        exact he (Fintype.card_eq_zero_iff.mp hc)
    · rintro (h | ⟨i, hi⟩) p hp
      · simp
      · rw [allSome_eq_some] at hp
        rw [hp i] at hi
        cases hi

example : mse (ι := Fin 2) (fun _ => some 1) ![1, 3] = some 2 := by
  unfold mse
  rw [(allSome_eq_some (g := fun _ => 1)).mpr fun _ => rfl]
  simp [Fin.sum_univ_two]
  norm_num

/-- C28: the stellar-mass loss is non-negative and zero exactly if the predicted PDFs equal the targets in every halo
bin and mass bin. It is 1000 times the mean squared error. -/
theorem C28_loss_mstar {K : Type} {nk n nb : ℕ} (rng : Rng K) (logMah : MahParams ℝ → ℝ → ℝ → ℝ) (u : PF → ℝ)
    (d : MstarData K nk n nb) (v : ℝ) (h : lossMstar rng logMah u d = some v) :
    let pred := mstarKernTobs rng logMah u d.samples d.lgt0 d.fb d.bins
    0 ≤ v ∧ (v = 0 ↔ ∀ k, pred k = some (d.target k)) ∧
    ∃ f : Fin nk → Fin nb → ℝ, (∀ k, pred k = some (f k)) ∧
      v * (nk * nb) = 1000 * ∑ k, ∑ b, (f k b - d.target k b) ^ 2 := by
  intro pred
  unfold lossMstar at h
  rw [Option.map_eq_some_iff] at h
  obtain ⟨w, hw, rfl⟩ := h
  have hne : ¬ (IsEmpty (Fin nk × Fin nb) ∨ ∃ i : Fin nk × Fin nb, ((pred i.1).map fun f => f i.2) = none) := by
    intro hc
    cases hw.symm.trans ((C28_mse _ _).2.mpr hc)
  obtain ⟨h0, hiff, p, hp, hval⟩ := (C28_mse _ _).1 w hw
  rw [not_or, not_isEmpty_iff] at hne
  obtain ⟨⟨k0, b0⟩⟩ := hne.1
  have hf : ∀ k, ∃ f, pred k = some f := by
    intro k
    have := hp (k, b0)
    rw [Option.map_eq_some_iff] at this
    obtain ⟨f, hf, _⟩ := this
    exact ⟨f, hf⟩
  choose f hf using hf
  have hpf : ∀ k b, p (k, b) = f k b := by
    intro k b
    have := hp (k, b)
    change (pred k).map (fun f => f b) = _ at this
    rw [hf k, Option.map_some, Option.some.injEq] at this
    exact this.symm
  refine ⟨by positivity, ?_, f, hf, ?_⟩
  · rw [mul_eq_zero, or_iff_left (by norm_num), hiff]
    constructor
    · intro h k
      rw [hf k, Option.some.injEq]
      funext b
      have := h (k, b)
      change (pred k).map (fun f => f b) = _ at this
      rw [hf k, Option.map_some, Option.some.injEq] at this
      exact this
    · rintro h ⟨k, b⟩
      change (pred k).map (fun f => f b) = _
      rw [h k]; rfl
  · rw [Fintype.sum_prod_type] at hval
    simp only [hpf, Fintype.card_prod, Fintype.card_fin] at hval
    rw [← hval]
    push_cast
    ring

/-- C28: the same for the sSFR losses (centrals and satellites). -/
theorem C28_loss_ssfr {K : Type} {nk n nms nsf nz nm nt : ℕ} (rng : Rng K) (logMah : MahParams ℝ → ℝ → ℝ → ℝ)
    (u : PF → ℝ) (d : SsfrData K nk n nms nsf nz nm nt) (v : ℝ) (h : lossMstarSsfr rng logMah u d = some v) :
    let pred := mstarSsfrKernTobs rng logMah u d
    0 ≤ v ∧ (v = 0 ↔ ∀ z t b, pred z t b = some (d.target z t b)) ∧
    ∃ f : Fin nz → Fin nt → Fin nsf → ℝ, (∀ z t b, pred z t b = some (f z t b)) ∧
      v * (nz * nt * nsf) = 1000 * ∑ z, ∑ t, ∑ b, (f z t b - d.target z t b) ^ 2 := by
  intro pred
  unfold lossMstarSsfr at h
  rw [Option.map_eq_some_iff] at h
  obtain ⟨w, hw, rfl⟩ := h
  obtain ⟨h0, hiff, p, hp, hval⟩ := (C28_mse _ _).1 w hw
  refine ⟨by positivity, ?_, fun z t b => p (z, t, b), fun z t b => hp (z, t, b), ?_⟩
  · rw [mul_eq_zero, or_iff_left (by norm_num), hiff]
    exact ⟨fun h z t b => h (z, t, b), fun h i => h i.1 i.2.1 i.2.2⟩
  · rw [Fintype.sum_prod_type] at hval
    simp only [Fintype.sum_prod_type, Fintype.card_prod, Fintype.card_fin] at hval
    rw [← hval]
    push_cast
    ring

/-- C28: the combined losses are the sums of their parts; they are defined exactly if all parts are, non-negative, and
zero exactly if all parts are zero. -/
theorem C28_combined_losses {K : Type} {nk n nb nk' n' nms nsf nz nm nt nk'' n'' nms' nsf' nz' nm' nt' : ℕ}
    (rng : Rng K) (logMah : MahParams ℝ → ℝ → ℝ → ℝ) (u : PF → ℝ) (dMstar : MstarData K nk n nb)
    (dCen : SsfrData K nk' n' nms nsf nz nm nt) (dSat : SsfrData K nk'' n'' nms' nsf' nz' nm' nt') (v : ℝ) :
    (lossCombined rng logMah u dMstar dCen = some v → ∃ a b, lossMstar rng logMah u dMstar = some a ∧
      lossMstarSsfr rng logMah u dCen = some b ∧ v = a + b ∧ 0 ≤ v ∧ (v = 0 ↔ a = 0 ∧ b = 0)) ∧
    (lossCombined3 rng logMah u dMstar dCen dSat = some v → ∃ a b c, lossMstar rng logMah u dMstar = some a ∧
      lossMstarSsfr rng logMah u dCen = some b ∧ lossMstarSsfr rng logMah u dSat = some c ∧ v = a + b + c ∧ 0 ≤ v ∧
      (v = 0 ↔ a = 0 ∧ b = 0 ∧ c = 0)) ∧
    ((lossCombined rng logMah u dMstar dCen).isSome ↔ (lossMstar rng logMah u dMstar).isSome ∧
      (lossMstarSsfr rng logMah u dCen).isSome) ∧
    ((lossCombined3 rng logMah u dMstar dCen dSat).isSome ↔ (lossMstar rng logMah u dMstar).isSome ∧
      (lossMstarSsfr rng logMah u dCen).isSome ∧ (lossMstarSsfr rng logMah u dSat).isSome) := by
  unfold lossCombined lossCombined3
  cases ha : lossMstar rng logMah u dMstar with
  | none =>
    cases lossMstarSsfr rng logMah u dCen <;> simp [addNan]
  | some a =>
    cases hb : lossMstarSsfr rng logMah u dCen with
    | none => simp [addNan]
    | some b =>
      have h0a := (C28_loss_mstar rng logMah u dMstar a ha).1
      have h0b := (C28_loss_ssfr rng logMah u dCen b hb).1
      refine ⟨?_, ?_, by simp [addNan], ?_⟩
      · intro h
        simp only [addNan, Option.bind_some, Option.map_some, Option.some.injEq] at h
        refine ⟨a, b, rfl, rfl, by linarith, by linarith, ?_⟩
        constructor
        · intro hv; constructor <;> linarith
        · rintro ⟨rfl, rfl⟩; linarith
      · cases hc : lossMstarSsfr rng logMah u dSat with
        | none => simp [addNan]
        | some c =>
          have h0c := (C28_loss_ssfr rng logMah u dSat c hc).1
          intro h
          simp only [addNan, Option.bind_some, Option.map_some, Option.some.injEq] at h
          refine ⟨a, b, c, rfl, rfl, rfl, by linarith, by linarith, ?_⟩
          constructor
          · intro hv; refine ⟨?_, ?_, ?_⟩ <;> linarith
          · rintro ⟨rfl, rfl, rfl⟩; linarith
      · cases lossMstarSsfr rng logMah u dSat <;> simp [addNan]

/-! ### C63: NaN bins -/

/-- C63 fails for undefined predictions: the padded entries point to halo bin 0 with weight zero, and NaN times zero is
NaN. So if the PDF of halo bin 0 is undefined, a padded redshift gets no prediction, even if its own halo bins
are all well defined. -/
theorem C63_nan_bin_violated {nk nm pad nms nsf : ℕ} (pdf : Fin (nk + 1) → Option (Fin nms → Fin nsf → ℝ))
    (h0 : pdf 0 = none) (indx : Fin nm → Fin (nk + 1)) (w : Fin nm → ℝ) (hreal : ∀ m, (pdf (indx m)).isSome) :
    (mixBins pdf indx w).isSome ∧
    mixBins pdf (Fin.append indx fun _ : Fin (pad + 1) => 0) (Fin.append w fun _ : Fin (pad + 1) => 0) = none := by
  constructor
  · unfold mixBins
    rw [Option.isSome_map, allSome_isSome]
    exact hreal
  · unfold mixBins
    rw [Option.map_eq_none_iff, ← Option.not_isSome_iff_eq_none, allSome_isSome]
    intro h
    have := h (Fin.natAdd nm 0)
    rw [Fin.append_right, h0] at this
    cases this

example : ∃ (pdf : Fin (1 + 1) → Option (Fin 1 → Fin 1 → ℝ)) (indx : Fin 1 → Fin (1 + 1)), pdf 0 = none ∧
    ∀ m, (pdf (indx m)).isSome :=
  ⟨![none, some fun _ _ => 1], ![1], rfl, fun m => by fin_cases m; rfl⟩

end Diffstar.Props
