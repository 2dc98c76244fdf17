import Verif.Props.RoundHist
import Verif.Props.HaloErrors
import Verif.Props.PopLoss
import Verif.Props.PopNan
import Mathlib.Algebra.Order.Chebyshev

/-! C150: how errors of the masses, rates and quenched fractions of the galaxies reach the predicted distributions. -/

namespace Diffstar.Props

open Diffstar Diffstar.Spec Diffstar.Pop Diffstar.PopLoss

/-- A bin weight changes by at most the largest density times the shift. -/
theorem ndBin_lip {x x' s lo hi : ℝ} (hs : 0 < s) :
    |NdHist.twBinWeightLaxKern x' s lo hi - NdHist.twBinWeightLaxKern x s lo hi| ≤ 35 / 96 * (|x' - x| / s) := by
  rw [ndBin_eq, ndBin_eq]
  have key : ∀ e : ℝ, |jaxTw ((x' - e) / s) - jaxTw ((x - e) / s)| ≤ 35 / 96 * (|x' - x| / s) := by
    intro e
    refine (jaxTw_lipschitz _ _).trans (le_of_eq ?_)
    rw [← sub_div, abs_div, abs_of_pos hs]
    congr 3
    ring
  have a := abs_le.1 (key lo)
  have b := abs_le.1 (key hi)
  rcases le_total x x' with h | h
  · have m : ∀ e : ℝ, jaxTw ((x - e) / s) ≤ jaxTw ((x' - e) / s) := fun e => jaxTw_mono (div_le_div_of_nonneg_right (by linarith) hs.le)
    rw [abs_le]
    constructor <;> linarith [m lo, m hi]
  · have m : ∀ e : ℝ, jaxTw ((x' - e) / s) ≤ jaxTw ((x - e) / s) := fun e => jaxTw_mono (div_le_div_of_nonneg_right (by linarith) hs.le)
    rw [abs_le]
    constructor <;> linarith [m lo, m hi]

/-- The bin weights of contiguous bins add up to the weight of their union. -/
theorem ndBin_total (x s : ℝ) (n : ℕ) (e : Fin (n + 1) → ℝ) :
    ∑ j : Fin n, NdHist.twBinWeightLaxKern x s (e j.castSucc) (e j.succ) = NdHist.twBinWeightLaxKern x s (e 0) (e (Fin.last n)) := by
  rw [ndBin_sum, ndBin_eq]

/-- Normalised histograms of nearby points with nearby weights. -/
theorem hist_lip {N : ℕ} {B : Type*} [Fintype B] {k k' : Fin N → B → ℝ} {w w' : Fin N → ℝ} {η ε : ℝ}
    (hk0 : ∀ i b, 0 ≤ k' i b) (hk1 : ∀ i, ∑ b, k' i b ≤ 1) (hη : ∀ i b, |k' i b - k i b| ≤ η) (hη' : ∀ i, |∑ b, k' i b - ∑ b, k i b| ≤ η)
    (hw : ∀ i, 0 ≤ w i) (hw' : ∀ i, 0 ≤ w' i) (hpos : 0 < ∑ i, w i) (hε : ∑ i, |w' i - w i| ≤ ε * ∑ i, w i)
    (hin : η + ε < (∑ i, w i * ∑ b, k i b) / ∑ i, w i) :
    ∃ f f', normalise (fun b => ∑ i, k i b * w i) = some f ∧ normalise (fun b => ∑ i, k' i b * w' i) = some f' ∧
      (η + ε < (∑ i, w i * ∑ b, k i b) / ∑ i, w i) ∧ ((∑ i, w i * ∑ b, k i b) / ∑ i, w i - (η + ε)) * ∑ i, w i ≤ ∑ b, ∑ i, k' i b * w' i ∧
      ∀ b, |f' b - f b| ≤ 2 * (η + ε) / ((∑ i, w i * ∑ b, k i b) / ∑ i, w i) := by
  have gen : ∀ a a' : Fin N → ℝ, (∀ i, 0 ≤ a' i) → (∀ i, a' i ≤ 1) → (∀ i, |a' i - a i| ≤ η) →
      |∑ i, a' i * w' i - ∑ i, a i * w i| ≤ (η + ε) * ∑ i, w i := by
    intro a a' h0 h1 h2
    rw [← Finset.sum_sub_distrib]
    refine (Finset.abs_sum_le_sum_abs _ _).trans ?_
    have : ∀ i ∈ Finset.univ, |a' i * w' i - a i * w i| ≤ η * w i + |w' i - w i| := by
      intro i _
      have e : a' i * w' i - a i * w i = (a' i - a i) * w i + a' i * (w' i - w i) := by ring
      rw [e]
      refine (abs_add_le _ _).trans (add_le_add ?_ ?_)
      · rw [abs_mul, abs_of_nonneg (hw i)]
        exact mul_le_mul_of_nonneg_right (h2 i) (hw i)
      · rw [abs_mul, abs_of_nonneg (h0 i)]
        exact mul_le_of_le_one_left (abs_nonneg _) (h1 i)
    refine (Finset.sum_le_sum this).trans ?_
    rw [Finset.sum_add_distrib, ← Finset.mul_sum, add_mul]
    linarith
  have s1 : ∑ b, ∑ i, k i b * w i = ∑ i, (∑ b, k i b) * w i := by
    rw [Finset.sum_comm]
    exact Finset.sum_congr rfl fun i _ => (Finset.sum_mul ..).symm
  have s2 : ∑ b, ∑ i, k' i b * w' i = ∑ i, (∑ b, k' i b) * w' i := by
    rw [Finset.sum_comm]
    exact Finset.sum_congr rfl fun i _ => (Finset.sum_mul ..).symm
  have hk1' : ∀ i b, k' i b ≤ 1 := fun i b => (Finset.single_le_sum (fun b _ => hk0 i b) (Finset.mem_univ b)).trans (hk1 i)
  have tot := gen (fun i => ∑ b, k i b) (fun i => ∑ b, k' i b) (fun i => Finset.sum_nonneg fun b _ => hk0 i b) hk1 hη'
  have e3 : ∑ i, w i * ∑ b, k i b = ∑ i, (∑ b, k i b) * w i := Finset.sum_congr rfl fun i _ => mul_comm _ _
  rw [e3] at hin ⊢
  have cnt : ∀ b, |∑ i, k' i b * w' i - ∑ i, k i b * w i| ≤ (η + ε) * ∑ i, w i :=
    fun b => gen (fun i => k i b) (fun i => k' i b) (fun i => hk0 i b) (fun i => hk1' i b) (fun i => hη i b)
  clear gen hη hη' e3
  rw [lt_div_iff₀ hpos] at hin
  generalize hT : ∑ i, (∑ b, k i b) * w i = T at *
  generalize hT' : ∑ i, (∑ b, k' i b) * w' i = T' at *
  generalize hW : ∑ i, w i = W at *
  have t := abs_le.1 tot
  have Tp : 0 < T := by
    have := (abs_nonneg _).trans tot
    linarith
  have Tp' : 0 < T' := by linarith
  refine ⟨fun b => (∑ i, k i b * w i) / T, fun b => (∑ i, k' i b * w' i) / T', ?_, ?_, ?_, ?_, ?_⟩
  · rw [normalise, s1, if_neg Tp.ne']
  · rw [normalise, s2, if_neg Tp'.ne']
  · rw [lt_div_iff₀ hpos]; exact hin
  · rw [s2, sub_mul, div_mul_cancel₀ _ hpos.ne']; linarith
  · intro b
    have c := cnt b
    have g0 : 0 ≤ ∑ i, k' i b * w' i := Finset.sum_nonneg fun i _ => mul_nonneg (hk0 i b) (hw' i)
    have g1 : ∑ i, k' i b * w' i ≤ T' := by
      rw [← s2]
      exact Finset.single_le_sum (f := fun b => ∑ i, k' i b * w' i) (fun b _ => Finset.sum_nonneg fun i _ => mul_nonneg (hk0 i b) (hw' i)) (Finset.mem_univ b)
    show |(∑ i, k' i b * w' i) / T' - (∑ i, k i b * w i) / T| ≤ _
    generalize ∑ i, k' i b * w' i = c' at *
    generalize ∑ i, k i b * w i = c0 at *
    have e : c' / T' - c0 / T = ((c' - c0) + c' / T' * (T - T')) / T := by
      field_simp
      ring
    rw [e, abs_div, abs_of_pos Tp, div_le_iff₀ Tp]
    have e2 : 2 * (η + ε) / (T / W) * T = 2 * ((η + ε) * W) := by
      field_simp
    rw [e2]
    refine (abs_add_le _ _).trans ?_
    have r0 : 0 ≤ c' / T' := div_nonneg g0 Tp'.le
    have r1 : c' / T' ≤ 1 := (div_le_one Tp').2 g1
    have : |c' / T' * (T - T')| ≤ (η + ε) * W := by
      rw [abs_mul, abs_of_nonneg r0, abs_sub_comm]
      exact (mul_le_of_le_one_left (abs_nonneg _) r1).trans tot
    linarith

private theorem meanDiff_eq' {nb : ℕ} (bins : Fin (nb + 1) → ℝ) : meanDiff bins = (bins (Fin.last nb) - bins 0) / nb := by
  unfold meanDiff
  congr 1
  have : ∀ (m : ℕ) (e : Fin (m + 1) → ℝ), ∑ j : Fin m, (e j.succ - e j.castSucc) = e (Fin.last m) - e 0 := by
    intro m
    induction m with
    | zero => intro e; simp
    | succ m ih =>
      intro e
      rw [Fin.sum_univ_castSucc]
      have := ih fun j => e j.castSucc
      simp only [Fin.castSucc_zero] at this
      rw [show (∑ i : Fin m, (e i.castSucc.succ - e i.castSucc.castSucc)) = ∑ i : Fin m, (e i.succ.castSucc - e i.castSucc.castSucc) from rfl, this]
      simp
  exact this nb bins

end Diffstar.Props

namespace Diffstar.Spec

/-- Share of the weight of the galaxies inside the bins, as seen with the smoothing of the histogram (one mean bin width). -/
noncomputable def shareInside {N nb : ℕ} (bins : Fin (nb + 1) → ℝ) (x w : Fin N → ℝ) : ℝ :=
  (∑ i, w i * NdHist.twBinWeightLaxKern (x i) ((bins (Fin.last nb) - bins 0) / nb) (bins 0) (bins (Fin.last nb))) / ∑ i, w i

end Diffstar.Spec

namespace Diffstar.Props

open Diffstar Diffstar.Spec Diffstar.Pop Diffstar.PopLoss

theorem width_pos {nb : ℕ} {bins : Fin (nb + 1) → ℝ} (hb : StrictMono bins) (hn : 0 < nb) : 0 < (bins (Fin.last nb) - bins 0) / nb := by
  rw [← meanDiff_eq']
  exact meanDiff_pos hb hn

/-- **C150**, histogram: masses off by `δ` dex and weights off by a share `ε`. -/
theorem C150_histogram {N nb : ℕ} (hn : 0 < nb) (bins : Fin (nb + 1) → ℝ) (hb : StrictMono bins) (x x' w w' : Fin N → ℝ) {δ ε : ℝ}
    (hx : ∀ i, |x' i - x i| ≤ δ) (hw : ∀ i, 0 ≤ w i) (hw' : ∀ i, 0 ≤ w' i) (hpos : 0 < ∑ i, w i) (hε : ∑ i, |w' i - w i| ≤ ε * ∑ i, w i) :
    let σ := (bins (Fin.last nb) - bins 0) / nb
    35 / 96 * (δ / σ) + ε < shareInside bins x w →
    ∃ f f', diffHistMstar bins x w = some f ∧ diffHistMstar bins x' w' = some f' ∧
      ∀ b, |f' b - f b| ≤ 2 * (35 / 96 * (δ / σ) + ε) / shareInside bins x w := by
  intro σ hin
  have hσ : 0 < σ := width_pos hb hn
  have tot : ∀ x : ℝ, ∑ b : Fin nb, NdHist.twBinWeightLaxKern x σ (bins b.castSucc) (bins b.succ) =
      NdHist.twBinWeightLaxKern x σ (bins 0) (bins (Fin.last nb)) := fun x => ndBin_total x σ nb bins
  have sh : shareInside bins x w = (∑ i, w i * ∑ b : Fin nb, NdHist.twBinWeightLaxKern (x i) σ (bins b.castSucc) (bins b.succ)) / ∑ i, w i := by
    simp only [tot]; rfl
  have lip : ∀ i (lo hi : ℝ), |NdHist.twBinWeightLaxKern (x' i) σ lo hi - NdHist.twBinWeightLaxKern (x i) σ lo hi| ≤ 35 / 96 * (δ / σ) := fun i lo hi =>
    (ndBin_lip hσ).trans (mul_le_mul_of_nonneg_left (div_le_div_of_nonneg_right (hx i) hσ.le) (by norm_num))
  rw [sh] at hin ⊢
  rw [diffHistMstar_eq, diffHistMstar_eq, meanDiff_eq']
  obtain ⟨f, f', e, e', -, -, h⟩ := hist_lip (B := Fin nb) (k := fun i b => NdHist.twBinWeightLaxKern (x i) σ (bins b.castSucc) (bins b.succ))
    (k' := fun i b => NdHist.twBinWeightLaxKern (x' i) σ (bins b.castSucc) (bins b.succ)) (w := w) (w' := w') (η := 35 / 96 * (δ / σ)) (ε := ε)
    (fun i b => ndBin_nonneg hσ (hb.monotone (Fin.castSucc_lt_succ (i := b)).le)) (fun i => ndBin_sum_le_one nb bins) (fun i b => lip i _ _)
    (fun i => by rw [tot, tot]; exact lip i _ _) hw hw' hpos hε hin
  exact ⟨f, f', e, e', h⟩

theorem branch_abs {n : ℕ} (p p' : Fin n → ℝ) : ∑ j, |branchWeights p' j - branchWeights p j| = 2 * ∑ i, |p' i - p i| := by
  rw [Fin.sum_univ_add, Finset.mul_sum, ← Finset.sum_add_distrib]
  refine Finset.sum_congr rfl fun i _ => ?_
  rw [((C27_weights_sum p).1 i).1, ((C27_weights_sum p).1 i).2, ((C27_weights_sum p').1 i).1, ((C27_weights_sum p').1 i).2]
  have : 1 - p' i - (1 - p i) = -(p' i - p i) := by ring
  rw [this, abs_neg]
  ring

theorem branch_nonneg {n : ℕ} {p : Fin n → ℝ} (hp : ∀ i, 0 ≤ p i ∧ p i ≤ 1) (j : Fin (n + n)) : 0 ≤ branchWeights p j := by
  refine Fin.addCases (fun i => ?_) (fun i => ?_) j
  · rw [((C27_weights_sum p).1 i).1]; linarith [(hp i).2]
  · rw [((C27_weights_sum p).1 i).2]; exact (hp i).1

/-- **C150**, predicted stellar mass function of a population. -/
theorem C150_mass_function {n nb : ℕ} (hn : 0 < n) (hnb : 0 < nb) (bins : Fin (nb + 1) → ℝ) (hb : StrictMono bins) (tobs : ℝ) (gals gals' : Fin n → McSfh)
    (ms q ms' q' : Fin n → List ℝ) (hs : ∀ i, (gals i).sfhMs = some (ms i) ∧ (gals i).sfhQ = some (q i))
    (hs' : ∀ i, (gals' i).sfhMs = some (ms' i) ∧ (gals' i).sfhQ = some (q' i))
    (hf : ∀ i, 0 ≤ (gals i).fracQ ∧ (gals i).fracQ ≤ 1) (hf' : ∀ i, 0 ≤ (gals' i).fracQ ∧ (gals' i).fracQ ≤ 1) {δ ε : ℝ}
    (hδ : ∀ i, |logMassAt tobs (ms' i) - logMassAt tobs (ms i)| ≤ δ ∧ |logMassAt tobs (q' i) - logMassAt tobs (q i)| ≤ δ)
    (hε : ∀ i, |(gals' i).fracQ - (gals i).fracQ| ≤ ε) :
    let σ := (bins (Fin.last nb) - bins 0) / nb
    let inside := fun x => NdHist.twBinWeightLaxKern x σ (bins 0) (bins (Fin.last nb))
    let share := (∑ i, ((1 - (gals i).fracQ) * inside (logMassAt tobs (ms i)) + (gals i).fracQ * inside (logMassAt tobs (q i)))) / n
    35 / 96 * (δ / σ) + 2 * ε < share →
    ∃ f f', mstarPdf tobs gals bins = some f ∧ mstarPdf tobs gals' bins = some f' ∧
      ∀ b, |f' b - f b| ≤ 2 * (35 / 96 * (δ / σ) + 2 * ε) / share := by
  intro σ inside share hin
  have pdf : ∀ (g : Fin n → McSfh) (a c : Fin n → List ℝ), (∀ i, (g i).sfhMs = some (a i) ∧ (g i).sfhQ = some (c i)) →
      mstarPdf tobs g bins = diffHistMstar bins (Fin.append (fun i => logMassAt tobs (a i)) fun i => logMassAt tobs (c i))
        (branchWeights fun i => (g i).fracQ) := by
    intro g a c h
    have h1 : allSome (fun i => (g i).sfhMs) = some a := (allSome_eq_some ..).2 fun i => (h i).1
    have h2 : allSome (fun i => (g i).sfhQ) = some c := (allSome_eq_some ..).2 fun i => (h i).2
    rw [mstarPdf, h1, Option.bind_some, h2, Option.bind_some]
    rfl
  have hW : ∑ j, branchWeights (fun i => (gals i).fracQ) j = n := (C27_weights_sum _).2
  have hsh : shareInside bins (Fin.append (fun i => logMassAt tobs (ms i)) fun i => logMassAt tobs (q i)) (branchWeights fun i => (gals i).fracQ) = share := by
    rw [shareInside, hW, Fin.sum_univ_add, ← Finset.sum_add_distrib]
    simp only [Fin.append_left, Fin.append_right, ((C27_weights_sum _).1 _).1, ((C27_weights_sum _).1 _).2]
    rfl
  rw [pdf gals ms q hs, pdf gals' ms' q' hs', ← hsh]
  refine C150_histogram hnb bins hb _ _ _ _ ?_ (branch_nonneg hf) (branch_nonneg hf') (by rw [hW]; exact_mod_cast hn) ?_ (by rw [hsh]; exact hin)
  · intro j
    refine Fin.addCases (fun i => ?_) (fun i => ?_) j
    · rw [Fin.append_left, Fin.append_left]; exact (hδ i).1
    · rw [Fin.append_right, Fin.append_right]; exact (hδ i).2
  · rw [branch_abs, hW]
    have := Finset.sum_le_sum fun i (_ : i ∈ Finset.univ) => hε i
    rw [Finset.sum_const, Finset.card_univ, Fintype.card_fin, nsmul_eq_mul] at this
    linarith

/-- **C150**, joint histogram of stellar mass and specific star formation rate on a grid of bins. -/
theorem C150_joint {N nms nsf : ℕ} (hms : 0 < nms) (hsf : 0 < nsf) (mb : Fin (nms + 1) → ℝ) (hmb : StrictMono mb) (sb : Fin (nsf + 1) → ℝ)
    (hsb : StrictMono sb) (lo hi : Fin (nms * nsf) → Fin 2 → ℝ)
    (hg : ∀ a c, lo (finProdFinEquiv (a, c)) = ![mb a.castSucc, sb c.castSucc] ∧ hi (finProdFinEquiv (a, c)) = ![mb a.succ, sb c.succ])
    (x x' y y' w w' : Fin N → ℝ) {δ δ' ε : ℝ} (hx : ∀ i, |x' i - x i| ≤ δ) (hy : ∀ i, |y' i - y i| ≤ δ')
    (hw : ∀ i, 0 ≤ w i) (hw' : ∀ i, 0 ≤ w' i) (hpos : 0 < ∑ i, w i) (hε : ∑ i, |w' i - w i| ≤ ε * ∑ i, w i) :
    let σ := (mb (Fin.last nms) - mb 0) / nms
    let τ := (sb (Fin.last nsf) - sb 0) / nsf
    let share := (∑ i, w i * (NdHist.twBinWeightLaxKern (x i) σ (mb 0) (mb (Fin.last nms)) * NdHist.twBinWeightLaxKern (y i) τ (sb 0) (sb (Fin.last nsf)))) / ∑ i, w i
    35 / 96 * (δ / σ + δ' / τ) + ε < share →
    ∃ f f', diffHistMstarSsfr x y w lo hi mb sb = some f ∧ diffHistMstarSsfr x' y' w' lo hi mb sb = some f' ∧
      ∀ b, |f' b - f b| ≤ 2 * (35 / 96 * (δ / σ + δ' / τ) + ε) / share := by
  intro σ τ share hin
  have hσ : 0 < σ := width_pos hmb hms
  have hτ : 0 < τ := width_pos hsb hsf
  have eq : ∀ x y w : Fin N → ℝ, diffHistMstarSsfr x y w lo hi mb sb = normalise fun b => ∑ i,
      NdHist.twBinWeightLaxKern (x i) σ (lo b 0) (hi b 0) * NdHist.twBinWeightLaxKern (y i) τ (lo b 1) (hi b 1) * w i := by
    intro x y w
    simp only [diffHistMstarSsfr, add_zero, meanDiff_eq']
    congr 1
    funext b
    simp only [NdHist.twNdhistWeighted, NdHist.twNdhistWeightedKern, NdHist.twNdhistWeightedSumKern, Fin.prod_univ_two]
    rfl
  have tot : ∀ x y : ℝ, ∑ b, NdHist.twBinWeightLaxKern x σ (lo b 0) (hi b 0) * NdHist.twBinWeightLaxKern y τ (lo b 1) (hi b 1) =
      NdHist.twBinWeightLaxKern x σ (mb 0) (mb (Fin.last nms)) * NdHist.twBinWeightLaxKern y τ (sb 0) (sb (Fin.last nsf)) := by
    intro x y
    rw [← Equiv.sum_comp finProdFinEquiv, Fintype.sum_prod_type, ← ndBin_total x σ nms mb, ← ndBin_total y τ nsf sb, Finset.sum_mul_sum]
    refine Finset.sum_congr rfl fun a _ => Finset.sum_congr rfl fun c _ => ?_
    rw [(hg a c).1, (hg a c).2]
    rfl
  have ord : ∀ b, lo b 0 ≤ hi b 0 ∧ lo b 1 ≤ hi b 1 := by
    intro b
    obtain ⟨⟨a, c⟩, rfl⟩ := finProdFinEquiv.surjective b
    rw [(hg a c).1, (hg a c).2]
    exact ⟨hmb.monotone (Fin.castSucc_lt_succ (i := a)).le, hsb.monotone (Fin.castSucc_lt_succ (i := c)).le⟩
  have lip : ∀ i (a b c d : ℝ), a ≤ b → c ≤ d →
      |NdHist.twBinWeightLaxKern (x' i) σ a b * NdHist.twBinWeightLaxKern (y' i) τ c d -
        NdHist.twBinWeightLaxKern (x i) σ a b * NdHist.twBinWeightLaxKern (y i) τ c d| ≤ 35 / 96 * (δ / σ + δ' / τ) := by
    intro i a b c d hab hcd
    have g1 : |NdHist.twBinWeightLaxKern (x' i) σ a b - NdHist.twBinWeightLaxKern (x i) σ a b| ≤ 35 / 96 * (δ / σ) :=
      (ndBin_lip hσ).trans (mul_le_mul_of_nonneg_left (div_le_div_of_nonneg_right (hx i) hσ.le) (by norm_num))
    have g2 : |NdHist.twBinWeightLaxKern (y' i) τ c d - NdHist.twBinWeightLaxKern (y i) τ c d| ≤ 35 / 96 * (δ' / τ) :=
      (ndBin_lip hτ).trans (mul_le_mul_of_nonneg_left (div_le_div_of_nonneg_right (hy i) hτ.le) (by norm_num))
    have p1 := ndBin_nonneg (x := x i) hσ hab
    have p2 := ndBin_le_one (x i) σ a b
    have p3 := ndBin_nonneg (x := y' i) hτ hcd
    have p4 := ndBin_le_one (y' i) τ c d
    generalize NdHist.twBinWeightLaxKern (x' i) σ a b = A' at *
    generalize NdHist.twBinWeightLaxKern (x i) σ a b = A at *
    generalize NdHist.twBinWeightLaxKern (y' i) τ c d = C' at *
    generalize NdHist.twBinWeightLaxKern (y i) τ c d = C at *
    have e : A' * C' - A * C = (A' - A) * C' + A * (C' - C) := by ring
    rw [e, mul_add]
    refine (abs_add_le _ _).trans (add_le_add ?_ ?_)
    · rw [abs_mul, abs_of_nonneg p3]
      exact (mul_le_of_le_one_right (abs_nonneg _) p4).trans g1
    · rw [abs_mul, abs_of_nonneg p1]
      exact (mul_le_of_le_one_left (abs_nonneg _) p2).trans g2
  have m0 : mb 0 ≤ mb (Fin.last nms) := hmb.monotone (Fin.zero_le _)
  have s0 : sb 0 ≤ sb (Fin.last nsf) := hsb.monotone (Fin.zero_le _)
  have sh : share = (∑ i, w i * ∑ b, NdHist.twBinWeightLaxKern (x i) σ (lo b 0) (hi b 0) * NdHist.twBinWeightLaxKern (y i) τ (lo b 1) (hi b 1)) / ∑ i, w i := by
    simp only [tot]; rfl
  rw [sh] at hin ⊢
  rw [eq, eq]
  obtain ⟨f, f', e, e', -, -, h⟩ := hist_lip (B := Fin (nms * nsf))
    (k := fun i b => NdHist.twBinWeightLaxKern (x i) σ (lo b 0) (hi b 0) * NdHist.twBinWeightLaxKern (y i) τ (lo b 1) (hi b 1))
    (k' := fun i b => NdHist.twBinWeightLaxKern (x' i) σ (lo b 0) (hi b 0) * NdHist.twBinWeightLaxKern (y' i) τ (lo b 1) (hi b 1)) (w := w) (w' := w')
    (η := 35 / 96 * (δ / σ + δ' / τ)) (ε := ε) (fun i b => mul_nonneg (ndBin_nonneg hσ (ord b).1) (ndBin_nonneg hτ (ord b).2))
    (fun i => by
      rw [tot]
      exact mul_le_one₀ (ndBin_le_one ..) (ndBin_nonneg hτ s0) (ndBin_le_one ..))
    (fun i b => lip i _ _ _ _ (ord b).1 (ord b).2) (fun i => by rw [tot, tot]; exact lip i _ _ _ _ m0 s0) hw hw' hpos hε hin
  exact ⟨f, f', e, e', h⟩

/-- **C150**, conditional distributions of the specific star formation rate. -/
theorem C150_conditional {nk nm nms nsf nt : ℕ} (f f' : Fin nk → Fin nms → Fin nsf → ℝ) (indx : Fin nm → Fin nk) (w : Fin nm → ℝ) (hw : ∀ m, 0 ≤ w m)
    (ids : Fin nt → Fin nms) (hf' : ∀ k a b, 0 ≤ f' k a b) {D : ℝ} (hD : ∀ k a b, |f' k a b - f k a b| ≤ D) (t : Fin nt) :
    let share := ∑ b, ∑ m, f (indx m) (ids t) b * w m
    nsf * (D * ∑ m, w m) < share → 0 < nsf →
    ∀ b, ∃ v v', conditional (mixBins (fun k => some (f k)) indx w) ids t b = some v ∧ conditional (mixBins (fun k => some (f' k)) indx w) ids t b = some v' ∧
      |v' - v| ≤ (nsf + 1) * (D * ∑ m, w m) / share := by
  intro share hs hn b
  have mix : ∀ f : Fin nk → Fin nms → Fin nsf → ℝ, mixBins (fun k => some (f k)) indx w = some fun a b => ∑ m, f (indx m) a b * w m := by
    intro f
    have : allSome (fun m => some (f (indx m))) = some fun m => f (indx m) := (allSome_eq_some ..).2 fun m => rfl
    rw [mixBins, this]
    rfl
  have d : ∀ b, |∑ m, f' (indx m) (ids t) b * w m - ∑ m, f (indx m) (ids t) b * w m| ≤ D * ∑ m, w m := by
    intro b
    rw [← Finset.sum_sub_distrib, Finset.mul_sum]
    refine (Finset.abs_sum_le_sum_abs _ _).trans (Finset.sum_le_sum fun m _ => ?_)
    rw [← sub_mul, abs_mul, abs_of_nonneg (hw m)]
    exact mul_le_mul_of_nonneg_right (hD ..) (hw m)
  have tot : |∑ b, ∑ m, f' (indx m) (ids t) b * w m - share| ≤ nsf * (D * ∑ m, w m) := by
    rw [← Finset.sum_sub_distrib]
    refine (Finset.abs_sum_le_sum_abs _ _).trans ((Finset.sum_le_sum fun b _ => d b).trans (le_of_eq ?_))
    rw [Finset.sum_const, Finset.card_univ, Fintype.card_fin, nsmul_eq_mul]
  have D0 : 0 ≤ D * ∑ m, w m := (abs_nonneg _).trans (d b)
  have Tp : 0 < share := lt_of_le_of_lt (by positivity) hs
  have Tp' : 0 < ∑ b, ∑ m, f' (indx m) (ids t) b * w m := by linarith [(abs_le.1 tot).1]
  have r : ∀ b, 0 ≤ ∑ m, f' (indx m) (ids t) b * w m := fun b => Finset.sum_nonneg fun m _ => mul_nonneg (hf' ..) (hw m)
  have r1 := Finset.single_le_sum (fun b _ => r b) (Finset.mem_univ b)
  refine ⟨(∑ m, f (indx m) (ids t) b * w m) / share, (∑ m, f' (indx m) (ids t) b * w m) / ∑ b, ∑ m, f' (indx m) (ids t) b * w m, ?_, ?_, ?_⟩
  · rw [mix, conditional, Option.bind_some]
    exact if_neg Tp.ne'
  · rw [mix, conditional, Option.bind_some]
    exact if_neg Tp'.ne'
  · have db := d b
    have rb := r b
    generalize ∑ b, ∑ m, f' (indx m) (ids t) b * w m = T' at *
    generalize ∑ m, f' (indx m) (ids t) b * w m = c' at *
    generalize ∑ m, f (indx m) (ids t) b * w m = c0 at *
    clear_value share
    have e : c' / T' - c0 / share = ((c' - c0) + c' / T' * (share - T')) / share := by
      field_simp
      ring
    rw [e, abs_div, abs_of_pos Tp]
    refine div_le_div_of_nonneg_right ((abs_add_le _ _).trans ?_) Tp.le
    have : |c' / T' * (share - T')| ≤ nsf * (D * ∑ m, w m) := by
      rw [abs_mul, abs_of_nonneg (div_nonneg rb Tp'.le), abs_sub_comm]
      exact (mul_le_of_le_one_left (abs_nonneg _) ((div_le_one Tp').2 r1)).trans tot
    linarith

example : (∀ (k : Fin 1) (a : Fin 1) (b : Fin 2), |(fun (_ : Fin 1) (_ : Fin 1) (b : Fin 2) => (![0.49, 0.51] b : ℝ)) k a b - 0.5| ≤ 0.01) ∧
    ((2 : ℕ) : ℝ) * (0.01 * ∑ _m : Fin 1, 1) < ∑ _b : Fin 2, ∑ _m : Fin 1, 0.5 * 1 := by
  refine ⟨?_, by norm_num⟩
  intro k a b
  fin_cases b <;> norm_num [abs_le]

theorem rms_le {ι : Type*} [Fintype ι] (a b : ι → ℝ) {D : ℝ} (hD : 0 ≤ D) (h : ∀ i, |b i - a i| ≤ D) (hc : 0 < Fintype.card ι) :
    √((∑ i, b i ^ 2) / Fintype.card ι) ≤ √((∑ i, a i ^ 2) / Fintype.card ι) + D := by
  have hN : (0 : ℝ) < Fintype.card ι := by exact_mod_cast hc
  have hA : 0 ≤ (∑ i, a i ^ 2) / Fintype.card ι := div_nonneg (Finset.sum_nonneg fun i _ => sq_nonneg _) hN.le
  rw [Real.sqrt_le_left (by positivity), div_le_iff₀ hN]
  have h1 : ∑ i, b i ^ 2 ≤ ∑ i, (a i ^ 2 + 2 * D * |a i| + D ^ 2) := by
    refine Finset.sum_le_sum fun i _ => ?_
    have : |b i| ≤ |a i| + D := by
      have := abs_sub_abs_le_abs_sub (b i) (a i)
      linarith [h i]
    rw [← sq_abs (b i), ← sq_abs (a i)]
    nlinarith [abs_nonneg (b i), abs_nonneg (a i)]
  rw [Finset.sum_add_distrib, Finset.sum_add_distrib, ← Finset.mul_sum, Finset.sum_const, Finset.card_univ, nsmul_eq_mul] at h1
  have h2 : ∑ i, |a i| ≤ Fintype.card ι * √((∑ i, a i ^ 2) / Fintype.card ι) := by
    have := sq_sum_le_card_mul_sum_sq (s := Finset.univ) (f := fun i => |a i|)
    simp only [sq_abs, Finset.card_univ] at this
    refine le_of_pow_le_pow_left₀ two_ne_zero (by positivity) ?_
    rw [mul_pow, Real.sq_sqrt hA]
    refine this.trans (le_of_eq ?_)
    field_simp
  have h3 := Real.sq_sqrt hA
  have h4 : (∑ i, a i ^ 2) = √((∑ i, a i ^ 2) / Fintype.card ι) ^ 2 * Fintype.card ι := by rw [h3, div_mul_cancel₀ _ hN.ne']
  generalize √((∑ i, a i ^ 2) / Fintype.card ι) = r at *
  rw [h4] at h1
  nlinarith

/-- **C150**, loss: square roots of mean squared differences to the same target. -/
theorem C150_loss {K : Type} {nk n nb : ℕ} (rng : Rng K) (logMah logMah' : MahParams ℝ → ℝ → ℝ → ℝ) (u u' : PF → ℝ) (d d' : MstarData K nk n nb)
    (ht : d'.target = d.target) {v v' D : ℝ} (h : lossMstar rng logMah u d = some v) (h' : lossMstar rng logMah' u' d' = some v')
    (hD : ∀ k f f', mstarKernTobs rng logMah u d.samples d.lgt0 d.fb d.bins k = some f →
      mstarKernTobs rng logMah' u' d'.samples d'.lgt0 d'.fb d'.bins k = some f' → ∀ b, |f' b - f b| ≤ D) (h0 : 0 ≤ D) :
    |Real.sqrt (v' / 1000) - Real.sqrt (v / 1000)| ≤ D := by
  obtain ⟨-, -, f, hf, e⟩ := C28_loss_mstar rng logMah u d v h
  obtain ⟨-, -, f', hf', e'⟩ := C28_loss_mstar rng logMah' u' d' v' h'
  rw [ht] at e'
  have hc : 0 < Fintype.card (Fin nk × Fin nb) := by
    rw [Nat.pos_iff_ne_zero]
    intro hc
    simp only [lossMstar, mse, Option.map_eq_some_iff, Option.bind_eq_some_iff, if_pos hc] at h
    obtain ⟨_, ⟨_, _, h⟩, _⟩ := h
    cases h
  have hN : (0 : ℝ) < Fintype.card (Fin nk × Fin nb) := by exact_mod_cast hc
  have hN' : (Fintype.card (Fin nk × Fin nb) : ℝ) = nk * nb := by
    rw [Fintype.card_prod, Fintype.card_fin, Fintype.card_fin, Nat.cast_mul]
  have q : v / 1000 = (∑ i : Fin nk × Fin nb, (f i.1 i.2 - d.target i.1 i.2) ^ 2) / Fintype.card (Fin nk × Fin nb) := by
    rw [eq_div_iff hN.ne', Fintype.sum_prod_type, hN']
    linarith
  have q' : v' / 1000 = (∑ i : Fin nk × Fin nb, (f' i.1 i.2 - d.target i.1 i.2) ^ 2) / Fintype.card (Fin nk × Fin nb) := by
    rw [eq_div_iff hN.ne', Fintype.sum_prod_type, hN']
    linarith
  have hd : ∀ i : Fin nk × Fin nb, |f' i.1 i.2 - f i.1 i.2| ≤ D := fun i => hD i.1 (f i.1) (f' i.1) (hf i.1) (hf' i.1) i.2
  have a := rms_le (fun i : Fin nk × Fin nb => f i.1 i.2 - d.target i.1 i.2) (fun i => f' i.1 i.2 - d.target i.1 i.2) h0
    (fun i => by rw [show f' i.1 i.2 - d.target i.1 i.2 - (f i.1 i.2 - d.target i.1 i.2) = f' i.1 i.2 - f i.1 i.2 by ring]; exact hd i) hc
  have b := rms_le (fun i : Fin nk × Fin nb => f' i.1 i.2 - d.target i.1 i.2) (fun i => f i.1 i.2 - d.target i.1 i.2) h0
    (fun i => by rw [show f i.1 i.2 - d.target i.1 i.2 - (f' i.1 i.2 - d.target i.1 i.2) = -(f' i.1 i.2 - f i.1 i.2) by ring, abs_neg]; exact hd i) hc
  rw [q, q', abs_le]
  constructor <;> linarith

theorem last_close {l l' : List ℝ} {c : ℝ} (h : List.Forall₂ (fun x x' : ℝ => x' ≤ (10 : ℝ) ^ c * x ∧ x ≤ (10 : ℝ) ^ c * x') l l')
    (hp : ∀ x ∈ l, 0 < x) (hp' : ∀ x ∈ l', 0 < x) (hc : 0 ≤ c) : |Real.logb 10 (l'.getLastD 0) - Real.logb 10 (l.getLastD 0)| ≤ c := by
  have hl := h.length_eq
  rcases l.eq_nil_or_concat with rfl | ⟨a, x, rfl⟩
  · cases h
    simpa using hc
  rcases l'.eq_nil_or_concat with rfl | ⟨a', x', rfl⟩
  · simp at hl
  simp only [List.concat_eq_append, List.length_append, List.length_singleton, add_left_inj] at *
  rw [List.getLastD_concat, List.getLastD_concat]
  have hx : x' ≤ (10 : ℝ) ^ c * x ∧ x ≤ (10 : ℝ) ^ c * x' := by
    have := h.get (i := a.length) (by simp) (by simp [hl])
    simpa [hl] using this
  have px : 0 < x := hp x (by simp)
  have px' : 0 < x' := hp' x' (by simp)
  have key : ∀ {y z : ℝ}, 0 < y → 0 < z → y ≤ (10 : ℝ) ^ c * z → Real.logb 10 y ≤ c + Real.logb 10 z := by
    intro y z hy hz h
    have := Real.logb_le_logb_of_le (by norm_num : (1 : ℝ) < 10) hy h
    rwa [Real.logb_mul (by positivity) hz.ne', Real.logb_rpow (by norm_num) (by norm_num)] at this
  rw [abs_le]
  constructor <;> linarith [key px px' hx.2, key px' px hx.1]

/-- **C150**, halo histories: the same draws for halos whose histories differ by at most `δ` dex at the 20 times. -/
theorem C150_halo_histories {K : Type} {n nb : ℕ} (hn : 0 < n) (hnb : 0 < nb) (bins : Fin (nb + 1) → ℝ) (hb : StrictMono bins) (rng : Rng K)
    (logMah logMah' : MahParams ℝ → ℝ → ℝ → ℝ) (u : PF → ℝ) (h : HaloSample K n) (mah' : MahParams (Fin n → ℝ)) (htp : mah'.tPeak = h.mah.tPeak)
    (lgt0 lgt0' fb : ℝ) (hfb : 0 < fb) (ht : 0.1 < h.tobs) {δ : ℝ} (hδ : 0 ≤ δ)
    (hm : ∀ i, ∀ t ∈ obsTimes h.tobs, |logMah (h.mah.row i) t lgt0 - logMah' (mah'.row i) t lgt0'| ≤ δ) :
    let gals := mcSample rng logMah (getBoundedDiffstarpopParams u) h lgt0 fb
    let gals' := mcSample rng logMah' (getBoundedDiffstarpopParams u) { h with mah := mah' } lgt0' fb
    let σ := (bins (Fin.last nb) - bins 0) / nb
    let inside := fun x => NdHist.twBinWeightLaxKern x σ (bins 0) (bins (Fin.last nb))
    ∀ ms q : Fin n → List ℝ, (∀ i, (gals i).sfhMs = some (ms i) ∧ (gals i).sfhQ = some (q i)) →
    let share := (∑ i, ((1 - (gals i).fracQ) * inside (logMassAt h.tobs (ms i)) + (gals i).fracQ * inside (logMassAt h.tobs (q i)))) / n
    2.6 * (δ / σ) < share →
    ∃ f f', mstarPdf h.tobs gals bins = some f ∧ mstarPdf h.tobs gals' bins = some f' ∧ ∀ b, |f' b - f b| ≤ 5.2 * (δ / σ) / share := by
  intro gals gals' σ inside ms q hs share hin
  have hσ : 0 < σ := width_pos hb hnb
  have hq : 0 ≤ δ / σ := div_nonneg hδ hσ.le
  obtain ⟨tl, ti, t0, -⟩ := C27_observables_positive rng logMah (getBoundedDiffstarpopParams u) h lgt0 fb ht ⟨0, hn⟩ (ms ⟨0, hn⟩) (Or.inl (hs _).1)
  have inc : Increasing (0.001 :: obsTimes h.tobs) := by
    cases hl : obsTimes h.tobs with
    | nil => rw [hl] at tl; cases tl
    | cons a l =>
      rw [hl] at t0 ti
      obtain rfl : a = 0.1 := by simpa using t0
      unfold Increasing at ti ⊢
      refine List.pairwise_cons.2 ⟨fun x hx => ?_, ti⟩
      rcases List.mem_cons.1 hx with rfl | hx
      · norm_num
      · exact lt_trans (by norm_num) ((List.pairwise_cons.1 ti).1 x hx)
  have close : ∀ i v, |logMassAt h.tobs (sfhSinglegalKern logMah' (obsTimes h.tobs) (mah'.row i) (getBoundedDiffstarParams v).ms
      (getBoundedDiffstarParams v).q lgt0' fb) - logMassAt h.tobs (sfhSinglegalKern logMah (obsTimes h.tobs) (h.mah.row i) (getBoundedDiffstarParams v).ms
      (getBoundedDiffstarParams v).q lgt0 fb)| ≤ 7 * δ := by
    intro i v
    have pos : ∀ (L : MahParams ℝ → ℝ → ℝ → ℝ) (M : MahParams ℝ) (l : ℝ), ∀ m ∈ cumulativeMstarFormed (obsTimes h.tobs)
        (sfhSinglegalKern L (obsTimes h.tobs) M (getBoundedDiffstarParams v).ms (getBoundedDiffstarParams v).q l fb), 0 < m := by
      intro L M l
      have e := calcSfhSinglegal_eq L (getBoundedDiffstarParams v) M (obsTimes h.tobs) l fb
      unfold calcSfhSinglegal at e
      refine ((C12_smh_increasing _ _ (by rw [e, List.length_map]) inc).1 ?_).2.1
      rw [e]
      intro y hy
      obtain ⟨t, -, rfl⟩ := List.mem_map.1 hy
      exact lt_of_lt_of_le (by norm_num [SFR_MIN]) (le_max_left _ _)
    exact last_close (C146_histories_bounded logMah logMah' v (h.mah.row i) (mah'.row i) (obsTimes h.tobs) inc lgt0 lgt0' fb hfb hδ one_pos (hm i)).2.1
      (pos _ _ _) (pos _ _ _) (by positivity)
  have hp : ∀ i, (gals' i).paramsMs = (gals i).paramsMs ∧ (gals' i).paramsQ = (gals i).paramsQ ∧ (gals' i).fracQ = (gals i).fracQ := by
    intro i
    simp only [gals', gals, mcSample, mcDiffstarSfhGalpop, htp]
    exact ⟨trivial, trivial, trivial⟩
  have ex : ∀ i, ∃ a b, ((gals' i).sfhMs = some a ∧ (gals' i).sfhQ = some b) ∧ |logMassAt h.tobs a - logMassAt h.tobs (ms i)| ≤ 7 * δ ∧
      |logMassAt h.tobs b - logMassAt h.tobs (q i)| ≤ 7 * δ := by
    intro i
    obtain ⟨q1, e1, h1⟩ := Option.map_eq_some_iff.1 (show ((gals i).paramsMs.map fun q => sfhSinglegalKern logMah (obsTimes h.tobs) (h.mah.row i) q.ms q.q lgt0 fb) =
      some (ms i) from (hs i).1)
    obtain ⟨q2, e2, h2⟩ := Option.map_eq_some_iff.1 (show ((gals i).paramsQ.map fun q => sfhSinglegalKern logMah (obsTimes h.tobs) (h.mah.row i) q.ms q.q lgt0 fb) =
      some (q i) from (hs i).2)
    obtain ⟨v1, -, rfl⟩ := Option.map_eq_some_iff.1 e1
    obtain ⟨v2, -, rfl⟩ := Option.map_eq_some_iff.1 e2
    refine ⟨sfhSinglegalKern logMah' (obsTimes h.tobs) (mah'.row i) (getBoundedDiffstarParams v1).ms (getBoundedDiffstarParams v1).q lgt0' fb,
      sfhSinglegalKern logMah' (obsTimes h.tobs) (mah'.row i) (getBoundedDiffstarParams v2).ms (getBoundedDiffstarParams v2).q lgt0' fb, ⟨?_, ?_⟩, ?_, ?_⟩
    · show ((gals' i).paramsMs.map fun q => sfhSinglegalKern logMah' (obsTimes h.tobs) (mah'.row i) q.ms q.q lgt0' fb) = _
      rw [(hp i).1, e1]; rfl
    · show ((gals' i).paramsQ.map fun q => sfhSinglegalKern logMah' (obsTimes h.tobs) (mah'.row i) q.ms q.q lgt0' fb) = _
      rw [(hp i).2.1, e2]; rfl
    · rw [← h1]; exact close i v1
    · rw [← h2]; exact close i v2
  choose ms' q' hs' c1 c2 using ex
  have fr : ∀ i, 0 ≤ (gals i).fracQ ∧ (gals i).fracQ ≤ 1 := fun i => And.imp le_of_lt le_of_lt (sample_frac rng logMah u h lgt0 fb i)
  obtain ⟨f, f', g, g', hd⟩ := C150_mass_function hn hnb bins hb h.tobs gals gals' ms q ms' q' hs hs' fr (fun i => by rw [(hp i).2.2]; exact fr i)
    (δ := 7 * δ) (ε := 0) (fun i => ⟨c1 i, c2 i⟩) (fun i => by rw [(hp i).2.2, sub_self, abs_zero]) (by
      rw [mul_div_assoc]
      refine lt_of_le_of_lt ?_ hin
      show 35 / 96 * (7 * (δ / σ)) + 2 * 0 ≤ _
      linarith)
  refine ⟨f, f', g, g', fun b => (hd b).trans ?_⟩
  refine div_le_div_of_nonneg_right ?_ ?_
  · rw [mul_div_assoc]
    show 2 * (35 / 96 * (7 * (δ / σ)) + 2 * 0) ≤ _
    linarith
  · exact le_trans (by positivity) hin.le

/-- **C150**, single precision: the histogram of C139 with masses off by `δ` dex and weights off by a share `ε`. -/
theorem C150_single_precision (R : Rounding) (hu : R.u ≤ 2 ^ (-24 : ℤ)) {N nb : ℕ} (hn : 0 < nb) (bins : Fin (nb + 1) → ℝ) (hb : StrictMono bins)
    (x x' w w' : Fin N → ℝ) {δ ε : ℝ} (hδ : 0 ≤ δ) (hx : ∀ i, |x' i - x i| ≤ δ) (hw : ∀ i, 0 ≤ w i) (hw' : ∀ i, 0 ≤ w' i) (hpos : 0 < ∑ i, w i)
    (hpos' : 0 < ∑ i, w' i) (hε : ∑ i, |w' i - w i| ≤ ε * ∑ i, w i)
    (he : 9 / 10 ^ 6 * nb + 3 / 10 ^ 7 * nb ^ 2 + 1 / 10 ^ 7 * N ≤ (1 / 20 : ℝ)) (pdf : Option (Fin nb → ℝ)) (h : R.IsDiffHistMstar bins x' w' pdf) :
    let σ := (bins (Fin.last nb) - bins 0) / nb
    1 / 2 + 35 / 96 * (δ / σ) + 1.5 * ε ≤ shareInside bins x w →
    ∃ f g, diffHistMstar bins x w = some f ∧ pdf = some g ∧
      ∀ b, |g b - f b| ≤ 4 * (35 / 96 * (δ / σ) + ε) + (4.5 / 10 ^ 5 * nb + 1.5 / 10 ^ 6 * nb ^ 2 + 5 / 10 ^ 7 * N) := by
  intro σ hin
  have hσ : 0 < σ := width_pos hb hn
  have ε0 : 0 ≤ ε := by
    by_contra hc
    have := Finset.sum_nonneg fun i (_ : i ∈ Finset.univ) => abs_nonneg (w' i - w i)
    nlinarith
  have η0 : 0 ≤ 35 / 96 * (δ / σ) := by positivity
  obtain ⟨f, f', e, e', hd⟩ := C150_histogram hn bins hb x x' w w' hx hw hw' hpos hε (show 35 / 96 * (δ / σ) + ε < _ by linarith)
  have hin' : ∑ i, w' i ≤ 2 * ∑ b : Fin nb, ∑ i, w' i * NdHist.twBinWeightLaxKern (x' i) σ (bins b.castSucc) (bins b.succ) := by
    have s : ∑ b : Fin nb, ∑ i, w' i * NdHist.twBinWeightLaxKern (x' i) σ (bins b.castSucc) (bins b.succ) =
        ∑ i, w' i * NdHist.twBinWeightLaxKern (x' i) σ (bins 0) (bins (Fin.last nb)) := by
      rw [Finset.sum_comm]
      refine Finset.sum_congr rfl fun i _ => ?_
      rw [← Finset.mul_sum, ndBin_total]
    rw [s]
    have a : ∀ i ∈ Finset.univ, w i * NdHist.twBinWeightLaxKern (x i) σ (bins 0) (bins (Fin.last nb)) - 35 / 96 * (δ / σ) * w i - |w' i - w i| ≤
        w' i * NdHist.twBinWeightLaxKern (x' i) σ (bins 0) (bins (Fin.last nb)) := by
      intro i _
      have l := abs_le.1 ((ndBin_lip (x := x i) (x' := x' i) (lo := bins 0) (hi := bins (Fin.last nb)) hσ).trans
        (mul_le_mul_of_nonneg_left (div_le_div_of_nonneg_right (hx i) hσ.le) (by norm_num)))
      have p3 := ndBin_nonneg (x := x' i) hσ (hb.monotone (Fin.zero_le (Fin.last nb)))
      have p4 := ndBin_le_one (x' i) σ (bins 0) (bins (Fin.last nb))
      have c := abs_le.1 (le_refl |w' i - w i|)
      generalize NdHist.twBinWeightLaxKern (x' i) σ (bins 0) (bins (Fin.last nb)) = A' at *
      generalize NdHist.twBinWeightLaxKern (x i) σ (bins 0) (bins (Fin.last nb)) = A at *
      generalize |w' i - w i| = D at *
      have hwi := hw i
      nlinarith [mul_nonneg hwi (show 0 ≤ A' - A + 35 / 96 * (δ / σ) by linarith [l.1]), mul_nonneg p3 (show 0 ≤ w' i - w i + D by linarith [c.1]),
        mul_nonneg (show 0 ≤ D by linarith [c.1, c.2]) (show 0 ≤ 1 - A' by linarith)]
    have a := Finset.sum_le_sum a
    rw [Finset.sum_sub_distrib, Finset.sum_sub_distrib, ← Finset.mul_sum] at a
    have b : ∑ i, w' i ≤ ∑ i, w i + ∑ i, |w' i - w i| := by
      rw [← Finset.sum_add_distrib]
      exact Finset.sum_le_sum fun i _ => by linarith [le_abs_self (w' i - w i)]
    have c := hin
    rw [shareInside, le_div_iff₀ hpos] at c
    change _ ≤ ∑ i, w i * NdHist.twBinWeightLaxKern (x i) σ (bins 0) (bins (Fin.last nb)) at c
    generalize ∑ i, w i = W at *
    generalize ∑ i, |w' i - w i| = D at *
    linarith
  obtain ⟨f2, g, e2, hg, k, -⟩ := C139_mass_function_partial R hu hn bins hb x' w' hw' hpos' hin' he pdf h
  obtain rfl : f' = f2 := Option.some.inj (e'.symm.trans e2)
  refine ⟨f, g, e, hg, fun b => ?_⟩
  have t : 2 * (35 / 96 * (δ / σ) + ε) / shareInside bins x w ≤ 4 * (35 / 96 * (δ / σ) + ε) := by
    rw [div_le_iff₀ (by linarith)]
    nlinarith
  have := abs_sub_le (g b) (f' b) (f b)
  have hdb : |f' b - f b| ≤ 2 * (35 / 96 * (δ / σ) + ε) / shareInside bins x w := hd b
  linarith [k b]

/-- Eight bins of width `c` around zero. -/
noncomputable def wideBins (c : ℝ) : Fin (8 + 1) → ℝ := fun j => c * ((j : ℕ) - 4)

theorem wideBins_ok {c x : ℝ} (hc : 0 < c) (hx : |x| ≤ c) : StrictMono (wideBins c) ∧ (wideBins c (Fin.last 8) - wideBins c 0) / (8 : ℕ) = c ∧
    NdHist.twBinWeightLaxKern x c (wideBins c 0) (wideBins c (Fin.last 8)) = 1 := by
  have l : wideBins c (Fin.last 8) = 4 * c := by simp only [wideBins, Fin.last]; norm_num; ring
  have z : wideBins c 0 = -4 * c := by simp only [wideBins]; norm_num; ring
  have h := abs_le.1 hx
  refine ⟨fun a b hab => mul_lt_mul_of_pos_left (sub_lt_sub_right (by exact_mod_cast hab) _) hc, by rw [l, z]; push_cast; ring, ?_⟩
  rw [l, z, ndBin_eq, jaxTw_hi (by rw [le_div_iff₀ hc]; linarith), jaxTw_lo (by rw [div_le_iff₀ hc]; linarith)]
  norm_num

/-- Two galaxies, masses off by 0.01 dex. -/
example : StrictMono (wideBins 10) ∧ (∀ i : Fin 2, |(![9.01, 10.01] : Fin 2 → ℝ) i - ![9, 10] i| ≤ 0.01) ∧
    35 / 96 * (0.01 / ((wideBins 10 (Fin.last 8) - wideBins 10 0) / (8 : ℕ))) + 0 < shareInside (wideBins 10) (![9, 10] : Fin 2 → ℝ) (fun _ => 1) := by
  refine ⟨(wideBins_ok (x := 0) (by norm_num) (by norm_num)).1, ?_, ?_⟩
  · intro i
    fin_cases i <;> norm_num [abs_le]
  · obtain ⟨-, a, b⟩ := wideBins_ok (c := 10) (x := 9) (by norm_num) (by norm_num [abs_le])
    obtain ⟨-, -, c⟩ := wideBins_ok (c := 10) (x := 10) (by norm_num) (by norm_num [abs_le])
    rw [shareInside, a, Fin.sum_univ_two, Fin.sum_univ_two]
    simp only [Matrix.cons_val_zero, Matrix.cons_val_one, b, c]
    norm_num

/-- Whatever the halo, the draws are numbers for most population parameters, and there are bins that contain the galaxy. -/
example {K : Type} (rng : Rng K) (logMah : MahParams ℝ → ℝ → ℝ → ℝ) (h : HaloSample K 1) (lgt0 fb : ℝ) :
    let gals := mcSample rng logMah (getBoundedDiffstarpopParams fun _ => 1) h lgt0 fb
    ∃ ms q : Fin 1 → List ℝ, (∀ i, (gals i).sfhMs = some (ms i) ∧ (gals i).sfhQ = some (q i)) ∧ ∃ c > 0,
      2.6 * (0.01 / ((wideBins c (Fin.last 8) - wideBins c 0) / (8 : ℕ))) < (∑ i, ((1 - (gals i).fracQ) * NdHist.twBinWeightLaxKern (logMassAt h.tobs (ms i))
        ((wideBins c (Fin.last 8) - wideBins c 0) / (8 : ℕ)) (wideBins c 0) (wideBins c (Fin.last 8)) +
        (gals i).fracQ * NdHist.twBinWeightLaxKern (logMassAt h.tobs (q i))
        ((wideBins c (Fin.last 8) - wideBins c 0) / (8 : ℕ)) (wideBins c 0) (wideBins c (Fin.last 8)))) / (1 : ℕ) := by
  intro gals
  have hs := fun i => C94_sample_nan_iff rng logMah (fun _ => 1) h lgt0 fb i
  have h1 := fun i => Option.isSome_iff_exists.1 ((hs i).1.2 fun _ _ => one_ne_zero)
  have h2 := fun i => Option.isSome_iff_exists.1 ((hs i).2.2 fun _ _ => one_ne_zero)
  choose ms a1 using h1
  choose q a2 using h2
  refine ⟨ms, q, fun i => ⟨a1 i, a2 i⟩, |logMassAt h.tobs (ms 0)| + |logMassAt h.tobs (q 0)| + 1, by positivity, ?_⟩
  obtain ⟨-, a, b⟩ := wideBins_ok (c := |logMassAt h.tobs (ms 0)| + |logMassAt h.tobs (q 0)| + 1) (x := logMassAt h.tobs (ms 0)) (by positivity)
    (by linarith [abs_nonneg (logMassAt h.tobs (q 0))])
  obtain ⟨-, -, c⟩ := wideBins_ok (c := |logMassAt h.tobs (ms 0)| + |logMassAt h.tobs (q 0)| + 1) (x := logMassAt h.tobs (q 0)) (by positivity)
    (by linarith [abs_nonneg (logMassAt h.tobs (ms 0))])
  rw [a, Fin.sum_univ_one, b, c]
  have g : (1 : ℝ) ≤ |logMassAt h.tobs (ms 0)| + |logMassAt h.tobs (q 0)| + 1 := by
    linarith [abs_nonneg (logMassAt h.tobs (ms 0)), abs_nonneg (logMassAt h.tobs (q 0))]
  have g' : 0.01 / (|logMassAt h.tobs (ms 0)| + |logMassAt h.tobs (q 0)| + 1) ≤ 0.01 := div_le_self (by norm_num) g
  have e : ((1 - (gals 0).fracQ) * 1 + (gals 0).fracQ * 1) / ((1 : ℕ) : ℝ) = 1 := by push_cast; ring
  rw [e]
  linarith

end Diffstar.Props
