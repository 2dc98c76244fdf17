import Verif.Props.RoundPipeline
import Verif.Props.RoundJoint

/-! C155: joint distributions of mass and specific star formation rate in single precision, from the halo catalogue on. -/

namespace Diffstar.Props

open Diffstar Diffstar.Spec Diffstar.Pop Diffstar.PopLoss

private theorem meanDiff_eq' {nb : ℕ} (bins : Fin (nb + 1) → ℝ) : meanDiff bins = (bins (Fin.last nb) - bins 0) / nb := by
  unfold meanDiff
  congr 1
  have : ∀ (m : ℕ) (e : Fin (m + 1) → ℝ), ∑ j : Fin m, (e j.succ - e j.castSucc) = e (Fin.last m) - e 0 := by
    intro m
    induction m with
    | zero => intro e; simp
    | succ m ih =>
      intro e
      rw [Fin.sum_univ_castSucc]
      have := ih fun j => e j.castSucc
      simp only [Fin.castSucc_zero] at this
      rw [show (∑ i : Fin m, (e i.castSucc.succ - e i.castSucc.castSucc)) = ∑ i : Fin m, (e i.succ.castSucc - e i.castSucc.castSucc) from rfl, this]
      simp
  exact this nb bins

/-- Products of two bin weights. -/
theorem prod_lip {σ τ δ δ' x x' y y' a b c d : ℝ} (hσ : 0 < σ) (hτ : 0 < τ) (hx : |x' - x| ≤ δ) (hy : |y' - y| ≤ δ') (hab : a ≤ b) (hcd : c ≤ d) :
    |NdHist.twBinWeightLaxKern x' σ a b * NdHist.twBinWeightLaxKern y' τ c d -
      NdHist.twBinWeightLaxKern x σ a b * NdHist.twBinWeightLaxKern y τ c d| ≤ 35 / 96 * (δ / σ + δ' / τ) := by
  have g1 : |NdHist.twBinWeightLaxKern x' σ a b - NdHist.twBinWeightLaxKern x σ a b| ≤ 35 / 96 * (δ / σ) :=
    (ndBin_lip hσ).trans (mul_le_mul_of_nonneg_left (div_le_div_of_nonneg_right hx hσ.le) (by norm_num))
  have g2 : |NdHist.twBinWeightLaxKern y' τ c d - NdHist.twBinWeightLaxKern y τ c d| ≤ 35 / 96 * (δ' / τ) :=
    (ndBin_lip hτ).trans (mul_le_mul_of_nonneg_left (div_le_div_of_nonneg_right hy hτ.le) (by norm_num))
  have p1 := ndBin_nonneg (x := x) hσ hab
  have p2 := ndBin_le_one x σ a b
  have p3 := ndBin_nonneg (x := y') hτ hcd
  have p4 := ndBin_le_one y' τ c d
  generalize NdHist.twBinWeightLaxKern x' σ a b = A' at *
  generalize NdHist.twBinWeightLaxKern x σ a b = A at *
  generalize NdHist.twBinWeightLaxKern y' τ c d = C' at *
  generalize NdHist.twBinWeightLaxKern y τ c d = C at *
  have e : A' * C' - A * C = (A' - A) * C' + A * (C' - C) := by ring
  rw [e, mul_add]
  refine (abs_add_le _ _).trans (add_le_add ?_ ?_)
  · rw [abs_mul, abs_of_nonneg p3]
    exact (mul_le_of_le_one_right (abs_nonneg _) p4).trans g1
  · rw [abs_mul, abs_of_nonneg p1]
    exact (mul_le_of_le_one_left (abs_nonneg _) p2).trans g2

/-- Values of a joint distribution. -/
theorem joint_unit {N nms nsf : ℕ} (hms : 0 < nms) (hsf : 0 < nsf) {mb : Fin (nms + 1) → ℝ} (hmb : StrictMono mb) {sb : Fin (nsf + 1) → ℝ}
    (hsb : StrictMono sb) {lo hi : Fin (nms * nsf) → Fin 2 → ℝ}
    (hg : ∀ a c, lo (finProdFinEquiv (a, c)) = ![mb a.castSucc, sb c.castSucc] ∧ hi (finProdFinEquiv (a, c)) = ![mb a.succ, sb c.succ])
    {x y w : Fin N → ℝ} (hw : ∀ i, 0 ≤ w i) {f : Fin (nms * nsf) → ℝ} (h : diffHistMstarSsfr x y w lo hi mb sb = some f) (b : Fin (nms * nsf)) :
    0 ≤ f b ∧ f b ≤ 1 := by
  have hσ := width_pos hmb hms
  have hτ := width_pos hsb hsf
  have ord : ∀ b, lo b 0 ≤ hi b 0 ∧ lo b 1 ≤ hi b 1 := by
    intro b
    obtain ⟨⟨a, c⟩, rfl⟩ := finProdFinEquiv.surjective b
    rw [(hg a c).1, (hg a c).2]
    exact ⟨hmb.monotone (Fin.castSucc_lt_succ (i := a)).le, hsb.monotone (Fin.castSucc_lt_succ (i := c)).le⟩
  obtain ⟨-, -, p, s⟩ := normalise_some h fun b => by
    simp only [add_zero, meanDiff_eq', NdHist.twNdhistWeighted, NdHist.twNdhistWeightedKern, NdHist.twNdhistWeightedSumKern, Fin.prod_univ_two]
    simp only [Matrix.cons_val_zero, Matrix.cons_val_one]
    exact Finset.sum_nonneg fun i _ => mul_nonneg (mul_nonneg (ndBin_nonneg hσ (ord b).1) (ndBin_nonneg hτ (ord b).2)) (hw i)
  exact ⟨p b, s ▸ Finset.single_le_sum (fun b _ => p b) (Finset.mem_univ b)⟩

/-- Errors of the data and of the arithmetic. -/
theorem joint_float {N nms nsf : ℕ} (hms : 0 < nms) (hsf : 0 < nsf) (mb : Fin (nms + 1) → ℝ) (hmb : StrictMono mb) (sb : Fin (nsf + 1) → ℝ)
    (hsb : StrictMono sb) (lo hi : Fin (nms * nsf) → Fin 2 → ℝ)
    (hg : ∀ a c, lo (finProdFinEquiv (a, c)) = ![mb a.castSucc, sb c.castSucc] ∧ hi (finProdFinEquiv (a, c)) = ![mb a.succ, sb c.succ])
    (x x' y y' w w' : Fin N → ℝ) {δ δ' ε : ℝ} (hδ : 0 ≤ δ) (hδ' : 0 ≤ δ') (hx : ∀ i, |x' i - x i| ≤ δ) (hy : ∀ i, |y' i - y i| ≤ δ')
    (hw : ∀ i, 0 ≤ w i) (hw' : ∀ i, 0 ≤ w' i) (hpos : 0 < ∑ i, w i) (hpos' : 0 < ∑ i, w' i) (hε : ∑ i, |w' i - w i| ≤ ε * ∑ i, w i)
    (pdf : Option (Fin (nms * nsf) → ℝ)) (h : float32.IsDiffHistMstarSsfr x' y' w' lo hi mb sb pdf) :
    let σ := (mb (Fin.last nms) - mb 0) / nms
    let τ := (sb (Fin.last nsf) - sb 0) / nsf
    let share := (∑ i, w i * (NdHist.twBinWeightLaxKern (x i) σ (mb 0) (mb (Fin.last nms)) * NdHist.twBinWeightLaxKern (y i) τ (sb 0) (sb (Fin.last nsf)))) / ∑ i, w i
    let d : ℝ := 1.5 / 10 ^ 5 + 2.5 / 10 ^ 7 * (nms + nsf)
    let e : ℝ := nms * nsf * d + 8 / 10 ^ 8 * N
    e ≤ 1 / 20 → 1 / 2 + 35 / 96 * (δ / σ + δ' / τ) + 1.5 * ε ≤ share →
    ∃ f g, diffHistMstarSsfr x y w lo hi mb sb = some f ∧ pdf = some g ∧
      ∀ b, |g b - f b| ≤ 4 * (35 / 96 * (δ / σ + δ' / τ) + ε) + (2.4 * d + 5 * e) := by
  intro σ τ share d e he hin
  have hσ : 0 < σ := width_pos hmb hms
  have hτ : 0 < τ := width_pos hsb hsf
  have ε0 : 0 ≤ ε := by
    by_contra hc
    have := Finset.sum_nonneg fun i (_ : i ∈ Finset.univ) => abs_nonneg (w' i - w i)
    nlinarith
  have η0 : 0 ≤ 35 / 96 * (δ / σ + δ' / τ) := by positivity
  obtain ⟨f, f', e1, e2, hd⟩ := C150_joint hms hsf mb hmb sb hsb lo hi hg x x' y y' w w' hx hy hw hw' hpos hε (show 35 / 96 * (δ / σ + δ' / τ) + ε < share by linarith)
  have m0 : mb 0 ≤ mb (Fin.last nms) := hmb.monotone (Fin.zero_le _)
  have s0 : sb 0 ≤ sb (Fin.last nsf) := hsb.monotone (Fin.zero_le _)
  have hin' : ∑ i, w' i ≤ 2 * ∑ i, w' i * (NdHist.twBinWeightLaxKern (x' i) σ (mb 0) (mb (Fin.last nms)) *
      NdHist.twBinWeightLaxKern (y' i) τ (sb 0) (sb (Fin.last nsf))) := by
    have a : ∀ i ∈ Finset.univ, w i * (NdHist.twBinWeightLaxKern (x i) σ (mb 0) (mb (Fin.last nms)) * NdHist.twBinWeightLaxKern (y i) τ (sb 0) (sb (Fin.last nsf))) -
        35 / 96 * (δ / σ + δ' / τ) * w i - |w' i - w i| ≤
        w' i * (NdHist.twBinWeightLaxKern (x' i) σ (mb 0) (mb (Fin.last nms)) * NdHist.twBinWeightLaxKern (y' i) τ (sb 0) (sb (Fin.last nsf))) := by
      intro i _
      have l := abs_le.1 (prod_lip hσ hτ (hx i) (hy i) m0 s0)
      have p3 := mul_nonneg (ndBin_nonneg (x := x' i) hσ m0) (ndBin_nonneg (x := y' i) hτ s0)
      have p4 : NdHist.twBinWeightLaxKern (x' i) σ (mb 0) (mb (Fin.last nms)) * NdHist.twBinWeightLaxKern (y' i) τ (sb 0) (sb (Fin.last nsf)) ≤ 1 :=
        mul_le_one₀ (ndBin_le_one ..) (ndBin_nonneg hτ s0) (ndBin_le_one ..)
      have c := abs_le.1 (le_refl |w' i - w i|)
      generalize NdHist.twBinWeightLaxKern (x' i) σ (mb 0) (mb (Fin.last nms)) * NdHist.twBinWeightLaxKern (y' i) τ (sb 0) (sb (Fin.last nsf)) = A' at *
      generalize NdHist.twBinWeightLaxKern (x i) σ (mb 0) (mb (Fin.last nms)) * NdHist.twBinWeightLaxKern (y i) τ (sb 0) (sb (Fin.last nsf)) = A at *
      generalize |w' i - w i| = D at *
      have hwi := hw i
      nlinarith [mul_nonneg hwi (show 0 ≤ A' - A + 35 / 96 * (δ / σ + δ' / τ) by linarith [l.1]), mul_nonneg p3 (show 0 ≤ w' i - w i + D by linarith [c.1]),
        mul_nonneg (show 0 ≤ D by linarith [c.1, c.2]) (show 0 ≤ 1 - A' by linarith)]
    have a := Finset.sum_le_sum a
    rw [Finset.sum_sub_distrib, Finset.sum_sub_distrib, ← Finset.mul_sum] at a
    have b : ∑ i, w' i ≤ ∑ i, w i + ∑ i, |w' i - w i| := by
      rw [← Finset.sum_add_distrib]
      exact Finset.sum_le_sum fun i _ => by linarith [le_abs_self (w' i - w i)]
    have c := hin
    rw [le_div_iff₀ hpos] at c
    generalize ∑ i, w i = W at *
    generalize ∑ i, |w' i - w i| = D at *
    linarith
  obtain ⟨f2, g, e3, e4, k⟩ := C153_joint_partial float32 le_rfl hms hsf mb hmb sb hsb lo hi hg x' y' w' hw' hpos' hin' pdf h he
  obtain rfl : f' = f2 := Option.some.inj (e2.symm.trans e3)
  refine ⟨f, g, e1, e4, fun b => ?_⟩
  have t : 2 * (35 / 96 * (δ / σ + δ' / τ) + ε) / share ≤ 4 * (35 / 96 * (δ / σ + δ' / τ) + ε) := by
    rw [div_le_iff₀ (by linarith)]
    nlinarith
  have tri := abs_sub_le (g b) (f' b) (f b)
  have hdb : |f' b - f b| ≤ 2 * (35 / 96 * (δ / σ + δ' / τ) + ε) / share := hd b
  have u := (joint_unit hms hsf hmb hsb hg hw' e2 b).2
  have e0 : 0 ≤ e := by positivity
  have kb := k b
  change |g b - f' b| ≤ 2.4 * d + 5 * e * f' b at kb
  have := mul_le_mul_of_nonneg_left u e0
  linarith

/-- Log specific star formation rates. -/
theorem logSsfr_float {L : Rounding.MathLib} (hlog : ∀ x, 0 < x → |L.log10 x - Real.logb 10 x| ≤ (1 + |Real.logb 10 x|) / 10 ^ 6) {tobs : ℝ}
    {tarr s s' : List ℝ} {δ B : ℝ} (hδ : 0 ≤ δ) (hm : |float32.logMassAt L tarr s' - Spec.logMassAt tobs s| ≤ 1.001 * δ + 0.007 + B / 10 ^ 6)
    (hs : 0 < s'.getLastD 0 ∧ 0 < s.getLastD 0 ∧ |Real.logb 10 (s'.getLastD 0) - Real.logb 10 (s.getLastD 0)| ≤ δ + 0.00681)
    (hB : |Spec.logMassAt tobs s| ≤ B) (hB' : |Real.logb 10 (s.getLastD 0)| ≤ B) :
    |float32.logSsfrAt L tarr s' - Spec.logSsfrAt tobs s| ≤ 2.002 * δ + 0.014 + 3 * B / 10 ^ 6 := by
  obtain ⟨p', p, c⟩ := hs
  have l := hlog _ p'
  refine (abs_max_sub_max_le_abs _ _ _).trans ?_
  have r := float32.err (L.log10 (s'.getLastD 0) - float32.logMassAt L tarr s')
  have hu : float32.u = 2 ^ (-24 : ℤ) := rfl
  rw [hu] at r
  generalize L.log10 (s'.getLastD 0) = a at *
  generalize Real.logb 10 (s'.getLastD 0) = a1 at *
  generalize Real.logb 10 (s.getLastD 0) = a2 at *
  generalize float32.logMassAt L tarr s' = m at *
  generalize Spec.logMassAt tobs s = m2 at *
  have q1 := abs_sub_le (float32.fl (a - m)) (a - m) (a2 - m2)
  have q2 := abs_sub_le a a1 a2
  have q3 : |a - m - (a2 - m2)| ≤ |a - a2| + |m - m2| := by
    rw [show a - m - (a2 - m2) = (a - a2) - (m - m2) by ring]
    exact abs_sub _ _
  have q4 : |a1| ≤ |a1 - a2| + |a2| := by simpa using abs_add_le (a1 - a2) a2
  have q5 : |a - m| ≤ |a - m - (a2 - m2)| + (|a2| + |m2|) := by
    have := abs_add_le (a - m - (a2 - m2)) (a2 - m2)
    rw [sub_add_cancel] at this
    linarith [abs_sub a2 m2]
  have r0 := abs_nonneg (a - m)
  generalize |float32.fl (a - m) - (a - m)| = r1 at *
  generalize |a - m - (a2 - m2)| = r2 at *
  generalize |a - m| = r3 at *
  generalize |a - a2| = r4 at *
  generalize |m - m2| = r5 at *
  generalize |a - a1| = r6 at *
  generalize |a1 - a2| = r7 at *
  generalize |a1| = r8 at *
  generalize |a2| = r9 at *
  generalize |m2| = r10 at *
  have : (2 : ℝ) ^ (-24 : ℤ) ≤ 6 / 10 ^ 8 := by norm_num
  have rr : r1 ≤ 6 / 10 ^ 8 * r3 := r.trans (mul_le_mul_of_nonneg_right this r0)
  norm_num at *
  linarith

section

variable {L : Rounding.MathLib} (hL : Accurate L) (hlog : ∀ x, 0 < x → |L.log10 x - Real.logb 10 x| ≤ (1 + |Real.logb 10 x|) / 10 ^ 6)

variable (logMah logMah' : MahParams ℝ → ℝ → ℝ → ℝ) {p : PF → ℝ} (hp : InPopFloatBounds p) (hl : UsableLines p)
  {K : Type} {rng : Rng K} {z : K → Fin 4 → ℝ} (hr : Reparametrised rng z) {n : ℕ} (h : HaloSample K n) (h5 : ∀ i, 5 ≤ h.logmp0 i ∧ h.logmp0 i ≤ 20)
  (ht : 0.2 ≤ h.tobs) (tarr : List ℝ) (htab : List.Forall₂ (fun t t' : ℝ => |t' - t| ≤ t / 10 ^ 6) (obsTimes h.tobs) tarr) (htop : ∀ t ∈ tarr, t ≤ 100)
  (lgt0 fb : ℝ) (hfb : 0 < fb) (hm : ∀ i, ∀ t ∈ tarr, 0 ≤ logMah (h.mah.row i) t lgt0 ∧ logMah (h.mah.row i) t lgt0 ≤ 20)
  (hm' : ∀ i, ∀ t ∈ tarr, |logMah' (h.mah.row i) t lgt0 - logMah (h.mah.row i) t lgt0| ≤ 1 / 10 ^ 5)
  (hm2 : ∀ i k, k < 20 → |logMah (h.mah.row i) ((obsTimes h.tobs).getD k 0) lgt0 - logMah (h.mah.row i) (tarr.getD k 0) lgt0| ≤ 1 / 10 ^ 5)
  {δ B : ℝ} (hδ : 0 ≤ δ)
  (hms : ∀ i, ∀ t ∈ tarr, msRateError p (z (rng.split (rng.split h.ranKey n i) 4 0)) (logMah (h.mah.row i) t lgt0) ≤ δ)
  (hq : ∀ i q, float32.mcParamsQ L.exp p (h.logmp0 i) (h.mah.tPeak i) (z (rng.split (rng.split h.ranKey n i) 4 1)) (z (rng.split (rng.split h.ranKey n i) 4 2)) = some q →
    ∀ t ∈ tarr, qRateError p (z (rng.split (rng.split h.ranKey n i) 4 1)) (z (rng.split (rng.split h.ranKey n i) 4 2)) q.qlglgdt (logMah (h.mah.row i) t lgt0) ≤ δ)
  (hB : ∀ i s, (mcSample rng logMah p h lgt0 fb i).sfhMs = some s ∨ (mcSample rng logMah p h lgt0 fb i).sfhQ = some s → |Spec.logMassAt h.tobs s| ≤ B)
  (hB' : ∀ i s, (mcSample rng logMah p h lgt0 fb i).sfhMs = some s ∨ (mcSample rng logMah p h lgt0 fb i).sfhQ = some s → |Real.logb 10 (s.getLastD 0)| ≤ B)

include hL hlog hp hl hr h5 ht htab htop hfb hm hm' hm2 hδ hms hq hB hB'

/-- **C155**: the predicted joint distribution of stellar mass and specific star formation rate of a target bin, computed in single precision from the halo
catalogue on, is a number in every bin and follows the exact one. `δ` bounds the errors of the rates (C149), `B` the exact log masses and log rates. -/
theorem C155_joint_partial (hn : 0 < n) {nms nsf : ℕ} (h0 : 0 < nms) (h0' : 0 < nsf) (mb : Fin (nms + 1) → ℝ) (hmb : StrictMono mb)
    (sb : Fin (nsf + 1) → ℝ) (hsb : StrictMono sb) (lo hi : Fin (nms * nsf) → Fin 2 → ℝ)
    (hg : ∀ a c, lo (finProdFinEquiv (a, c)) = ![mb a.castSucc, sb c.castSucc] ∧ hi (finProdFinEquiv (a, c)) = ![mb a.succ, sb c.succ])
    (pdf : Option (Fin (nms * nsf) → ℝ)) (hpdf : float32.IsMstarSsfrPdf L logMah' rng z p h tarr lgt0 fb lo hi mb sb pdf) :
    let gals := mcSample rng logMah p h lgt0 fb
    let σ := (mb (Fin.last nms) - mb 0) / nms
    let τ := (sb (Fin.last nsf) - sb 0) / nsf
    let Δ := 1.001 * δ + 0.007 + B / 10 ^ 6
    let Δ' := 2.002 * δ + 0.014 + 3 * B / 10 ^ 6
    let inside := fun s => NdHist.twBinWeightLaxKern (Spec.logMassAt h.tobs s) σ (mb 0) (mb (Fin.last nms)) *
      NdHist.twBinWeightLaxKern (Spec.logSsfrAt h.tobs s) τ (sb 0) (sb (Fin.last nsf))
    let d : ℝ := 1.5 / 10 ^ 5 + 2.5 / 10 ^ 7 * (nms + nsf)
    let e : ℝ := nms * nsf * d + 1.6 / 10 ^ 7 * n
    e ≤ 1 / 20 →
    (∀ ms q : Fin n → List ℝ, (∀ i, (gals i).sfhMs = some (ms i) ∧ (gals i).sfhQ = some (q i)) →
      0.501 + 0.37 * (Δ / σ + Δ' / τ) ≤ (∑ i, ((1 - (gals i).fracQ) * inside (ms i) + (gals i).fracQ * inside (q i))) / n) →
    ∃ f g, mstarSsfrPdf h.tobs gals lo hi mb sb = some f ∧ pdf = some g ∧
      ∀ b, |g b - f b| ≤ 1.46 * (Δ / σ + Δ' / τ) + 0.0014 + (2.4 * d + 5 * e) := by
  intro gals σ τ Δ Δ' inside d e he hin
  have hσ : 0 < σ := width_pos hmb h0
  have hτ : 0 < τ := width_pos hsb h0'
  have n0 : (0 : ℝ) < n := by exact_mod_cast hn
  choose ms q ms' q' s1 s2 s3 s4 c1 c2 c3 c4 using galaxy_close hL hlog logMah logMah' hp hl hr h h5 ht tarr htab htop lgt0 fb hfb hm hm' hm2 hδ hms hq hB
  have c5 : ∀ i, |float32.logSsfrAt L tarr (ms' i) - Spec.logSsfrAt h.tobs (ms i)| ≤ Δ' := fun i =>
    logSsfr_float hlog hδ (c1 i) (c3 i) (hB i _ (.inl (s1 i))) (hB' i _ (.inl (s1 i)))
  have c6 : ∀ i, |float32.logSsfrAt L tarr (q' i) - Spec.logSsfrAt h.tobs (q i)| ≤ Δ' := fun i =>
    logSsfr_float hlog hδ (c2 i) (c4 i) (hB i _ (.inr (s2 i))) (hB' i _ (.inr (s2 i)))
  have hΔ : 0 ≤ Δ := (abs_nonneg _).trans (c1 ⟨0, hn⟩)
  have hΔ' : 0 ≤ Δ' := (abs_nonneg _).trans (c5 ⟨0, hn⟩)
  replace hin := hin ms q fun i => ⟨s1 i, s2 i⟩
  have e0 := accurate_nonneg hL.exp
  set fr' : Fin n → ℝ := fun i => float32.fracQuench L.exp p (h.logmp0 i) (h.mah.tPeak i) (h.upid i) (h.lgmuInfall i) (h.logmhostInfall i) (h.gyrSinceInfall i)
    with hfr'
  have fr : ∀ i, 0 ≤ (gals i).fracQ ∧ (gals i).fracQ ≤ 1 := fun i =>
    frac_unit rng hp (h.logmp0 i) (h.mah.tPeak i) (h.upid i) (h.lgmuInfall i) (h.logmhostInfall i) (h.gyrSinceInfall i) (rng.split h.ranKey n i)
  have frp : ∀ i, 0 ≤ fr' i ∧ fr' i ≤ 1 := fun i => C145_frac_quench_probability e0 hp _ _ _ _ _ _
  have fd : ∀ i, |fr' i - (gals i).fracQ| ≤ 1.6 / 10 ^ 4 := fun i =>
    (C145_frac_quench_error rng hL.exp hp (h.logmp0 i) (h.mah.tPeak i) (h.upid i) (h.lgmuInfall i) (h.logmhostInfall i) (h.gyrSinceInfall i)
      (rng.split h.ranKey n i)).trans (by split_ifs <;> norm_num)
  have hpdf' : float32.IsDiffHistMstarSsfr (Fin.append (fun i => float32.logMassAt L tarr (ms' i)) fun i => float32.logMassAt L tarr (q' i))
      (Fin.append (fun i => float32.logSsfrAt L tarr (ms' i)) fun i => float32.logSsfrAt L tarr (q' i)) (float32.branchWeights fr') lo hi mb sb pdf := by
    have a1 : allSome (fun i => float32.mcSfhMs L logMah' p (h.mah.row i) (h.logmp0 i) (z (rng.split (rng.split h.ranKey n i) 4 0)) tarr lgt0 fb) = some ms' :=
      (allSome_eq_some ..).2 s3
    have a2 : allSome (fun i => float32.mcSfhQ L logMah' p (h.mah.row i) (h.logmp0 i) (z (rng.split (rng.split h.ranKey n i) 4 1))
        (z (rng.split (rng.split h.ranKey n i) 4 2)) tarr lgt0 fb) = some q' := (allSome_eq_some ..).2 s4
    unfold Rounding.IsMstarSsfrPdf at hpdf
    dsimp only at hpdf
    rw [a1, a2] at hpdf
    exact hpdf
  have e1 : mstarSsfrPdf h.tobs gals lo hi mb sb = diffHistMstarSsfr (Fin.append (fun i => Spec.logMassAt h.tobs (ms i)) fun i => Spec.logMassAt h.tobs (q i))
      (Fin.append (fun i => Spec.logSsfrAt h.tobs (ms i)) fun i => Spec.logSsfrAt h.tobs (q i)) (branchWeights fun i => (gals i).fracQ) lo hi mb sb := by
    have h1 : allSome (fun i => (gals i).sfhMs) = some ms := (allSome_eq_some ..).2 s1
    have h2 : allSome (fun i => (gals i).sfhQ) = some q := (allSome_eq_some ..).2 s2
    rw [mstarSsfrPdf, h1, Option.bind_some, h2, Option.bind_some]
    rfl
  have hW : ∑ j, branchWeights (fun i => (gals i).fracQ) j = n := (C27_weights_sum _).2
  obtain ⟨w0, hε, hpos'⟩ := weights_close hn frp fd
  obtain ⟨f, g, g1, g2, g3⟩ := joint_float h0 h0' mb hmb sb hsb lo hi hg (Fin.append (fun i => Spec.logMassAt h.tobs (ms i)) fun i => Spec.logMassAt h.tobs (q i))
    (Fin.append (fun i => float32.logMassAt L tarr (ms' i)) fun i => float32.logMassAt L tarr (q' i))
    (Fin.append (fun i => Spec.logSsfrAt h.tobs (ms i)) fun i => Spec.logSsfrAt h.tobs (q i))
    (Fin.append (fun i => float32.logSsfrAt L tarr (ms' i)) fun i => float32.logSsfrAt L tarr (q' i)) (branchWeights fun i => (gals i).fracQ)
    (float32.branchWeights fr') (δ := Δ) (δ' := Δ') (ε := 3.3 / 10 ^ 4) hΔ hΔ'
    (fun j => by
      refine Fin.addCases (fun i => ?_) (fun i => ?_) j
      · rw [Fin.append_left, Fin.append_left]; exact c1 i
      · rw [Fin.append_right, Fin.append_right]; exact c2 i)
    (fun j => by
      refine Fin.addCases (fun i => ?_) (fun i => ?_) j
      · rw [Fin.append_left, Fin.append_left]; exact c5 i
      · rw [Fin.append_right, Fin.append_right]; exact c6 i) (branch_nonneg fr) w0 (by rw [hW]; exact n0) hpos' hε pdf hpdf' (by
        refine le_trans (le_of_eq ?_) he
        push_cast
        simp only [e, d]
        ring) (by
      have hsh : (∑ j, branchWeights (fun i => (gals i).fracQ) j *
          (NdHist.twBinWeightLaxKern ((Fin.append (fun i => Spec.logMassAt h.tobs (ms i)) fun i => Spec.logMassAt h.tobs (q i)) j) σ (mb 0) (mb (Fin.last nms)) *
          NdHist.twBinWeightLaxKern ((Fin.append (fun i => Spec.logSsfrAt h.tobs (ms i)) fun i => Spec.logSsfrAt h.tobs (q i)) j) τ (sb 0) (sb (Fin.last nsf)))) =
          ∑ i, ((1 - (gals i).fracQ) * inside (ms i) + (gals i).fracQ * inside (q i)) := by
        rw [Fin.sum_univ_add, ← Finset.sum_add_distrib]
        simp only [Fin.append_left, Fin.append_right, ((C27_weights_sum _).1 _).1, ((C27_weights_sum _).1 _).2]
        rfl
      change 1 / 2 + 35 / 96 * (Δ / σ + Δ' / τ) + _ ≤ _ / _
      rw [hW]
      refine le_trans ?_ (hin.trans (le_of_eq (congrArg (· / (n : ℝ)) hsh.symm)))
      have : 0 ≤ Δ / σ + Δ' / τ := add_nonneg (div_nonneg hΔ hσ.le) (div_nonneg hΔ' hτ.le)
      norm_num
      linarith)
  refine ⟨f, g, e1.trans g1, g2, fun b => (g3 b).trans ?_⟩
  have : 0 ≤ Δ / σ + Δ' / τ := add_nonneg (div_nonneg hΔ hσ.le) (div_nonneg hΔ' hτ.le)
  have ee : nms * nsf * (1.5 / 10 ^ 5 + 2.5 / 10 ^ 7 * (nms + nsf)) + 8 / 10 ^ 8 * ((n + n : ℕ) : ℝ) = e := by
    push_cast
    simp only [e, d]
    ring
  rw [ee]
  change 4 * (35 / 96 * (Δ / σ + Δ' / τ) + _) + (2.4 * d + _) ≤ _
  norm_num
  linarith

end

/-- **C155**, the loss: its square root, the root mean square misfit, moves by at most the error of the predictions and the rounding of the loss itself. -/
theorem C155_loss {K : Type} {nk n nms nsf nz nm nt : ℕ} (rng : Rng K) (logMah : MahParams ℝ → ℝ → ℝ → ℝ) (u : PF → ℝ)
    (d : SsfrData K nk n nms nsf nz nm nt) (hN : nz * nt * nsf ≤ 100000) {v D : ℝ} (h : lossMstarSsfr rng logMah u d = some v) (h0 : 0 ≤ D)
    (g : Fin nz → Fin nt → Fin nsf → ℝ) (hD : ∀ z t b f, mstarSsfrKernTobs rng logMah u d z t b = some f → |g z t b - f| ≤ D) (loss : ℝ)
    (hl : float32.IsLoss (ι := Fin nz × Fin nt × Fin nsf) (fun i => g i.1 i.2.1 i.2.2) (fun i => d.target i.1 i.2.1 i.2.2) loss) :
    |Real.sqrt (loss / 1000) - Real.sqrt (v / 1000)| ≤ D + 7 / 10 ^ 8 * (nz * nt * nsf + 5) * (Real.sqrt (v / 1000) + D) := by
  obtain ⟨-, -, f, hf, e⟩ := C28_loss_ssfr rng logMah u d v h
  have hc : 0 < Fintype.card (Fin nz × Fin nt × Fin nsf) := by
    rw [Nat.pos_iff_ne_zero]
    intro hc
    simp only [lossMstarSsfr, mse, Option.map_eq_some_iff, Option.bind_eq_some_iff, if_pos hc] at h
    obtain ⟨_, ⟨_, _, h⟩, _⟩ := h
    cases h
  have cd : Fintype.card (Fin nz × Fin nt × Fin nsf) = nz * nt * nsf := by
    rw [Fintype.card_prod, Fintype.card_prod, Fintype.card_fin, Fintype.card_fin, Fintype.card_fin, mul_assoc]
  have hNp : (0 : ℝ) < Fintype.card (Fin nz × Fin nt × Fin nsf) := by exact_mod_cast hc
  have hN' : (Fintype.card (Fin nz × Fin nt × Fin nsf) : ℝ) = nz * nt * nsf := by
    rw [cd]
    push_cast
    ring
  have q : v / 1000 = (∑ i : Fin nz × Fin nt × Fin nsf, (f i.1 i.2.1 i.2.2 - d.target i.1 i.2.1 i.2.2) ^ 2) / Fintype.card (Fin nz × Fin nt × Fin nsf) := by
    rw [eq_div_iff hNp.ne', Fintype.sum_prod_type, hN']
    simp only [Fintype.sum_prod_type]
    linarith
  have hd : ∀ i : Fin nz × Fin nt × Fin nsf, |g i.1 i.2.1 i.2.2 - f i.1 i.2.1 i.2.2| ≤ D := fun i => hD _ _ _ _ (hf ..)
  have a := rms_le (fun i : Fin nz × Fin nt × Fin nsf => f i.1 i.2.1 i.2.2 - d.target i.1 i.2.1 i.2.2) (fun i => g i.1 i.2.1 i.2.2 - d.target i.1 i.2.1 i.2.2) h0
    (fun i => by rw [sub_sub_sub_cancel_right]; exact hd i) hc
  have b := rms_le (fun i : Fin nz × Fin nt × Fin nsf => g i.1 i.2.1 i.2.2 - d.target i.1 i.2.1 i.2.2) (fun i => f i.1 i.2.1 i.2.2 - d.target i.1 i.2.1 i.2.2) h0
    (fun i => by rw [sub_sub_sub_cancel_right, abs_sub_comm]; exact hd i) hc
  have c := C139_loss_rounding float32 le_rfl (by rw [cd]; exact hN) _ _ loss hl
  have n5 : (Fintype.card (Fin nz × Fin nt × Fin nsf) : ℝ) ≤ 100000 := by
    rw [cd]
    exact_mod_cast hN
  dsimp only at c
  rw [q]
  rw [← hN']
  set M := (∑ i : Fin nz × Fin nt × Fin nsf, (g i.1 i.2.1 i.2.2 - d.target i.1 i.2.1 i.2.2) ^ 2) / (Fintype.card (Fin nz × Fin nt × Fin nsf) : ℝ) with hM
  have M0 : 0 ≤ M := div_nonneg (Finset.sum_nonneg fun i _ => sq_nonneg _) hNp.le
  have c' : |loss / 1000 - M| ≤ 7 / 10 ^ 8 * (Fintype.card (Fin nz × Fin nt × Fin nsf) + 5) * M := by
    rw [abs_le] at c ⊢
    constructor <;> linarith
  have s := sqrt_close_rel M0 (by linarith) c'
  have η0 : (0 : ℝ) ≤ 7 / 10 ^ 8 * (Fintype.card (Fin nz × Fin nt × Fin nsf) + 5) := by positivity
  have s2 := mul_le_mul_of_nonneg_left a η0
  rw [abs_le] at s ⊢
  constructor <;> linarith

/-- There always is a result. -/
theorem isMstarSsfrPdf_exists (L : Rounding.MathLib) (logMah : MahParams ℝ → ℝ → ℝ → ℝ) {K : Type} (rng : Rng K) (z : K → Fin 4 → ℝ) (p : PF → ℝ)
    {n nms nsf : ℕ} (h : HaloSample K n) (tarr : List ℝ) (lgt0 fb : ℝ) (lo hi : Fin (nms * nsf) → Fin 2 → ℝ) (mb : Fin (nms + 1) → ℝ) (sb : Fin (nsf + 1) → ℝ) :
    ∃ pdf, float32.IsMstarSsfrPdf L logMah rng z p h tarr lgt0 fb lo hi mb sb pdf := by
  unfold Rounding.IsMstarSsfrPdf
  dsimp only
  split
  · exact isDiffHistMstarSsfr_exists ..
  · exact ⟨none, rfl⟩

/-- The halo, parameters and library of the example of C154 (which has the hypotheses shared with C155) on a wide grid of 8 × 8 bins. -/
example (δ : ℝ) (hδ : 0 ≤ δ) : ∃ (B c : ℝ) (lo hi : Fin (8 * 8) → Fin 2 → ℝ),
    let h := lateHalo
    let gals := mcSample oneSigmaRng (fun _ _ _ => 12) threeQuarters h 1.14 0.16
    0 < c ∧ (∀ i s, (gals i).sfhMs = some s ∨ (gals i).sfhQ = some s → |Spec.logMassAt h.tobs s| ≤ B) ∧
    (∀ i s, (gals i).sfhMs = some s ∨ (gals i).sfhQ = some s → |Real.logb 10 (s.getLastD 0)| ≤ B) ∧ StrictMono (wideBins c) ∧
    (∀ a b, lo (finProdFinEquiv (a, b)) = ![wideBins c a.castSucc, wideBins c b.castSucc] ∧ hi (finProdFinEquiv (a, b)) = ![wideBins c a.succ, wideBins c b.succ]) ∧
    let σ := (wideBins c (Fin.last 8) - wideBins c 0) / (8 : ℕ)
    let Δ := 1.001 * δ + 0.007 + B / 10 ^ 6
    let Δ' := 2.002 * δ + 0.014 + 3 * B / 10 ^ 6
    let inside := fun s => NdHist.twBinWeightLaxKern (Spec.logMassAt h.tobs s) σ (wideBins c 0) (wideBins c (Fin.last 8)) *
      NdHist.twBinWeightLaxKern (Spec.logSsfrAt h.tobs s) σ (wideBins c 0) (wideBins c (Fin.last 8))
    let d : ℝ := 1.5 / 10 ^ 5 + 2.5 / 10 ^ 7 * ((8 : ℕ) + (8 : ℕ))
    let e : ℝ := (8 : ℕ) * (8 : ℕ) * d + 1.6 / 10 ^ 7 * (1 : ℕ)
    e ≤ 1 / 20 ∧
    ∀ ms q : Fin 1 → List ℝ, (∀ i, (gals i).sfhMs = some (ms i) ∧ (gals i).sfhQ = some (q i)) →
      0.501 + 0.37 * (Δ / σ + Δ' / σ) ≤ (∑ i, ((1 - (gals i).fracQ) * inside (ms i) + (gals i).fracQ * inside (q i))) / (1 : ℕ) := by
  set gals := mcSample oneSigmaRng (fun (_ : MahParams ℝ) (_ _ : ℝ) => (12 : ℝ)) threeQuarters lateHalo 1.14 0.16 with hg
  have bd : ∀ o : Option (List ℝ), ∃ B : ℝ, 0 ≤ B ∧ ∀ s, o = some s → |Spec.logMassAt lateHalo.tobs s| ≤ B ∧ |Real.logb 10 (s.getLastD 0)| ≤ B := by
    rintro (_ | s)
    · exact ⟨0, le_rfl, fun s hs => by cases hs⟩
    · exact ⟨|Spec.logMassAt lateHalo.tobs s| + |Real.logb 10 (s.getLastD 0)|, by positivity, fun s' hs' => by
        cases hs'
        exact ⟨le_add_of_nonneg_right (abs_nonneg _), le_add_of_nonneg_left (abs_nonneg _)⟩⟩
  obtain ⟨B1, B10, hB1⟩ := bd (gals 0).sfhMs
  obtain ⟨B2, B20, hB2⟩ := bd (gals 0).sfhQ
  have hB : ∀ i s, (gals i).sfhMs = some s ∨ (gals i).sfhQ = some s → |Spec.logMassAt lateHalo.tobs s| ≤ B1 + B2 ∧ |Real.logb 10 (s.getLastD 0)| ≤ B1 + B2 := by
    intro i s hs
    rw [Fin.fin_one_eq_zero i] at hs
    rcases hs with hs | hs
    · exact ⟨by linarith [(hB1 s hs).1], by linarith [(hB1 s hs).2]⟩
    · exact ⟨by linarith [(hB2 s hs).1], by linarith [(hB2 s hs).2]⟩
  set c := 4 * δ + 2 * (B1 + B2) + 12 with hc
  have c0 : 0 < c := by positivity
  refine ⟨B1 + B2, c, fun b => ![wideBins c (finProdFinEquiv.symm b).1.castSucc, wideBins c (finProdFinEquiv.symm b).2.castSucc],
    fun b => ![wideBins c (finProdFinEquiv.symm b).1.succ, wideBins c (finProdFinEquiv.symm b).2.succ], c0, fun i s hs => (hB i s hs).1, fun i s hs => (hB i s hs).2,
    (wideBins_ok (x := 0) c0 (by rw [abs_zero]; exact c0.le)).1, fun a b => ?_, by norm_num, ?_⟩
  · simp only [Equiv.symm_apply_apply, and_self]
  · intro ms q hs
    have e := fun x hx => (wideBins_ok (c := c) (x := x) c0 hx).2
    have ss : ∀ s, |Spec.logMassAt lateHalo.tobs s| ≤ B1 + B2 → |Real.logb 10 (s.getLastD 0)| ≤ B1 + B2 → |Spec.logSsfrAt lateHalo.tobs s| ≤ c := by
      intro s h1 h2
      rw [abs_le] at h1 h2 ⊢
      unfold Spec.logSsfrAt
      exact ⟨le_trans (by linarith) (le_max_right _ _), max_le (by linarith) (by linarith)⟩
    have b1 := hB 0 (ms 0) (.inl (hs 0).1)
    have b2 := hB 0 (q 0) (.inr (hs 0).2)
    have m1 := (e _ (b1.1.trans (by linarith))).2
    have m2 := (e _ (b2.1.trans (by linarith))).2
    have m3 := (e _ (ss _ b1.1 b1.2)).2
    have m4 := (e _ (ss _ b2.1 b2.2)).2
    have hσ := (e 0 (by rw [abs_zero]; exact c0.le)).1
    rw [hσ, Fin.sum_univ_one]
    dsimp only
    rw [m1, m2, m3, m4, ← add_div]
    have hd : (1.001 * δ + 0.007 + (B1 + B2) / 10 ^ 6 + (2.002 * δ + 0.014 + 3 * (B1 + B2) / 10 ^ 6)) / c ≤ 1 := by
      rw [div_le_one c0, hc]
      norm_num
      linarith
    norm_num at hd ⊢
    linarith

end Diffstar.Props
