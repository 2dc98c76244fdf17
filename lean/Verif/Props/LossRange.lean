import Verif.Props.LossData
import Verif.Props.PopNanSsfr
import Mathlib.Algebra.Order.Chebyshev

/-!
C138: what the value of a population loss says about the predicted distributions.
-/

namespace Diffstar.Spec

/-- The entries are not negative and sum to at most one: a distribution, or a row of zeros as the targets have them for
stellar masses without galaxies. -/
def TargetRow {nb : ℕ} (t : Fin nb → ℝ) : Prop := (∀ b, 0 ≤ t b) ∧ ∑ b, t b ≤ 1

end Diffstar.Spec

namespace Diffstar.Props

open Diffstar.Pop Diffstar.PopLoss Diffstar.Spec

theorem sq_dist_le_two {nb : ℕ} {f t : Fin nb → ℝ} (hf : ∀ b, 0 ≤ f b) (hf1 : ∑ b, f b = 1) (ht : TargetRow t) :
    ∑ b, (f b - t b) ^ 2 ≤ 2 := by
  obtain ⟨h0, h1⟩ := ht
  have hfle : ∀ b, f b ≤ 1 := fun b => hf1 ▸ Finset.single_le_sum (f := f) (fun b _ => hf b) (Finset.mem_univ b)
  have htle : ∀ b, t b ≤ 1 := fun b => (Finset.single_le_sum (f := t) (fun b _ => h0 b) (Finset.mem_univ b)).trans h1
  calc ∑ b, (f b - t b) ^ 2 ≤ ∑ b, (f b + t b) := by
        refine Finset.sum_le_sum fun b _ => ?_
        nlinarith [hf b, h0 b, hfle b, htle b, mul_nonneg (hf b) (h0 b)]
    _ ≤ 2 := by rw [Finset.sum_add_distrib, hf1]; linarith

/-- C138: a loss of stellar mass functions that is a number lies between 0 and 2000 divided by the number of bins. -/
theorem C138_mass_range {K : Type} {nk n nb : ℕ} (rng : Rng K) (logMah : MahParams ℝ → ℝ → ℝ → ℝ) (u : PF → ℝ)
    (d : MstarData K nk n nb) (hb : StrictMono d.bins) (hnb : 0 < nb) (hk : 0 < nk) (ht : ∀ k, TargetRow (d.target k)) (v : ℝ)
    (h : lossMstar rng logMah u d = some v) : 0 ≤ v ∧ v ≤ 2000 / nb := by
  obtain ⟨h0, -, f, hf, hv⟩ := C28_loss_mstar rng logMah u d v h
  refine ⟨h0, ?_⟩
  have hs : ∑ k, ∑ b, (f k b - d.target k b) ^ 2 ≤ ∑ _k : Fin nk, (2 : ℝ) := by
    refine Finset.sum_le_sum fun k _ => ?_
    obtain ⟨g1, g2, -⟩ := (C27_mstar_pdf rng logMah u d.samples d.lgt0 d.fb d.bins hb hnb k).1 (f k) (hf k)
    exact sq_dist_le_two g1 g2 (ht k)
  rw [Finset.sum_const, Finset.card_univ, Fintype.card_fin, nsmul_eq_mul] at hs
  have hk' : (0 : ℝ) < nk := by exact_mod_cast hk
  have hb' : (0 : ℝ) < nb := by exact_mod_cast hnb
  rw [le_div_iff₀ hb']
  have : v * nb * nk ≤ 2000 * nk := by nlinarith
  exact le_of_mul_le_mul_right this hk'

/-- C138: a loss of distributions of specific star formation rates that is a number lies between 0 and 2000 divided by the
number of bins in specific star formation rate. -/
theorem C138_ssfr_range {K : Type} {nk n nms nsf nz nm nt : ℕ} (rng : Rng K) (logMah : MahParams ℝ → ℝ → ℝ → ℝ)
    (u : PF → ℝ) (d : SsfrData K nk n nms nsf nz nm nt) (hlh : ∀ b k, d.ndbinsLo b k ≤ d.ndbinsHi b k)
    (hmb : StrictMono d.mstarBins) (hsb : StrictMono d.ssfrBins) (hms : 0 < nms) (hsf : 0 < nsf) (hz : 0 < nz) (hnt : 0 < nt)
    (hw : ∀ z m, 0 ≤ d.nmhaloPdf z m) (ht : ∀ z t, TargetRow (d.target z t)) (v : ℝ)
    (h : lossMstarSsfr rng logMah u d = some v) : 0 ≤ v ∧ v ≤ 2000 / nsf := by
  obtain ⟨h0, -, f, hf, hv⟩ := C28_loss_ssfr rng logMah u d v h
  refine ⟨h0, ?_⟩
  have hs : ∑ z, ∑ t, ∑ b, (f z t b - d.target z t b) ^ 2 ≤ ∑ _z : Fin nz, ∑ _t : Fin nt, (2 : ℝ) := by
    refine Finset.sum_le_sum fun z _ => Finset.sum_le_sum fun t _ => ?_
    rcases C27_conditional_pdf rng logMah u d hlh hmb hsb hms hsf hw z t with g | ⟨f', g0, g1, g2, -⟩
    · have := (g ⟨0, hsf⟩).symm.trans (hf z t ⟨0, hsf⟩)
      cases this
    · have he : f z t = f' := by
        funext b
        exact Option.some.inj ((hf z t b).symm.trans (g0 b))
      rw [he]
      exact sq_dist_le_two g1 g2 (ht z t)
  simp only [Finset.sum_const, Finset.card_univ, Fintype.card_fin, nsmul_eq_mul] at hs
  have hz' : (0 : ℝ) < nz := by exact_mod_cast hz
  have ht' : (0 : ℝ) < nt := by exact_mod_cast hnt
  have hf' : (0 : ℝ) < nsf := by exact_mod_cast hsf
  rw [le_div_iff₀ hf']
  have : v * nsf * (nz * nt) ≤ 2000 * (nz * nt) := by nlinarith
  exact le_of_mul_le_mul_right this (mul_pos hz' ht')

/-- C138: the loss minimised by the fitting script of the population lies between 0 and 2000 times the sum of the inverse
numbers of bins. -/
theorem C138_combined_range {K : Type} {nk n nb nk' n' nms nsf nz nm nt nk'' n'' nms' nsf' nz' nm' nt' : ℕ} (rng : Rng K)
    (logMah : MahParams ℝ → ℝ → ℝ → ℝ) (u : PF → ℝ) (dM : MstarData K nk n nb) (dC : SsfrData K nk' n' nms nsf nz nm nt)
    (dS : SsfrData K nk'' n'' nms' nsf' nz' nm' nt') (hk : 0 < nk) (hnb : 0 < nb) (hb : StrictMono dM.bins)
    (ht : ∀ k, TargetRow (dM.target k))
    (hz : 0 < nz) (hnt : 0 < nt) (hms : 0 < nms) (hsf : 0 < nsf) (hlh : ∀ b k, dC.ndbinsLo b k ≤ dC.ndbinsHi b k)
    (hmb : StrictMono dC.mstarBins) (hsb : StrictMono dC.ssfrBins) (hw : ∀ z m, 0 ≤ dC.nmhaloPdf z m)
    (htC : ∀ z t, TargetRow (dC.target z t))
    (hz' : 0 < nz') (hnt' : 0 < nt') (hms' : 0 < nms') (hsf' : 0 < nsf')
    (hlh' : ∀ b k, dS.ndbinsLo b k ≤ dS.ndbinsHi b k) (hmb' : StrictMono dS.mstarBins) (hsb' : StrictMono dS.ssfrBins)
    (hw' : ∀ z m, 0 ≤ dS.nmhaloPdf z m) (htS : ∀ z t, TargetRow (dS.target z t)) (v : ℝ) :
    (lossCombined rng logMah u dM dC = some v → 0 ≤ v ∧ v ≤ 2000 / nb + 2000 / nsf) ∧
    (lossCombined3 rng logMah u dM dC dS = some v → 0 ≤ v ∧ v ≤ 2000 / nb + 2000 / nsf + 2000 / nsf') := by
  obtain ⟨c1, c2, -⟩ := C28_combined_losses rng logMah u dM dC dS v
  constructor
  · intro h
    obtain ⟨a, b, ha, hb2, rfl, h0, -⟩ := c1 h
    exact ⟨h0, add_le_add (C138_mass_range rng logMah u dM hb hnb hk ht a ha).2
      (C138_ssfr_range rng logMah u dC hlh hmb hsb hms hsf hz hnt hw htC b hb2).2⟩
  · intro h
    obtain ⟨a, b, c, ha, hb2, hc, rfl, h0, -⟩ := c2 h
    exact ⟨h0, add_le_add (add_le_add (C138_mass_range rng logMah u dM hb hnb hk ht a ha).2
      (C138_ssfr_range rng logMah u dC hlh hmb hsb hms hsf hz hnt hw htC b hb2).2)
      (C138_ssfr_range rng logMah u dS hlh' hmb' hsb' hms' hsf' hz' hnt' hw' htS c hc).2⟩

theorem abs_sum_le_sqrt {ι : Type*} [Fintype ι] (x : ι → ℝ) (S : Finset ι) :
    |∑ i ∈ S, x i| ≤ Real.sqrt (S.card * ∑ i, x i ^ 2) := by
  apply Real.abs_le_sqrt
  refine (sq_sum_le_card_mul_sum_sq (s := S) (f := x)).trans ?_
  gcongr
  exact Finset.subset_univ S

/-- C138: if the loss of stellar mass functions is `v`, then the predicted share of the galaxies in any set of `m` bins of
any halo sample (a single bin, or all bins above a mass) differs from the target by at most
`sqrt(m * v * nk * nb / 1000)`. -/
theorem C138_mass_shares {K : Type} {nk n nb : ℕ} (rng : Rng K) (logMah : MahParams ℝ → ℝ → ℝ → ℝ) (u : PF → ℝ)
    (d : MstarData K nk n nb) (v : ℝ) (h : lossMstar rng logMah u d = some v) :
    ∃ f : Fin nk → Fin nb → ℝ, (∀ k, mstarKernTobs rng logMah u d.samples d.lgt0 d.fb d.bins k = some (f k)) ∧
      ∀ k (S : Finset (Fin nb)), |∑ b ∈ S, f k b - ∑ b ∈ S, d.target k b| ≤ Real.sqrt (S.card * (v * (nk * nb) / 1000)) := by
  obtain ⟨-, -, f, hf, hv⟩ := C28_loss_mstar rng logMah u d v h
  refine ⟨f, hf, fun k S => ?_⟩
  rw [← Finset.sum_sub_distrib]
  refine (abs_sum_le_sqrt (fun b => f k b - d.target k b) S).trans (Real.sqrt_le_sqrt ?_)
  have : ∑ b, (f k b - d.target k b) ^ 2 ≤ ∑ k, ∑ b, (f k b - d.target k b) ^ 2 :=
    Finset.single_le_sum (f := fun k => ∑ b, (f k b - d.target k b) ^ 2)
      (fun k _ => Finset.sum_nonneg fun b _ => sq_nonneg _) (Finset.mem_univ k)
  gcongr
  rw [hv]
  linarith

/-- C138: the same for the predicted distributions of specific star formation rates: the share of a set of bins, such as
the quenched galaxies, is within `sqrt(m * v * nz * nt * nsf / 1000)` of the target. -/
theorem C138_ssfr_shares {K : Type} {nk n nms nsf nz nm nt : ℕ} (rng : Rng K) (logMah : MahParams ℝ → ℝ → ℝ → ℝ)
    (u : PF → ℝ) (d : SsfrData K nk n nms nsf nz nm nt) (v : ℝ) (h : lossMstarSsfr rng logMah u d = some v) :
    ∃ f : Fin nz → Fin nt → Fin nsf → ℝ, (∀ z t b, mstarSsfrKernTobs rng logMah u d z t b = some (f z t b)) ∧
      ∀ z t (S : Finset (Fin nsf)), |∑ b ∈ S, f z t b - ∑ b ∈ S, d.target z t b| ≤
        Real.sqrt (S.card * (v * (nz * nt * nsf) / 1000)) := by
  obtain ⟨-, -, f, hf, hv⟩ := C28_loss_ssfr rng logMah u d v h
  refine ⟨f, hf, fun z t S => ?_⟩
  rw [← Finset.sum_sub_distrib]
  refine (abs_sum_le_sqrt (fun b => f z t b - d.target z t b) S).trans (Real.sqrt_le_sqrt ?_)
  have h1 : ∑ b, (f z t b - d.target z t b) ^ 2 ≤ ∑ t, ∑ b, (f z t b - d.target z t b) ^ 2 :=
    Finset.single_le_sum (f := fun t => ∑ b, (f z t b - d.target z t b) ^ 2)
      (fun t _ => Finset.sum_nonneg fun b _ => sq_nonneg _) (Finset.mem_univ t)
  have h2 : ∑ t, ∑ b, (f z t b - d.target z t b) ^ 2 ≤ ∑ z, ∑ t, ∑ b, (f z t b - d.target z t b) ^ 2 :=
    Finset.single_le_sum (f := fun z => ∑ t, ∑ b, (f z t b - d.target z t b) ^ 2)
      (fun z _ => Finset.sum_nonneg fun t _ => Finset.sum_nonneg fun b _ => sq_nonneg _) (Finset.mem_univ z)
  gcongr
  rw [hv]
  linarith

/-- C138: each loss is at most the combined loss, so that the shares are as close to the targets when only the combined
loss is known. -/
theorem C138_parts {K : Type} {nk n nb nk' n' nms nsf nz nm nt nk'' n'' nms' nsf' nz' nm' nt' : ℕ} (rng : Rng K)
    (logMah : MahParams ℝ → ℝ → ℝ → ℝ) (u : PF → ℝ) (dM : MstarData K nk n nb) (dC : SsfrData K nk' n' nms nsf nz nm nt)
    (dS : SsfrData K nk'' n'' nms' nsf' nz' nm' nt') (v : ℝ) (h : lossCombined3 rng logMah u dM dC dS = some v) :
    ∃ a b c, lossMstar rng logMah u dM = some a ∧ lossMstarSsfr rng logMah u dC = some b ∧
      lossMstarSsfr rng logMah u dS = some c ∧ a ≤ v ∧ b ≤ v ∧ c ≤ v := by
  obtain ⟨a, b, c, ha, hb, hc, rfl, -⟩ := (C28_combined_losses rng logMah u dM dC dS v).2.1 h
  have h1 := (C28_loss_mstar rng logMah u dM a ha).1
  have h2 := (C28_loss_ssfr rng logMah u dC b hb).1
  have h3 := (C28_loss_ssfr rng logMah u dS c hc).1
  exact ⟨a, b, c, ha, hb, hc, by linarith, by linarith, by linarith⟩

open Diffstar.LossData in
/-- C138: the targets made by the repository are such rows: those of the stellar mass functions and those of the specific
star formation rates, also where there are no galaxies. -/
theorem C138_targets {na nb nm : ℕ} (w f : Fin na → ℝ) (hw : ∀ a, 0 ≤ w a) (h : mstarTarget w = some f)
    (w' : Fin nm → Fin na → Fin nb → ℝ) (counts : Fin nm → ℕ) (a : Fin na) :
    TargetRow f ∧ TargetRow (targetRow (targetPdf w' (mhaloPdf counts)) a) := by
  obtain ⟨h1, h2, -⟩ := C79_mstar_target w f hw h
  obtain ⟨g1, g2, -⟩ := C79_ssfr_target_rows w' counts a
  refine ⟨⟨h1, h2.le⟩, g1, ?_⟩
  rcases g2 with g2 | g2
  · exact g2.le
  · rw [Finset.sum_eq_zero fun b _ => g2 b]; exact zero_le_one

theorem lossMstar_retarget {K : Type} {nk n nb : ℕ} {rng : Rng K} {logMah : MahParams ℝ → ℝ → ℝ → ℝ} {u : PF → ℝ}
    {d : MstarData K nk n nb} {v : ℝ} (h : lossMstar rng logMah u d = some v) (t : Fin nk → Fin nb → ℝ) :
    ∃ v', lossMstar rng logMah u { d with target := t } = some v' := by
  rw [← Option.isSome_iff_exists, Option.isSome_iff_ne_none]
  intro hn
  have h' : lossMstar rng logMah u d ≠ none := by rw [h]; exact Option.some_ne_none v
  unfold lossMstar at hn h'
  rw [Option.map_eq_none_iff, (C28_mse _ _).2] at hn
  rw [Ne, Option.map_eq_none_iff, (C28_mse _ _).2] at h'
  exact h' hn

theorem lossMstarSsfr_retarget {K : Type} {nk n nms nsf nz nm nt : ℕ} {rng : Rng K} {logMah : MahParams ℝ → ℝ → ℝ → ℝ}
    {u : PF → ℝ} {d : SsfrData K nk n nms nsf nz nm nt} {v : ℝ} (h : lossMstarSsfr rng logMah u d = some v)
    (t : Fin nz → Fin nt → Fin nsf → ℝ) : ∃ v', lossMstarSsfr rng logMah u { d with target := t } = some v' := by
  rw [← Option.isSome_iff_exists, Option.isSome_iff_ne_none]
  intro hn
  have h' : lossMstarSsfr rng logMah u d ≠ none := by rw [h]; exact Option.some_ne_none v
  unfold lossMstarSsfr at hn h'
  rw [Option.map_eq_none_iff, (C28_mse _ _).2] at hn
  rw [Ne, Option.map_eq_none_iff, (C28_mse _ _).2] at h'
  exact h' hn

example : TargetRow ![(1 : ℝ) / 4, 3 / 4] ∧ TargetRow ![(0 : ℝ), 0] := by
  refine ⟨⟨fun b => ?_, ?_⟩, fun b => ?_, ?_⟩
  · fin_cases b <;> norm_num
  · rw [Fin.sum_univ_two]; norm_num
  · fin_cases b <;> norm_num
  · rw [Fin.sum_univ_two]; norm_num

/-- The hypotheses hold for one halo observed at 0.2 Gyr and the target one half. -/
example : ∃ (d : MstarData Unit 1 1 1) (dc : SsfrData Unit 1 1 1 1 1 1 1) (v : ℝ), StrictMono d.bins ∧
    (∀ k, TargetRow (d.target k)) ∧ (∀ b k, dc.ndbinsLo b k ≤ dc.ndbinsHi b k) ∧ StrictMono dc.mstarBins ∧
    StrictMono dc.ssfrBins ∧ (∀ z m, 0 ≤ dc.nmhaloPdf z m) ∧ (∀ z t, TargetRow (dc.target z t)) ∧
    lossCombined3 oneSigmaRng (fun _ _ _ => 12) (fun _ => 1) d dc dc = some v := by
  obtain ⟨d, L, h1, -, h2, -⟩ := oneHalo_mstar_instance
  obtain ⟨dc, L', g1, g2, g3, g4, -, g5, -⟩ := oneHalo_ssfr_instance
  have ht : TargetRow (fun _ : Fin 1 => (1 : ℝ) / 2) := ⟨fun _ => by norm_num, by simp; norm_num⟩
  obtain ⟨a, ha⟩ := lossMstar_retarget h2 fun _ _ => 1 / 2
  obtain ⟨b, hb⟩ := lossMstarSsfr_retarget g5 fun _ _ _ => 1 / 2
  refine ⟨{ d with target := fun _ _ => 1 / 2 }, { dc with target := fun _ _ _ => 1 / 2 }, b + a + b, h1, fun _ => ht,
    fun x k => (g1 x k).le, g2, g3, g4, fun _ _ => ht, ?_⟩
  unfold lossCombined3
  rw [ha, hb]
  rfl

end Diffstar.Props
