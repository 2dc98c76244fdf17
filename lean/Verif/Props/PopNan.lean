import Verif.Props.PopLoss
import Verif.Props.PopCov
import Verif.Lemmas.SmoothPop

/-! C94: where the Monte Carlo generators return NaN. -/

namespace Diffstar.Spec

open Diffstar.Pop

/-- The slopes of the main-sequence means and standard deviations. -/
def msSlopes : List QF := [.mean_ul_mseq_slp, .mean_uh_mseq_slp, .std_ulgm_mseq_slp, .std_ulgy_mseq_slp,
  .std_ul_mseq_slp, .std_uh_mseq_slp]

/-- The slopes of the quenched-sequence means and standard deviations. -/
def qSlopes : List QF := [.mean_ul_qseq_slp, .mean_uh_qseq_slp, .mean_uqs_slp, .mean_udrop_slp, .mean_urej_slp,
  .std_ulgm_qseq_slp, .std_ulgy_qseq_slp, .std_ul_qseq_slp, .std_uh_qseq_slp, .std_uqt_slp, .std_uqs_slp,
  .std_udrop_slp, .std_urej_slp]

end Diffstar.Spec

namespace Diffstar.Props

open Diffstar.Pop Diffstar.PopLoss

theorem bounded_slope_eq_zero {u : PF → ℝ} {fs : QF} (h1 : (QF.boundsQ fs).1 = -(QF.boundsQ fs).2)
    (h2 : 0 < (QF.boundsQ fs).2) : getBoundedDiffstarpopParams u (.inl fs) = 0 ↔ u (.inl fs) = 0 := by
  have h2' : (0 : ℝ) < ((QF.boundsQ fs).2 : ℝ) := by exact_mod_cast h2
  have h1' : ((QF.boundsQ fs).1 : ℝ) = -((QF.boundsQ fs).2 : ℝ) := by exact_mod_cast congrArg (Rat.cast (K := ℝ)) h1
  rw [getBounded_apply]
  simp only [PF.bounds, QF.bounds, h1']
  set b : ℝ := ((QF.boundsQ fs).2 : ℝ)
  have e : sigmoid (0 : ℝ) (0.5 * (-b + b)) 0.1 (-b) b = 0 := by
    simp [sigmoid, nnSigmoid_zero]; norm_num; ring
  have hinj := (sigmoid_strictMono (x0 := 0.5 * (-b + b)) (k := 0.1) (ymin := -b) (ymax := b) (by norm_num)
    (by linarith)).injective
  constructor
  · intro h
    exact hinj (h.trans e.symm)
  · intro h
    rw [h, e]

theorem line_none {u : PF → ℝ} (fi fs : QF) (x lo hi : ℝ) (hb : ((QF.boundsQ fi).1 : ℝ) = lo)
    (h1 : (QF.boundsQ fs).1 = -(QF.boundsQ fs).2) (h2 : 0 < (QF.boundsQ fs).2) :
    lineModel x (getBoundedDiffstarpopParams u (.inl fi)) (getBoundedDiffstarpopParams u (.inl fs)) (lo, hi) = none ↔
      u (.inl fs) = 0 := by
  rw [← bounded_slope_eq_zero h1 h2]
  have hlt := (getBounded_in u (.inl fi)).1
  simp only [PF.bounds, QF.bounds, hb] at hlt
  unfold lineModel smoothlyClippedLine
  constructor
  · intro h
    simp only at h
    split_ifs at h with hc
    rcases hc with hc | hc
    · exact hc
    · exact absurd hc hlt.ne'
  · intro h
    simp [h]

theorem bind_none {α β : Type} (o : Option α) (f : α → Option β) (g : Prop) (h : ∀ a, f a = none ↔ g) :
    o.bind f = none ↔ o = none ∨ g := by
  cases o with
  | none => simp
  | some a => simp [h a]

/-- C94: there is a NaN among the main-sequence parameters of a Monte Carlo galaxy exactly if one of the 6 main-sequence slopes of the
unbounded vector is zero, and the quenched ones exactly if one of the 13 quenched-sequence slopes is: whatever the halo,
the random key and the generator. -/
theorem C94_nan_iff_zero_slope {K : Type} (rng : Rng K) (u : PF → ℝ) (logmp0 tpeak : ℝ) (upid : ℤ)
    (lgmu logmhost gyr : ℝ) (key : K) :
    let r := mcDiffstarParamsSinglegal rng (getBoundedDiffstarpopParams u) logmp0 tpeak upid lgmu logmhost gyr key
    (r.paramsMs = none ↔ ∃ f ∈ Spec.msSlopes, u (.inl f) = 0) ∧
    (r.paramsQ = none ↔ ∃ f ∈ Spec.qSlopes, u (.inl f) = 0) := by
  have l := fun fi fs lo hi h1 h2 h3 => line_none (u := u) fi fs logmp0 lo hi h1 h2 h3
  have m1 := l .mean_ul_mseq_int .mean_ul_mseq_slp (-3) 5 (by norm_num [QF.boundsQ]) (by norm_num [QF.boundsQ])
    (by norm_num [QF.boundsQ])
  have m2 := l .mean_uh_mseq_int .mean_uh_mseq_slp (-5) 3 (by norm_num [QF.boundsQ]) (by norm_num [QF.boundsQ])
    (by norm_num [QF.boundsQ])
  have m3 := l .std_ulgm_mseq_int .std_ulgm_mseq_slp 0.01 1 (by norm_num [QF.boundsQ]) (by norm_num [QF.boundsQ])
    (by norm_num [QF.boundsQ])
  have m4 := l .std_ulgy_mseq_int .std_ulgy_mseq_slp 0.01 1 (by norm_num [QF.boundsQ]) (by norm_num [QF.boundsQ])
    (by norm_num [QF.boundsQ])
  have m5 := l .std_ul_mseq_int .std_ul_mseq_slp 0.01 3 (by norm_num [QF.boundsQ]) (by norm_num [QF.boundsQ])
    (by norm_num [QF.boundsQ])
  have m6 := l .std_uh_mseq_int .std_uh_mseq_slp 0.01 3 (by norm_num [QF.boundsQ]) (by norm_num [QF.boundsQ])
    (by norm_num [QF.boundsQ])
  have q1 := l .mean_ul_qseq_int .mean_ul_qseq_slp (-3) 5 (by norm_num [QF.boundsQ]) (by norm_num [QF.boundsQ])
    (by norm_num [QF.boundsQ])
  have q2 := l .mean_uh_qseq_int .mean_uh_qseq_slp (-5) 3 (by norm_num [QF.boundsQ]) (by norm_num [QF.boundsQ])
    (by norm_num [QF.boundsQ])
  have q3 := l .mean_uqs_int .mean_uqs_slp (-5) 2 (by norm_num [QF.boundsQ]) (by norm_num [QF.boundsQ])
    (by norm_num [QF.boundsQ])
  have q4 := l .mean_udrop_int .mean_udrop_slp (-3) 2 (by norm_num [QF.boundsQ]) (by norm_num [QF.boundsQ])
    (by norm_num [QF.boundsQ])
  have q5 := l .mean_urej_int .mean_urej_slp (-10) 2 (by norm_num [QF.boundsQ]) (by norm_num [QF.boundsQ])
    (by norm_num [QF.boundsQ])
  have q6 := l .std_ulgm_qseq_int .std_ulgm_qseq_slp 0.01 1 (by norm_num [QF.boundsQ]) (by norm_num [QF.boundsQ])
    (by norm_num [QF.boundsQ])
  have q7 := l .std_ulgy_qseq_int .std_ulgy_qseq_slp 0.01 1 (by norm_num [QF.boundsQ]) (by norm_num [QF.boundsQ])
    (by norm_num [QF.boundsQ])
  have q8 := l .std_ul_qseq_int .std_ul_qseq_slp 0.01 3 (by norm_num [QF.boundsQ]) (by norm_num [QF.boundsQ])
    (by norm_num [QF.boundsQ])
  have q9 := l .std_uh_qseq_int .std_uh_qseq_slp 0.01 3 (by norm_num [QF.boundsQ]) (by norm_num [QF.boundsQ])
    (by norm_num [QF.boundsQ])
  have q10 := l .std_uqt_int .std_uqt_slp 0.01 0.5 (by norm_num [QF.boundsQ]) (by norm_num [QF.boundsQ])
    (by norm_num [QF.boundsQ])
  have q11 := l .std_uqs_int .std_uqs_slp 0.01 1 (by norm_num [QF.boundsQ]) (by norm_num [QF.boundsQ])
    (by norm_num [QF.boundsQ])
  have q12 := l .std_udrop_int .std_udrop_slp 0.01 2 (by norm_num [QF.boundsQ]) (by norm_num [QF.boundsQ])
    (by norm_num [QF.boundsQ])
  have q13 := l .std_urej_int .std_urej_slp 0.01 2 (by norm_num [QF.boundsQ]) (by norm_num [QF.boundsQ])
    (by norm_num [QF.boundsQ])
  clear l
  have b : ∀ {α β : Type} (o : Option α) (f : α → Option β) (g : Prop), (∀ a, f a = none ↔ g) →
    ((o >>= f) = none ↔ o = none ∨ g) := fun o f g h => bind_none o f g h
  have pn : ∀ {α : Type} (a : α), (pure a : Option α) = none ↔ False := fun a => by simp
  constructor
  · simp only [mcDiffstarParamsSinglegal, mcDiffstarUParamsSinglegalKernel, diffstarpopMeansCovs, sfhPdfScalarKernel,
      Option.map_eq_none_iff, drawMs]
    rw [b _ _ _ fun mu => b _ _ _ fun cov => pn _]
    simp only [getMeanUParamsMseq, getCovarianceMseqMsBlock, getCovParamsMseqMsBlock, sfhPdfPart_apply, BV_mean_ul,
      BV_mean_uh, BV_std_ulgm, BV_std_ulgy, BV_std_ul, BV_std_uh, Option.map_eq_none_iff]
    rw [b _ _ _ fun x => b _ _ _ fun y => pn _, b _ _ _ fun x => b _ _ _ fun y => b _ _ _ fun z => b _ _ _ fun w => pn _,
      m1, m2, m3, m4, m5, m6]
    simp [Spec.msSlopes, or_assoc]
  · simp only [mcDiffstarParamsSinglegal, mcDiffstarUParamsSinglegalKernel, diffstarpopMeansCovs, sfhPdfScalarKernel,
      Option.map_eq_none_iff, drawQ]
    rw [b _ _ _ fun mu => b _ _ _ fun cov => b _ _ _ fun cov => pn _]
    simp only [getMeanUParamsQseq, getCovarianceQseqMsBlock, getCovParamsQseqMsBlock, getCovarianceQseqQBlock,
      getCovParamsQseqQBlock, sfhPdfPart_apply, BV_mean_ul, BV_mean_uh, BV_mean_uqs, BV_mean_udrop, BV_mean_urej,
      BV_std_ulgm, BV_std_ulgy, BV_std_ul, BV_std_uh, BV_std_uqt, BV_std_uqs, BV_std_udrop, BV_std_urej,
      Option.map_eq_none_iff]
    rw [b _ _ _ fun x => b _ _ _ fun y => b _ _ _ fun z => b _ _ _ fun w => b _ _ _ fun w => pn _,
      b _ _ _ fun x => b _ _ _ fun y => b _ _ _ fun z => b _ _ _ fun w => pn _,
      b _ _ _ fun x => b _ _ _ fun y => b _ _ _ fun z => b _ _ _ fun w => pn _,
      q1, q2, q3, q4, q5, q6, q7, q8, q9, q10, q11, q12, q13]
    simp [Spec.qSlopes, or_assoc]

/-- Neither the vector of ones (no NaN) nor the vector of zeros (both NaN) is special to one side. -/
example : (¬ ∃ f ∈ Spec.msSlopes, (fun _ : PF => (1 : ℝ)) (.inl f) = 0) ∧
    ∃ f ∈ Spec.qSlopes, (fun _ : PF => (0 : ℝ)) (.inl f) = 0 :=
  ⟨by simp, .std_uqt_slp, by simp [Spec.qSlopes], rfl⟩

/-- C94: the NaN at a zero slope is an artefact of the formula: the clipped line has a continuous extension through zero
slope, so that the value for a small slope is close to the missing one. -/
theorem C94_zero_slope_removable (x y0 : ℝ) (b : ℝ × ℝ) (hy : y0 ≠ b.1) :
    lineModel x y0 0 b = none ∧
    ∃ g : ℝ → ℝ, Continuous g ∧ ∀ m ≠ 0, lineModel x y0 m b = some (g m) := by
  refine ⟨lineModel_zero, fun m => clipOf (y0 - b.1) (b.2 - y0) y0 (y0 + m * (x - LGM_X0)), ?_, fun m hm =>
    smoothlyClippedLine_eq' hm hy⟩
  unfold clipOf
  have := (contDiff_nnSigmoid (n := 0)).continuous
  simp only
  fun_prop

example : (0 : ℝ) ≠ BV_mean_ul.1 := by norm_num [BV_mean_ul]

/-- C94 for the galaxies of a target bin: when the histories have parameters without NaN. -/
theorem C94_sample_nan_iff {K : Type} {n : ℕ} (rng : Rng K) (logMah : MahParams ℝ → ℝ → ℝ → ℝ) (u : PF → ℝ)
    (h : HaloSample K n) (lgt0 fb : ℝ) (i : Fin n) :
    ((mcSample rng logMah (getBoundedDiffstarpopParams u) h lgt0 fb i).sfhMs.isSome ↔
      ∀ f ∈ Spec.msSlopes, u (.inl f) ≠ 0) ∧
    ((mcSample rng logMah (getBoundedDiffstarpopParams u) h lgt0 fb i).sfhQ.isSome ↔
      ∀ f ∈ Spec.qSlopes, u (.inl f) ≠ 0) := by
  have := C94_nan_iff_zero_slope rng u (h.logmp0 i) (h.mah.tPeak i) (h.upid i) (h.lgmuInfall i)
    (h.logmhostInfall i) (h.gyrSinceInfall i) (rng.split h.ranKey n i)
  constructor
  · rw [← not_iff_not]
    rw [Option.not_isSome_iff_eq_none]
    refine Iff.trans ?_ (this.1.trans ?_)
    · exact Option.map_eq_none_iff
    · push Not; rfl
  · rw [← not_iff_not]
    rw [Option.not_isSome_iff_eq_none]
    refine Iff.trans ?_ (this.2.trans ?_)
    · exact Option.map_eq_none_iff
    · push Not; rfl

/-- C94 for the stellar-mass loss away from the zero slope of the rejuvenation mean (see C136): it is a number exactly if there is a target bin, no slope is zero, and in every target
bin some galaxy branch has a mass within three bin widths of the mass range. -/
theorem C94_loss_mstar_nan_iff {K : Type} {nk n nb : ℕ} (rng : Rng K) (logMah : MahParams ℝ → ℝ → ℝ → ℝ) (u : PF → ℝ)
    (_hu : u (.inl .mean_urej_slp) ≠ 0) (d : MstarData K nk n nb) (hb : StrictMono d.bins) (hn : 0 < nb) :
    let gals := fun k => mcSample rng logMah (getBoundedDiffstarpopParams u) (d.samples k) d.lgt0 d.fb
    let width := (d.bins (Fin.last nb) - d.bins 0) / nb
    (lossMstar rng logMah u d).isSome ↔ 0 < nk ∧ (∀ f ∈ Spec.msSlopes ++ Spec.qSlopes, u (.inl f) ≠ 0) ∧
      ∀ k, ∃ i, ∃ sfh, ((gals k i).sfhMs = some sfh ∨ (gals k i).sfhQ = some sfh) ∧
        d.bins 0 - 3 * width < Spec.logMassAt (d.samples k).tobs sfh ∧
        Spec.logMassAt (d.samples k).tobs sfh < d.bins (Fin.last nb) + 3 * width := by
  intro gals width
  have hpdf := fun k => (C27_mstar_pdf rng logMah u d.samples d.lgt0 d.fb d.bins hb hn k).2
  have hnan := fun k i => C94_sample_nan_iff rng logMah u (d.samples k) d.lgt0 d.fb i
  have key : (lossMstar rng logMah u d).isSome ↔ 0 < nk ∧
      ∀ k, (mstarKernTobs rng logMah u d.samples d.lgt0 d.fb d.bins k).isSome := by
    rw [← not_iff_not, Option.not_isSome_iff_eq_none]
    unfold lossMstar
    rw [Option.map_eq_none_iff, (C28_mse _ _).2]
    simp only [Prod.exists, Option.map_eq_none_iff]
    constructor
    · rintro (h | ⟨k, b, h⟩) ⟨h1, h2⟩
      · exact h.false (⟨0, h1⟩, ⟨0, hn⟩)
      · have := h2 k
        rw [h] at this
        simp at this
    · intro h
      by_cases h1 : 0 < nk
      · right
        have h2 : ¬ ∀ k, (mstarKernTobs rng logMah u d.samples d.lgt0 d.fb d.bins k).isSome := fun h2 => h ⟨h1, h2⟩
        push Not at h2
        obtain ⟨k, hk⟩ := h2
        exact ⟨k, ⟨0, hn⟩, Option.not_isSome_iff_eq_none.1 hk⟩
      · left
        exact ⟨fun x => h1 x.1.pos⟩
  rw [key]
  constructor
  · rintro ⟨h1, h2⟩
    refine ⟨h1, ?_, fun k => ((hpdf k).1 (h2 k)).2⟩
    obtain ⟨hall, i, -⟩ := (hpdf ⟨0, h1⟩).1 (h2 ⟨0, h1⟩)
    intro f hf
    rcases List.mem_append.1 hf with hf | hf
    · exact (hnan ⟨0, h1⟩ i).1.1 (hall i).1 f hf
    · exact (hnan ⟨0, h1⟩ i).2.1 (hall i).2 f hf
  · rintro ⟨h1, h2, h3⟩
    exact ⟨h1, fun k => (hpdf k).2 ⟨fun i => ⟨(hnan k i).1.2 fun f hf => h2 f (List.mem_append_left _ hf),
      (hnan k i).2.2 fun f hf => h2 f (List.mem_append_right _ hf)⟩, h3 k⟩⟩

example : ∃ bins : Fin (1 + 1) → ℝ, StrictMono bins :=
  ⟨![9, 10], by rw [Fin.strictMono_iff_lt_succ]; intro i; fin_cases i; simp; norm_num⟩

end Diffstar.Props
