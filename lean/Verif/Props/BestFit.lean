import Verif.Props.FitContinuity

/-!
C120: the fitting problem is well posed: a best fit exists in the closed parameter box, the optimiser can come arbitrarily
close to it, and near-optimal fits are near best fits.
-/

namespace Diffstar.Spec

/-- The eight parameters as a vector (field order of the source). -/
def vecOfParams (p : DiffstarParams ℝ) : Fin 8 → ℝ :=
  ![p.lgmcrit, p.lgyAtMcrit, p.indxLo, p.indxHi, p.lgQt, p.qlglgdt, p.lgDrop, p.lgRejuv]

/-- The documented box with its faces. -/
structure InClosedBounds (p : DiffstarParams ℝ) : Prop where
  lgmcrit : 9 ≤ p.lgmcrit ∧ p.lgmcrit ≤ 13.5
  lgyAtMcrit : -12 ≤ p.lgyAtMcrit ∧ p.lgyAtMcrit ≤ -8
  indxLo : 0 ≤ p.indxLo ∧ p.indxLo ≤ 5
  indxHi : -5 ≤ p.indxHi ∧ p.indxHi ≤ 0
  lgQt : 0.1 ≤ p.lgQt ∧ p.lgQt ≤ 2
  qlglgdt : -3 ≤ p.qlglgdt ∧ p.qlglgdt ≤ -0.01
  lgDrop : -3 ≤ p.lgDrop ∧ p.lgDrop ≤ 0
  lgRejuv : p.lgDrop ≤ p.lgRejuv ∧ p.lgRejuv ≤ 0

end Diffstar.Spec

namespace Diffstar.Props

open Diffstar Diffstar.Fit Diffstar.Spec Finset Filter Topology

theorem paramsOfVec_vecOfParams (p : DiffstarParams ℝ) : paramsOfVec (vecOfParams p) = p := by
  cases p; rfl

theorem vecOfParams_paramsOfVec (v : Fin 8 → ℝ) : vecOfParams (paramsOfVec v) = v := by
  funext i; fin_cases i <;> rfl

theorem closedBox_isCompact : IsCompact {v : Fin 8 → ℝ | InClosedBounds (paramsOfVec v)} := by
  refine (isCompact_Icc (a := (![9, -12, 0, -5, 0.1, -3, -3, -3] : Fin 8 → ℝ))
    (b := ![13.5, -8, 5, 0, 2, -0.01, 0, 0])).of_isClosed_subset ?_ ?_
  · have : {v : Fin 8 → ℝ | InClosedBounds (paramsOfVec v)} =
        {v | (9 ≤ v 0 ∧ v 0 ≤ 13.5) ∧ (-12 ≤ v 1 ∧ v 1 ≤ -8) ∧ (0 ≤ v 2 ∧ v 2 ≤ 5) ∧ (-5 ≤ v 3 ∧ v 3 ≤ 0) ∧
          (0.1 ≤ v 4 ∧ v 4 ≤ 2) ∧ (-3 ≤ v 5 ∧ v 5 ≤ -0.01) ∧ (-3 ≤ v 6 ∧ v 6 ≤ 0) ∧ (v 6 ≤ v 7 ∧ v 7 ≤ 0)} := by
      ext v
      exact ⟨fun ⟨a, b, c, d, e, f, g, h⟩ => ⟨a, b, c, d, e, f, g, h⟩, fun ⟨a, b, c, d, e, f, g, h⟩ => ⟨a, b, c, d, e, f, g, h⟩⟩
    rw [this]
    have k : ∀ i : Fin 8, Continuous fun v : Fin 8 → ℝ => v i := fun i => continuous_apply i
    have kk : ∀ (i : Fin 8) (a b : ℝ), IsClosed {v : Fin 8 → ℝ | a ≤ v i ∧ v i ≤ b} := fun i a b =>
      (isClosed_le continuous_const (k i)).inter (isClosed_le (k i) continuous_const)
    exact (kk 0 _ _).inter ((kk 1 _ _).inter ((kk 2 _ _).inter ((kk 3 _ _).inter ((kk 4 _ _).inter ((kk 5 _ _).inter
      ((kk 6 _ _).inter ((isClosed_le (k 6) (k 7)).inter (isClosed_le (k 7) continuous_const))))))))
  · rintro v ⟨h1, h2, h3, h4, h5, h6, h7, h8⟩
    simp only [paramsOfVec] at h1 h2 h3 h4 h5 h6 h7 h8
    constructor <;> intro i <;> fin_cases i <;> simp <;> linarith

/-- An inner point of the box. -/
def innerPoint : Fin 8 → ℝ := ![12, -10, 1, -1, 1, -1, -2, -1]

theorem inner_segment (v : Fin 8 → ℝ) (hv : InClosedBounds (paramsOfVec v)) (s : ℝ) (h0 : 0 < s) (h1 : s ≤ 1) :
    InBounds (paramsOfVec (fun i => (1 - s) * v i + s * innerPoint i)) := by
  obtain ⟨k1, k2, k3, k4, k5, k6, k7, k8⟩ := hv
  simp only [paramsOfVec] at k1 k2 k3 k4 k5 k6 k7 k8
  have lo : ∀ a x c : ℝ, a ≤ x → a < c → a < (1 - s) * x + s * c := fun a x c h h' => by
    nlinarith [mul_nonneg (sub_nonneg.2 h1) (sub_nonneg.2 h), mul_pos h0 (sub_pos.2 h')]
  have hi : ∀ a x c : ℝ, x ≤ a → c < a → (1 - s) * x + s * c < a := fun a x c h h' => by
    nlinarith [mul_nonneg (sub_nonneg.2 h1) (sub_nonneg.2 h), mul_pos h0 (sub_pos.2 h')]
  refine ⟨⟨lo _ _ _ k1.1 ?_, hi _ _ _ k1.2 ?_⟩, ⟨lo _ _ _ k2.1 ?_, hi _ _ _ k2.2 ?_⟩, ⟨lo _ _ _ k3.1 ?_, hi _ _ _ k3.2 ?_⟩,
    ⟨lo _ _ _ k4.1 ?_, hi _ _ _ k4.2 ?_⟩, ⟨lo _ _ _ k5.1 ?_, hi _ _ _ k5.2 ?_⟩, ⟨lo _ _ _ k6.1 ?_, hi _ _ _ k6.2 ?_⟩,
    ⟨lo _ _ _ k7.1 ?_, hi _ _ _ k7.2 ?_⟩, ⟨?_, hi _ _ _ k8.2 ?_⟩⟩
  case refine_15 =>
    show (1 - s) * v 6 + s * (-2) < (1 - s) * v 7 + s * (-1)
    nlinarith [mul_nonneg (sub_nonneg.2 h1) (sub_nonneg.2 k8.1)]
  all_goals (simp [innerPoint] <;> norm_num)

section

variable {M : Type} (logMah : M → ℝ → ℝ → ℝ) (d : LossData M)

/-- Star formation rate of the parameters at snapshot `i`. -/
theorem sfh_continuous (i : ℕ) : Continuous fun v : Fin 8 → ℝ =>
    (calcSfhSinglegalSmh logMah (paramsOfVec v) d.mah d.t d.lgt0 d.fb).sfh.getD i 0 := by
  by_cases hi : i < d.t.length
  · have e : (fun x => (calcSfhSinglegalSmh logMah (paramsOfVec x) d.mah d.t d.lgt0 d.fb).sfh.getD i 0) =
        fun x => max (1 / 10 ^ 14) (rawSfr logMah d.mah d.lgt0 d.fb (paramsOfVec x) d.t[i]) := by
      funext x
      rw [sfh_eq, List.getD_eq_getElem _ _ (by simpa using hi), List.getElem_map]
    rw [e]
    exact continuous_const.max (contDiff_rawSfr_bounded _ _ _).continuous
  · have e : (fun x => (calcSfhSinglegalSmh logMah (paramsOfVec x) d.mah d.t d.lgt0 d.fb).sfh.getD i 0) = fun _ => 0 := by
      funext x
      rw [List.getD_eq_default _ _ (by simp [sfh_eq]; omega)]
    rw [e]
    exact continuous_const

theorem smh_continuous (i : ℕ) : Continuous fun v : Fin 8 → ℝ =>
    (calcSfhSinglegalSmh logMah (paramsOfVec v) d.mah d.t d.lgt0 d.fb).smh.getD i 0 := by
  obtain ⟨c0, c, hc⟩ := cmf_affine d.t i
  have e : (fun x => (calcSfhSinglegalSmh logMah (paramsOfVec x) d.mah d.t d.lgt0 d.fb).smh.getD i 0) = fun x => c0 +
      ∑ j ∈ range d.t.length, c j * (calcSfhSinglegalSmh logMah (paramsOfVec x) d.mah d.t d.lgt0 d.fb).sfh.getD j 0 := by
    funext x
    rw [smh_eq, hc _ (by simp [sfh_eq])]
  rw [e]
  exact continuous_const.add (continuous_finsetSum _ fun j _ => continuous_const.mul (sfh_continuous logMah d j))

theorem lossOf_vec_continuous (hd : WellFormed d) : Continuous fun v : Fin 8 → ℝ => lossOf logMah d (paramsOfVec v) :=
  continuous_lossOf logMah d hd (fun t _ => (contDiff_rawSfr_bounded _ _ _).continuous)
    (by simp only [paramsOfVec]; fun_prop)

end

/-- `p` and `q` are the same to within `ε`: all eight parameters, and the star formation rates and stellar masses at all
snapshots. -/
def CloseFits {M : Type} (logMah : M → ℝ → ℝ → ℝ) (d : LossData M) (ε : ℝ) (p q : DiffstarParams ℝ) : Prop :=
  let hp := calcSfhSinglegalSmh logMah p d.mah d.t d.lgt0 d.fb
  let hq := calcSfhSinglegalSmh logMah q d.mah d.t d.lgt0 d.fb
  (∀ i, |vecOfParams p i - vecOfParams q i| < ε) ∧
    ∀ i, i < d.t.length → |hp.sfh.getD i 0 - hq.sfh.getD i 0| < ε ∧ |hp.smh.getD i 0 - hq.smh.getD i 0| < ε

theorem closeFits_open {M : Type} (logMah : M → ℝ → ℝ → ℝ) (d : LossData M) (ε : ℝ) (q : DiffstarParams ℝ) :
    IsOpen {v : Fin 8 → ℝ | CloseFits logMah d ε (paramsOfVec v) q} := by
  have e : {v : Fin 8 → ℝ | CloseFits logMah d ε (paramsOfVec v) q} =
      (⋂ i, {v | |vecOfParams (paramsOfVec v) i - vecOfParams q i| < ε}) ∩
      ⋂ i ∈ Finset.range d.t.length,
        ({v | |(calcSfhSinglegalSmh logMah (paramsOfVec v) d.mah d.t d.lgt0 d.fb).sfh.getD i 0 -
          (calcSfhSinglegalSmh logMah q d.mah d.t d.lgt0 d.fb).sfh.getD i 0| < ε} ∩
        {v | |(calcSfhSinglegalSmh logMah (paramsOfVec v) d.mah d.t d.lgt0 d.fb).smh.getD i 0 -
          (calcSfhSinglegalSmh logMah q d.mah d.t d.lgt0 d.fb).smh.getD i 0| < ε}) := by
    ext v
    simp only [CloseFits, Set.mem_ofPred_eq, Set.mem_inter_iff, Set.mem_iInter, Finset.mem_range]
  rw [e]
  refine (isOpen_iInter_of_finite fun i => ?_).inter (isOpen_biInter_finset fun i _ => IsOpen.inter ?_ ?_)
  · simp only [vecOfParams_paramsOfVec]
    exact isOpen_lt ((continuous_apply i).sub continuous_const).abs continuous_const
  · exact isOpen_lt ((sfh_continuous logMah d i).sub continuous_const).abs continuous_const
  · exact isOpen_lt ((smh_continuous logMah d i).sub continuous_const).abs continuous_const

theorem closeFits_refl {M : Type} (logMah : M → ℝ → ℝ → ℝ) (d : LossData M) {ε : ℝ} (h : 0 < ε) (p : DiffstarParams ℝ) :
    CloseFits logMah d ε p p := by
  simp [CloseFits, h]

theorem inBounds_closed {p : DiffstarParams ℝ} (h : InBounds p) : InClosedBounds p :=
  ⟨⟨h.1.1.le, h.1.2.le⟩, ⟨h.2.1.le, h.2.2.le⟩, ⟨h.3.1.le, h.3.2.le⟩, ⟨h.4.1.le, h.4.2.le⟩, ⟨h.5.1.le, h.5.2.le⟩,
    ⟨h.6.1.le, h.6.2.le⟩, ⟨h.7.1.le, h.7.2.le⟩, ⟨h.8.1.le, h.8.2.le⟩⟩

/-- `p` is a best fit: in the closed box, no parameters there have a smaller loss. -/
def BestFit {M : Type} (logMah : M → ℝ → ℝ → ℝ) (d : LossData M) (p : DiffstarParams ℝ) : Prop :=
  InClosedBounds p ∧ ∀ q, InClosedBounds q → lossOf logMah d p ≤ lossOf logMah d q

/-- **C120**: every parameter vector of the closed box, those on its faces included, is approached by unbounded parameters
of the optimiser: parameters, histories and loss. -/
theorem C120_faces_reachable {M : Type} (logMah : M → ℝ → ℝ → ℝ) (d : LossData M) (hd : WellFormed d)
    (p : DiffstarParams ℝ) (hp : InClosedBounds p) (ε : ℝ) (hε : 0 < ε) :
    ∃ u, CloseFits logMah d ε (getBoundedDiffstarParams u) p ∧ |lossDefaultClipssfrh logMah u d - lossOf logMah d p| < ε := by
  set v := vecOfParams p with hv
  have hpv : paramsOfVec v = p := paramsOfVec_vecOfParams p
  have hcont : Continuous fun s : ℝ => (fun i => (1 - s) * v i + s * innerPoint i : Fin 8 → ℝ) :=
    continuous_pi fun i => by fun_prop
  have h0 : (fun i => (1 - (0 : ℝ)) * v i + 0 * innerPoint i : Fin 8 → ℝ) = v := by funext i; ring
  have hopen : IsOpen {w : Fin 8 → ℝ | CloseFits logMah d ε (paramsOfVec w) p ∧
      |lossOf logMah d (paramsOfVec w) - lossOf logMah d p| < ε} :=
    (closeFits_open logMah d ε p).inter (isOpen_lt ((lossOf_vec_continuous logMah d hd).sub continuous_const).abs
      continuous_const)
  have hmem : ∀ᶠ s in 𝓝 (0 : ℝ), CloseFits logMah d ε (paramsOfVec (fun i => (1 - s) * v i + s * innerPoint i)) p ∧
      |lossOf logMah d (paramsOfVec (fun i => (1 - s) * v i + s * innerPoint i)) - lossOf logMah d p| < ε := by
    refine hcont.continuousAt.eventually (hopen.mem_nhds ?_)
    show CloseFits logMah d ε (paramsOfVec (fun i => (1 - (0 : ℝ)) * v i + 0 * innerPoint i)) p ∧
      |lossOf logMah d (paramsOfVec (fun i => (1 - (0 : ℝ)) * v i + 0 * innerPoint i)) - lossOf logMah d p| < ε
    rw [h0, hpv]
    exact ⟨closeFits_refl logMah d hε p, by simpa using hε⟩
  have hpos : ∀ᶠ s in 𝓝[>] (0 : ℝ), 0 < s ∧ s ≤ 1 := by
    filter_upwards [Ioc_mem_nhdsGT (show (0 : ℝ) < 1 by norm_num)] with s hs using hs
  obtain ⟨s, ⟨a, b⟩, c, e⟩ := ((hmem.filter_mono nhdsWithin_le_nhds).and hpos).exists
  have hin := inner_segment v (by rw [hpv]; exact hp) s c e
  refine ⟨getUnboundedDiffstarParams (paramsOfVec (fun i => (1 - s) * v i + s * innerPoint i)), ?_, ?_⟩
  · rw [C02_bounded_of_unbounded _ hin]; exact a
  · rw [lossOf_eq logMah d hd, C02_bounded_of_unbounded _ hin]; exact b

/-- **C120**: a best fit exists; its loss is the infimum of the losses which the optimiser can reach, and the parameters,
histories and loss of the best fit are approached by unbounded parameters. -/
theorem C120_best_fit_exists {M : Type} (logMah : M → ℝ → ℝ → ℝ) (d : LossData M) (hd : WellFormed d) :
    ∃ p, BestFit logMah d p ∧ (∀ u, lossOf logMah d p ≤ lossDefaultClipssfrh logMah u d) ∧
      ∀ ε > 0, ∃ u, CloseFits logMah d ε (getBoundedDiffstarParams u) p ∧
        lossDefaultClipssfrh logMah u d < lossOf logMah d p + ε := by
  have hne : {v : Fin 8 → ℝ | InClosedBounds (paramsOfVec v)}.Nonempty := by
    refine ⟨innerPoint, ?_⟩
    show InClosedBounds _
    refine ⟨?_, ?_, ?_, ?_, ?_, ?_, ?_, ?_⟩ <;> simp [paramsOfVec, innerPoint] <;> norm_num
  obtain ⟨v, hv, hmin⟩ := closedBox_isCompact.exists_isMinOn hne (lossOf_vec_continuous logMah d hd).continuousOn
  · have hb : BestFit logMah d (paramsOfVec v) := by
      refine ⟨hv, fun q hq => ?_⟩
      have := hmin (show vecOfParams q ∈ {v | InClosedBounds (paramsOfVec v)} by
        simpa [paramsOfVec_vecOfParams] using hq)
      simpa [paramsOfVec_vecOfParams] using this
    refine ⟨paramsOfVec v, hb, fun u => ?_, fun ε hε => ?_⟩
    · rw [lossOf_eq logMah d hd]
      exact hb.2 _ (inBounds_closed (C01_bounded_params_in_bounds u))
    · obtain ⟨u, h1, h2⟩ := C120_faces_reachable logMah d hd _ hb.1 ε hε
      exact ⟨u, h1, by linarith [(abs_lt.1 h2).2]⟩

/-- **C120**: near-optimal fits are near best fits: for each accuracy there is a margin such that unbounded parameters whose
loss no other parameters beat by the margin have bounded parameters and histories within the accuracy of those of a best
fit. -/
theorem C120_near_optimal_near_best {M : Type} (logMah : M → ℝ → ℝ → ℝ) (d : LossData M) (hd : WellFormed d) (ε : ℝ)
    (hε : 0 < ε) :
    ∃ δ > 0, ∀ u, (∀ w, lossDefaultClipssfrh logMah u d < lossDefaultClipssfrh logMah w d + δ) →
      ∃ p, BestFit logMah d p ∧ CloseFits logMah d ε (getBoundedDiffstarParams u) p := by
  obtain ⟨p0, hb0, -, happ⟩ := C120_best_fit_exists logMah d hd
  set K : Set (Fin 8 → ℝ) := {v | InClosedBounds (paramsOfVec v)} ∩
    ⋂ p ∈ {p | BestFit logMah d p}, {v | CloseFits logMah d ε (paramsOfVec v) p}ᶜ with hK
  have hKc : IsCompact K := closedBox_isCompact.inter_right
    (isClosed_biInter fun p _ => (closeFits_open logMah d ε p).isClosed_compl)
  have hout : ∀ u, vecOfParams (getBoundedDiffstarParams u) ∉ K →
      ∃ p, BestFit logMah d p ∧ CloseFits logMah d ε (getBoundedDiffstarParams u) p := by
    intro u hu
    by_contra hcon
    push Not at hcon
    refine hu ⟨?_, ?_⟩
    · show InClosedBounds _
      rw [paramsOfVec_vecOfParams]
      exact inBounds_closed (C01_bounded_params_in_bounds u)
    · simp only [Set.mem_iInter, Set.mem_compl_iff, Set.mem_ofPred_eq, paramsOfVec_vecOfParams]
      exact hcon
  rcases K.eq_empty_or_nonempty with he | hne
  · exact ⟨1, one_pos, fun u _ => hout u (by rw [he]; simp)⟩
  · obtain ⟨v, hv, hmin⟩ := hKc.exists_isMinOn hne (lossOf_vec_continuous logMah d hd).continuousOn
    have hgt : lossOf logMah d p0 < lossOf logMah d (paramsOfVec v) := by
      refine lt_of_le_of_ne (hb0.2 _ hv.1) fun heq => ?_
      have hbest : BestFit logMah d (paramsOfVec v) := ⟨hv.1, fun q hq => heq ▸ hb0.2 q hq⟩
      have := hv.2
      simp only [Set.mem_iInter, Set.mem_compl_iff, Set.mem_ofPred_eq] at this
      exact this _ hbest (closeFits_refl logMah d hε _)
    refine ⟨(lossOf logMah d (paramsOfVec v) - lossOf logMah d p0) / 2, by linarith, fun u hu => hout u fun hin => ?_⟩
    have h1 : lossOf logMah d (paramsOfVec v) ≤ lossDefaultClipssfrh logMah u d := by
      have := hmin hin
      rw [lossOf_eq logMah d hd]
      simpa [paramsOfVec_vecOfParams] using this
    obtain ⟨w, -, hw⟩ := happ ((lossOf logMah d (paramsOfVec v) - lossOf logMah d p0) / 2) (by linarith)
    have := hu w
    linarith

/-- A galaxy of three snapshots meets the hypotheses, and the box has vectors on its faces. -/
example : (∃ d : LossData Unit, WellFormed d ∧ d.t.length = 3) ∧ InClosedBounds ⟨9, -8, 0, -5, 2, -0.01, -3, -3⟩ ∧
    ¬ InBounds ⟨9, -8, 0, -5, 2, -0.01, -3, -3⟩ := by
  refine ⟨⟨⟨[1, 2, 3], (), [9, 10, 11], [1, 1, 1], [1, 2, 3], [1, 1, 1], 1, 1 / 10 ^ 12, [1, 1, 1], [1, 1, 1], 0, 1, 1⟩,
    ⟨by simp, by unfold Increasing; norm_num, rfl, rfl, rfl, rfl, rfl, rfl, by norm_num, by norm_num, by norm_num, by norm_num,
      by norm_num⟩, rfl⟩, ?_, fun h => lt_irrefl _ h.1.1⟩
  constructor <;> norm_num

end Diffstar.Props
