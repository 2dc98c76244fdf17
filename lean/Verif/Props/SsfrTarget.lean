import Verif.Model.SsfrTarget
import Verif.Props.MstarTarget

/-! C108: the rows of the sSFR targets and of the sSFR predictions. -/

namespace Diffstar.Props

open Diffstar.Targets Diffstar.LossData Finset

/-- The product of kernel weights of one galaxy in the cell `[mlo, mlo + 0.24] × [bin b of sf]`. -/
noncomputable def cellKernel {nb : ℕ} (sf : Fin (nb + 1) → ℝ) (mass ssfr mlo : ℝ) (b : Fin nb) : ℝ :=
  NdHist.twBinWeightLaxKern mass 0.24 mlo (mlo + 0.24) *
    NdHist.twBinWeightLaxKern ssfr ((sf (Fin.last nb) - sf 0) / nb) (sf b.castSucc) (sf b.succ)

/-- Lower edges of the five stellar mass bins of the sSFR targets. -/
noncomputable def rowEdges : Fin 5 → ℝ := ![8.92, 9.4, 10.12, 10.84, 11.56]

/-- What one galaxy adds to the whole grid. -/
noncomputable def gridShare {na nb : ℕ} (ms : Fin (na + 1) → ℝ) (sf : Fin (nb + 1) → ℝ) (mass ssfr : ℝ) : ℝ :=
  (∑ a : Fin na, NdHist.twBinWeightLaxKern mass ((ms (Fin.last na) - ms 0) / na) (ms a.castSucc) (ms a.succ)) *
    ∑ b : Fin nb, NdHist.twBinWeightLaxKern ssfr ((sf (Fin.last nb) - sf 0) / nb) (sf b.castSucc) (sf b.succ)

/-- The stellar mass grid of the scripts, `linspace(7, 13, 26)`. -/
noncomputable def massEdges : Fin 26 → ℝ := fun i => 7 + (i.val : ℝ) * 0.24

theorem massEdges_strictMono : StrictMono massEdges := by
  intro i j h
  have : (i.val : ℝ) < j.val := by exact_mod_cast h
  simp only [massEdges]
  linarith

theorem massEdges_width : PopLoss.meanDiff (nb := 25) massEdges = 0.24 := by
  rw [meanDiff_eq_mstar]
  norm_num [massEdges, Fin.last]

theorem mapM_some_map {α β : Type*} (f : α → Option β) (g : α → β) (l : List α) (h : ∀ a ∈ l, f a = some (g a)) :
    l.mapM f = some (l.map g) := by
  induction l with
  | nil => simp
  | cons a l ih =>
    rw [List.mapM_cons, h a (by simp), ih fun b hb => h b (by simp [hb])]
    simp

/-- The five bins. -/
theorem rowEdges_eq (t : Fin 5) (a : Fin 25) (h : targetMstarIds[t.val]? = some a.val) :
    massEdges a.castSucc = rowEdges t ∧ massEdges a.succ = rowEdges t + 0.24 := by
  have : (a.val : ℝ) = ![8, 10, 13, 16, 19] t := by
    fin_cases t <;> simp [targetMstarIds] at h ⊢ <;> rw [← h] <;> norm_num
  simp only [massEdges, Fin.val_castSucc, Fin.val_succ]
  push_cast
  rw [this]
  fin_cases t <;> norm_num [rowEdges]

/-- The measured weights of one cell. -/
theorem ssfrWeights_measured {nm na nb : ℕ} (mh : Fin (nm + 1) → ℝ) (ms : Fin (na + 1) → ℝ) (sf : Fin (nb + 1) → ℝ)
    (kind : Kind) (hk : kind ≠ .all) (cent sat : ℕ → Fin nm → Fin na → Fin nb → ℝ) (pop : List Halo) (tid i : ℕ)
    (j : Fin nm) (hcen : cent i j = (measureAtz mh ms sf pop tid).mstarSsfrCen j)
    (hsat : sat i j = (measureAtz mh ms sf pop tid).mstarSsfrSat j)
    [DecidablePred (Spec.InCell mh (wanted kind) tid j)] (a : Fin na) (b : Fin nb) :
    ssfrWeights kind cent sat i j a b =
      ((pop.filter fun h => Spec.InCell mh (wanted kind) tid j h).map fun h =>
        NdHist.twBinWeightLaxKern (h.logSmh tid) (PopLoss.meanDiff ms) (ms a.castSucc) (ms a.succ) *
        NdHist.twBinWeightLaxKern (max (h.logSsfr tid) (-12)) (PopLoss.meanDiff sf) (sf b.castSucc) (sf b.succ)).sum := by
  classical
  cases kind with
  | all => exact absurd rfl hk
  | central =>
    simp only [ssfrWeights, hcen, measureAtz, diffHistMstarSsfrAtz_eq, List.map_map, Function.comp_def]
    congr 2
    refine List.filter_congr fun h _ => decide_eq_decide.2 ?_
    simp [Spec.InCell, inPdfBin, wanted, and_assoc]
  | satellite =>
    simp only [ssfrWeights, hsat, measureAtz, diffHistMstarSsfrAtz_eq, List.map_map, Function.comp_def]
    congr 2
    refine List.filter_congr fun h _ => decide_eq_decide.2 ?_
    simp [Spec.InCell, inPdfBin, wanted, and_assoc]

/-- A target row for non-negative weights. -/
theorem targetRow_eq {nm na nb : ℕ} (w : Fin nm → Fin na → Fin nb → ℝ) (hw : ∀ m a b, 0 ≤ w m a b) (counts : Fin nm → ℕ)
    (a : Fin na) :
    (∀ b, targetRow (targetPdf w (mhaloPdf counts)) a b = 0 ∧
      ∑ m, (counts m : ℝ) / (∑ a, ∑ b, w m a b) * w m a b = 0) ∨ ∃ norm > 0, ∀ b,
      targetRow (targetPdf w (mhaloPdf counts)) a b * norm =
        ∑ m, (counts m : ℝ) / (∑ a, ∑ b, w m a b) * w m a b := by
  classical
  unfold mhaloPdf
  simp only
  split_ifs with h
  · left
    intro b
    refine ⟨rfl, sum_eq_zero fun m _ => ?_⟩
    rw [(sum_eq_zero_iff_of_nonneg fun j _ => Nat.cast_nonneg _).1 h m (mem_univ m), zero_div, zero_mul]
  · have hpos : (0 : ℝ) < ∑ j, (counts j : ℝ) := lt_of_le_of_ne (sum_nonneg fun j _ => Nat.cast_nonneg _) (Ne.symm h)
    have hb : ∀ m a b, binPdf (w m) a b = w m a b / ∑ a, ∑ b, w m a b := by
      intro m a b
      unfold binPdf
      simp only [max_eq_left (hw m _ _)]
      split_ifs with h0
      · rw [h0, div_zero]
      · rfl
    unfold targetRow targetPdf
    simp only [Option.map_some, hb]
    split_ifs with hs
    · right
      refine ⟨(∑ b, ∑ m, w m a b / (∑ a, ∑ b, w m a b) * ((counts m : ℝ) / ∑ j, (counts j : ℝ))) *
        ∑ j, (counts j : ℝ), mul_pos hs hpos, fun b => ?_⟩
      rw [← mul_assoc, div_mul_cancel₀ _ hs.ne', sum_mul]
      refine sum_congr rfl fun m _ => ?_
      field_simp
    · left
      have hnn : ∀ b m, 0 ≤ w m a b / (∑ a, ∑ b, w m a b) * ((counts m : ℝ) / ∑ j, (counts j : ℝ)) := fun b m =>
        mul_nonneg (div_nonneg (hw m a b) (sum_nonneg fun _ _ => sum_nonneg fun _ _ => hw m _ _))
          (div_nonneg (Nat.cast_nonneg _) hpos.le)
      have hz := le_antisymm (not_lt.1 hs) (sum_nonneg fun b _ => sum_nonneg fun m _ => hnn b m)
      intro b
      refine ⟨rfl, ?_⟩
      have := (sum_eq_zero_iff_of_nonneg fun b _ => sum_nonneg fun m _ => hnn b m).1 hz b (mem_univ b)
      have h2 := (sum_eq_zero_iff_of_nonneg fun m _ => hnn b m).1 this
      refine sum_eq_zero fun m _ => ?_
      have h3 := h2 m (mem_univ m)
      have h4 : (counts m : ℝ) / (∑ a, ∑ b, w m a b) * w m a b =
          (w m a b / (∑ a, ∑ b, w m a b) * ((counts m : ℝ) / ∑ j, (counts j : ℝ))) * ∑ j, (counts j : ℝ) := by
        field_simp
      rw [h4, h3, zero_mul]

open Classical in
/-- The galaxies of one kind in one halo mass bin. -/
noncomputable def cellGalaxies {nm : ℕ} (mh : Fin (nm + 1) → ℝ) (kind : Kind) (pop : List Halo) (tid : ℕ) (j : Fin nm) :
    List Halo :=
  pop.filter fun h => Spec.InCell mh (wanted kind) tid j h

open Classical in
/-- The halos of one kind counted in one halo mass bin (the last bin includes its upper edge). -/
noncomputable def countedHalos {nm : ℕ} (mh : Fin (nm + 1) → ℝ) (kind : Kind) (pop : List Halo) (tid : ℕ) (j : Fin nm) :
    List Halo :=
  pop.filter fun h => Spec.InBin mh j (h.logMah tid) ∧ wanted kind h.upid

theorem ssfrCounts_measured {nm na nb : ℕ} (mh : Fin (nm + 1) → ℝ) (ms : Fin (na + 1) → ℝ) (sf : Fin (nb + 1) → ℝ)
    (kind : Kind) (hk : kind ≠ .all) (cc cs : ℕ → Fin nm → ℕ) (pop : List Halo) (tid i : ℕ)
    (hcen : cc i = (measureAtz mh ms sf pop tid).countsCen) (hsat : cs i = (measureAtz mh ms sf pop tid).countsSat)
    (j : Fin nm) : ssfrCounts kind cc cs i j = (countedHalos mh kind pop tid j).length := by
  classical
  have hI : ∀ v, Spec.InBin mh j v = inHistBin mh j v := fun _ => rfl
  unfold countedHalos
  cases kind with
  | all => exact absurd rfl hk
  | central =>
    simp only [ssfrCounts, hcen, measureAtz, computeHistogramsAtz, List.filter_map, List.length_map, List.filter_filter,
      Function.comp_def, hI, wanted]
    congr 1
    refine List.filter_congr fun h _ => ?_
    simp
  | satellite =>
    simp only [ssfrCounts, hsat, measureAtz, computeHistogramsAtz, List.filter_map, List.length_map, List.filter_filter,
      Function.comp_def, hI, wanted]
    congr 1
    refine List.filter_congr fun h _ => ?_
    simp

/-- What the target file holds for the first `nAges` redshifts. -/
structure MeasuredFile {nm nb : ℕ} (mh : Fin (nm + 1) → ℝ) (sf : Fin (nb + 1) → ℝ) (nAges : ℕ) (pops : ℕ → List Halo)
    (tid : ℕ → ℕ) (cent sat : ℕ → Fin nm → Fin 25 → Fin nb → ℝ) (cc cs : ℕ → Fin nm → ℕ) : Prop where
  cent : ∀ i < nAges, cent i = (measureAtz mh massEdges sf (pops i) (tid i)).mstarSsfrCen
  sat : ∀ i < nAges, sat i = (measureAtz mh massEdges sf (pops i) (tid i)).mstarSsfrSat
  countsCen : ∀ i < nAges, cc i = (measureAtz mh massEdges sf (pops i) (tid i)).countsCen
  countsSat : ∀ i < nAges, cs i = (measureAtz mh massEdges sf (pops i) (tid i)).countsSat

/-- C108: the target has five rows at every redshift, for the stellar mass bins from `8.92`, `9.4`, `10.12`, `10.84` and
`11.56` (width `0.24`). Every row is non-negative and is proportional to the kernel weights of the galaxies of its own
redshift and kind in that stellar mass bin, each halo mass bin being weighted with its number of halos over the weight its
galaxies have on the grid: the row sums to one, or is zero when all those weights are zero. -/
theorem C108_target_rows {nm nb : ℕ} (mh : Fin (nm + 1) → ℝ) (sf : Fin (nb + 1) → ℝ) (hsf : StrictMono sf)
    (kind : Kind) (hk : kind ≠ .all) (nAges : ℕ) (pops : ℕ → List Halo) (tid : ℕ → ℕ)
    (cent sat : ℕ → Fin nm → Fin 25 → Fin nb → ℝ) (cc cs : ℕ → Fin nm → ℕ)
    (hfile : MeasuredFile mh sf nAges pops tid cent sat cc cs) :
    ∃ T, ssfrTargets kind cent sat cc cs nAges = some T ∧ T.length = nAges ∧ ∀ i < nAges, ∃ R, T[i]? = some R ∧
      R.length = 5 ∧ ∀ (t : Fin 5) (row : Fin nb → ℝ), R[t.val]? = some row → (∀ b, 0 ≤ row b) ∧
        ∃ total : Fin nb → ℝ, (∀ b, total b = ∑ j, ((countedHalos mh kind (pops i) (tid i) j).length : ℝ) /
            ((cellGalaxies mh kind (pops i) (tid i) j).map fun h =>
              gridShare massEdges sf (h.logSmh (tid i)) (max (h.logSsfr (tid i)) (-12))).sum *
            ((cellGalaxies mh kind (pops i) (tid i) j).map fun h =>
              cellKernel sf (h.logSmh (tid i)) (max (h.logSsfr (tid i)) (-12)) (rowEdges t) b).sum) ∧
          ((∀ b, row b = 0 ∧ total b = 0) ∨ (∑ b, row b = 1 ∧ ∃ norm > 0, ∀ b, row b * norm = total b)) := by
  classical
  have hids : ∀ a ∈ targetMstarIds, a < 25 := by decide
  set pdf := fun i => targetPdf (ssfrWeights kind cent sat i) (mhaloPdf (ssfrCounts kind cc cs i)) with hpdf
  set R : ℕ → List (Fin nb → ℝ) := fun i => targetMstarIds.map fun a => targetRow (pdf i) (Fin.ofNat 25 a) with hR
  have hrows : ∀ i, (targetMstarIds.mapM fun jval =>
      if h : jval < 25 then some (targetRow (pdf i) ⟨jval, h⟩) else none) = some (R i) := by
    intro i
    refine mapM_some_map _ _ _ fun a ha => ?_
    rw [dif_pos (hids a ha)]
    congr 2
    apply Fin.ext
    simp [Fin.ofNat, Nat.mod_eq_of_lt (hids a ha)]
  refine ⟨(List.range nAges).map R, ?_, by simp, ?_⟩
  · unfold ssfrTargets
    exact mapM_some_map _ _ _ fun i _ => hrows i
  intro i hi
  refine ⟨R i, by simp [hi], by simp [hR, targetMstarIds], ?_⟩
  intro t row hrow
  rw [hR, List.getElem?_map, Option.map_eq_some_iff] at hrow
  obtain ⟨n, hn, rfl⟩ := hrow
  have hn25 := hids n (List.mem_of_getElem? hn)
  set a : Fin 25 := Fin.ofNat 25 n with ha
  have hav : a.val = n := by simp [ha, Fin.ofNat, Nat.mod_eq_of_lt hn25]
  obtain ⟨e1, e2⟩ := rowEdges_eq t a (by rw [hav]; exact hn)
  have hnb : nb = 0 ∨ 0 < nb := Nat.eq_zero_or_pos nb
  rcases hnb with rfl | hnb
  · exact ⟨fun b => b.elim0, fun b => b.elim0, fun b => b.elim0, Or.inl fun b => b.elim0⟩
  have hw : ∀ j a b, ssfrWeights kind cent sat i j a b =
      ((cellGalaxies mh kind (pops i) (tid i) j).map fun h =>
        NdHist.twBinWeightLaxKern (h.logSmh (tid i)) (PopLoss.meanDiff (nb := 25) massEdges) (massEdges a.castSucc)
          (massEdges a.succ) *
        NdHist.twBinWeightLaxKern (max (h.logSsfr (tid i)) (-12)) (PopLoss.meanDiff sf) (sf b.castSucc)
          (sf b.succ)).sum := by
    intro j a b
    exact ssfrWeights_measured mh massEdges sf kind hk cent sat (pops i) (tid i) i j (by rw [hfile.cent i hi])
      (by rw [hfile.sat i hi]) a b
  have hnn : ∀ j a b, 0 ≤ ssfrWeights kind cent sat i j a b := by
    intro j a b
    rw [hw]
    refine List.sum_nonneg fun y hy => ?_
    obtain ⟨h, _, rfl⟩ := List.mem_map.1 hy
    exact mul_nonneg (grid_weight_nonneg (by norm_num) massEdges_strictMono _ _) (grid_weight_nonneg hnb hsf _ _)
  obtain ⟨r1, r2, _⟩ := C79_ssfr_target_rows (ssfrWeights kind cent sat i) (ssfrCounts kind cc cs i) a
  refine ⟨r1, fun b => ∑ m, (ssfrCounts kind cc cs i m : ℝ) / (∑ a, ∑ b, ssfrWeights kind cent sat i m a b) *
    ssfrWeights kind cent sat i m a b, fun b => ?_, ?_⟩
  swap
  · rcases targetRow_eq (ssfrWeights kind cent sat i) hnn (ssfrCounts kind cc cs i) a with h0 | ⟨norm, hpos, h1⟩
    · exact Or.inl h0
    · rcases r2 with r2 | r2
      · exact Or.inr ⟨r2, norm, hpos, h1⟩
      · refine Or.inl fun b => ⟨r2 b, ?_⟩
        have := h1 b
        rw [r2 b, zero_mul] at this
        exact this.symm
  refine sum_congr rfl fun j _ => ?_
  rw [ssfrCounts_measured mh massEdges sf kind hk cc cs (pops i) (tid i) i (hfile.countsCen i hi) (hfile.countsSat i hi) j]
  congr 1
  · congr 1
    simp only [hw, list_sum_sum]
    congr 2
    funext h
    unfold gridShare
    rw [← meanDiff_eq_mstar, ← meanDiff_eq_mstar, sum_mul]
    exact sum_congr rfl fun a _ => (mul_sum _ _ _).symm
  · rw [hw]
    congr 2
    funext h
    unfold cellKernel
    rw [massEdges_width, e1, e2, meanDiff_eq_mstar]

theorem exists_measuredFile {nm nb : ℕ} (mh : Fin (nm + 1) → ℝ) (sf : Fin (nb + 1) → ℝ) (nAges : ℕ)
    (pops : ℕ → List Halo) (tid : ℕ → ℕ) : ∃ cent sat cc cs, MeasuredFile mh sf nAges pops tid cent sat cc cs :=
  ⟨fun i => (measureAtz mh massEdges sf (pops i) (tid i)).mstarSsfrCen,
    fun i => (measureAtz mh massEdges sf (pops i) (tid i)).mstarSsfrSat,
    fun i => (measureAtz mh massEdges sf (pops i) (tid i)).countsCen,
    fun i => (measureAtz mh massEdges sf (pops i) (tid i)).countsSat,
    ⟨fun _ _ => rfl, fun _ _ => rfl, fun _ _ => rfl, fun _ _ => rfl⟩⟩

theorem ssfrEdges_strictMono : StrictMono ssfrEdges := by
  intro i j h
  have : (i.val : ℝ) < j.val := by exact_mod_cast h
  simp only [ssfrEdges]
  linarith

example (pops : ℕ → List Halo) : ∃ cent sat cc cs T, MeasuredFile (unitEdges 2) ssfrEdges 2 pops (fun _ => 0) cent sat cc
    cs ∧ ssfrTargets .satellite cent sat cc cs 2 = some T ∧ T.length = 2 := by
  obtain ⟨cent, sat, cc, cs, hf⟩ := exists_measuredFile (unitEdges 2) ssfrEdges 2 pops fun _ => 0
  obtain ⟨T, h1, h2, _⟩ := C108_target_rows (unitEdges 2) ssfrEdges ssfrEdges_strictMono .satellite (by simp) 2 pops
    (fun _ => 0) _ _ _ _ hf
  exact ⟨cent, sat, cc, cs, T, hf, h1, h2⟩

theorem gridShare_eq_one {mass ssfr : ℝ} (h1 : 7.72 ≤ mass) (h2 : mass ≤ 12.28) (h3 : -12 ≤ ssfr)
    (h4 : ssfr ≤ -8 - 15 / 29) : gridShare (na := 25) (nb := 29) massEdges ssfrEdges mass ssfr = 1 := by
  unfold gridShare
  rw [← meanDiff_eq_mstar, ← meanDiff_eq_mstar, massEdges_width, meanDiff_ssfrEdges,
    ndBin_sum_eq_one (by norm_num) 25 massEdges (by norm_num [massEdges] at *; linarith)
      (by norm_num [massEdges, Fin.last] at *; linarith),
    ndBin_sum_eq_one (by norm_num) 29 ssfrEdges (by norm_num [ssfrEdges] at *; linarith)
      (by norm_num [ssfrEdges, Fin.last] at *; linarith), one_mul]

theorem cellGalaxies_eq_counted {nm : ℕ} (mh : Fin (nm + 1) → ℝ) (kind : Kind) (pop : List Halo) (tid : ℕ)
    (hedge : ∀ h ∈ pop, ∀ k, h.logMah tid ≠ mh k) (j : Fin nm) :
    cellGalaxies mh kind pop tid j = countedHalos mh kind pop tid j := by
  classical
  unfold cellGalaxies countedHalos
  refine List.filter_congr fun h hh => decide_eq_decide.2 ?_
  have : Spec.InBin mh j (h.logMah tid) ↔ inPdfBin mh j (h.logMah tid) := inHistBin_iff_pdf (hedge h hh)
  rw [this]
  unfold Spec.InCell inPdfBin
  rw [and_assoc]

open Classical in
/-- C108 (partial: no halo mass on a bin edge, and all galaxies of the kind well inside the grid: stellar masses between
`10^7.72` and `10^12.28`, specific rates below `10^-8.52`): a row of the target is proportional to the kernel weights, in
its own stellar mass bin, of all galaxies of its redshift and kind in the range of halo masses. -/
theorem C108_pooled_partial {nm : ℕ} (mh : Fin (nm + 1) → ℝ) (hmh : StrictMono mh) (hn : 0 < nm)
    (kind : Kind) (hk : kind ≠ .all) (nAges : ℕ) (pops : ℕ → List Halo) (tid : ℕ → ℕ)
    (cent sat : ℕ → Fin nm → Fin 25 → Fin 29 → ℝ) (cc cs : ℕ → Fin nm → ℕ)
    (hfile : MeasuredFile mh ssfrEdges nAges pops tid cent sat cc cs) (i : ℕ) (hi : i < nAges)
    (hedge : ∀ h ∈ pops i, ∀ k, h.logMah (tid i) ≠ mh k)
    (hgrid : ∀ h ∈ pops i, wanted kind h.upid → 7.72 ≤ h.logSmh (tid i) ∧ h.logSmh (tid i) ≤ 12.28 ∧
      h.logSsfr (tid i) ≤ -8 - 15 / 29) :
    ∃ T R, ssfrTargets kind cent sat cc cs nAges = some T ∧ T[i]? = some R ∧
      ∀ (t : Fin 5) (row : Fin 29 → ℝ), R[t.val]? = some row →
        ∃ total : Fin 29 → ℝ, (∀ b, total b = (((pops i).filter fun h => mh 0 < h.logMah (tid i) ∧
            h.logMah (tid i) < mh (Fin.last nm) ∧ wanted kind h.upid).map fun h =>
              cellKernel ssfrEdges (h.logSmh (tid i)) (max (h.logSsfr (tid i)) (-12)) (rowEdges t) b).sum) ∧
          ((∀ b, row b = 0 ∧ total b = 0) ∨ (∑ b, row b = 1 ∧ ∃ norm > 0, ∀ b, row b * norm = total b)) := by
  obtain ⟨T, hT, _, h⟩ := C108_target_rows mh ssfrEdges ssfrEdges_strictMono kind hk nAges pops tid cent sat cc cs hfile
  obtain ⟨R, hR, _, h⟩ := h i hi
  refine ⟨T, R, hT, hR, fun t row hrow => ?_⟩
  obtain ⟨_, total, h2, h⟩ := h t row hrow
  refine ⟨total, fun b => ?_, h⟩
  rw [h2 b]
  set g : Halo → ℝ := fun h => cellKernel ssfrEdges (h.logSmh (tid i)) (max (h.logSsfr (tid i)) (-12)) (rowEdges t) b
    with hg
  have hterm : ∀ j, ((countedHalos mh kind (pops i) (tid i) j).length : ℝ) /
      ((cellGalaxies mh kind (pops i) (tid i) j).map fun h =>
        gridShare massEdges ssfrEdges (h.logSmh (tid i)) (max (h.logSsfr (tid i)) (-12))).sum *
      ((cellGalaxies mh kind (pops i) (tid i) j).map g).sum =
      ((((pops i).filter fun h => wanted kind h.upid).filter fun h => inHistBin mh j (h.logMah (tid i))).map g).sum := by
    intro j
    rw [cellGalaxies_eq_counted mh kind (pops i) (tid i) hedge j]
    have hone : (countedHalos mh kind (pops i) (tid i) j).map (fun h =>
        gridShare massEdges ssfrEdges (h.logSmh (tid i)) (max (h.logSsfr (tid i)) (-12))) =
        (countedHalos mh kind (pops i) (tid i) j).map fun _ => (1 : ℝ) := by
      refine List.map_congr_left fun h hh => ?_
      obtain ⟨m1, m2⟩ := List.mem_filter.1 hh
      rw [decide_eq_true_eq] at m2
      obtain ⟨g1, g2, g3⟩ := hgrid h m1 m2.2
      exact gridShare_eq_one g1 g2 (le_max_right _ _) (max_le g3 (by norm_num))
    rw [hone]
    have hlist : (countedHalos mh kind (pops i) (tid i) j) =
        ((pops i).filter fun h => wanted kind h.upid).filter fun h => inHistBin mh j (h.logMah (tid i)) := by
      unfold countedHalos
      rw [List.filter_filter]
      have hI : ∀ v, Spec.InBin mh j v = inHistBin mh j v := fun _ => rfl
      refine List.filter_congr fun h _ => ?_
      simp [hI]
    rw [hlist]
    generalize ((pops i).filter fun h => decide (wanted kind h.upid)).filter
      (fun h => decide (inHistBin mh j (h.logMah (tid i)))) = l
    cases l with
    | nil => simp
    | cons x l =>
      have : ((x :: l).map fun _ => (1 : ℝ)).sum = ((x :: l).length : ℝ) := by simp [add_comm]
      rw [this, div_self (by simp; positivity), one_mul]
  rw [sum_congr rfl fun j _ => hterm j, sum_filter_sum hmh hn, List.filter_filter]
  congr 2
  refine List.filter_congr fun h hh => ?_
  have e0 := hedge h hh 0
  have e1 := hedge h hh (Fin.last nm)
  have : (mh 0 ≤ h.logMah (tid i) ∧ h.logMah (tid i) ≤ mh (Fin.last nm)) ↔
      (mh 0 < h.logMah (tid i) ∧ h.logMah (tid i) < mh (Fin.last nm)) :=
    ⟨fun x => ⟨lt_of_le_of_ne x.1 e0.symm, lt_of_le_of_ne x.2 e1⟩, fun x => ⟨x.1.le, x.2.le⟩⟩
  rw [← Bool.decide_and]
  refine decide_eq_decide.2 ?_
  rw [this, and_assoc]

example : ∃ cent sat cc cs T R, ssfrTargets .central cent sat cc cs 1 = some T ∧ T[0]? = some R ∧
    MeasuredFile (unitEdges 2) ssfrEdges 1 (fun _ => [flatHalo 0.5 9 (-10) (-1), flatHalo 1.5 10 (-13) (-1),
      flatHalo 1.5 3 (-10) 7]) (fun _ => 0) cent sat cc cs := by
  obtain ⟨cent, sat, cc, cs, hf⟩ := exists_measuredFile (unitEdges 2) ssfrEdges 1
    (fun _ => [flatHalo 0.5 9 (-10) (-1), flatHalo 1.5 10 (-13) (-1), flatHalo 1.5 3 (-10) 7]) fun _ => 0
  obtain ⟨T, R, h1, h2, _⟩ := C108_pooled_partial (unitEdges 2) (unitEdges_strictMono 2) (by norm_num) .central (by simp) 1
    _ _ _ _ _ _ hf 0 (by norm_num)
    (by
      intro h hh k
      simp only [List.mem_cons, List.not_mem_nil, or_false] at hh
      rcases hh with rfl | rfl | rfl <;> fin_cases k <;> norm_num [flatHalo, unitEdges])
    (by
      intro h hh hw
      simp only [List.mem_cons, List.not_mem_nil, or_false] at hh
      rcases hh with rfl | rfl | rfl
      · norm_num [flatHalo]
      · norm_num [flatHalo]
      · exact absurd hw (by norm_num [flatHalo, wanted]))
  exact ⟨cent, sat, cc, cs, T, R, h1, h2, hf⟩

theorem kernel_off_grid {x s lo hi : ℝ} (hs : 0 < s) (h : lo < hi) (hx : x + 3 * s ≤ lo ∨ hi ≤ x - 3 * s) :
    NdHist.twBinWeightLaxKern x s lo hi = 0 := by
  refine le_antisymm (not_lt.1 fun hp => ?_) (ndBin_nonneg hs h.le)
  rw [ndBin_pos_iff hs h] at hp
  rcases hx with hx | hx <;> linarith [hp.1, hp.2]

open Classical in
/-- C108 fails when galaxies are off the grid: 61 centrals have a stellar mass in the first target bin, one of them with a
specific rate below `10^-10`; it shares its halo mass bin with 59 galaxies of mass `10^5`, far below the grid, and the
target gives it as much weight as the 60 others together. -/
theorem C108_off_grid_violated (mh : Fin 12 → ℝ) (hmh : mh = fun i => 11 + (i.val : ℝ) * ((14.75 - 11) / 11))
    (pop : List Halo) (hpop : pop = List.replicate 60 (flatHalo 11.2 9.04 (-9) (-1)) ++
      (List.replicate 59 (flatHalo 11.5 5 (-9) (-1)) ++ [flatHalo 11.5 9.04 (-11) (-1)]))
    (cent sat : ℕ → Fin 11 → Fin 25 → Fin 29 → ℝ) (cc cs : ℕ → Fin 11 → ℕ)
    (hfile : MeasuredFile mh ssfrEdges 1 (fun _ => pop) (fun _ => 0) cent sat cc cs) :
    ∃ R row, ssfrTargets .central cent sat cc cs 1 = some [R] ∧ R[0]? = some row ∧
      ∑ b ∈ univ.filter (fun b : Fin 29 => ssfrEdges b.succ ≤ -10), row b = 1 / 2 ∧
      (pop.filter fun h => 8.92 ≤ h.logSmh 0 ∧ h.logSmh 0 ≤ 9.16).length = 61 ∧
      (pop.filter fun h => (8.92 ≤ h.logSmh 0 ∧ h.logSmh 0 ≤ 9.16) ∧ h.logSsfr 0 ≤ -10).length = 1 := by
  obtain ⟨T, hT, hlen, h⟩ := C108_target_rows mh ssfrEdges ssfrEdges_strictMono .central (by simp) 1 (fun _ => pop)
    (fun _ => 0) cent sat cc cs hfile
  obtain ⟨R, hR, hRl, h⟩ := h 0 (by norm_num)
  obtain ⟨row, hrow⟩ : ∃ row, R[0]? = some row := ⟨R[0], by rw [List.getElem?_eq_getElem]⟩
  obtain ⟨_, total, htot, h⟩ := h 0 row hrow
  have hTR : T = [R] := by
    match T, hlen, hR with
    | [x], _, hx => simpa using hx
  refine ⟨R, row, by rw [hT, hTR], hrow, ?_, ?_, ?_⟩
  swap
  · rw [hpop]
    simp only [List.filter_append, List.filter_replicate, List.filter_cons, List.filter_nil]
    norm_num [flatHalo]
  swap
  · rw [hpop]
    simp only [List.filter_append, List.filter_replicate, List.filter_cons, List.filter_nil]
    norm_num [flatHalo]
  have c1 : ∀ j : Fin 11, (mh j.castSucc < 11.2 ∧ (11.2 : ℝ) < mh j.succ) ↔ j = 0 := by
    intro j; rw [hmh]; fin_cases j <;> norm_num
  have c2 : ∀ j : Fin 11, (mh j.castSucc < 11.5 ∧ (11.5 : ℝ) < mh j.succ) ↔ j = 1 := by
    intro j; rw [hmh]; fin_cases j <;> norm_num
  have e1 : ∀ k : Fin 12, (11.2 : ℝ) ≠ mh k := by
    intro j; rw [hmh]; fin_cases j <;> norm_num
  have e2 : ∀ k : Fin 12, (11.5 : ℝ) ≠ mh k := by
    intro j; rw [hmh]; fin_cases j <;> norm_num
  have hedge : ∀ h ∈ pop, ∀ k, h.logMah 0 ≠ mh k := by
    intro h hh
    rw [hpop, List.mem_append, List.mem_append] at hh
    rcases hh with hh | hh | hh
    · rw [List.eq_of_mem_replicate hh]; exact e1
    · rw [List.eq_of_mem_replicate hh]; exact e2
    · rw [List.mem_singleton.1 hh]; exact e2
  have hcell : ∀ j, cellGalaxies mh .central pop 0 j =
      (if j = 0 then List.replicate 60 (flatHalo 11.2 9.04 (-9) (-1)) else []) ++
      ((if j = 1 then List.replicate 59 (flatHalo 11.5 5 (-9) (-1)) else []) ++
        if j = 1 then [flatHalo 11.5 9.04 (-11) (-1)] else []) := by
    intro j
    have k1 : Spec.InCell mh (wanted .central) 0 j (flatHalo 11.2 9.04 (-9) (-1)) ↔ j = 0 := by
      rw [← c1 j]; simp [Spec.InCell, wanted, flatHalo]
    have k2 : Spec.InCell mh (wanted .central) 0 j (flatHalo 11.5 5 (-9) (-1)) ↔ j = 1 := by
      rw [← c2 j]; simp [Spec.InCell, wanted, flatHalo]
    have k3 : Spec.InCell mh (wanted .central) 0 j (flatHalo 11.5 9.04 (-11) (-1)) ↔ j = 1 := by
      rw [← c2 j]; simp [Spec.InCell, wanted, flatHalo]
    unfold cellGalaxies
    rw [hpop]
    simp only [List.filter_append, List.filter_replicate, List.filter_cons, List.filter_nil, decide_eq_true_eq,
      k1, k2, k3]
  have hlo : gridShare (na := 25) massEdges ssfrEdges 5 (max (-9) (-12)) = 0 := by
    unfold gridShare
    rw [← meanDiff_eq_mstar, massEdges_width]
    rw [sum_eq_zero, zero_mul]
    intro a _
    refine kernel_off_grid (by norm_num) (massEdges_strictMono (Fin.castSucc_lt_succ)) (Or.inl ?_)
    have : (0 : ℝ) ≤ a.val := Nat.cast_nonneg _
    simp only [massEdges, Fin.val_castSucc]
    norm_num
    linarith
  have hg1 : gridShare (na := 25) massEdges ssfrEdges 9.04 (max (-9) (-12)) = 1 :=
    gridShare_eq_one (by norm_num) (by norm_num) (by norm_num) (by norm_num)
  have hg2 : gridShare (na := 25) massEdges ssfrEdges 9.04 (max (-11) (-12)) = 1 :=
    gridShare_eq_one (by norm_num) (by norm_num) (by norm_num) (by norm_num)
  have hk0 : ∀ b, cellKernel ssfrEdges 5 (max (-9) (-12)) (rowEdges 0) b = 0 := by
    intro b
    unfold cellKernel
    rw [kernel_off_grid (by norm_num) (by norm_num) (Or.inl (by norm_num [rowEdges])), zero_mul]
  set K := NdHist.twBinWeightLaxKern 9.04 0.24 8.92 (8.92 + 0.24) with hK
  have hKpos : 0 < K := (ndBin_pos_iff (by norm_num) (by norm_num)).2 (by norm_num)
  set k : ℝ → Fin 29 → ℝ := fun x b => NdHist.twBinWeightLaxKern x (5 / 29) (ssfrEdges b.castSucc) (ssfrEdges b.succ)
    with hk
  have hkk : ∀ x b, cellKernel ssfrEdges 9.04 x (rowEdges 0) b = K * k x b := by
    intro x b
    unfold cellKernel
    rw [← meanDiff_eq_mstar, meanDiff_ssfrEdges]
    simp only [rowEdges, Matrix.cons_val_zero, hK, hk]
  have htotal : ∀ b, total b = 60 * K * (k (-9) b + k (-11) b) := by
    intro b
    rw [htot b]
    have hz : ∀ j : Fin 11, j ≠ 0 → j ≠ 1 → ((countedHalos mh .central pop 0 j).length : ℝ) /
        ((cellGalaxies mh .central pop 0 j).map fun h =>
          gridShare massEdges ssfrEdges (h.logSmh 0) (max (h.logSsfr 0) (-12))).sum *
        ((cellGalaxies mh .central pop 0 j).map fun h =>
          cellKernel ssfrEdges (h.logSmh 0) (max (h.logSsfr 0) (-12)) (rowEdges 0) b).sum = 0 := by
      intro j h0 h1
      rw [hcell j, if_neg h0, if_neg h1, if_neg h1]
      simp
    rw [← Finset.sum_subset (subset_univ {(0 : Fin 11), 1}) (by
      intro j _ hj
      simp only [mem_insert, mem_singleton, not_or] at hj
      exact hz j hj.1 hj.2), Finset.sum_pair (by decide)]
    simp only [← cellGalaxies_eq_counted mh .central pop 0 hedge, hcell]
    simp only [if_true, show (1 : Fin 11) ≠ 0 by decide, show (0 : Fin 11) ≠ 1 by decide, if_false, List.append_nil,
      List.nil_append, List.map_append, List.map_replicate, List.sum_append, List.sum_replicate, List.map_cons,
      List.map_nil, List.sum_cons, List.sum_nil, List.length_append, List.length_replicate, List.length_cons,
      List.length_nil, flatHalo, hlo, hg1, hg2, hk0, hkk]
    norm_num
    ring
  have hsum : ∀ x : ℝ, x = -9 ∨ x = -11 → ∑ b, k x b = 1 := by
    intro x hx
    refine ndBin_sum_eq_one (by norm_num) 29 ssfrEdges ?_ ?_ <;> rcases hx with rfl | rfl <;>
      norm_num [ssfrEdges, Fin.last]
  have hlow : ∀ b : Fin 29, ssfrEdges b.succ ≤ -10 → k (-9) b = 0 := by
    intro b hb
    exact kernel_off_grid (by norm_num) (ssfrEdges_strictMono Fin.castSucc_lt_succ) (Or.inr (by linarith))
  have hhigh : ∀ b : Fin 29, ¬ ssfrEdges b.succ ≤ -10 → k (-11) b = 0 := by
    intro b hb
    refine kernel_off_grid (by norm_num) (ssfrEdges_strictMono Fin.castSucc_lt_succ) (Or.inl ?_)
    have : ssfrEdges b.succ = ssfrEdges b.castSucc + 5 / 29 := by
      simp only [ssfrEdges, Fin.val_succ, Fin.val_castSucc]
      push_cast
      ring
    linarith
  have htots : ∑ b, total b = 120 * K := by
    rw [sum_congr rfl fun b _ => htotal b, ← mul_sum, sum_add_distrib, hsum _ (Or.inl rfl), hsum _ (Or.inr rfl)]
    ring
  rcases h with h | ⟨h1, norm, hn, h2⟩
  · exfalso
    rw [sum_eq_zero fun b _ => (h b).2] at htots
    linarith
  have hnorm : norm = 120 * K := by
    rw [← htots, ← sum_congr rfl fun b _ => h2 b, ← sum_mul, h1, one_mul]
  have hhalf : (∑ b ∈ univ.filter (fun b : Fin 29 => ssfrEdges b.succ ≤ -10), row b) * norm = 60 * K := by
    rw [sum_mul, sum_congr rfl fun b _ => h2 b]
    have : ∀ b ∈ univ.filter (fun b : Fin 29 => ssfrEdges b.succ ≤ -10), total b = 60 * K * k (-11) b := by
      intro b hb
      rw [htotal b, hlow b (mem_filter.1 hb).2, zero_add]
    rw [sum_congr rfl this, ← mul_sum, sum_filter]
    have h3 : ∀ b : Fin 29, (if ssfrEdges b.succ ≤ -10 then k (-11) b else 0) = k (-11) b := by
      intro b
      split_ifs with hb
      · rfl
      · exact (hhigh b hb).symm
    rw [sum_congr rfl fun b _ => h3 b, hsum _ (Or.inr rfl), mul_one]
  rw [hnorm] at hhalf
  have : (∑ b ∈ univ.filter (fun b : Fin 29 => ssfrEdges b.succ ≤ -10), row b) * 120 = 60 :=
    mul_right_cancel₀ hKpos.ne' (by linarith)
  linarith

theorem ndbins_cell {na nb : ℕ} (ms : Fin (na + 1) → ℝ) (sf : Fin (nb + 1) → ℝ) (a : Fin na) (b : Fin nb) :
    ndbinsLo ms sf (finProdFinEquiv (a, b)) = ![ms a.castSucc, sf b.castSucc] ∧
    ndbinsHi ms sf (finProdFinEquiv (a, b)) = ![ms a.succ, sf b.succ] := by
  have hval : (finProdFinEquiv (a, b)).val = a.val * nb + b.val := by
    simp [finProdFinEquiv, mul_comm, add_comm]
  unfold ndbinsLo ndbinsHi
  simp only [hval, List.getD_eq_getElem?_getD, productBins_getElem?, Option.getD_some, and_self]

/-- C108: the prediction of the same loss data. A row is NaN, or it is non-negative, sums to one, and is proportional to the
kernel weights of the sampled galaxies (main sequence branch with `1 - fracQ`, quenched branch with `fracQ`) in the same
five stellar mass bins as the target, each halo mass bin of the redshift being weighted with its share of halos over the
weight its galaxies have on the grid. -/
theorem C108_prediction_rows {K : Type} {nk n nb nz nm : ℕ} (hnb : 0 < nb) (rng : Pop.Rng K)
    (logMah : MahParams ℝ → ℝ → ℝ → ℝ) (u : Pop.PF → ℝ) (samples : Fin nk → PopLoss.HaloSample K n) (lgt0 fb : ℝ)
    (sf : Fin (nb + 1) → ℝ) (hsf : StrictMono sf) (pdf : Fin nz → Fin nm → ℝ) (hpdf : ∀ z m, 0 ≤ pdf z m)
    (indx : Fin nz → Fin nm → Fin nk) (target : Fin nz → Fin 5 → Fin nb → ℝ) (z : Fin nz) (t : Fin 5) :
    let pred := PopLoss.mstarSsfrKernTobs rng logMah u (ssfrLossData samples lgt0 fb massEdges sf pdf indx target)
    (∀ b, pred z t b = none) ∨ ∃ f : Fin nb → ℝ, (∀ b, pred z t b = some (f b)) ∧ (∀ b, 0 ≤ f b) ∧ ∑ b, f b = 1 ∧
      ∃ (sfhMs sfhQ : Fin nm → Fin n → List ℝ) (q : Fin nm → Fin n → ℝ),
        (∀ m i, let gal := PopLoss.mcSample rng logMah (Pop.getBoundedDiffstarpopParams u) (samples (indx z m)) lgt0 fb i
          gal.sfhMs = some (sfhMs m i) ∧ gal.sfhQ = some (sfhQ m i) ∧ gal.fracQ = q m i) ∧
        ∃ norm > 0, ∀ b, f b * norm = ∑ m, pdf z m /
          (∑ i, ((1 - q m i) * gridShare massEdges sf (Diffstar.Spec.logMassAt (samples (indx z m)).tobs (sfhMs m i))
                (Diffstar.Spec.logSsfrAt (samples (indx z m)).tobs (sfhMs m i)) +
            q m i * gridShare massEdges sf (Diffstar.Spec.logMassAt (samples (indx z m)).tobs (sfhQ m i))
                (Diffstar.Spec.logSsfrAt (samples (indx z m)).tobs (sfhQ m i)))) *
          ∑ i, ((1 - q m i) * cellKernel sf (Diffstar.Spec.logMassAt (samples (indx z m)).tobs (sfhMs m i))
                (Diffstar.Spec.logSsfrAt (samples (indx z m)).tobs (sfhMs m i)) (rowEdges t) b +
            q m i * cellKernel sf (Diffstar.Spec.logMassAt (samples (indx z m)).tobs (sfhQ m i))
                (Diffstar.Spec.logSsfrAt (samples (indx z m)).tobs (sfhQ m i)) (rowEdges t) b) := by
  classical
  intro pred
  set d := ssfrLossData samples lgt0 fb massEdges sf pdf indx target with hd
  have hlh : ∀ b k, d.ndbinsLo b k ≤ d.ndbinsHi b k := by
    intro c k
    obtain ⟨⟨a, b⟩, rfl⟩ := finProdFinEquiv.surjective c
    show ndbinsLo massEdges sf _ k ≤ ndbinsHi massEdges sf _ k
    rw [(ndbins_cell (na := 25) massEdges sf a b).1, (ndbins_cell (na := 25) massEdges sf a b).2]
    fin_cases k
    · exact (massEdges_strictMono Fin.castSucc_lt_succ).le
    · exact (hsf Fin.castSucc_lt_succ).le
  rcases C27_conditional_pdf rng logMah u d hlh massEdges_strictMono hsf (by norm_num) hnb hpdf z t with h | h
  · exact Or.inl h
  right
  obtain ⟨f, h1, h2, h3, pdfs, h4, norm, hn, h5⟩ := h
  refine ⟨f, h1, h2, h3, ?_⟩
  have h6 := fun m => C27_joint_pdf rng logMah u (d.samples (d.indxPdf z m)) d.lgt0 d.fb d.ndbinsLo d.ndbinsHi hlh
    d.mstarBins d.ssfrBins massEdges_strictMono hsf (by norm_num) hnb (pdfs m) (h4 m)
  choose _ h61 sM sQ h7 nrm hnrm h8 using h6
  refine ⟨sM, sQ, fun m i => (PopLoss.mcSample rng logMah (Pop.getBoundedDiffstarpopParams u) (samples (indx z m)) lgt0 fb
    i).fracQ, fun m i => ⟨(h7 m i).1, (h7 m i).2, rfl⟩, norm, hn, fun b => ?_⟩
  rw [h5 b]
  refine sum_congr rfl fun m _ => ?_
  set q : Fin n → ℝ := fun i => (PopLoss.mcSample rng logMah (Pop.getBoundedDiffstarpopParams u) (samples (indx z m)) lgt0
    fb i).fracQ with hq
  set tobs := (samples (indx z m)).tobs with htobs
  have hcell : ∀ (a : Fin 25) (b : Fin nb), pdfs m (finProdFinEquiv (a, b)) * nrm m = ∑ i, ((1 - q i) *
      (NdHist.twBinWeightLaxKern (Diffstar.Spec.logMassAt tobs (sM m i)) (PopLoss.meanDiff (nb := 25) massEdges)
          (massEdges a.castSucc) (massEdges a.succ) *
        NdHist.twBinWeightLaxKern (Diffstar.Spec.logSsfrAt tobs (sM m i)) (PopLoss.meanDiff sf) (sf b.castSucc)
          (sf b.succ)) + q i *
      (NdHist.twBinWeightLaxKern (Diffstar.Spec.logMassAt tobs (sQ m i)) (PopLoss.meanDiff (nb := 25) massEdges)
          (massEdges a.castSucc) (massEdges a.succ) *
        NdHist.twBinWeightLaxKern (Diffstar.Spec.logSsfrAt tobs (sQ m i)) (PopLoss.meanDiff sf) (sf b.castSucc)
          (sf b.succ))) := by
    intro a b
    rw [h8 m]
    have e1 : d.ndbinsLo = ndbinsLo (na := 25) massEdges sf := rfl
    have e2 : d.ndbinsHi = ndbinsHi (na := 25) massEdges sf := rfl
    rw [e1, e2, (ndbins_cell (na := 25) massEdges sf a b).1, (ndbins_cell (na := 25) massEdges sf a b).2]
    rfl
  have hnormeq : nrm m = ∑ i, ((1 - q i) * gridShare (na := 25) massEdges sf (Diffstar.Spec.logMassAt tobs (sM m i))
      (Diffstar.Spec.logSsfrAt tobs (sM m i)) + q i * gridShare (na := 25) massEdges sf
      (Diffstar.Spec.logMassAt tobs (sQ m i)) (Diffstar.Spec.logSsfrAt tobs (sQ m i))) := by
    have h9 : nrm m = ∑ c, pdfs m c * nrm m := by rw [← sum_mul, h61 m, one_mul]
    rw [h9, ← finProdFinEquiv.sum_comp, Fintype.sum_prod_type, sum_congr rfl fun a _ => sum_congr rfl fun b _ => hcell a b,
      sum_congr rfl fun a _ => sum_comm, sum_comm]
    refine sum_congr rfl fun i _ => ?_
    unfold gridShare
    rw [← meanDiff_eq_mstar, ← meanDiff_eq_mstar]
    simp only [sum_add_distrib, ← mul_sum]
    rw [sum_mul, sum_mul]
  have hrow : (∑ i, ((1 - q i) * cellKernel sf (Diffstar.Spec.logMassAt tobs (sM m i))
      (Diffstar.Spec.logSsfrAt tobs (sM m i)) (rowEdges t) b + q i * cellKernel sf
      (Diffstar.Spec.logMassAt tobs (sQ m i)) (Diffstar.Spec.logSsfrAt tobs (sQ m i)) (rowEdges t) b)) =
      pdfs m (finProdFinEquiv (d.targetMstarIds t, b)) * nrm m := by
    have hids : targetMstarIds[t.val]? = some (d.targetMstarIds t).val := by
      show targetMstarIds[t.val]? = some (Fin.ofNat 25 (targetMstarIds.getD t.val 0)).val
      clear_value d
      fin_cases t <;> rfl
    obtain ⟨e1, e2⟩ := rowEdges_eq t (d.targetMstarIds t) hids
    rw [hcell, massEdges_width, e1, e2, meanDiff_eq_mstar]
    rfl
  show pdf z m * pdfs m (finProdFinEquiv (d.targetMstarIds t, b)) = pdf z m / _ * _
  rw [hrow, ← hnormeq]
  have := (hnrm m).ne'
  field_simp

end Diffstar.Props
