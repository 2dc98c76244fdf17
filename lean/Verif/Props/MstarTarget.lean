import Verif.Model.MstarTarget
import Verif.Props.LossData
import Verif.Props.TargetsPool
import Verif.Props.PopFit

/-! C105: the stellar mass targets of the population fits belong to the halos they are compared with. -/

namespace Diffstar.Spec

open Diffstar.Targets

/-- The halos whose galaxies make the target of one halo mass bin, at the table index `tid`. -/
def InCell {nm : ℕ} (mh : Fin (nm + 1) → ℝ) (keep : ℤ → Prop) (tid : ℕ) (j : Fin nm) (h : Halo) : Prop :=
  mh j.castSucc < h.logMah tid ∧ h.logMah tid < mh j.succ ∧ keep h.upid

/-- A value within three bin widths of a grid of bins. -/
def NearGrid {n : ℕ} (e : Fin (n + 1) → ℝ) (x : ℝ) : Prop :=
  e 0 - 3 * ((e (Fin.last n) - e 0) / n) < x ∧ x < e (Fin.last n) + 3 * ((e (Fin.last n) - e 0) / n)

end Diffstar.Spec

namespace Diffstar.Props

open Diffstar.Targets Diffstar.LossData Finset

/-! ### The loops -/

open Classical in
theorem mstar_inner {na : ℕ} {choice : Choice} (hc : Spec.IsNpChoice choice) (kind : Kind) (samples : List Sample)
    (nhalos : ℕ) (weights : ℕ → ℕ → Fin na → ℝ) (ages : List ℝ) (i : ℕ) (t : ℝ) (ht : ages[i]? = some t) :
    ∀ (js : List ℕ) (st : MstarLoop na), ∃ E,
      js.foldl (mstarBinStep choice kind samples nhalos weights i t) st =
        ⟨st.entries ++ E,
         st.targets ++ (js.filter fun j => 50 ≤ (samples.filter fun s => Spec.Belongs (wanted kind) i j s).length).map
           (fun j => mstarTarget (weights i j)), st.run + E.length⟩ ∧
      List.Forall₂ (GoodEntry kind samples nhalos ages)
        ((js.filter fun j => 50 ≤ (samples.filter fun s => Spec.Belongs (wanted kind) i j s).length).map (i, ·)) E := by
  intro js
  induction js with
  | nil => intro st; exact ⟨[], by simp, by simp⟩
  | cons j js ih =>
    intro st
    rw [List.foldl_cons]
    have hsel := select_length kind samples i j
    by_cases hp : 50 ≤ (samples.filter fun s => Spec.Belongs (wanted kind) i j s).length
    · have hb : mstarBinStep choice kind samples nhalos weights i t st j =
          ⟨st.entries ++ [⟨choice st.run (select kind samples i j) nhalos
            (if (select kind samples i j).length < nhalos then true else false), t⟩],
            st.targets ++ [mstarTarget (weights i j)], st.run + 1⟩ := by
        unfold mstarBinStep
        simp only
        rw [if_neg (by omega)]
      rw [hb]
      obtain ⟨E, h1, h2⟩ := ih _
      refine ⟨⟨choice st.run (select kind samples i j) nhalos
            (if (select kind samples i j).length < nhalos then true else false), t⟩ :: E, ?_, ?_⟩
      · rw [h1, List.filter_cons_of_pos (by simpa using hp)]
        simp only [List.append_assoc, List.cons_append, List.nil_append, List.length_cons, List.map_cons]
        congr 1
        omega
      · rw [List.filter_cons_of_pos (by simpa using hp), List.map_cons]
        refine List.Forall₂.cons ?_ h2
        exact goodEntry_of_select hc kind samples nhalos ages i j st.run t ht (by omega)
    · have hb : mstarBinStep choice kind samples nhalos weights i t st j = st := by
        unfold mstarBinStep
        simp only
        rw [if_pos (by omega)]
      rw [hb]
      obtain ⟨E, h1, h2⟩ := ih st
      refine ⟨E, ?_, ?_⟩
      · rw [h1, List.filter_cons_of_neg (by simpa using hp)]
      · rw [List.filter_cons_of_neg (by simpa using hp)]
        exact h2

theorem mstar_outer {na : ℕ} {choice : Choice} (hc : Spec.IsNpChoice choice) (kind : Kind) (samples : List Sample)
    (nhalos nm : ℕ) (weights : ℕ → ℕ → Fin na → ℝ) (ages : List ℝ) :
    ∀ (zs : List (ℕ × ℝ)), (∀ z ∈ zs, ages[z.1]? = some z.2) → ∀ (st : MstarLoop na), ∃ E,
      zs.foldl (fun st z => (List.range nm).foldl (mstarBinStep choice kind samples nhalos weights z.1 z.2) st) st =
        ⟨st.entries ++ E,
          st.targets ++ (zs.flatMap fun z => (Spec.populated (wanted kind) samples nm z.1).map (z.1, ·)).map
            (fun ij => mstarTarget (weights ij.1 ij.2)), st.run + E.length⟩ ∧
      List.Forall₂ (GoodEntry kind samples nhalos ages)
        (zs.flatMap fun z => (Spec.populated (wanted kind) samples nm z.1).map (z.1, ·)) E := by
  classical
  intro zs
  induction zs with
  | nil => intro _ st; exact ⟨[], by simp, by simp⟩
  | cons z zs ih =>
    intro hz st
    obtain ⟨E, h1, h2⟩ := mstar_inner hc kind samples nhalos weights ages z.1 z.2 (hz z (by simp)) (List.range nm) st
    have hpop : ((List.range nm).filter fun j =>
        decide (50 ≤ (samples.filter fun s => decide (Spec.Belongs (wanted kind) z.1 j s)).length)) =
        Spec.populated (wanted kind) samples nm z.1 := by
      unfold Spec.populated
      congr! 2
    rw [hpop] at h1 h2
    rw [List.foldl_cons, h1]
    obtain ⟨E', g1, g2⟩ := ih (fun w hw => hz w (by simp [hw])) _
    refine ⟨E ++ E', ?_, ?_⟩
    · rw [g1]
      simp [Nat.add_assoc, Function.comp_def]
    · rw [List.flatMap_cons]
      exact List.rel_append h2 g2

/-- C105, loops: the entries are those of C78 and the target at the same position is that of the same redshift and halo
mass bin. -/
theorem mstarLossData_eq {na : ℕ} {choice : Choice} (hc : Spec.IsNpChoice choice) (kind : Kind) (samples : List Sample)
    (nhalos nm : ℕ) (weights : ℕ → ℕ → Fin na → ℝ) (ages : List ℝ) :
    let d := mstarLossData choice kind samples nhalos nm weights ages
    let cells := (List.range ages.length).flatMap fun i => (Spec.populated (wanted kind) samples nm i).map (i, ·)
    List.Forall₂ (GoodEntry kind samples nhalos ages) cells d.entries ∧
    d.targets = cells.map fun ij => mstarTarget (weights ij.1 ij.2) := by
  intro d cells
  have hz : ∀ z ∈ (ages.zipIdx.map fun x => (x.2, x.1)), ages[z.1]? = some z.2 := by
    intro z hz
    obtain ⟨x, hx, rfl⟩ := List.mem_map.1 hz
    exact List.mem_zipIdx_iff_getElem?.1 hx
  have hfst : (ages.zipIdx.map fun x => (x.2, x.1)).map Prod.fst = List.range ages.length := by
    rw [List.map_map]
    have : (Prod.fst ∘ fun x : ℝ × ℕ => (x.2, x.1)) = Prod.snd := rfl
    rw [this, List.zipIdx_map_snd, List.range_eq_range']
  have hcells : cells = (ages.zipIdx.map fun x => (x.2, x.1)).flatMap
      fun z => (Spec.populated (wanted kind) samples nm z.1).map (z.1, ·) := by
    change (List.range ages.length).flatMap _ = _
    rw [← hfst, List.flatMap_map]
  obtain ⟨E, h1, h2⟩ := mstar_outer hc kind samples nhalos nm weights ages _ hz ⟨[], [], 0⟩
  have hd : d = ⟨E, cells.map fun ij => mstarTarget (weights ij.1 ij.2), E.length⟩ := by
    change (ages.zipIdx.map fun x => (x.2, x.1)).foldl
      (fun st z => (List.range nm).foldl (mstarBinStep choice kind samples nhalos weights z.1 z.2) st) ⟨[], [], 0⟩ = _
    rw [h1, hcells]
    simp
  rw [hd]
  exact ⟨by rw [hcells]; exact h2, rfl⟩

/-! ### The weights of one cell -/

theorem meanDiff_eq_mstar {n : ℕ} (e : Fin (n + 1) → ℝ) : PopLoss.meanDiff e = (e (Fin.last n) - e 0) / n := by
  unfold PopLoss.meanDiff
  congr 1
  have : ∀ (m : ℕ) (e : Fin (m + 1) → ℝ), ∑ j : Fin m, (e j.succ - e j.castSucc) = e (Fin.last m) - e 0 := by
    intro m
    induction m with
    | zero => intro e; simp
    | succ m ih =>
      intro e
      rw [Fin.sum_univ_castSucc]
      have := ih (fun j => e j.castSucc)
      simp only [Fin.succ_castSucc, Fin.castSucc_zero] at this ⊢
      rw [this]
      simp
  exact this n e

theorem grid_weight_pos_iff {n : ℕ} (hn : 0 < n) {e : Fin (n + 1) → ℝ} (he : StrictMono e) (x : ℝ) :
    0 < ∑ b : Fin n, NdHist.twBinWeightLaxKern x (PopLoss.meanDiff e) (e b.castSucc) (e b.succ) ↔ Spec.NearGrid e x := by
  have hs := meanDiff_pos he hn
  have hlt : e 0 < e (Fin.last n) := he (by rw [Fin.lt_def]; simpa using hn)
  rw [ndBin_sum, ← ndBin_eq, ndBin_pos_iff hs hlt]
  unfold Spec.NearGrid
  rw [← meanDiff_eq_mstar]
  constructor <;> rintro ⟨a, b⟩ <;> constructor <;> linarith

theorem grid_weight_nonneg {n : ℕ} (hn : 0 < n) {e : Fin (n + 1) → ℝ} (he : StrictMono e) (x : ℝ) (b : Fin n) :
    0 ≤ NdHist.twBinWeightLaxKern x (PopLoss.meanDiff e) (e b.castSucc) (e b.succ) :=
  ndBin_nonneg (meanDiff_pos he hn) (he Fin.castSucc_lt_succ).le

/-- What one galaxy adds to the stellar mass bin `a`. -/
noncomputable def cellWeight {na nb : ℕ} (ms : Fin (na + 1) → ℝ) (sf : Fin (nb + 1) → ℝ) (kind : Kind) (tid : ℕ) (h : Halo)
    (a : Fin na) : ℝ :=
  NdHist.twBinWeightLaxKern (h.logSmh tid) (PopLoss.meanDiff ms) (ms a.castSucc) (ms a.succ) *
    match kind with
    | .all => 1
    | _ => ∑ b : Fin nb, NdHist.twBinWeightLaxKern (max (h.logSsfr tid) (-12)) (PopLoss.meanDiff sf) (sf b.castSucc)
        (sf b.succ)

theorem list_sum_sum {α : Type*} {n : ℕ} (l : List α) (f : α → Fin n → ℝ) :
    ∑ b, (l.map fun x => f x b).sum = (l.map fun x => ∑ b, f x b).sum := by
  induction l with
  | nil => simp
  | cons x l ih => simp only [List.map_cons, List.sum_cons, sum_add_distrib, ih]

/-- The weights of one cell, for every kind. -/
theorem mstarWeights_measured {nm na nb : ℕ} (mh : Fin (nm + 1) → ℝ) (ms : Fin (na + 1) → ℝ) (sf : Fin (nb + 1) → ℝ)
    (kind : Kind) (wcounts : ℕ → ℕ → Fin na → ℝ) (cent sat : ℕ → ℕ → Fin na → Fin nb → ℝ) (pop : List Halo) (tid i : ℕ)
    (j : Fin nm) (hw : wcounts i j = (measureAtz mh ms sf pop tid).mstarWcounts j)
    (hcen : cent i j = (measureAtz mh ms sf pop tid).mstarSsfrCen j)
    (hsat : sat i j = (measureAtz mh ms sf pop tid).mstarSsfrSat j)
    [DecidablePred (Spec.InCell mh (wanted kind) tid j)] (a : Fin na) :
    mstarWeights kind wcounts cent sat i j a =
      ((pop.filter fun h => Spec.InCell mh (wanted kind) tid j h).map fun h => cellWeight ms sf kind tid h a).sum := by
  classical
  cases kind with
  | all =>
    simp only [mstarWeights, hw, measureAtz, diffHistMstarAtz_fst, List.map_map, Function.comp_def]
    have : ∀ h : Halo, cellWeight ms sf .all tid h a =
        NdHist.twBinWeightLaxKern (h.logSmh tid) (PopLoss.meanDiff ms) (ms a.castSucc) (ms a.succ) :=
      fun h => mul_one _
    simp only [this]
    congr 2
    refine List.filter_congr fun h _ => decide_eq_decide.2 ?_
    simp [Spec.InCell, inPdfBin, wanted]
  | central =>
    simp only [mstarWeights, sumSsfr, hcen, measureAtz, diffHistMstarSsfrAtz_eq, List.map_map, Function.comp_def]
    rw [list_sum_sum]
    have : ∀ h : Halo, cellWeight ms sf .central tid h a = ∑ b : Fin nb,
        NdHist.twBinWeightLaxKern (h.logSmh tid) (PopLoss.meanDiff ms) (ms a.castSucc) (ms a.succ) *
        NdHist.twBinWeightLaxKern (max (h.logSsfr tid) (-12)) (PopLoss.meanDiff sf) (sf b.castSucc) (sf b.succ) :=
      fun h => mul_sum _ _ _
    simp only [this]
    congr 2
    refine List.filter_congr fun h _ => decide_eq_decide.2 ?_
    simp [Spec.InCell, inPdfBin, wanted, and_assoc]
  | satellite =>
    simp only [mstarWeights, sumSsfr, hsat, measureAtz, diffHistMstarSsfrAtz_eq, List.map_map, Function.comp_def]
    rw [list_sum_sum]
    have : ∀ h : Halo, cellWeight ms sf .satellite tid h a = ∑ b : Fin nb,
        NdHist.twBinWeightLaxKern (h.logSmh tid) (PopLoss.meanDiff ms) (ms a.castSucc) (ms a.succ) *
        NdHist.twBinWeightLaxKern (max (h.logSsfr tid) (-12)) (PopLoss.meanDiff sf) (sf b.castSucc) (sf b.succ) :=
      fun h => mul_sum _ _ _
    simp only [this]
    congr 2
    refine List.filter_congr fun h _ => decide_eq_decide.2 ?_
    simp [Spec.InCell, inPdfBin, wanted, and_assoc]

theorem list_sum_pos_iff {α : Type*} (l : List α) (f : α → ℝ) (hf : ∀ x ∈ l, 0 ≤ f x) :
    0 < (l.map f).sum ↔ ∃ x ∈ l, 0 < f x := by
  induction l with
  | nil => simp
  | cons x l ih =>
    have h0 := hf x (by simp)
    have h1 := ih fun y hy => hf y (by simp [hy])
    have h2 : 0 ≤ (l.map f).sum := List.sum_nonneg (by
      intro y hy
      obtain ⟨z, hz, rfl⟩ := List.mem_map.1 hy
      exact hf z (by simp [hz]))
    simp only [List.map_cons, List.sum_cons, List.mem_cons, exists_eq_or_imp, ← h1]
    constructor
    · intro h
      by_contra hc
      push Not at hc
      linarith [hc.1, hc.2]
    · rintro (h | h) <;> linarith

theorem cellWeight_nonneg {na nb : ℕ} {ms : Fin (na + 1) → ℝ} {sf : Fin (nb + 1) → ℝ} (hms : StrictMono ms)
    (hsf : StrictMono sf) (hna : 0 < na) (hnb : 0 < nb) (kind : Kind) (tid : ℕ) (h : Halo) (a : Fin na) :
    0 ≤ cellWeight ms sf kind tid h a := by
  unfold cellWeight
  refine mul_nonneg (grid_weight_nonneg hna hms _ _) ?_
  cases kind with
  | all => exact zero_le_one
  | central => exact sum_nonneg fun b _ => grid_weight_nonneg hnb hsf _ _
  | satellite => exact sum_nonneg fun b _ => grid_weight_nonneg hnb hsf _ _

theorem cellWeight_sum_pos_iff {na nb : ℕ} {ms : Fin (na + 1) → ℝ} {sf : Fin (nb + 1) → ℝ} (hms : StrictMono ms)
    (hsf : StrictMono sf) (hna : 0 < na) (hnb : 0 < nb) (kind : Kind) (tid : ℕ) (h : Halo) :
    0 < ∑ a, cellWeight ms sf kind tid h a ↔
      Spec.NearGrid ms (h.logSmh tid) ∧ (kind ≠ .all → Spec.NearGrid sf (max (h.logSsfr tid) (-12))) := by
  unfold cellWeight
  rw [← sum_mul]
  have h1 := grid_weight_pos_iff hna hms (h.logSmh tid)
  have h2 := grid_weight_pos_iff hnb hsf (max (h.logSsfr tid) (-12))
  have p1 : 0 ≤ ∑ a : Fin na, NdHist.twBinWeightLaxKern (h.logSmh tid) (PopLoss.meanDiff ms) (ms a.castSucc) (ms a.succ) :=
    sum_nonneg fun b _ => grid_weight_nonneg hna hms _ _
  have p2 : 0 ≤ ∑ b : Fin nb, NdHist.twBinWeightLaxKern (max (h.logSsfr tid) (-12)) (PopLoss.meanDiff sf)
      (sf b.castSucc) (sf b.succ) := sum_nonneg fun b _ => grid_weight_nonneg hnb hsf _ _
  have key : ∀ x y : ℝ, 0 ≤ x → 0 ≤ y → (0 < x * y ↔ 0 < x ∧ 0 < y) := by
    intro x y hx hy
    constructor
    · intro hxy
      exact ⟨lt_of_le_of_ne hx fun e => by rw [← e, zero_mul] at hxy; exact lt_irrefl _ hxy,
        lt_of_le_of_ne hy fun e => by rw [← e, mul_zero] at hxy; exact lt_irrefl _ hxy⟩
    · exact fun hxy => mul_pos hxy.1 hxy.2
  cases kind with
  | all => simp [h1]
  | central => rw [key _ _ p1 p2, h1, h2]; simp
  | satellite => rw [key _ _ p1 p2, h1, h2]; simp

/-! ### C105 -/

/-- C105 (partial: not all targets are finite): the loss data has one target for each entry, and the target of an entry is made of the galaxies of the very
redshift, halo mass bin and kind (all, central, satellite) its halos are drawn from: it is non-negative, sums to one and
is proportional to the summed kernel weights of these galaxies; it is NaN exactly if none of them is within three bin
widths of the grid of stellar masses (for centrals and satellites: of both grids). -/
theorem C105_targets_partial {nm na nb : ℕ} (mh : Fin (nm + 1) → ℝ) (ms : Fin (na + 1) → ℝ) (sf : Fin (nb + 1) → ℝ)
    (hms : StrictMono ms) (hsf : StrictMono sf) (hna : 0 < na) (hnb : 0 < nb)
    (choice : Choice) (hc : Spec.IsNpChoice choice) (kind : Kind) (samples : List Sample) (nhalos : ℕ) (ages : List ℝ)
    (pops : ℕ → List Halo) (tid : ℕ → ℕ) (wcounts : ℕ → ℕ → Fin na → ℝ) (cent sat : ℕ → ℕ → Fin na → Fin nb → ℝ)
    (hfile : ∀ i < ages.length, ∀ j : Fin nm,
      wcounts i j = (measureAtz mh ms sf (pops i) (tid i)).mstarWcounts j ∧
      cent i j = (measureAtz mh ms sf (pops i) (tid i)).mstarSsfrCen j ∧
      sat i j = (measureAtz mh ms sf (pops i) (tid i)).mstarSsfrSat j)
    [∀ i j, DecidablePred (Spec.InCell mh (wanted kind) i j)] :
    let d := mstarLossData choice kind samples nhalos nm (mstarWeights kind wcounts cent sat) ages
    d.targets.length = d.entries.length ∧
    ∀ (k : ℕ) (e : Entry) (tgt : Option (Fin na → ℝ)), d.entries[k]? = some e → d.targets[k]? = some tgt →
      ∃ (i : ℕ) (j : Fin nm), GoodEntry kind samples nhalos ages (i, j) e ∧
        (∀ f, tgt = some f → (∀ a, 0 ≤ f a) ∧ ∑ a, f a = 1 ∧ ∃ norm > 0, ∀ a, f a * norm =
          (((pops i).filter fun h => Spec.InCell mh (wanted kind) (tid i) j h).map fun h =>
            cellWeight ms sf kind (tid i) h a).sum) ∧
        (tgt = none ↔ ∀ h ∈ pops i, Spec.InCell mh (wanted kind) (tid i) j h →
          ¬ (Spec.NearGrid ms (h.logSmh (tid i)) ∧ (kind ≠ .all → Spec.NearGrid sf (max (h.logSsfr (tid i)) (-12))))) := by
  classical
  intro d
  obtain ⟨h1, h2⟩ := mstarLossData_eq hc kind samples nhalos nm (mstarWeights kind wcounts cent sat) ages
  refine ⟨?_, ?_⟩
  · change (mstarLossData choice kind samples nhalos nm (mstarWeights kind wcounts cent sat) ages).targets.length = _
    rw [h2, List.length_map, h1.length_eq]
  intro k e tgt he ht
  change (mstarLossData choice kind samples nhalos nm (mstarWeights kind wcounts cent sat) ages).targets[k]? = _ at ht
  rw [h2, List.getElem?_map] at ht
  obtain ⟨ij, hij, rfl⟩ := Option.map_eq_some_iff.1 ht
  have hgood : GoodEntry kind samples nhalos ages ij e := by
    obtain ⟨hk1, e1⟩ := List.getElem?_eq_some_iff.1 hij
    obtain ⟨hk2, e2⟩ := List.getElem?_eq_some_iff.1 he
    have := h1.get hk1 hk2
    rw [List.get_eq_getElem, List.get_eq_getElem, e1] at this
    rwa [e2] at this
  have hmem := List.mem_of_getElem? hij
  rw [List.mem_flatMap] at hmem
  obtain ⟨i, hi, hmem⟩ := hmem
  obtain ⟨j, hj, rfl⟩ := List.mem_map.1 hmem
  have hi' := List.mem_range.1 hi
  have hj' : j < nm := List.mem_range.1 (List.mem_filter.1 hj).1
  refine ⟨i, ⟨j, hj'⟩, hgood, ?_⟩
  obtain ⟨f1, f2, f3⟩ := hfile i hi' ⟨j, hj'⟩
  have hw := mstarWeights_measured mh ms sf kind wcounts cent sat (pops i) (tid i) i ⟨j, hj'⟩ f1 f2 f3
  simp only at hw
  have hnn : ∀ a, 0 ≤ mstarWeights kind wcounts cent sat i j a := by
    intro a
    rw [hw a]
    refine List.sum_nonneg fun y hy => ?_
    obtain ⟨h, _, rfl⟩ := List.mem_map.1 hy
    exact cellWeight_nonneg hms hsf hna hnb _ _ _ _
  constructor
  · intro f hf
    obtain ⟨g1, g2, g3, g4⟩ := normalise_some hf hnn
    refine ⟨g3, g4, _, g1, fun a => ?_⟩
    rw [g2, div_mul_cancel₀ _ g1.ne', hw]
  · have htot : ∑ a, mstarWeights kind wcounts cent sat i j a =
        (((pops i).filter fun h => Spec.InCell mh (wanted kind) (tid i) ⟨j, hj'⟩ h).map fun h =>
          ∑ a, cellWeight ms sf kind (tid i) h a).sum := by
      rw [sum_congr rfl fun a _ => hw a, list_sum_sum]
    have hpos : 0 < ∑ a, mstarWeights kind wcounts cent sat i j a ↔
        ∃ h ∈ pops i, Spec.InCell mh (wanted kind) (tid i) ⟨j, hj'⟩ h ∧
          (Spec.NearGrid ms (h.logSmh (tid i)) ∧ (kind ≠ .all → Spec.NearGrid sf (max (h.logSsfr (tid i)) (-12)))) := by
      rw [htot, list_sum_pos_iff _ _ fun h _ => sum_nonneg fun a _ => cellWeight_nonneg hms hsf hna hnb _ _ _ _]
      simp only [List.mem_filter, decide_eq_true_eq, cellWeight_sum_pos_iff hms hsf hna hnb, and_assoc]
    have hnone : mstarTarget (mstarWeights kind wcounts cent sat i j) = none ↔
        ¬ 0 < ∑ a, mstarWeights kind wcounts cent sat i j a := by
      have := sum_nonneg fun a (_ : a ∈ univ) => hnn a
      unfold mstarTarget PopLoss.normalise
      constructor
      · intro h0 hp
        rw [if_neg hp.ne'] at h0
        exact absurd h0 (by simp)
      · intro h0
        rw [if_pos (le_antisymm (not_lt.1 h0) this)]
    simp only
    rw [hnone, hpos]
    push Not
    rfl

theorem lossMstarNan_none {K : Type} {nk n nb : ℕ} (rng : Pop.Rng K) (logMah : MahParams ℝ → ℝ → ℝ → ℝ) (u : Pop.PF → ℝ)
    (samples : Fin nk → PopLoss.HaloSample K n) (lgt0 fb : ℝ) (bins : Fin (nb + 1) → ℝ)
    (target : Fin nk → Option (Fin nb → ℝ)) (k : Fin nk) (hk : target k = none) :
    lossMstarNan rng logMah u samples lgt0 fb bins target = none := by
  unfold lossMstarNan PopLoss.allSome
  rw [dif_neg]
  · rfl
  · intro h
    have := h k
    rw [hk] at this
    simp at this

/-- C105, consequence: a populated bin of halos none of whose galaxies is near the grid of stellar masses makes the loss
NaN at all parameters, so a fit that starts from it raises. -/
theorem mstar_nan_fit {S K : Type} {nm na : ℕ} (o : PopFit.Optimizer S) (kernel : PopFit.Vec → Option ℝ × PopFit.Vec)
    (steps : ℕ) (hs : 0 < steps) (p0 : PopFit.Vec) (u : PopFit.Vec → Pop.PF → ℝ)
    (choice : Choice) (kind : Kind) (samples : List Sample) (nhalos : ℕ) (weights : ℕ → ℕ → Fin na → ℝ) (ages : List ℝ)
    (rng : Pop.Rng K) (logMah : MahParams ℝ → ℝ → ℝ → ℝ) (halos : ℕ → PopLoss.HaloSample K nhalos) (lgt0 fb : ℝ)
    (bins : Fin (na + 1) → ℝ)
    (hkernel : ∀ v, (kernel v).1 = lossMstarNan rng logMah (u v)
      (fun k : Fin (mstarLossData choice kind samples nhalos nm weights ages).targets.length => halos k) lgt0 fb bins
      fun k => (mstarLossData choice kind samples nhalos nm weights ages).targets[k])
    (hnone : none ∈ (mstarLossData choice kind samples nhalos nm weights ages).targets) :
    PopFit.runFit o kernel steps p0 = none := by
  obtain ⟨k, hk, e⟩ := List.getElem_of_mem hnone
  apply C82_nan_loss_at_start_violated o kernel steps hs
  rw [hkernel]
  exact lossMstarNan_none _ _ _ _ _ _ _ _ ⟨k, hk⟩ e

/-- C105 fails at halos whose galaxies are off the grid: with the default SMDPL bins, 60 halos of mass `10^11.2` with
galaxies of mass `10^6` (the grid starts at `10^7`, with bins of width 0.24) are enough to be used in the loss, but their
target is NaN. The loss is then NaN at all parameters, and the fit raises, whatever the other halos. -/
theorem C105_galaxies_off_grid_violated {S K : Type} (nhalos : ℕ) (o : PopFit.Optimizer S)
    (kernel : PopFit.Vec → Option ℝ × PopFit.Vec)
    (steps : ℕ) (hs : 0 < steps) (p0 : PopFit.Vec) (u : PopFit.Vec → Pop.PF → ℝ)
    (choice : Choice) (hc : Spec.IsNpChoice choice)
    (mh : Fin 12 → ℝ) (hmh : mh = fun i => 11 + (i.val : ℝ) * ((14.75 - 11) / 11))
    (ms : Fin 26 → ℝ) (hms : ms = fun i => 7 + (i.val : ℝ) * ((13 - 7) / 25))
    (sf : Fin 30 → ℝ) (z t : ℝ)
    (pop : List Halo) (hpop : pop = List.replicate 60 (flatHalo 11.2 6 (-9) (-1)))
    (samples : List Sample) (hsamples : samples = sampleHalos choice 0 20000 mh pop 0 0 t z)
    (rng : Pop.Rng K) (logMah : MahParams ℝ → ℝ → ℝ → ℝ) (halos : ℕ → PopLoss.HaloSample K nhalos) (lgt0 fb : ℝ)
    (weights : ℕ → ℕ → Fin 25 → ℝ)
    (hfile : ∀ j : Fin 11, weights 0 j = (measureAtz mh ms sf pop 0).mstarWcounts j)
    (hkernel : ∀ v, (kernel v).1 = lossMstarNan rng logMah (u v)
      (fun k : Fin (mstarLossData choice .all samples nhalos 11 weights [t]).targets.length => halos k) lgt0 fb ms
      fun k => (mstarLossData choice .all samples nhalos 11 weights [t]).targets[k]) :
    none ∈ (mstarLossData choice .all samples nhalos 11 weights [t]).targets ∧
    PopFit.runFit o kernel steps p0 = none := by
  classical
  have hmono : StrictMono ms := by
    intro a b hab
    have : (a.val : ℝ) < b.val := by exact_mod_cast hab
    rw [hms]
    simp only
    linarith
  have hmhmono : StrictMono mh := by
    intro a b hab
    have : (a.val : ℝ) < b.val := by exact_mod_cast hab
    rw [hmh]
    simp only
    linarith
  have hnone : none ∈ (mstarLossData choice .all samples nhalos 11 weights [t]).targets := by
    have h2 := (mstarLossData_eq (na := 25) hc .all samples nhalos 11 weights [t]).2
    rw [h2, List.mem_map]
    refine ⟨(0, 0), ?_, ?_⟩
    · rw [List.mem_flatMap]
      refine ⟨0, by simp, List.mem_map.2 ⟨0, ?_, rfl⟩⟩
      unfold Spec.populated
      rw [List.mem_filter]
      refine ⟨by simp, ?_⟩
      have hz : ∀ s ∈ samples, s.tobsId = 0 := by
        obtain ⟨idx, hidx, hf⟩ := C74_samples_are_halos choice hc 0 20000 mh pop 0 0 t z hmhmono
        rw [← hsamples] at hf
        clear hsamples hkernel h2 hidx
        induction hf with
        | nil => simp
        | cons h _ ih =>
          intro s hs'
          rcases List.mem_cons.1 hs' with rfl | hs'
          · obtain ⟨_, _, h⟩ := h
            exact h.2.2.2.2.1
          · exact ih s hs'
      have hlen := C74_sample_size choice hc 0 20000 mh pop 0 0 t z 0
      rw [← hsamples] at hlen
      have hcongr : (samples.filter fun s => decide (Spec.Belongs (wanted .all) 0 0 s)) =
          samples.filter fun s => s.logmhId == (0 : Fin 11).val := by
        apply List.filter_congr
        intro s hs'
        simp only [Spec.Belongs, wanted, hz s hs', true_and, and_true, Fin.val_zero]
        rfl
      have hpoplen : (pop.filter fun h => mh (0 : Fin 11).castSucc ≤ h.logMah 0 ∧ h.logMah 0 < mh (0 : Fin 11).succ).length
          = 60 := by
        rw [List.filter_eq_self.2, hpop, List.length_replicate]
        intro h hh
        rw [hpop] at hh
        rw [List.eq_of_mem_replicate hh, hmh]
        norm_num [flatHalo]
      rw [hpoplen] at hlen
      have : (samples.filter fun s => decide (Spec.Belongs (wanted .all) 0 0 s)).length = 60 := by
        rw [hcongr, hlen]
        norm_num
      simp [this]
    · have hw := mstarWeights_measured mh ms sf .all weights (fun _ _ => (measureAtz mh ms sf pop 0).mstarSsfrCen 0)
        (fun _ _ => (measureAtz mh ms sf pop 0).mstarSsfrSat 0) pop 0 0 0 (hfile 0) rfl rfl
      have hzero : ∀ h ∈ pop, ∑ a, cellWeight ms sf .all 0 h a = 0 := by
        intro h hh
        rw [hpop] at hh
        have hno : ¬ Spec.NearGrid (n := 25) ms ((flatHalo 11.2 6 (-9) (-1)).logSmh 0) := by
          rw [hms]
          intro hn
          have := hn.1
          norm_num [flatHalo, Fin.last] at this
        rw [List.eq_of_mem_replicate hh]
        have h1 := (grid_weight_pos_iff (by norm_num : 0 < 25) hmono ((flatHalo 11.2 6 (-9) (-1)).logSmh 0)).not.2 hno
        have h3 : ∑ a, cellWeight ms sf .all 0 (flatHalo 11.2 6 (-9) (-1)) a =
            ∑ a : Fin 25, NdHist.twBinWeightLaxKern ((flatHalo 11.2 6 (-9) (-1)).logSmh 0) (PopLoss.meanDiff ms)
              (ms a.castSucc) (ms a.succ) := sum_congr rfl fun a _ => mul_one _
        rw [h3]
        exact le_antisymm (not_lt.1 h1) (sum_nonneg fun a _ => grid_weight_nonneg (by norm_num) hmono _ _)
      have htot : ∑ a, weights 0 0 a = 0 := by
        refine (sum_congr rfl fun a _ => hw a).trans ?_
        rw [list_sum_sum]
        apply List.sum_eq_zero
        intro x hx
        obtain ⟨h, hh, rfl⟩ := List.mem_map.1 hx
        exact hzero h (List.mem_filter.1 hh).1
      simp only
      unfold mstarTarget PopLoss.normalise
      rw [if_pos htot]
  exact ⟨hnone, mstar_nan_fit o kernel steps hs p0 u choice .all samples nhalos weights [t] rng logMah halos lgt0 fb ms
    hkernel hnone⟩

/-- Two halos of one bin and one of another: the cell of the first bin has one halo of each kind. -/
example : Spec.InCell (unitEdges 2) (wanted .central) 0 0 (flatHalo 0.5 1 0 (-1)) ∧
    ¬ Spec.InCell (unitEdges 2) (wanted .central) 0 0 (flatHalo 0.5 1 0 7) ∧
    ¬ Spec.InCell (unitEdges 2) (wanted .central) 0 0 (flatHalo 1.5 1 0 (-1)) ∧
    Spec.NearGrid (unitEdges 2) ((flatHalo 0.5 1 0 (-1)).logSmh 0) ∧ ¬ Spec.NearGrid (unitEdges 2) 6 := by
  refine ⟨?_, ?_, ?_, ?_, ?_⟩ <;> norm_num [Spec.InCell, Spec.NearGrid, wanted, flatHalo, unitEdges, Fin.last]

example (samples : List Sample) (ages : List ℝ) (choice : Choice) (hc : Spec.IsNpChoice choice) (pops : ℕ → List Halo)
    (W : ℕ → ℕ → Fin 3 → ℝ) (C D : ℕ → ℕ → Fin 3 → Fin 2 → ℝ)
    (hW : W = fun i j => if h : j < 2 then (measureAtz (unitEdges 2) (unitEdges 3) (unitEdges 2) (pops i) 0).mstarWcounts
      ⟨j, h⟩ else 0)
    (hC : C = fun i j => if h : j < 2 then (measureAtz (unitEdges 2) (unitEdges 3) (unitEdges 2) (pops i) 0).mstarSsfrCen
      ⟨j, h⟩ else 0)
    (hD : D = fun i j => if h : j < 2 then (measureAtz (unitEdges 2) (unitEdges 3) (unitEdges 2) (pops i) 0).mstarSsfrSat
      ⟨j, h⟩ else 0) :
    (mstarLossData choice .central samples 500 2 (mstarWeights .central W C D) ages).targets.length =
      (mstarLossData choice .central samples 500 2 (mstarWeights .central W C D) ages).entries.length := by
  classical
  refine (C105_targets_partial (unitEdges 2) (unitEdges 3) (unitEdges 2) (unitEdges_strictMono 3) (unitEdges_strictMono 2)
    (by norm_num) (by norm_num) choice hc .central samples 500 ages pops (fun _ => 0) W C D ?_).1
  intro i _ j
  have hj := j.isLt
  exact ⟨by simp only [hW, dif_pos hj], by simp only [hC, dif_pos hj], by simp only [hD, dif_pos hj]⟩

end Diffstar.Props
