import Verif.Model.LossData
import Verif.Lemmas.Targets
import Verif.Props.Targets
import Verif.Props.Loaders
import Verif.Props.Pop
import Verif.Props.PopLoss

/-!
Properties of the loss data of the population fits: C78 (selected halos), C79 (targets), C80 (perfect model), C81
(satellites), and the errors of `prepare_ragged` (C63).
-/

namespace Diffstar.Spec

open Diffstar.Targets

/-- The sampled halos of redshift `i` and halo mass bin `j`, restricted by their `upid`. -/
def Belongs (keep : ℤ → Prop) (i j : ℕ) (s : Sample) : Prop := s.tobsId = i ∧ s.logmhId = j ∧ keep s.upid

open Classical in
/-- Halo mass bins with at least 50 sampled halos at redshift `i`. -/
noncomputable def populated (keep : ℤ → Prop) (samples : List Sample) (nm i : ℕ) : List ℕ :=
  (List.range nm).filter fun j => 50 ≤ (samples.filter fun s => Belongs keep i j s).length

end Diffstar.Spec

namespace Diffstar.Props

open Diffstar.Targets Diffstar.LossData Finset

/-! ### C78 -/

/-- The halos each loss function is meant to use. -/
def wanted : Kind → ℤ → Prop
  | .all, _ => True
  | .central, upid => upid = -1
  | .satellite, upid => upid ≠ -1

/-- What an entry of the loss data must be, for redshift `i` and halo mass bin `j`. -/
structure GoodEntry (kind : Kind) (samples : List Sample) (nhalos : ℕ) (ages : List ℝ) (ij : ℕ × ℕ) (e : Entry) :
    Prop where
  size : e.rows.length = nhalos
  time : ages[ij.1]? = some e.tobs
  member : ∀ r ∈ e.rows, ∃ s, samples[r]? = some s ∧ Spec.Belongs (wanted kind) ij.1 ij.2 s
  distinct : ∀ [DecidablePred (Spec.Belongs (wanted kind) ij.1 ij.2)],
    nhalos ≤ (samples.filter fun s => Spec.Belongs (wanted kind) ij.1 ij.2 s).length → e.rows.Nodup

theorem select_length (kind : Kind) (samples : List Sample) (i j : ℕ)
    [DecidablePred (Spec.Belongs (wanted kind) i j)] :
    (select kind samples i j).length = (samples.filter fun s => Spec.Belongs (wanted kind) i j s).length := by
  classical
  unfold select
  rw [length_filter_range]
  congr 1
  apply List.filter_congr
  intro s _
  apply decide_eq_decide.2
  cases kind <;> exact Iff.rfl

theorem select_mem {kind : Kind} {samples : List Sample} {i j r : ℕ} (h : r ∈ select kind samples i j) :
    ∃ s, samples[r]? = some s ∧ Spec.Belongs (wanted kind) i j s := by
  classical
  unfold select at h
  obtain ⟨s, h1, h2⟩ := mem_filter_range h
  refine ⟨s, h1, ?_⟩
  have := of_decide_eq_true h2
  cases kind <;> exact this

theorem select_nodup (kind : Kind) (samples : List Sample) (i j : ℕ) : (select kind samples i j).Nodup := by
  unfold select; exact nodup_filter_range _

theorem goodEntry_of_select {choice : Choice} (hc : Spec.IsNpChoice choice) (kind : Kind) (samples : List Sample)
    (nhalos : ℕ) (ages : List ℝ) (i j call : ℕ) (t : ℝ) (ht : ages[i]? = some t)
    (hpos : 0 < (select kind samples i j).length) :
    GoodEntry kind samples nhalos ages (i, j) ⟨choice call (select kind samples i j) nhalos
      (if (select kind samples i j).length < nhalos then true else false), t⟩ where
  size := by
    apply hc.length
    · right; exact List.length_pos_iff.1 hpos
    · intro h
      by_contra hlt
      rw [if_pos (by omega)] at h
      exact absurd h (by simp)
  time := ht
  member := fun r hr => select_mem (hc.mem _ _ _ _ _ hr)
  distinct := by
    intro _ h
    rw [← select_length] at h
    rw [if_neg (not_lt.2 h)]
    exact hc.nodup _ _ _ (select_nodup kind samples i j)

open Classical in
theorem inner_spec {choice : Choice} (hc : Spec.IsNpChoice choice) (kind : Kind) (samples : List Sample)
    (nhalos : ℕ) (ages : List ℝ) (i : ℕ) (t : ℝ) (ht : ages[i]? = some t) :
    ∀ (js : List ℕ) (st : Loop), ∃ E,
      js.foldl (binStep choice kind samples nhalos i t) st =
        ⟨st.entries ++ E,
         st.indexMhalo ++ js.filter (fun j => 50 ≤ (samples.filter fun s => Spec.Belongs (wanted kind) i j s).length),
         st.indxPdf ++ List.range' st.run E.length, st.run + E.length⟩ ∧
      List.Forall₂ (GoodEntry kind samples nhalos ages)
        ((js.filter fun j => 50 ≤ (samples.filter fun s => Spec.Belongs (wanted kind) i j s).length).map (i, ·)) E := by
  intro js
  induction js with
  | nil => intro st; exact ⟨[], by simp, by simp⟩
  | cons j js ih =>
    intro st
    rw [List.foldl_cons]
    have hsel := select_length kind samples i j
    by_cases hp : 50 ≤ (samples.filter fun s => Spec.Belongs (wanted kind) i j s).length
    · have hb : binStep choice kind samples nhalos i t st j =
          ⟨st.entries ++ [⟨choice st.run (select kind samples i j) nhalos
            (if (select kind samples i j).length < nhalos then true else false), t⟩],
            st.indexMhalo ++ [j], st.indxPdf ++ [st.run], st.run + 1⟩ := by
        unfold binStep
        simp only
        rw [if_neg (by omega)]
      rw [hb]
      obtain ⟨E, h1, h2⟩ := ih _
      refine ⟨⟨choice st.run (select kind samples i j) nhalos
            (if (select kind samples i j).length < nhalos then true else false), t⟩ :: E, ?_, ?_⟩
      · rw [h1, List.filter_cons_of_pos (by simpa using hp)]
        simp only [List.append_assoc, List.cons_append, List.nil_append, List.length_cons, List.range'_succ]
        congr 1
        omega
      · rw [List.filter_cons_of_pos (by simpa using hp), List.map_cons]
        refine List.Forall₂.cons ?_ h2
        exact goodEntry_of_select hc kind samples nhalos ages i j st.run t ht (by omega)
    · have hb : binStep choice kind samples nhalos i t st j = st := by
        unfold binStep
        simp only
        rw [if_pos (by omega)]
      rw [hb]
      obtain ⟨E, h1, h2⟩ := ih st
      refine ⟨E, ?_, ?_⟩
      · rw [h1, List.filter_cons_of_neg (by simpa using hp)]
      · rw [List.filter_cons_of_neg (by simpa using hp)]
        exact h2

theorem outer_spec {choice : Choice} (hc : Spec.IsNpChoice choice) (kind : Kind) (samples : List Sample)
    (nhalos nm : ℕ) (ages : List ℝ) :
    ∀ (zs : List (ℕ × ℝ)), (∀ z ∈ zs, ages[z.1]? = some z.2) → ∀ (st : Selected × ℕ), ∃ E P,
      zs.foldl (zStep choice kind samples nhalos nm) st =
        (⟨st.1.entries ++ E,
          st.1.indexMhalo ++ zs.map (fun z => Spec.populated (wanted kind) samples nm z.1),
          st.1.indxPdf ++ P⟩, st.2 + E.length) ∧
      P.flatten = List.range' st.2 E.length ∧
      P.map List.length = zs.map (fun z => (Spec.populated (wanted kind) samples nm z.1).length) ∧
      List.Forall₂ (GoodEntry kind samples nhalos ages)
        (zs.flatMap fun z => (Spec.populated (wanted kind) samples nm z.1).map (z.1, ·)) E := by
  classical
  intro zs
  induction zs with
  | nil => intro _ st; exact ⟨[], [], by simp, by simp, by simp, by simp⟩
  | cons z zs ih =>
    intro hz st
    obtain ⟨E, h1, h2⟩ := inner_spec hc kind samples nhalos ages z.1 z.2 (hz z (by simp)) (List.range nm)
      ⟨st.1.entries, [], [], st.2⟩
    have hpop : ((List.range nm).filter fun j =>
        decide (50 ≤ (samples.filter fun s => decide (Spec.Belongs (wanted kind) z.1 j s)).length)) =
        Spec.populated (wanted kind) samples nm z.1 := by
      unfold Spec.populated
      congr! 2
    have hs : zStep choice kind samples nhalos nm st z =
        (⟨st.1.entries ++ E, st.1.indexMhalo ++ [Spec.populated (wanted kind) samples nm z.1],
          st.1.indxPdf ++ [List.range' st.2 E.length]⟩, st.2 + E.length) := by
      unfold zStep
      simp only
      rw [h1, hpop]
      simp
    rw [hpop] at h2
    have hElen : E.length = (Spec.populated (wanted kind) samples nm z.1).length := by
      have := h2.length_eq
      simpa using this.symm
    obtain ⟨E', P, g1, g2, g3, g4⟩ := ih (fun w hw => hz w (by simp [hw])) (zStep choice kind samples nhalos nm st z)
    refine ⟨E ++ E', List.range' st.2 E.length :: P, ?_, ?_, ?_, ?_⟩
    · rw [List.foldl_cons, g1, hs]
      simp [Nat.add_assoc]
    · rw [List.flatten_cons, g2, hs, List.length_append, ← List.range'_append_1]
    · rw [List.map_cons, List.map_cons, g3, List.length_range', hElen]
    · rw [List.flatMap_cons]
      exact List.rel_append h2 g4

/-- C78: the loss data has, in the order (redshift, halo mass bin), one entry for every bin with at least 50 sampled
halos of the wanted kind; an entry has `nhalos` rows of the sample file, all of this redshift, bin and kind, and no
row twice if there are enough; the index arrays number the entries consecutively and name their bins. -/
theorem C78_selected_bins {choice : Choice} (hc : Spec.IsNpChoice choice) (kind : Kind) (samples : List Sample)
    (nhalos nm : ℕ) (ages : List ℝ) :
    let sel := selectLossData choice kind samples nhalos nm ages
    List.Forall₂ (GoodEntry kind samples nhalos ages)
      ((List.range ages.length).flatMap fun i => (Spec.populated (wanted kind) samples nm i).map (i, ·)) sel.entries ∧
    sel.indexMhalo = (List.range ages.length).map (Spec.populated (wanted kind) samples nm) ∧
    sel.indxPdf.flatten = List.range sel.entries.length ∧
    sel.indxPdf.map List.length = sel.indexMhalo.map List.length := by
  intro sel
  have hz : ∀ z ∈ (ages.zipIdx.map fun x => (x.2, x.1)), ages[z.1]? = some z.2 := by
    intro z hz
    obtain ⟨x, hx, rfl⟩ := List.mem_map.1 hz
    exact List.mem_zipIdx_iff_getElem?.1 hx
  have hfst : (ages.zipIdx.map fun x => (x.2, x.1)).map Prod.fst = List.range ages.length := by
    rw [List.map_map]
    have : (Prod.fst ∘ fun x : ℝ × ℕ => (x.2, x.1)) = Prod.snd := rfl
    rw [this, List.zipIdx_map_snd, List.range_eq_range']
  obtain ⟨E, P, h1, h2, h3, h4⟩ := outer_spec hc kind samples nhalos nm ages _ hz (⟨[], [], []⟩, 0)
  have hsel : sel = ⟨E, (List.range ages.length).map (Spec.populated (wanted kind) samples nm), P⟩ := by
    change ((ages.zipIdx.map fun x => (x.2, x.1)).foldl (zStep choice kind samples nhalos nm) (⟨[], [], []⟩, 0)).1 = _
    rw [h1, ← hfst, List.map_map (l := ages.zipIdx.map fun x => (x.2, x.1))]
    rfl
  rw [hsel]
  refine ⟨?_, rfl, ?_, ?_⟩
  · rw [← hfst, List.flatMap_map]
    exact h4
  · rw [h2, List.range_eq_range']
  · rw [h3, ← hfst, List.map_map (l := ages.zipIdx.map fun x => (x.2, x.1)),
      List.map_map (l := ages.zipIdx.map fun x => (x.2, x.1))]
    rfl

example : ∃ choice : Choice, Spec.IsNpChoice choice := ⟨_, Spec.exists_isNpChoice⟩

/-- Sixty sampled centrals of one bin: the entry of this bin is made, with replacement only if more are asked for. -/
example : (Spec.populated (fun u => u = -1) (List.replicate 60 (⟨1, 12, ⟨12, 0, 0, 0, 0⟩, DEFAULT_DIFFSTAR_PARAMS.ms,
    DEFAULT_DIFFSTAR_PARAMS.q, -1, 0, 13, 0⟩ : Sample)) 3 0) = [1] := by
  classical
  have h1 : ∀ j, ((List.replicate 60 (⟨1, 12, ⟨12, 0, 0, 0, 0⟩, DEFAULT_DIFFSTAR_PARAMS.ms,
      DEFAULT_DIFFSTAR_PARAMS.q, -1, 0, 13, 0⟩ : Sample)).filter fun s =>
        decide (Spec.Belongs (fun u => u = -1) 0 j s)).length = if j = 1 then 60 else 0 := by
    intro j
    by_cases hj : j = 1
    · rw [if_pos hj, List.filter_eq_self.2]
      · simp
      · intro s hs
        rw [List.eq_of_mem_replicate hs]
        simp [Spec.Belongs, hj]
    · rw [if_neg hj, List.filter_eq_nil_iff.2]
      · rfl
      · intro s hs
        rw [List.eq_of_mem_replicate hs]
        simp [Spec.Belongs, Ne.symm hj]
  unfold Spec.populated
  have h2 : ∀ j ∈ List.range 3, (decide (50 ≤ ((List.replicate 60 (⟨1, 12, ⟨12, 0, 0, 0, 0⟩, DEFAULT_DIFFSTAR_PARAMS.ms,
      DEFAULT_DIFFSTAR_PARAMS.q, -1, 0, 13, 0⟩ : Sample)).filter fun s =>
        decide (Spec.Belongs (fun u => u = -1) 0 j s)).length) : Bool) = decide (j = 1) := by
    intro j _
    rw [decide_eq_decide]
    have := h1 j
    constructor
    · intro h; by_contra hj; rw [if_neg hj] at this
      have e : ∀ (a b : ℕ), a = 0 → 50 ≤ a → False := by intro a b h1 h2; omega
      exact e _ 0 (by convert this) h
    · intro hj; rw [if_pos hj] at this
      have e : ∀ (a : ℕ), a = 60 → 50 ≤ a := by intro a h; omega
      exact e _ (by convert this)
  rw [List.filter_congr h2]
  decide

/-- C78 (`get_loss_data_smhm`): there an entry needs `nhalos` sampled halos, which are then distinct. -/
theorem C78_smhm_entry {choice : Choice} (hc : Spec.IsNpChoice choice) (call : ℕ) (samples : List Sample)
    (nhalos i j : ℕ) (t : ℝ) [DecidablePred (Spec.Belongs (fun _ => True) i j)] :
    (smhmEntry choice call samples nhalos i j t = none ↔
      (samples.filter fun s => Spec.Belongs (fun _ => True) i j s).length < nhalos) ∧
    ∀ e, smhmEntry choice call samples nhalos i j t = some e → e.tobs = t ∧ e.rows.length = nhalos ∧ e.rows.Nodup ∧
      ∀ r ∈ e.rows, ∃ s, samples[r]? = some s ∧ Spec.Belongs (fun _ => True) i j s := by
  have hw : wanted .all = fun _ => True := by funext u; rfl
  have hl : (select .all samples i j).length =
      (samples.filter fun s => Spec.Belongs (fun _ => True) i j s).length := by
    classical
    rw [select_length .all samples i j]
    congr 1
    exact List.filter_congr fun s _ => decide_eq_decide.2 Iff.rfl
  unfold smhmEntry
  simp only
  rw [hl]
  constructor
  · split_ifs with h <;> simp [h]
  · intro e he
    split_ifs at he with h
    rw [Option.some.injEq] at he
    subst he
    refine ⟨rfl, ?_, hc.nodup _ _ _ (select_nodup _ _ _ _), fun r hr => ?_⟩
    · apply hc.length
      · rcases Nat.eq_zero_or_pos nhalos with h0 | h0
        · left; exact h0
        · right
          intro hnil
          rw [hnil] at hl
          simp only [List.length_nil] at hl
          omega
      · intro _; rw [hl]; omega
    · have := select_mem (hc.mem _ _ _ _ _ hr)
      rwa [hw] at this

/-! ### C63: redshifts without a populated bin -/

/-- C63 fails for a redshift without a populated halo bin: the empty index array has a float dtype and indexing with it
raises `IndexError`, so that no loss data is made for any redshift. -/
theorem C63_empty_redshift_violated (choice : Choice) (hc : Spec.IsNpChoice choice) (kind : Kind) (samples : List Sample)
    (nhalos nm : ℕ) (ages : List ℝ) (nmhaloPdf : List (List ℝ)) (i : ℕ) (hi : i < ages.length)
    (h : Spec.populated (wanted kind) samples nm i = []) :
    prepareRaggedChecked (selectLossData choice kind samples nhalos nm ages).indxPdf nmhaloPdf
      (selectLossData choice kind samples nhalos nm ages).indexMhalo = none := by
  unfold prepareRaggedChecked
  rw [if_pos]
  right
  rw [(C78_selected_bins hc kind samples nhalos nm ages).2.1, List.any_eq_true]
  exact ⟨[], List.mem_map.2 ⟨i, List.mem_range.2 hi, h⟩, rfl⟩

/-- C63: loss data is made if there is a redshift and every redshift has a populated halo bin, and only then. What is made
are the padded rows of all redshifts. -/
theorem C63_made_iff (choice : Choice) (hc : Spec.IsNpChoice choice) (kind : Kind) (samples : List Sample)
    (nhalos nm : ℕ) (ages : List ℝ) (nmhaloPdf : List (List ℝ)) (rows : List (List ℕ × List ℝ)) :
    prepareRaggedChecked (selectLossData choice kind samples nhalos nm ages).indxPdf nmhaloPdf
      (selectLossData choice kind samples nhalos nm ages).indexMhalo = some rows ↔
    (ages ≠ [] ∧ ∀ i < ages.length, Spec.populated (wanted kind) samples nm i ≠ []) ∧
      rows = Load.prepareRagged (selectLossData choice kind samples nhalos nm ages).indxPdf nmhaloPdf
        (selectLossData choice kind samples nhalos nm ages).indexMhalo := by
  obtain ⟨-, h2, h3, h4⟩ := C78_selected_bins hc kind samples nhalos nm ages
  generalize selectLossData choice kind samples nhalos nm ages = sel at *
  have hl' : sel.indxPdf.length = ages.length := by
    have := congrArg List.length h4
    rw [List.length_map, List.length_map, h2] at this
    simpa using this
  have hp : sel.indxPdf = [] ↔ ages = [] := by
    rw [← List.length_eq_zero_iff, hl', List.length_eq_zero_iff]
  have ha : sel.indexMhalo.any (·.isEmpty) = true ↔
      ∃ i < ages.length, Spec.populated (wanted kind) samples nm i = [] := by
    rw [h2, List.any_eq_true]
    simp only [List.mem_map, List.mem_range, exists_exists_and_eq_and, List.isEmpty_iff]
  unfold prepareRaggedChecked
  constructor
  · intro h
    split_ifs at h with hif
    rw [hp, ha] at hif
    push Not at hif
    exact ⟨hif, (Option.some.inj h).symm⟩
  · rintro ⟨⟨h1, h2⟩, rfl⟩
    rw [if_neg]
    rw [hp, ha]
    rintro (h | ⟨i, hi, h⟩)
    · exact h1 h
    · exact h2 i hi h

example : Spec.populated (fun _ => True) [] 5 0 = [] := by
  classical
  unfold Spec.populated
  rw [List.filter_eq_nil_iff]
  intro j _
  simp

/-! ### C79 -/

/-- C79: the halo mass distribution of one redshift is non-negative, sums to one and is proportional to the counts; it
is undefined exactly if there is no halo. -/
theorem C79_halo_distribution {nm : ℕ} (counts : Fin nm → ℕ) :
    (mhaloPdf counts = none ↔ ∀ j, counts j = 0) ∧
    ∀ f, mhaloPdf counts = some f → (∀ j, 0 ≤ f j) ∧ ∑ j, f j = 1 ∧ ∀ j k, f j * counts k = f k * counts j := by
  have h0 : (∑ j, (counts j : ℝ)) = 0 ↔ ∀ j, counts j = 0 := by
    rw [sum_eq_zero_iff_of_nonneg fun j _ => Nat.cast_nonneg _]
    simp
  unfold mhaloPdf
  simp only
  constructor
  · rw [← h0]; split_ifs with h <;> simp [h]
  · intro f hf
    split_ifs at hf with h
    rw [Option.some.injEq] at hf
    subst hf
    have hpos : (0 : ℝ) < ∑ j, (counts j : ℝ) := lt_of_le_of_ne (sum_nonneg fun j _ => Nat.cast_nonneg _) (Ne.symm h)
    refine ⟨fun j => by positivity, ?_, fun j k => by ring⟩
    rw [← sum_div, div_self h]

/-- C79: a stellar mass target is non-negative, sums to one and is proportional to the (non-negative) weights. -/
theorem C79_mstar_target {na : ℕ} (w f : Fin na → ℝ) (hw : ∀ a, 0 ≤ w a) (h : mstarTarget w = some f) :
    (∀ a, 0 ≤ f a) ∧ ∑ a, f a = 1 ∧ ∀ a b, f a * w b = f b * w a := by
  obtain ⟨_, h2, h3, h4⟩ := normalise_some h hw
  exact ⟨h3, h4, fun a b => by rw [h2, h2]; ring⟩

example : ∃ f, mstarTarget (na := 2) ![1, 3] = some f ∧ f 1 = 3 / 4 := by
  refine ⟨_, by rw [mstarTarget, PopLoss.normalise, if_neg]; norm_num [Fin.sum_univ_two], ?_⟩
  norm_num [Fin.sum_univ_two]

theorem binPdf_nonneg {na nb : ℕ} (w : Fin na → Fin nb → ℝ) (a : Fin na) (b : Fin nb) : 0 ≤ binPdf w a b := by
  unfold binPdf
  simp only
  split_ifs
  · exact le_rfl
  · exact div_nonneg (le_max_right _ _) (sum_nonneg fun a _ => sum_nonneg fun b _ => le_max_right _ _)

theorem binPdf_eq_zero_iff {na nb : ℕ} (w : Fin na → Fin nb → ℝ) (a : Fin na) (b : Fin nb) :
    binPdf w a b = 0 ↔ w a b ≤ 0 := by
  have hnn : ∀ a, 0 ≤ ∑ b, max (w a b) 0 := fun a => sum_nonneg fun b _ => le_max_right _ _
  unfold binPdf
  simp only
  split_ifs with h
  · rw [sum_eq_zero_iff_of_nonneg fun a _ => hnn a] at h
    have := (sum_eq_zero_iff_of_nonneg fun b _ => le_max_right (w a b) 0).1 (h a (mem_univ a)) b (mem_univ b)
    simpa using this
  · rw [div_eq_zero_iff, or_iff_left h]
    simp

/-- C79: within one halo bin the joint distribution sums to one, or is zero if no cell has a positive weight. -/
theorem C79_joint_distribution {na nb : ℕ} (w : Fin na → Fin nb → ℝ) :
    (∀ a b, 0 ≤ binPdf w a b) ∧ ((∃ a b, 0 < w a b) → ∑ a, ∑ b, binPdf w a b = 1) ∧
    ((∀ a b, w a b ≤ 0) → ∀ a b, binPdf w a b = 0) := by
  refine ⟨binPdf_nonneg w, ?_, fun h a b => (binPdf_eq_zero_iff w a b).2 (h a b)⟩
  rintro ⟨a, b, hab⟩
  have hne : ∑ a, ∑ b, max (w a b) 0 ≠ 0 := by
    intro h
    have h2 : binPdf w a b = 0 := by unfold binPdf; simp only; rw [if_pos h]
    exact absurd ((binPdf_eq_zero_iff w a b).1 h2) (not_le.2 hab)
  unfold binPdf
  simp only [if_neg hne]
  simp only [← sum_div]
  exact div_self hne

/-- C79: every row of the sSFR targets is non-negative and sums to one, or is zero; it is zero exactly if no halo bin
with halos has a positive weight in this stellar mass bin. -/
theorem C79_ssfr_target_rows {nm na nb : ℕ} (w : Fin nm → Fin na → Fin nb → ℝ) (counts : Fin nm → ℕ) (a : Fin na) :
    let row := targetRow (targetPdf w (mhaloPdf counts)) a
    (∀ b, 0 ≤ row b) ∧ (∑ b, row b = 1 ∨ ∀ b, row b = 0) ∧
    ((∀ b, row b = 0) ↔ ∀ m, counts m = 0 ∨ ∀ b, w m a b ≤ 0) := by
  intro row
  obtain ⟨hnone, hsome⟩ := C79_halo_distribution counts
  cases hm : mhaloPdf counts with
  | none =>
    have hrow : ∀ b, row b = 0 := by intro b; simp only [row, hm, targetPdf, targetRow, Option.map_none]
    refine ⟨fun b => (hrow b).ge, Or.inr hrow, ⟨fun _ m => Or.inl (hnone.1 hm m), fun _ => hrow⟩⟩
  | some mh =>
    obtain ⟨g1, g2, g3⟩ := hsome mh hm
    have hmh0 : ∀ m, mh m = 0 ↔ counts m = 0 := by
      intro m
      obtain ⟨k, hk⟩ : ∃ k, counts k ≠ 0 := by
        by_contra hc
        push Not at hc
        rw [hnone.2 hc] at hm
        exact absurd hm (by simp)
      have hk' : (counts k : ℝ) ≠ 0 := by exact_mod_cast hk
      constructor
      · intro h
        by_contra hcm
        have hcm' : (counts m : ℝ) ≠ 0 := by exact_mod_cast hcm
        have hall : ∀ j, mh j = 0 := by
          intro j
          have := g3 m j
          rw [h, zero_mul] at this
          rcases mul_eq_zero.1 this.symm with h' | h'
          · exact h'
          · exact absurd h' hcm'
        rw [sum_eq_zero fun j _ => hall j] at g2
        exact absurd g2 (by norm_num)
      · intro h
        have := g3 m k
        rw [h] at this
        simpa [hk'] using this
    set p : Fin nb → ℝ := fun b => ∑ m, binPdf (w m) a b * mh m with hp
    have hp0 : ∀ b, 0 ≤ p b := fun b => sum_nonneg fun m _ => mul_nonneg (binPdf_nonneg _ _ _) (g1 m)
    have hrow : row = if ∑ b, p b > 0 then fun b => p b / ∑ b, p b else fun _ => 0 := by
      simp only [row, hm, targetPdf, targetRow, Option.map_some]
      rfl
    have hz : (∑ b, p b = 0) ↔ ∀ m, counts m = 0 ∨ ∀ b, w m a b ≤ 0 := by
      rw [sum_eq_zero_iff_of_nonneg fun b _ => hp0 b]
      have e : ∀ b, p b = 0 ↔ ∀ m, w m a b ≤ 0 ∨ counts m = 0 := by
        intro b
        rw [hp]
        simp only
        rw [sum_eq_zero_iff_of_nonneg fun m _ => mul_nonneg (binPdf_nonneg _ _ _) (g1 m)]
        simp only [mem_univ, true_imp_iff, mul_eq_zero, binPdf_eq_zero_iff, hmh0]
      simp only [mem_univ, true_imp_iff, e]
      constructor
      · intro h m
        by_cases hc : counts m = 0
        · exact Or.inl hc
        · exact Or.inr fun b => (h b m).resolve_right hc
      · intro h b m
        rcases h m with h | h
        · exact Or.inr h
        · exact Or.inl (h b)
    by_cases hs : ∑ b, p b > 0
    · rw [if_pos hs] at hrow
      have hsum : ∑ b, row b = 1 := by rw [hrow]; simp only; rw [← sum_div, div_self hs.ne']
      refine ⟨fun b => by rw [hrow]; exact div_nonneg (hp0 b) hs.le, Or.inl hsum, ?_⟩
      rw [← hz]
      constructor
      · intro h; rw [sum_eq_zero fun b _ => h b] at hsum; exact absurd hsum (by norm_num)
      · intro h; exact absurd h hs.ne'
    · rw [if_neg hs] at hrow
      have h0 : ∑ b, p b = 0 := le_antisymm (not_lt.1 hs) (sum_nonneg fun b _ => hp0 b)
      have hr0 : ∀ b, row b = 0 := fun b => by rw [hrow]
      exact ⟨fun b => (hr0 b).ge, Or.inr hr0, ⟨fun _ => hz.1 h0, fun _ => hr0⟩⟩

/-! ### C80 -/

/-- C80 (partial: bins without a prediction must not contribute to the target): if the predicted joint distribution of
every predicted halo bin is exactly the measured one, the predicted conditional sSFR distribution is the target. -/
theorem C80_perfect_model_partial {nk nm na nb nt ns : ℕ} (w : Fin nm → Fin na → Fin nb → ℝ) (mh : Fin nm → ℝ)
    (sel : Fin ns → Fin nm) (hsel : Function.Injective sel) (indx : Fin ns → Fin nk)
    (pdf : Fin nk → Option (Fin na → Fin nb → ℝ)) (hpdf : ∀ m, pdf (indx m) = some (binPdf (w (sel m))))
    (ids : Fin nt → Fin na) (t : Fin nt)
    (hrest : ∀ m, (∀ k, sel k ≠ m) → ∀ b, binPdf (w m) (ids t) b * mh m = 0)
    (hpos : 0 < ∑ b, ∑ m, binPdf (w m) (ids t) b * mh m) (b : Fin nb) :
    PopLoss.conditional (PopLoss.mixBins pdf indx fun m => mh (sel m)) ids t b =
      some (targetRow (targetPdf w (some mh)) (ids t) b) := by
  classical
  have hsum : ∀ b, ∑ k, binPdf (w (sel k)) (ids t) b * mh (sel k) = ∑ m, binPdf (w m) (ids t) b * mh m := by
    intro b
    rw [← sum_image (s := univ) (g := sel) (f := fun m => binPdf (w m) (ids t) b * mh m) fun x _ y _ h => hsel h]
    apply sum_subset (subset_univ _)
    intro m _ hm
    apply hrest
    intro k hk
    exact hm (mem_image.2 ⟨k, mem_univ k, hk⟩)
  have hall : PopLoss.allSome (fun m => pdf (indx m)) = some fun m => binPdf (w (sel m)) := by
    simp only [hpdf]
    exact allSome_eq_some.2 fun _ => rfl
  have hne : ¬ (∑ b, ∑ m, binPdf (w m) (ids t) b * mh m) = 0 := hpos.ne'
  unfold PopLoss.conditional PopLoss.mixBins
  rw [hall]
  simp only [Option.map_some, Option.bind_some, hsum, hne, if_false, targetPdf, targetRow, if_pos hpos]

/-- Two halo bins with the same stellar mass and different specific rates, one of them with fewer than 50 samples. -/
noncomputable def twoBins : Fin 2 → Fin 1 → Fin 2 → ℝ := fun m _ b => if m = b then 1 else 0

theorem binPdf_twoBins (m : Fin 2) (b : Fin 2) : binPdf (twoBins m) 0 b = if m = b then 1 else 0 := by
  unfold binPdf twoBins
  fin_cases m <;> fin_cases b <;> simp [Fin.sum_univ_two]

/-- C80 fails if a halo bin with halos has fewer than 50 samples: the target mixes all halo bins, the prediction only
those with 50 samples. With two bins of equal weight the target is `(1/2, 1/2)`; a model exact in both bins, of which
only the first is predicted, gives `(1, 0)`. -/
theorem C80_sparse_bin_violated :
    (∀ b, targetRow (targetPdf twoBins (some fun _ => 1 / 2)) 0 b = 1 / 2) ∧
    (∀ b, PopLoss.conditional (nt := 1) (PopLoss.mixBins (nk := 1) (nm := 1) (fun _ => some (binPdf (twoBins 0))) (fun _ => 0)
      (fun _ => 1 / 2)) (fun _ => 0) 0 b = some (if b = 0 then 1 else 0)) := by
  constructor
  · intro b
    have h : ∀ b, ∑ m, binPdf (twoBins m) 0 b * (1 / 2) = 1 / 2 := by
      intro b
      rw [Fin.sum_univ_two, binPdf_twoBins, binPdf_twoBins]
      fin_cases b <;> simp
    simp only [targetPdf, Option.map_some, targetRow, h]
    norm_num
  · intro b
    have hall : PopLoss.allSome (ι := Fin 1) (fun _ => some (binPdf (twoBins 0))) = some fun _ => binPdf (twoBins 0) :=
      allSome_eq_some.2 fun _ => rfl
    unfold PopLoss.conditional PopLoss.mixBins
    rw [hall]
    simp only [Option.map_some, Option.bind_some, Finset.univ_unique, sum_singleton, binPdf_twoBins]
    rw [Fin.sum_univ_two]
    fin_cases b <;> norm_num

example : 0 < ∑ b, ∑ m, binPdf (twoBins m) 0 b * (1 / 2) := by
  rw [Fin.sum_univ_two, Fin.sum_univ_two, Fin.sum_univ_two]
  simp only [binPdf_twoBins]
  norm_num

/-! ### C81 -/

/-- C81 fails: the loss data gives every satellite `gyr_since_infall = -99`, which is before infall for any admissible
delay time. Whatever the satellite quenching parameters, the predicted quenched fraction is the same to `1e-100` and
the drawn galaxy parameters are the same: the satellite loss does not constrain these parameters. -/
theorem C81_satellite_parameters_unconstrained_violated {K : Type} (rng : Pop.Rng K) (p p' : Pop.PF → ℝ)
    (hp : ∀ f, (Pop.PF.bounds f).1 < p f ∧ p f < (Pop.PF.bounds f).2)
    (hp' : ∀ f, (Pop.PF.bounds f).1 < p' f ∧ p' f < (Pop.PF.bounds f).2)
    (hsame : ∀ f : Pop.QF, p (.inl f) = p' (.inl f)) (logmp0 tpeak : ℝ) (upid : ℤ) (key : K) :
    let r := Pop.mcDiffstarParamsSinglegal rng p logmp0 tpeak upid LGMU_INFALL LOGMHOST_INFALL GYR_SINCE_INFALL key
    let r' := Pop.mcDiffstarParamsSinglegal rng p' logmp0 tpeak upid LGMU_INFALL LOGMHOST_INFALL GYR_SINCE_INFALL key
    r.paramsMs = r'.paramsMs ∧ r.paramsQ = r'.paramsQ ∧ |r.fracQ - r'.fracQ| ≤ 1 / 10 ^ 100 := by
  have hpart : Pop.sfhPdfPart p = Pop.sfhPdfPart p' := by
    funext f; rw [Pop.sfhPdfPart_apply, Pop.sfhPdfPart_apply, hsame]
  have hsmall : ∀ p : Pop.SF → ℝ, Pop.InSBounds p →
      0 ≤ Pop.predictSatFracDeltaQprob p (-1) 13 (-99) ∧ Pop.predictSatFracDeltaQprob p (-1) 13 (-99) ≤ 1 / 10 ^ 100 := by
    intro p hp
    refine ⟨(Pop.fracDelta_mem hp _ _ _).1.le, ?_⟩
    rw [Pop.fracDelta_eq]
    have h := Pop.qprobHi_mem hp (-1) 13
    have ht := Pop.tDelay_mem hp 13
    set z := 5 * (-99 - Pop.tDelayVsLogmhost p 13) with hz
    have hs0 := nnSigmoid_pos z
    have hs : nnSigmoid z ≤ 1 / 10 ^ 100 := by
      unfold nnSigmoid
      apply one_div_le_one_div_of_le (by positivity)
      have e1 : (2 : ℝ) ≤ Real.exp 1 := by linarith [Real.exp_one_gt_d9]
      have e2 : Real.exp 470 ≤ Real.exp (-z) := Real.exp_le_exp.2 (by rw [hz]; linarith)
      have e3 : (2 : ℝ) ^ 470 ≤ Real.exp 470 := by
        rw [show (470 : ℝ) = ((470 : ℕ) : ℝ) * 1 by norm_num, Real.exp_nat_mul]
        exact pow_le_pow_left₀ (by norm_num) e1 470
      have e4 : (10 : ℝ) ^ 100 ≤ 2 ^ 470 := by
        rw [show (100 : ℕ) = 20 * 5 from rfl, show (470 : ℕ) = 94 * 5 from rfl, pow_mul, pow_mul]
        exact pow_le_pow_left₀ (by positivity) (by norm_num) 5
      exact (e4.trans (e3.trans e2)).trans (le_add_of_nonneg_left zero_le_one)
    nlinarith
  have d1 := hsmall _ (Pop.satquenchPart_in hp)
  have d2 := hsmall _ (Pop.satquenchPart_in hp')
  have hq := Pop.fracQuenchSat_mem hp logmp0 tpeak
  refine ⟨?_, ?_, ?_⟩
  · simp only [Pop.mcDiffstarParamsSinglegal, Pop.mcDiffstarUParamsSinglegalKernel, Pop.diffstarpopMeansCovs, hpart]
  · simp only [Pop.mcDiffstarParamsSinglegal, Pop.mcDiffstarUParamsSinglegalKernel, Pop.diffstarpopMeansCovs, hpart]
  · simp only [Pop.mcDiffstarParamsSinglegal, Pop.mcDiffstarUParamsSinglegalKernel, Pop.diffstarpopMeansCovs, hpart]
    split_ifs
    · simp
    · simp only [Pop.sfhPdfScalarKernel, Pop.getQprobSat, LGMU_INFALL, LOGMHOST_INFALL, GYR_SINCE_INFALL]
      rw [hpart] at hq
      rw [abs_le]
      constructor <;> nlinarith [d1.1, d1.2, d2.1, d2.2, hq.1, hq.2]

example : ∃ p p' : Pop.PF → ℝ, (∀ f, (Pop.PF.bounds f).1 < p f ∧ p f < (Pop.PF.bounds f).2) ∧
    (∀ f, (Pop.PF.bounds f).1 < p' f ∧ p' f < (Pop.PF.bounds f).2) ∧ (∀ f : Pop.QF, p (.inl f) = p' (.inl f)) := by
  obtain ⟨p, _, _, _, h, _⟩ := C38_default_calibration_usable
  exact ⟨p, fun f => match f with | .inl f => p (.inl f) | .inr f => ((Pop.PF.bounds (.inr f)).1 + p (.inr f)) / 2,
    h, fun f => match f with
      | .inl f => h (.inl f)
      | .inr f => by have := h (.inr f); constructor <;> simp only <;> linarith [this.1, this.2],
    fun _ => rfl⟩

end Diffstar.Props
