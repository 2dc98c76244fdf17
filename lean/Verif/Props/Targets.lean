import Verif.Lemmas.Targets
import Mathlib.Tactic.FinCases
import Mathlib.Tactic.NormNum
import Mathlib.Tactic.Linarith

/-!
Properties C71-C77: the measured targets of the population fits.
-/

namespace Diffstar.Spec

/-- Halo mass bin `j` of a histogram: `[lo, hi)`, the last bin `[lo, hi]`. -/
def InBin {nb : ℕ} (edges : Fin (nb + 1) → ℝ) (j : Fin nb) (x : ℝ) : Prop :=
  edges j.castSucc ≤ x ∧ (x < edges j.succ ∨ (j.val + 1 = nb ∧ x = edges j.succ))

/-- What numpy promises about `np.random.choice(a, size, replace)`. -/
structure IsNpChoice (choice : ℕ → List ℕ → ℕ → Bool → List ℕ) : Prop where
  length : ∀ c a k r, (k = 0 ∨ a ≠ []) → (r = false → k ≤ a.length) → (choice c a k r).length = k
  mem : ∀ c a k r x, x ∈ choice c a k r → x ∈ a
  nodup : ∀ c a k, a.Nodup → (choice c a k false).Nodup

theorem exists_isNpChoice : IsNpChoice fun _ a k r =>
    if r then (match a with | [] => [] | x :: _ => List.replicate k x) else a.take k where
  length := by
    intro c a k r h1 h2
    cases r
    · simpa using h2 rfl
    · cases a with
      | nil => rcases h1 with rfl | h1
               · simp
               · exact absurd rfl h1
      | cons x a => simp
  mem := by
    intro c a k r x hx
    cases r
    · simp only [Bool.false_eq_true, if_false] at hx; exact List.mem_of_mem_take hx
    · cases a with
      | nil => simp at hx
      | cons y a => simp only [if_true] at hx; rw [List.eq_of_mem_replicate hx]; exact List.mem_cons_self
  nodup := by
    intro c a k h
    simp only [Bool.false_eq_true, if_false]
    exact h.sublist (List.take_sublist k a)

end Diffstar.Spec

namespace Diffstar.Props

open Diffstar.Targets Finset

/-- Edges `0, 1, …, n` for the examples. -/
noncomputable def unitEdges (n : ℕ) : Fin (n + 1) → ℝ := fun i => (i.val : ℝ)

theorem unitEdges_strictMono (n : ℕ) : StrictMono (unitEdges n) := by
  intro a b h
  simp only [unitEdges, Nat.cast_lt]
  exact h

/-- A halo of constant history, for the examples. -/
noncomputable def flatHalo (m s ssfr : ℝ) (upid : ℤ) : Halo where
  logMah := fun _ => m
  logSmh := fun _ => s
  logSsfr := fun _ => ssfr
  mah := ⟨m, 0, 0, 0, 0⟩
  sfh := DEFAULT_DIFFSTAR_PARAMS
  upid := upid

/-! ### C71: counts per halo mass bin -/

/-- C71: in every halo mass bin the centrals and the satellites add up to all halos. -/
theorem C71_centrals_plus_satellites {nm na nb : ℕ} (mh : Fin (nm + 1) → ℝ) (ms : Fin (na + 1) → ℝ)
    (sf : Fin (nb + 1) → ℝ) (pop : List Halo) (tid : ℕ) (j : Fin nm) :
    (measureAtz mh ms sf pop tid).countsCen j + (measureAtz mh ms sf pop tid).countsSat j =
      (measureAtz mh ms sf pop tid).counts j := by
  classical
  simp only [measureAtz, computeHistogramsAtz, List.filter_map, List.length_map, List.filter_filter]
  induction pop with
  | nil => simp
  | cons h pop ih =>
    simp only [List.filter_cons]
    by_cases h1 : inHistBin mh j (h.logMah tid) <;> by_cases h2 : h.upid = -1 <;>
      simp_all [Function.comp_def] <;> omega

/-- C71: every halo with a mass in the closed range of the bins is counted in exactly one bin, other halos in none. -/
theorem C71_counts_total {nm na nb : ℕ} (mh : Fin (nm + 1) → ℝ) (ms : Fin (na + 1) → ℝ) (sf : Fin (nb + 1) → ℝ)
    (pop : List Halo) (tid : ℕ) (hb : StrictMono mh) (hn : 0 < nm)
    [∀ x : ℝ, Decidable (mh 0 ≤ x ∧ x ≤ mh (Fin.last nm))] :
    ∑ j, (measureAtz mh ms sf pop tid).counts j =
      (pop.filter fun h => mh 0 ≤ h.logMah tid ∧ h.logMah tid ≤ mh (Fin.last nm)).length := by
  classical
  rw [← sum_filter_length hb hn (fun h : Halo => h.logMah tid) pop]
  apply sum_congr rfl
  intro j _
  simp only [measureAtz, computeHistogramsAtz, List.filter_map, List.length_map, Function.comp_def]

/-- C71: the summed log stellar masses of the bins are the sum over all halos in the range. -/
theorem C71_hist_total {nm na nb : ℕ} (mh : Fin (nm + 1) → ℝ) (ms : Fin (na + 1) → ℝ) (sf : Fin (nb + 1) → ℝ)
    (pop : List Halo) (tid : ℕ) (hb : StrictMono mh) (hn : 0 < nm)
    [∀ x : ℝ, Decidable (mh 0 ≤ x ∧ x ≤ mh (Fin.last nm))] :
    ∑ j, (measureAtz mh ms sf pop tid).hist j =
      ((pop.filter fun h => mh 0 ≤ h.logMah tid ∧ h.logMah tid ≤ mh (Fin.last nm)).map fun h => h.logSmh tid).sum := by
  classical
  rw [← sum_filter_sum hb hn (fun h : Halo => h.logMah tid) (fun h => h.logSmh tid) pop]
  apply sum_congr rfl
  intro j _
  simp only [measureAtz, computeHistogramsAtz, List.filter_map, List.map_map, Function.comp_def]

/-- C71: the smooth counts are non-negative, and each halo adds at most one in total. -/
theorem C71_smooth_counts {nm na nb : ℕ} (mh : Fin (nm + 1) → ℝ) (ms : Fin (na + 1) → ℝ) (sf : Fin (nb + 1) → ℝ)
    (pop : List Halo) (tid : ℕ) (hb : StrictMono mh) (hn : 0 < nm) :
    (∀ j, 0 ≤ (measureAtz mh ms sf pop tid).wcounts j) ∧
    ∑ j, (measureAtz mh ms sf pop tid).wcounts j ≤ pop.length := by
  have hs : 0 < PopLoss.meanDiff mh := by
    unfold PopLoss.meanDiff
    have : Nonempty (Fin nm) := ⟨⟨0, hn⟩⟩
    refine div_pos (Finset.sum_pos (fun j _ => ?_) Finset.univ_nonempty) (by exact_mod_cast hn)
    linarith [hb (Fin.castSucc_lt_succ (i := j))]
  simp only [measureAtz, diffHist_fst, List.map_map, Function.comp_def]
  constructor
  · intro j
    apply List.sum_nonneg
    intro x hx
    obtain ⟨h, _, rfl⟩ := List.mem_map.1 hx
    exact ndBin_nonneg hs (hb (Fin.castSucc_lt_succ (i := j))).le
  · induction pop with
    | nil => simp
    | cons h pop ih =>
      simp only [List.map_cons, List.sum_cons, List.length_cons, sum_add_distrib]
      have := ndBin_sum_le_one (x := h.logMah tid) (s := PopLoss.meanDiff mh) nm mh
      push_cast
      linarith

example : ∑ j, (measureAtz (unitEdges 2) (unitEdges 2) (unitEdges 2)
    [flatHalo 0 1 0 (-1), flatHalo 1.5 1 0 7, flatHalo 2 1 0 (-1), flatHalo 3 1 0 (-1)] 0).counts j = 3 := by
  classical
  rw [C71_counts_total _ _ _ _ _ (unitEdges_strictMono 2) (by norm_num)]
  simp [flatHalo, unitEdges, List.filter_cons, Fin.last]
  norm_num

/-! ### C72: the three membership rules -/

theorem inHistBin_iff_pdf {nb : ℕ} {bins : Fin (nb + 1) → ℝ} {j : Fin nb} {x : ℝ} (hx : ∀ i, x ≠ bins i) :
    inHistBin bins j x ↔ inPdfBin bins j x := by
  unfold inHistBin inPdfBin
  constructor
  · rintro ⟨h1, h2⟩
    refine ⟨lt_of_le_of_ne h1 (Ne.symm (hx _)), ?_⟩
    rcases h2 with h2 | h2
    · exact h2
    · exact absurd h2.2 (hx _)
  · rintro ⟨h1, h2⟩
    exact ⟨h1.le, Or.inl h2⟩

/-- C72 (partial: no halo mass equals a bin edge): the halos behind the stellar mass counts of a halo bin are those of
the halo count, if their stellar masses are in the range of the stellar mass bins. -/
theorem C72_same_halos_partial {nm na nb : ℕ} (mh : Fin (nm + 1) → ℝ) (ms : Fin (na + 1) → ℝ) (sf : Fin (nb + 1) → ℝ)
    (pop : List Halo) (tid : ℕ) (j : Fin nm) (hms : StrictMono ms) (hna : 0 < na)
    (hedge : ∀ h ∈ pop, ∀ i, h.logMah tid ≠ mh i)
    (hrange : ∀ h ∈ pop, ms 0 ≤ h.logSmh tid ∧ h.logSmh tid ≤ ms (Fin.last na)) :
    ∑ a, (measureAtz mh ms sf pop tid).mstarCounts j a = (measureAtz mh ms sf pop tid).counts j := by
  classical
  have h1 : ∑ a, (measureAtz mh ms sf pop tid).mstarCounts j a =
      ((pop.filter fun h => inPdfBin mh j (h.logMah tid)).filter fun h =>
        ms 0 ≤ h.logSmh tid ∧ h.logSmh tid ≤ ms (Fin.last na)).length := by
    rw [← sum_filter_length hms hna (fun h : Halo => h.logSmh tid)]
    apply sum_congr rfl
    intro a _
    simp only [measureAtz, diffHistMstarAtz, List.filter_map, List.length_map, Function.comp_def]
  rw [h1]
  simp only [measureAtz, computeHistogramsAtz, List.filter_map, List.length_map, Function.comp_def, List.filter_filter]
  congr 1
  apply List.filter_congr
  intro h hh
  have := inHistBin_iff_pdf (j := j) (hedge h hh)
  simp [this, hrange h hh]

/-- Row `s` of the sample file describes halo `h`: all columns come from the same halo, and its bin label is right. -/
def Describes {nm : ℕ} (mh : Fin (nm + 1) → ℝ) (tid zid : ℕ) (tobs z : ℝ) (h : Halo) (s : Sample) : Prop :=
  s.mah = h.mah ∧ s.ms = h.sfh.ms ∧ s.q = h.sfh.q ∧ s.upid = h.upid ∧ s.tobsId = zid ∧ s.tobsVal = tobs ∧
  s.redshift = z ∧ ∃ j : Fin nm, s.logmhId = j.val ∧ s.logmhVal = (mh j.castSucc + mh j.succ) / 2 ∧
    mh j.castSucc ≤ h.logMah tid ∧ h.logMah tid < mh j.succ

theorem binMembers_length {nm : ℕ} (mh : Fin (nm + 1) → ℝ) (pop : List Halo) (tid : ℕ) (j : Fin nm)
    [∀ x, Decidable (mh j.castSucc ≤ x ∧ x < mh j.succ)] :
    (binMembers mh pop tid j).length =
      (pop.filter fun h => mh j.castSucc ≤ h.logMah tid ∧ h.logMah tid < mh j.succ).length := by
  unfold binMembers
  rw [length_filter_range]
  congr 1
  apply List.filter_congr
  intro h _
  exact decide_eq_decide.2 Iff.rfl

theorem mem_binMembers {nm : ℕ} {mh : Fin (nm + 1) → ℝ} {pop : List Halo} {tid : ℕ} {j : Fin nm} {i : ℕ}
    (hi : i ∈ binMembers mh pop tid j) :
    ∃ h, pop[i]? = some h ∧ mh j.castSucc ≤ h.logMah tid ∧ h.logMah tid < mh j.succ := by
  obtain ⟨h, h1, h2⟩ := mem_filter_range hi
  exact ⟨h, h1, of_decide_eq_true h2⟩

/-- The rows chosen in one bin. -/
noncomputable def chosen {nm : ℕ} (choice : Choice) (call per : ℕ) (mh : Fin (nm + 1) → ℝ) (pop : List Halo) (tid : ℕ)
    (j : Fin nm) : List ℕ :=
  choice (call + j.val) (binMembers mh pop tid j) (min per (binMembers mh pop tid j).length) false

theorem chosen_length {nm : ℕ} {choice : Choice} (hc : Spec.IsNpChoice choice) (call per : ℕ) (mh : Fin (nm + 1) → ℝ)
    (pop : List Halo) (tid : ℕ) (j : Fin nm) :
    (chosen choice call per mh pop tid j).length = min per (binMembers mh pop tid j).length := by
  apply hc.length
  · by_cases h : binMembers mh pop tid j = []
    · left; rw [h]; simp
    · right; exact h
  · intro _; exact min_le_right _ _

theorem sampleBin_forall₂ {nm : ℕ} {choice : Choice} (hc : Spec.IsNpChoice choice) (call per : ℕ)
    (mh : Fin (nm + 1) → ℝ) (pop : List Halo) (tid zid : ℕ) (tobs z : ℝ) (j : Fin nm) :
    List.Forall₂ (fun i s => ∃ h, pop[i]? = some h ∧ Describes mh tid zid tobs z h s ∧ s.logmhId = j.val)
      (chosen choice call per mh pop tid j) (sampleBin choice call per mh pop tid zid tobs z j) := by
  have hmem : ∀ i ∈ chosen choice call per mh pop tid j, i ∈ binMembers mh pop tid j :=
    fun i hi => hc.mem _ _ _ _ _ hi
  unfold sampleBin
  change List.Forall₂ _ _ ((chosen choice call per mh pop tid j).filterMap _)
  generalize chosen choice call per mh pop tid j = l at hmem
  induction l with
  | nil => simp
  | cons i l ih =>
    obtain ⟨h, h1, h2, h3⟩ := mem_binMembers (hmem i List.mem_cons_self)
    rw [List.filterMap_cons, h1]
    refine List.Forall₂.cons ⟨h, h1, ⟨rfl, rfl, rfl, rfl, rfl, rfl, rfl, j, rfl, rfl, h2, h3⟩, rfl⟩ ?_
    exact ih fun i hi => hmem i (List.mem_cons_of_mem _ hi)

theorem sampleBin_length {nm : ℕ} {choice : Choice} (hc : Spec.IsNpChoice choice) (call per : ℕ)
    (mh : Fin (nm + 1) → ℝ) (pop : List Halo) (tid zid : ℕ) (tobs z : ℝ) (j : Fin nm) :
    (sampleBin choice call per mh pop tid zid tobs z j).length = min per (binMembers mh pop tid j).length := by
  rw [← (sampleBin_forall₂ hc call per mh pop tid zid tobs z j).length_eq, chosen_length hc]

theorem sampleBin_id {nm : ℕ} (choice : Choice) (call per : ℕ)
    (mh : Fin (nm + 1) → ℝ) (pop : List Halo) (tid zid : ℕ) (tobs z : ℝ) (j : Fin nm) :
    ∀ s ∈ sampleBin choice call per mh pop tid zid tobs z j, s.logmhId = j.val := by
  intro s hs
  unfold sampleBin at hs
  obtain ⟨i, _, hi⟩ := List.mem_filterMap.1 hs
  obtain ⟨h, _, rfl⟩ := Option.map_eq_some_iff.1 hi
  rfl

theorem filter_flatMap_id {nm : ℕ} (f : Fin nm → List Sample) (hf : ∀ j, ∀ s ∈ f j, s.logmhId = j.val) (j : Fin nm) :
    ∀ js : List (Fin nm), js.Nodup → ((js.flatMap f).filter fun s => s.logmhId == j.val) = if j ∈ js then f j else [] := by
  intro js
  induction js with
  | nil => intro _; simp
  | cons k js ih =>
    intro hnd
    obtain ⟨h1, h2⟩ := List.nodup_cons.1 hnd
    rw [List.flatMap_cons, List.filter_append, ih h2]
    by_cases hk : k = j
    · subst hk
      rw [if_neg h1, if_pos List.mem_cons_self, List.append_nil, List.filter_eq_self]
      intro s hs; simpa using hf _ s hs
    · have : (f k).filter (fun s => s.logmhId == j.val) = [] := by
        rw [List.filter_eq_nil_iff]
        intro s hs
        rw [hf k s hs]
        simpa using fun h => hk (Fin.ext h)
      rw [this, List.nil_append]
      simp [Ne.symm hk]

/-- C74: the rows of the sample file of one redshift belong to different halos; all columns of a row are those of one
halo, which lies in the halo mass bin of its label. -/
theorem C74_samples_are_halos {nm : ℕ} (choice : Choice) (hc : Spec.IsNpChoice choice) (call per : ℕ)
    (mh : Fin (nm + 1) → ℝ) (pop : List Halo) (tid zid : ℕ) (tobs z : ℝ) (hb : StrictMono mh) :
    ∃ idx : List ℕ, idx.Nodup ∧
      List.Forall₂ (fun i s => ∃ h, pop[i]? = some h ∧ Describes mh tid zid tobs z h s) idx
        (sampleHalos choice call per mh pop tid zid tobs z) := by
  refine ⟨(List.finRange nm).flatMap (chosen choice call per mh pop tid), ?_, ?_⟩
  · rw [List.nodup_flatMap]
    refine ⟨fun j _ => hc.nodup _ _ _ (nodup_filter_range _), ?_⟩
    apply (List.nodup_finRange nm).imp
    intro j k hjk i hi hk
    obtain ⟨h, h1, h2, h3⟩ := mem_binMembers (hc.mem _ _ _ _ _ hi)
    obtain ⟨h', h1', h2', h3'⟩ := mem_binMembers (hc.mem _ _ _ _ _ hk)
    rw [h1, Option.some.injEq] at h1'
    subst h1'
    exact hjk (inHistBin_unique hb ⟨h2, Or.inl h3⟩ ⟨h2', Or.inl h3'⟩)
  · unfold sampleHalos
    generalize List.finRange nm = js
    induction js with
    | nil => simp
    | cons j js ih =>
      rw [List.flatMap_cons, List.flatMap_cons]
      refine List.rel_append ?_ ih
      exact (sampleBin_forall₂ hc call per mh pop tid zid tobs z j).imp fun i s ⟨h, h1, h2, _⟩ => ⟨h, h1, h2⟩

/-- C74: of each bin the file has all halos, or as many as the maximum per subvolume. -/
theorem C74_sample_size {nm : ℕ} (choice : Choice) (hc : Spec.IsNpChoice choice) (call per : ℕ)
    (mh : Fin (nm + 1) → ℝ) (pop : List Halo) (tid zid : ℕ) (tobs z : ℝ) (j : Fin nm)
    [∀ x, Decidable (mh j.castSucc ≤ x ∧ x < mh j.succ)] :
    ((sampleHalos choice call per mh pop tid zid tobs z).filter fun s => s.logmhId == j.val).length =
      min per (pop.filter fun h => mh j.castSucc ≤ h.logMah tid ∧ h.logMah tid < mh j.succ).length := by
  unfold sampleHalos
  rw [filter_flatMap_id _ (sampleBin_id choice call per mh pop tid zid tobs z) j _ (List.nodup_finRange nm),
    if_pos (List.mem_finRange j), sampleBin_length hc, binMembers_length]

/-- C74: over all subvolumes a redshift and bin get at most 20000 halos. -/
theorem C74_total_at_most_20000 {nm : ℕ} (choice : ℕ → Choice) (hc : ∀ v, Spec.IsNpChoice (choice v)) (call : ℕ → ℕ)
    (mh : Fin (nm + 1) → ℝ) (pops : List (List Halo)) (tid zid : ℕ) (tobs z : ℝ) (j : Fin nm) :
    ((pops.zipIdx.flatMap fun v => sampleHalos (choice v.2) (call v.2) (N_HALOS_MAX / pops.length) mh v.1 tid zid tobs
      z).filter fun s => s.logmhId == j.val).length ≤ 20000 := by
  classical
  have key : ∀ (per : ℕ) (l : List (List Halo × ℕ)),
      ((l.flatMap fun v => sampleHalos (choice v.2) (call v.2) per mh v.1 tid zid tobs z).filter
        fun s => s.logmhId == j.val).length ≤ l.length * per := by
    intro per l
    induction l with
    | nil => simp
    | cons v l ih =>
      rw [List.flatMap_cons, List.filter_append, List.length_append, C74_sample_size _ (hc _), List.length_cons,
        Nat.succ_mul, Nat.add_comm]
      exact Nat.add_le_add ih (min_le_left _ _)
  refine le_trans (key _ _) ?_
  rw [List.length_zipIdx]
  exact Nat.mul_div_le N_HALOS_MAX pops.length

example : ((sampleHalos (fun _ a k r => if r then (match a with | [] => [] | x :: _ => List.replicate k x) else a.take k)
    0 1 (unitEdges 2) [flatHalo 0.5 1 0 (-1), flatHalo 0.7 1 0 7, flatHalo 2 1 0 (-1)] 0 0 13 0).filter
    fun s => s.logmhId == 0).length = 1 := by
  classical
  have := C74_sample_size _ Spec.exists_isNpChoice 0 1 (unitEdges 2)
    [flatHalo 0.5 1 0 (-1), flatHalo 0.7 1 0 7, flatHalo 2 1 0 (-1)] 0 0 13 0 0
  refine Eq.trans this ?_
  simp [flatHalo, unitEdges, List.filter_cons]
  norm_num

/-- C72 (partial: no halo mass equals a bin edge): the sampled halos of a halo bin are as many as the halo count, up to
the maximum per subvolume. -/
theorem C72_sample_size_partial {nm na nb : ℕ} (choice : Choice) (hc : Spec.IsNpChoice choice) (call per : ℕ)
    (mh : Fin (nm + 1) → ℝ) (ms : Fin (na + 1) → ℝ) (sf : Fin (nb + 1) → ℝ) (pop : List Halo) (tid zid : ℕ)
    (tobs z : ℝ) (j : Fin nm) (hedge : ∀ h ∈ pop, ∀ i, h.logMah tid ≠ mh i) :
    ((sampleHalos choice call per mh pop tid zid tobs z).filter fun s => s.logmhId == j.val).length =
      min per ((measureAtz mh ms sf pop tid).counts j) := by
  classical
  rw [C74_sample_size choice hc]
  congr 1
  simp only [measureAtz, computeHistogramsAtz, List.filter_map, List.length_map, Function.comp_def]
  congr 1
  apply List.filter_congr
  intro h hh
  have := inHistBin_iff_pdf (j := j) (hedge h hh)
  rw [decide_eq_decide, this]
  exact ⟨fun hx => ⟨lt_of_le_of_ne hx.1 (Ne.symm (hedge h hh _)), hx.2⟩, fun hx => ⟨hx.1.le, hx.2⟩⟩

example : ∑ a, (measureAtz (unitEdges 2) (unitEdges 10) (unitEdges 2)
    [flatHalo 0.5 8 0 (-1), flatHalo 1.5 9 0 7, flatHalo 1.7 10 0 (-1)] 0).mstarCounts 1 a =
    (measureAtz (unitEdges 2) (unitEdges 10) (unitEdges 2)
      [flatHalo 0.5 8 0 (-1), flatHalo 1.5 9 0 7, flatHalo 1.7 10 0 (-1)] 0).counts 1 := by
  apply C72_same_halos_partial _ _ _ _ _ _ (unitEdges_strictMono 10) (by norm_num)
  · intro h hh i
    simp only [List.mem_cons, List.not_mem_nil, or_false] at hh
    rcases hh with rfl | rfl | rfl <;> fin_cases i <;> norm_num [flatHalo, unitEdges]
  · intro h hh
    simp only [List.mem_cons, List.not_mem_nil, or_false] at hh
    rcases hh with rfl | rfl | rfl <;> norm_num [flatHalo, unitEdges, Fin.last]

/-- C72 fails at the edges: with the default SMDPL bins a central halo of mass exactly `10^11` (the lower edge of the
first bin) is counted and sampled, but it is missing in the stellar mass targets of every bin. -/
theorem C72_lower_edge_violated {na nb : ℕ} (choice : Choice) (hc : Spec.IsNpChoice choice) (mh : Fin 12 → ℝ)
    (hmh : mh = fun i => 11 + (i.val : ℝ) * ((14.75 - 11) / 11)) (ms : Fin (na + 1) → ℝ) (sf : Fin (nb + 1) → ℝ) :
    (measureAtz mh ms sf [flatHalo 11 9 (-10) (-1)] 0).countsCen 0 = 1 ∧
    ((sampleHalos choice 0 34 mh [flatHalo 11 9 (-10) (-1)] 0 0 13.8 0).filter fun s => s.logmhId == 0).length = 1 ∧
    (∀ j a, (measureAtz mh ms sf [flatHalo 11 9 (-10) (-1)] 0).mstarCounts j a = 0) ∧
    (∀ j a, (measureAtz mh ms sf [flatHalo 11 9 (-10) (-1)] 0).mstarWcounts j a = 0) ∧
    ∀ j a b, (measureAtz mh ms sf [flatHalo 11 9 (-10) (-1)] 0).mstarSsfrCen j a b = 0 := by
  classical
  have hpdf : ∀ j : Fin 11, ¬ inPdfBin mh j 11 := by
    intro j hj
    have := hj.1
    rw [hmh] at this
    simp only [Fin.val_castSucc] at this
    have h0 : (0 : ℝ) ≤ (j.val : ℝ) := Nat.cast_nonneg _
    norm_num at this
    linarith
  refine ⟨?_, ?_, ?_, ?_, ?_⟩
  · simp only [measureAtz, computeHistogramsAtz]
    have : inHistBin mh 0 11 := by
      rw [hmh]; unfold inHistBin; norm_num
    simp [flatHalo, this]
  · have := C74_sample_size choice hc 0 34 mh [flatHalo 11 9 (-10) (-1)] 0 0 13.8 0 0
    refine Eq.trans this ?_
    rw [hmh]
    simp [flatHalo, List.filter_cons]
    norm_num
  · intro j a
    simp [measureAtz, diffHistMstarAtz, flatHalo, hpdf j]
  · intro j a
    simp only [measureAtz, diffHistMstarAtz_fst]
    simp [flatHalo, hpdf j]
  · intro j a b
    simp only [measureAtz, diffHistMstarSsfrAtz_eq]
    simp [flatHalo, hpdf j]

/-- C72 fails at the upper end: a halo of mass exactly `10^14.75` is counted in the last bin, but never sampled. -/
theorem C72_upper_edge_violated {na nb : ℕ} (choice : Choice) (hc : Spec.IsNpChoice choice) (mh : Fin 12 → ℝ)
    (hmh : mh = fun i => 11 + (i.val : ℝ) * ((14.75 - 11) / 11)) (ms : Fin (na + 1) → ℝ) (sf : Fin (nb + 1) → ℝ)
    (per : ℕ) :
    (measureAtz mh ms sf [flatHalo 14.75 11 (-10) (-1)] 0).counts 10 = 1 ∧
    sampleHalos choice 0 per mh [flatHalo 14.75 11 (-10) (-1)] 0 0 13.8 0 = [] := by
  classical
  constructor
  · simp only [measureAtz, computeHistogramsAtz]
    have : inHistBin mh 10 14.75 := by
      rw [hmh]; unfold inHistBin; norm_num
    simp [flatHalo, this]
  · unfold sampleHalos
    rw [List.flatMap_eq_nil_iff]
    intro j _
    have h1 := sampleBin_length hc 0 per mh [flatHalo 14.75 11 (-10) (-1)] 0 0 13.8 0 j
    rw [binMembers_length] at h1
    have hno : ¬ (14.75 : ℝ) < mh j.succ := by
      rw [hmh]
      have : (j.val : ℝ) ≤ 10 := by exact_mod_cast Nat.lt_succ_iff.1 j.isLt
      simp only [Fin.val_succ]
      push_cast
      norm_num
      linarith
    rw [← List.length_eq_zero_iff, h1]
    simp [flatHalo, hno]

end Diffstar.Props
