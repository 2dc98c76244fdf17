import Verif.Model.CenSat
import Verif.Props.Targets

/-! C106: centrals and satellites of the TNG and Galacticus measurements. -/

namespace Diffstar.Props

open Diffstar Diffstar.Targets

/-- The halos with the host id the population fit expects: `-1` for the centrals, `0` for the satellites. -/
def Spec.labelled (pop : List (Halo × List ℤ)) : List Halo :=
  pop.map fun h => { h.1 with upid := if h.2.getLast? = some 1 then -1 else 0 }

theorem lastFlags_some (pop : List (Halo × List ℤ)) (h : ∀ x ∈ pop, x.2 ≠ []) :
    lastFlags pop = some (pop.map fun x => (x.1, x.2.getLast?.getD 0)) := by
  unfold lastFlags
  induction pop with
  | nil => rfl
  | cons x pop ih =>
    have hx : x.2.getLast? = some (x.2.getLast (h x List.mem_cons_self)) := List.getLast?_eq_some_getLast _
    rw [List.mapM_cons, ih fun y hy => h y (List.mem_cons_of_mem _ hy)]
    simp [hx]

theorem measureFlags_eq {nm na nb : ℕ} (mh : Fin (nm + 1) → ℝ) (ms : Fin (na + 1) → ℝ) (sf : Fin (nb + 1) → ℝ)
    (pop : List (Halo × ℤ)) (tid : ℕ) (h : ∀ x ∈ pop, x.2 = 0 ∨ x.2 = 1) :
    measureFlagsAtz mh ms sf pop tid = measureAtz mh ms sf (withFinalUpid pop) tid := by
  classical
  have hc : ∀ x ∈ pop, (x.2 = 1 ↔ finalUpid x.2 = -1) := by
    intro x hx
    rcases h x hx with h | h <;> simp [h, finalUpid]
  have hs : ∀ x ∈ pop, (x.2 = 0 ↔ ¬ finalUpid x.2 = -1) := by
    intro x hx
    rcases h x hx with h | h <;> simp [h, finalUpid]
  have f1 : pop.filter (fun x => decide (x.2 = 1)) = pop.filter (fun x => decide (finalUpid x.2 = -1)) :=
    List.filter_congr fun x hx => decide_eq_decide.2 (hc x hx)
  have f2 : pop.filter (fun x => decide (x.2 = 0)) = pop.filter (fun x => decide (¬ finalUpid x.2 = -1)) :=
    List.filter_congr fun x hx => decide_eq_decide.2 (hs x hx)
  have f3 : ∀ j, pop.filter (fun x => decide (inPdfBin mh j (x.1.logMah tid) ∧ x.2 = 1)) =
      pop.filter (fun x => decide (inPdfBin mh j (x.1.logMah tid) ∧ finalUpid x.2 = -1)) := fun j =>
    List.filter_congr fun x hx => decide_eq_decide.2 (and_congr_right fun _ => hc x hx)
  have f4 : ∀ j, pop.filter (fun x => decide (inPdfBin mh j (x.1.logMah tid) ∧ x.2 = 0)) =
      pop.filter (fun x => decide (inPdfBin mh j (x.1.logMah tid) ∧ ¬ finalUpid x.2 = -1)) := fun j =>
    List.filter_congr fun x hx => decide_eq_decide.2 (and_congr_right fun _ => hs x hx)
  unfold measureFlagsAtz measureAtz withFinalUpid
  simp only [List.map_map, List.filter_map, Function.comp_def, f1, f2, f3, f4]

/-- C106 (partial: the flag of the output file stands for the status at the target redshift): Galacticus. If every flag is
0 or 1, the measurement is that of the halos labelled `-1` (flag 1) or `0`, and these halos are given to the sampler. -/
theorem C106_galacticus_partial {nm na nb : ℕ} (mh : Fin (nm + 1) → ℝ) (ms : Fin (na + 1) → ℝ) (sf : Fin (nb + 1) → ℝ)
    (pop : List (Halo × ℤ)) (tid : ℕ) (h : ∀ x ∈ pop, x.2 = 0 ∨ x.2 = 1) :
    let labelled := pop.map fun x => { x.1 with upid := if x.2 = 1 then -1 else 0 }
    measureFlagsAtz mh ms sf pop tid = measureAtz mh ms sf labelled tid ∧ withFinalUpid pop = labelled := by
  have hl : withFinalUpid pop = pop.map fun x => { x.1 with upid := if x.2 = 1 then -1 else 0 } := by
    unfold withFinalUpid
    apply List.map_congr_left
    intro x hx
    rcases h x hx with h | h <;> simp [h, finalUpid]
  exact ⟨by rw [measureFlags_eq mh ms sf pop tid h, hl], hl⟩

/-- C106 (partial: the status at the last snapshot stands for the status at the target redshift): if the last flag of
every galaxy is 0 or 1, the TNG measurement is that of the halos labelled `-1` (central at the last snapshot) or `0`,
and so is the sample. -/
theorem C106_measure_partial {nm na nb : ℕ} (choice : Choice) (call per : ℕ) (mh : Fin (nm + 1) → ℝ)
    (ms : Fin (na + 1) → ℝ) (sf : Fin (nb + 1) → ℝ) (pop : List (Halo × List ℤ)) (tid zid : ℕ) (tobs z : ℝ)
    (hf : ∀ x ∈ pop, x.2.getLast? = some 0 ∨ x.2.getLast? = some 1) :
    tngMeasureAtz choice call per mh ms sf pop tid zid tobs z =
      some (measureAtz mh ms sf (Spec.labelled pop) tid,
        sampleHalos choice call per mh (Spec.labelled pop) tid zid tobs z) := by
  have hne : ∀ x ∈ pop, x.2 ≠ [] := by
    intro x hx h0
    rcases hf x hx with h | h <;> simp [h0] at h
  have hl : withFinalUpid (pop.map fun x => (x.1, x.2.getLast?.getD 0)) = Spec.labelled pop := by
    unfold withFinalUpid Spec.labelled
    rw [List.map_map]
    apply List.map_congr_left
    intro x hx
    rcases hf x hx with h | h <;> simp [h, finalUpid]
  unfold tngMeasureAtz
  rw [lastFlags_some pop hne]
  simp only [Option.bind_eq_bind, Option.bind_some, Option.pure_def]
  rw [measureFlags_eq, hl]
  intro y hy
  obtain ⟨x, hx, rfl⟩ := List.mem_map.1 hy
  rcases hf x hx with h | h <;> simp [h]

open Classical in
/-- C106 (partial, as above): the central (satellite) count of a bin is the number of galaxies of the bin whose last flag
is 1 (0), and the two add up to all galaxies of the bin. -/
theorem C106_counts_partial {nm na nb : ℕ} (choice : Choice) (call per : ℕ) (mh : Fin (nm + 1) → ℝ)
    (ms : Fin (na + 1) → ℝ) (sf : Fin (nb + 1) → ℝ) (pop : List (Halo × List ℤ)) (tid zid : ℕ) (tobs z : ℝ)
    (hf : ∀ x ∈ pop, x.2.getLast? = some 0 ∨ x.2.getLast? = some 1) :
    ∃ out samples, tngMeasureAtz choice call per mh ms sf pop tid zid tobs z = some (out, samples) ∧ ∀ j,
      out.countsCen j =
        (pop.filter fun x => Diffstar.Spec.InBin mh j (x.1.logMah tid) ∧ x.2.getLast? = some 1).length ∧
      out.countsSat j =
        (pop.filter fun x => Diffstar.Spec.InBin mh j (x.1.logMah tid) ∧ x.2.getLast? = some 0).length ∧
      out.countsCen j + out.countsSat j =
        (pop.filter fun x => Diffstar.Spec.InBin mh j (x.1.logMah tid)).length := by
  refine ⟨_, _, C106_measure_partial choice call per mh ms sf pop tid zid tobs z hf, fun j => ?_⟩
  have hI : ∀ v, Diffstar.Spec.InBin mh j v = inHistBin mh j v := fun _ => rfl
  have e1 : (measureAtz mh ms sf (Spec.labelled pop) tid).countsCen j =
      (pop.filter fun x => decide (Diffstar.Spec.InBin mh j (x.1.logMah tid) ∧ x.2.getLast? = some 1)).length := by
    unfold Spec.labelled
    simp only [measureAtz, computeHistogramsAtz, List.filter_map, List.length_map, List.filter_filter,
      Function.comp_def]
    congr 1
    apply List.filter_congr
    intro x hx
    rcases hf x hx with h | h <;> simp [h, hI]
  have e2 : (measureAtz mh ms sf (Spec.labelled pop) tid).countsSat j =
      (pop.filter fun x => decide (Diffstar.Spec.InBin mh j (x.1.logMah tid) ∧ x.2.getLast? = some 0)).length := by
    unfold Spec.labelled
    simp only [measureAtz, computeHistogramsAtz, List.filter_map, List.length_map, List.filter_filter,
      Function.comp_def]
    congr 1
    apply List.filter_congr
    intro x hx
    rcases hf x hx with h | h <;> simp [h, hI]
  refine ⟨e1, e2, ?_⟩
  rw [C71_centrals_plus_satellites]
  unfold Spec.labelled
  simp only [measureAtz, computeHistogramsAtz, List.filter_map, List.length_map, Function.comp_def]
  rfl

/-- C106 (partial, as above): a row of the sample file has host `-1` exactly if its galaxy counts as a central. -/
theorem C106_sample_labels_partial {nm na nb : ℕ} (choice : Choice) (hc : Diffstar.Spec.IsNpChoice choice)
    (call per : ℕ) (mh : Fin (nm + 1) → ℝ) (ms : Fin (na + 1) → ℝ) (sf : Fin (nb + 1) → ℝ)
    (pop : List (Halo × List ℤ)) (tid zid : ℕ) (tobs z : ℝ) (hb : StrictMono mh)
    (hf : ∀ x ∈ pop, x.2.getLast? = some 0 ∨ x.2.getLast? = some 1) :
    ∃ out samples, tngMeasureAtz choice call per mh ms sf pop tid zid tobs z = some (out, samples) ∧
      ∃ idx : List ℕ, idx.Nodup ∧ List.Forall₂ (fun i (s : Sample) => ∃ x, pop[i]? = some x ∧ s.mah = x.1.mah ∧
        s.ms = x.1.sfh.ms ∧ s.q = x.1.sfh.q ∧ (s.upid = -1 ↔ x.2.getLast? = some 1) ∧
        (s.upid = 0 ↔ x.2.getLast? = some 0)) idx samples := by
  refine ⟨_, _, C106_measure_partial choice call per mh ms sf pop tid zid tobs z hf, ?_⟩
  obtain ⟨idx, h1, h2⟩ := C74_samples_are_halos choice hc call per mh (Spec.labelled pop) tid zid tobs z hb
  refine ⟨idx, h1, h2.imp ?_⟩
  rintro i s ⟨h, hi, hm, hms, hq, hu, -⟩
  unfold Spec.labelled at hi
  rw [List.getElem?_map] at hi
  cases hx : pop[i]? with
  | none => simp [hx] at hi
  | some x =>
    rw [hx] at hi
    simp only [Option.map_some, Option.some.injEq] at hi
    subst hi
    refine ⟨x, rfl, hm, hms, hq, ?_, ?_⟩ <;>
    · rcases hf x (List.mem_of_getElem? hx) with h | h <;> simp [hu, h]

/-- C106: only the last flag of a galaxy matters. -/
theorem C106_earlier_flags_unused_partial {nm na nb : ℕ} (choice : Choice) (call per : ℕ) (mh : Fin (nm + 1) → ℝ)
    (ms : Fin (na + 1) → ℝ) (sf : Fin (nb + 1) → ℝ) (pop pop' : List (Halo × List ℤ)) (tid zid : ℕ) (tobs z : ℝ)
    (h : List.Forall₂ (fun x y => x.1 = y.1 ∧ x.2.getLast? = y.2.getLast?) pop pop') :
    tngMeasureAtz choice call per mh ms sf pop tid zid tobs z =
      tngMeasureAtz choice call per mh ms sf pop' tid zid tobs z := by
  have : lastFlags pop = lastFlags pop' := by
    unfold lastFlags
    induction h with
    | nil => rfl
    | cons hxy _ ih => rw [List.mapM_cons, List.mapM_cons, ih, hxy.1, hxy.2]
  unfold tngMeasureAtz
  rw [this]

open Classical in
/-- C106 for arbitrary flags: centrals and satellites add up to all galaxies of a bin exactly if every galaxy of the bin
has the flag 0 or 1. (TNG and Galacticus; SMDPL: C71, always.) -/
theorem C106_partition_iff_flags {nm na nb : ℕ} (mh : Fin (nm + 1) → ℝ) (ms : Fin (na + 1) → ℝ) (sf : Fin (nb + 1) → ℝ)
    (pop : List (Halo × ℤ)) (tid : ℕ) (j : Fin nm) :
    (measureFlagsAtz mh ms sf pop tid).countsCen j + (measureFlagsAtz mh ms sf pop tid).countsSat j =
      (measureFlagsAtz mh ms sf pop tid).counts j ↔
    ∀ x ∈ pop, Diffstar.Spec.InBin mh j (x.1.logMah tid) → x.2 = 0 ∨ x.2 = 1 := by
  simp only [measureFlagsAtz, computeHistogramsAtz, List.filter_map, List.length_map, List.filter_filter,
    Function.comp_def]
  have key : ∀ l : List (Halo × ℤ),
      (l.filter fun x => decide (inHistBin mh j (x.1.logMah tid)) && decide (x.2 = 1)).length +
        (l.filter fun x => decide (inHistBin mh j (x.1.logMah tid)) && decide (x.2 = 0)).length +
        (l.filter fun x => decide (inHistBin mh j (x.1.logMah tid)) && decide (x.2 ≠ 0 ∧ x.2 ≠ 1)).length =
      (l.filter fun x => decide (inHistBin mh j (x.1.logMah tid))).length := by
    intro l
    induction l with
    | nil => rfl
    | cons x l ih =>
      simp only [List.filter_cons]
      by_cases h1 : inHistBin mh j (x.1.logMah tid) <;> by_cases h2 : x.2 = 1 <;> by_cases h3 : x.2 = 0 <;>
        simp_all <;> omega
  have h0 := key pop
  constructor
  · intro h x hx hb
    have : (pop.filter fun x => decide (inHistBin mh j (x.1.logMah tid)) && decide (x.2 ≠ 0 ∧ x.2 ≠ 1)).length = 0 := by
      omega
    rw [List.length_eq_zero_iff, List.filter_eq_nil_iff] at this
    have h1 := this x hx
    have hb' : inHistBin mh j (x.1.logMah tid) := hb
    simp only [hb', decide_true, Bool.true_and, decide_eq_true_eq] at h1
    tauto
  · intro h
    have : (pop.filter fun x => decide (inHistBin mh j (x.1.logMah tid)) && decide (x.2 ≠ 0 ∧ x.2 ≠ 1)).length = 0 := by
      rw [List.length_eq_zero_iff, List.filter_eq_nil_iff]
      intro x hx
      simp only [Bool.and_eq_true, decide_eq_true_eq]
      rintro ⟨hb, h1, h2⟩
      rcases h x hx hb with h | h
      · exact h1 h
      · exact h2 h
    omega

open Classical in
/-- C106 is false: a galaxy which is a central at the first snapshot and a satellite at the last one counts as a
satellite at the first one. -/
theorem C106_status_at_redshift_violated : ∃ (pop : List (Halo × List ℤ)) (choice : Choice),
    Diffstar.Spec.IsNpChoice choice ∧ (∀ x ∈ pop, x.2.length = 2 ∧ ∀ f ∈ x.2, f = 0 ∨ f = 1) ∧
    ∃ (out : SubvolAtz 1 1 1) (samples : List Sample),
      tngMeasureAtz choice 0 1000 (unitEdges 1) (unitEdges 1) (unitEdges 1) pop 0 0 1 2 = some (out, samples) ∧
      (pop.filter fun x => Diffstar.Spec.InBin (unitEdges 1) 0 (x.1.logMah 0) ∧ x.2[0]? = some 1).length = 1 ∧
      out.countsCen 0 = 0 ∧ out.countsSat 0 = 1 := by
  have hf : ∀ x ∈ [(flatHalo 0.5 1 0 0, [(1 : ℤ), 0])], x.2.getLast? = some 0 ∨ x.2.getLast? = some 1 := by
    simp
  refine ⟨[(flatHalo 0.5 1 0 0, [1, 0])], _, Diffstar.Spec.exists_isNpChoice, by simp, ?_⟩
  obtain ⟨out, samples, h1, h2⟩ := C106_counts_partial _ 0 1000 (unitEdges 1) (unitEdges 1) (unitEdges 1) _ 0 0 1 2 hf
  have hb : Diffstar.Spec.InBin (unitEdges 1) 0 ((flatHalo 0.5 1 0 0).logMah 0) := by
    constructor
    · simp [unitEdges, flatHalo]; norm_num
    · left; simp [unitEdges, flatHalo]; norm_num
  refine ⟨out, samples, h1, ?_, ?_, ?_⟩
  · simp [hb]
  · rw [(h2 0).1]; simp
  · rw [(h2 0).2.1]; simp [hb]

example : ∀ x ∈ [(flatHalo 0.5 1 0 0, [(1 : ℤ), 0]), (flatHalo 0.5 1 0 0, [(0 : ℤ), 1])],
    x.2.getLast? = some 0 ∨ x.2.getLast? = some 1 := by simp

example : List.Forall₂ (fun x y : Halo × List ℤ => x.1 = y.1 ∧ x.2.getLast? = y.2.getLast?)
    [(flatHalo 0.5 1 0 0, [(1 : ℤ), 0])] [(flatHalo 0.5 1 0 0, [(0 : ℤ), 0])] := by simp

example : ∀ x ∈ [(flatHalo 0.5 1 0 0, (1 : ℤ)), (flatHalo 0.5 1 0 0, (0 : ℤ))], x.2 = 0 ∨ x.2 = 1 := by simp

end Diffstar.Props
