import Verif.Model.QualityMain
import Verif.Props.QualityRows
import Mathlib.Tactic.IntervalCases

/-!
C128: the files written by the quality script.
-/

namespace Diffstar.Spec

open Diffstar.Quality

/-- Entry `[i, it]` of an array of a file. -/
def entry (file : List (Text.Str × Dataset)) (name : String) (i it : ℕ) : Option (Option ℝ) :=
  match file.lookup name.toList with
  | some (.mat m) => (m[i]?).bind fun r => r[it]?
  | _ => none

end Diffstar.Spec

namespace Diffstar.Props

open Diffstar Diffstar.Targets Diffstar.Quality

theorem mpeakBins_eq : mpeakBins = [11.25, 11.75, 12.25, 12.75, 13.25, 13.75, 14.25] := by
  have h : ⌈((14.5 : ℝ) - 11.25) / 0.50⌉₊ = 7 := by
    rw [Nat.ceil_eq_iff (by norm_num)]
    norm_num
  unfold mpeakBins npArange
  rw [h]
  simp only [List.range_succ_eq_map, List.range_zero, List.map_cons, List.map_nil, Nat.cast_zero, Nat.succ_eq_add_one,
    Nat.cast_add, Nat.cast_one]
  norm_num

theorem mapM_some_of {α β : Type*} (f : α → Option β) (g : α → β) (l : List α) (h : ∀ a ∈ l, f a = some (g a)) :
    l.mapM f = some (l.map g) := mapM_pure_some _ _ _ h

theorem plotOut_some (bins t : List ℝ) (cell : ℕ → ℝ → ℝ → Option (Option (ℝ × ℝ × ℝ × ℝ)))
    (c : ℕ → ℝ → ℝ → Option (ℝ × ℝ × ℝ × ℝ)) (h : ∀ it lo hi, cell it lo hi = some (c it lo hi)) :
    plotOut bins t cell = some
      (let rows := (List.range (bins.length - 1)).map fun i => (List.range t.length).map fun it =>
        c it (bins.getD i 0) (bins.getD (i + 1) 0)
       let part := fun f : ℝ × ℝ × ℝ × ℝ → ℝ => rows.map fun r => r.map fun c => c.map f
       ⟨bins, binCentres bins, t, part fun c => c.1, part fun c => c.2.1, part fun c => c.2.2.1, part fun c => c.2.2.2⟩) := by
  unfold plotOut
  rw [mapM_some_of _ (fun i => (List.range t.length).map fun it => c it (bins.getD i 0) (bins.getD (i + 1) 0))]
  · rfl
  · intro i _
    exact mapM_some_of _ _ _ fun it _ => h _ _ _

theorem plotTng_total (logMah : MahParams ℝ → ℝ → ℝ → ℝ) (t : List ℝ) (it : ℕ) (data : List SimGal) (cat : List CatRow)
    (hlen : data.length = cat.length) (lo hi : ℝ) :
    ∃ c, calculatePlotTng logMah t it data cat lo hi = some c ∧ (Spec.compared lo hi data cat = [] → c = none) := by
  have hz1 : (data.zip cat).map Prod.fst = data := List.map_fst_zip hlen.le
  have hz2 : (data.zip cat).map Prod.snd = cat := List.map_snd_zip hlen.ge
  obtain ⟨subvols, h1, h2⟩ := plotTng_eq logMah t it (data.zip cat) lo hi
  rw [hz1, hz2] at h1
  have hg := galsIn_compared logMah t it data cat lo hi subvols h2
  refine ⟨_, h1, fun he => C85_empty_bin lo hi subvols ?_⟩
  rw [hg, he]
  rfl

theorem main_entry (rows : List (List (Option (ℝ × ℝ × ℝ × ℝ)))) (f : ℝ × ℝ × ℝ × ℝ → ℝ) (i it : ℕ) :
    ((rows.map fun r => r.map fun c => c.map f)[i]?.bind fun r => r[it]?) =
      (rows[i]?.bind fun r => r[it]?).map fun c => c.map f := by
  simp only [List.getElem?_map]
  cases rows[i]? <;> simp

/-- C128 (partial: TNG; exact zeros as in C85): for a catalogue with as many rows as the simulation the script writes one
file, with six mass bins of half a dex from `11.25` to `14.25`, their centres and the times; every entry of the four arrays
is the average of C117 over the galaxies of its bin at its time, and NaN if there are none. -/
theorem C128_tng_file_partial (x : Inputs) (outdir : Text.Str) (hlen : x.tngData.length = x.tngFits.length) :
    ∃ file, main x .tng outdir = ([(outdir ++ "/diffstar_quality_tng.h5".toList, file)], true) ∧
      file.lookup "mpeak_bins".toList = some (.vec [11.25, 11.75, 12.25, 12.75, 13.25, 13.75, 14.25]) ∧
      file.lookup "mpeak_binsc".toList = some (.vec [11.5, 12, 12.5, 13, 13.5, 14]) ∧
      file.lookup "tarr".toList = some (.vec x.tngTimes) ∧
      ∀ i : ℕ, i < 6 → ∀ it t, x.tngTimes[it]? = some t →
        let gals := Spec.compared (11.25 + 0.5 * i) (11.75 + 0.5 * i) x.tngData x.tngFits
        let fit := fun q : SimGal × CatRow => Spec.tabulated x.logMah q.2
        (gals = [] → ∀ name ∈ ["mstar_data_mean", "mstar_fit_mean", "sfr_data_mean", "sfr_fit_mean"],
          Spec.entry file name i it = some none) ∧
        (gals ≠ [] → (∀ q ∈ gals, 0 < q.1.sfr.getD it 0 ∧ q.1.sfr.getD it 0 ≠ 1 ∧ q.1.logSmah.getD it 0 ≠ 0 ∧
            Spec.interpLog t (fit q).smh ≠ 0 ∧ Spec.interpLog t (fit q).sfh ≠ 0) →
          Spec.entry file "mstar_data_mean" i it = some (some (Spec.average (fun q => (10 : ℝ) ^ q.1.logSmah.getD it 0) gals)) ∧
          Spec.entry file "mstar_fit_mean" i it =
            some (some (Spec.average (fun q => (10 : ℝ) ^ Spec.interpLog t (fit q).smh) gals)) ∧
          Spec.entry file "sfr_data_mean" i it = some (some (Spec.average
            (fun q => max (q.1.sfr.getD it 0) (1e-12 * (10 : ℝ) ^ q.1.logSmah.getD it 0)) gals)) ∧
          Spec.entry file "sfr_fit_mean" i it = some (some (Spec.average (fun q =>
            max ((10 : ℝ) ^ Spec.interpLog t (fit q).sfh) (1e-12 * (10 : ℝ) ^ Spec.interpLog t (fit q).smh)) gals))) := by
  choose c hc hc0 using fun it lo hi => plotTng_total x.logMah x.tngTimes it x.tngData x.tngFits hlen lo hi
  have hout : calcTng x mpeakBins = _ := plotOut_some mpeakBins x.tngTimes _ c hc
  set rows := (List.range (mpeakBins.length - 1)).map fun i => (List.range x.tngTimes.length).map fun it =>
        c it (mpeakBins.getD i 0) (mpeakBins.getD (i + 1) 0) with hrows
  simp only at hout
  set o : PlotOut := ⟨mpeakBins, binCentres mpeakBins, x.tngTimes, rows.map fun r => r.map fun c => c.map fun c => c.1,
      rows.map fun r => r.map fun c => c.map fun c => c.2.1, rows.map fun r => r.map fun c => c.map fun c => c.2.2.1,
      rows.map fun r => r.map fun c => c.map fun c => c.2.2.2⟩ with ho
  refine ⟨saveDataPlot o, ?_, ?_⟩
  · unfold main
    simp only [hout, runSteps]
    rfl
  have hcell : ∀ i : ℕ, i < 6 → ∀ it t, x.tngTimes[it]? = some t →
      (rows[i]?.bind fun r => r[it]?) = some (c it (11.25 + 0.5 * i) (11.75 + 0.5 * i)) := by
    intro i hi it t ht
    have hit : it < x.tngTimes.length := (List.getElem?_eq_some_iff.1 ht).1
    have hlo : mpeakBins.getD i 0 = 11.25 + 0.5 * i ∧ mpeakBins.getD (i + 1) 0 = 11.75 + 0.5 * i := by
      rw [mpeakBins_eq]
      interval_cases i <;> norm_num
    have hl : mpeakBins.length = 7 := by rw [mpeakBins_eq]; rfl
    obtain ⟨a, b⟩ := hlo
    simp only [hrows, hl, List.getElem?_map, List.getElem?_range (show i < 7 - 1 by omega), Option.map_some, Option.bind_some,
      List.getElem?_range hit, a, b]
  have he : ∀ (name : String) (f : ℝ × ℝ × ℝ × ℝ → ℝ) (o : PlotOut), (saveDataPlot o).lookup name.toList =
      some (.mat (rows.map fun r => r.map fun c => c.map f)) → ∀ i : ℕ, i < 6 → ∀ it t, x.tngTimes[it]? = some t →
      Spec.entry (saveDataPlot o) name i it = some ((c it (11.25 + 0.5 * i) (11.75 + 0.5 * i)).map f) := by
    intro name f o ho i hi it t ht
    unfold Spec.entry
    rw [ho]
    simp only
    rw [main_entry, hcell i hi it t ht]
    rfl
  refine ⟨?_, ?_, rfl, ?_⟩
  · rw [← mpeakBins_eq]; rfl
  · have : binCentres mpeakBins = [11.5, 12, 12.5, 13, 13.5, 14] := by
      rw [mpeakBins_eq]
      unfold binCentres
      norm_num
    rw [← this]; rfl
  intro i hi it t ht gals fit
  have e1 := he "mstar_data_mean" (fun c => c.1) o rfl i hi it t ht
  have e2 := he "mstar_fit_mean" (fun c => c.2.1) o rfl i hi it t ht
  have e3 := he "sfr_data_mean" (fun c => c.2.2.1) o rfl i hi it t ht
  have e4 := he "sfr_fit_mean" (fun c => c.2.2.2) o rfl i hi it t ht
  refine ⟨fun h0 name hn => ?_, fun hne hq => ?_⟩
  · have hc0' := hc0 it _ _ h0
    simp only [List.mem_cons, List.not_mem_nil, or_false] at hn
    rcases hn with rfl | rfl | rfl | rfl
    · rw [e1, hc0']; rfl
    · rw [e2, hc0']; rfl
    · rw [e3, hc0']; rfl
    · rw [e4, hc0']; rfl
  · have h := C117_tng_partial x.logMah x.tngTimes it t ht x.tngData x.tngFits hlen _ _ hne hq
    rw [hc] at h
    have h := Option.some.inj h
    rw [e1, e2, e3, e4, h]
    exact ⟨rfl, rfl, rfl, rfl⟩

/-- C128: a galaxy with a usable fit and a halo mass strictly inside the range of the bins is averaged in exactly one of them,
unless its mass is exactly on an edge. -/
theorem C128_bins_partial (m : ℝ) (h1 : 11.25 < m) (h2 : m < 14.25)
    (he : m ∉ [(11.75 : ℝ), 12.25, 12.75, 13.25, 13.75]) :
    ∃! i : ℕ, i < 6 ∧ 11.25 + 0.5 * (i : ℝ) < m ∧ m < 11.75 + 0.5 * i := by
  simp only [List.mem_cons, List.not_mem_nil, or_false, not_or] at he
  obtain ⟨e1, e2, e3, e4, e5⟩ := he
  have huniq : ∀ i j : ℕ, 11.25 + 0.5 * (i : ℝ) < m → m < 11.75 + 0.5 * i → 11.25 + 0.5 * (j : ℝ) < m →
      m < 11.75 + 0.5 * j → j = i := by
    intro i j a b c d
    have h3 : (i : ℝ) < j + 1 := by linarith
    have h4 : (j : ℝ) < i + 1 := by linarith
    have h3 : i < j + 1 := by exact_mod_cast h3
    have h4 : j < i + 1 := by exact_mod_cast h4
    omega
  have hex : ∃ i : ℕ, i < 6 ∧ 11.25 + 0.5 * (i : ℝ) < m ∧ m < 11.75 + 0.5 * i := by
    rcases lt_or_gt_of_ne e1 with a | a
    · exact ⟨0, by norm_num, by push_cast; linarith, by push_cast; linarith⟩
    rcases lt_or_gt_of_ne e2 with b | b
    · exact ⟨1, by norm_num, by push_cast; linarith, by push_cast; linarith⟩
    rcases lt_or_gt_of_ne e3 with c | c
    · exact ⟨2, by norm_num, by push_cast; linarith, by push_cast; linarith⟩
    rcases lt_or_gt_of_ne e4 with d | d
    · exact ⟨3, by norm_num, by push_cast; linarith, by push_cast; linarith⟩
    rcases lt_or_gt_of_ne e5 with e | e
    · exact ⟨4, by norm_num, by push_cast; linarith, by push_cast; linarith⟩
    · exact ⟨5, by norm_num, by push_cast; linarith, by push_cast; linarith⟩
  obtain ⟨i, hi⟩ := hex
  exact ⟨i, hi, fun j hj => huniq i j hi.2.1 hi.2.2 hj.2.1 hj.2.2⟩

/-- C128: the hypotheses of the bins hold for a Milky Way halo. -/
example : ∃ m : ℝ, 11.25 < m ∧ m < 14.25 ∧ m ∉ [(11.75 : ℝ), 12.25, 12.75, 13.25, 13.75] :=
  ⟨12, by norm_num, by norm_num, by norm_num⟩

/-- C128 fails for a halo mass on an edge: a galaxy with a usable fit and a halo of mass `10^11.75` or of mass `10^14.5` is
in none of the averages. -/
theorem C128_edge_violated (s : List ℝ) (m : List ℝ) (r : CatRow) (M : ℝ) (hM : M = 11.75 ∨ M = 14.5) (i : ℕ) (hi : i < 6) :
    Spec.compared (11.25 + 0.5 * i) (11.75 + 0.5 * i) [⟨s, m, M⟩] [r] = [] := by
  have : ¬ (11.25 + 0.5 * (i : ℝ) < M ∧ M < 11.75 + 0.5 * i) := by
    rcases hM with rfl | rfl <;> interval_cases i <;> norm_num
  unfold Spec.compared
  rw [List.zip_cons_cons, List.zip_nil_left, List.filter_cons, if_neg, List.filter_nil]
  simp only [decide_eq_true_eq]
  exact fun h => this h.2

/-- C128: if the simulation and the catalogue of fits have different numbers of rows, and there are times, nothing is
written. -/
theorem C128_length_mismatch_raises (x : Inputs) (outdir : Text.Str) (hlen : x.tngData.length ≠ x.tngFits.length)
    (ht : x.tngTimes ≠ []) : main x .tng outdir = ([], false) := by
  have h : calcTng x mpeakBins = none := by
    unfold calcTng plotOut
    rw [mapM_none_of_mem (a := 0) _ _ (by rw [mpeakBins_eq]; simp) ?_]
    · rfl
    · refine mapM_none_of_mem (a := 0) _ _ (by simpa using List.length_pos_iff.2 ht) ?_
      exact C117_length_mismatch_raises _ _ _ _ _ hlen _ _
  unfold main
  simp only [h, runSteps]

/-- C128 fails for the other simulations, for the default option and for `all`: the script raises before it writes any
file. -/
theorem C128_other_simulations_violated (x : Inputs) (outdir : Text.Str) (sim : SimOpt) (h : sim ≠ .tng) :
    main x sim outdir = ([], false) := by
  have hs : ∀ files, calcSmdpl x files mpeakBins = none := by
    intro files
    cases files <;> simp [calcSmdpl, loadTables, pyCall, calcSfhGalpopRequired, keywordsGiven]
  have hg : ∀ gals, calcGalcus x gals mpeakBins = none := by
    intro gals
    simp [calcGalcus, loadTables, pyCall, calcSfhGalpopRequired, keywordsGiven]
  unfold main
  cases sim <;> first | exact absurd rfl h | simp only [hs, hg, runSteps]

/-- C128: without the option `-sim_name` nothing is written. -/
theorem C128_default_violated (x : Inputs) (outdir : Text.Str) : main x defaultSimOpt outdir = ([], false) :=
  C128_other_simulations_violated x outdir _ (by decide)

/-- The hypotheses of `C128_tng_file_partial` hold for inputs with one galaxy in the second bin. -/
example : ∃ x : Inputs, x.tngData.length = x.tngFits.length ∧ x.tngTimes[0]? = some (0.01 : ℝ) ∧
    Spec.compared (11.25 + 0.5 * (1 : ℕ)) (11.75 + 0.5 * (1 : ℕ)) x.tngData x.tngFits ≠ [] ∧
    Spec.compared (11.25 + 0.5 * (2 : ℕ)) (11.75 + 0.5 * (2 : ℕ)) x.tngData x.tngFits = [] :=
  ⟨⟨fun _ _ _ => 11.5, [0.01], [⟨[9], [3], 12⟩], [Spec.constGal 1], [], [], [], [], ([], []), ([], [])⟩, rfl, rfl, by
    norm_num [Spec.compared, Spec.Usable, Spec.constGal], by norm_num [Spec.compared, Spec.Usable, Spec.constGal]⟩

end Diffstar.Props
