import Verif.Model.TngRanks
import Verif.Lemmas.Output
import Verif.Props.TargetsPool
import Verif.Props.SampleArrays

/-! C99: the TNG measurement and the number of MPI ranks. -/

namespace Diffstar.Props

open Diffstar Diffstar.Targets Diffstar.Output

/-- The halos of the whole catalogue: the rows with both fits, in order, with `-1` as host of the centrals. -/
noncomputable def Spec.tngHalos (logMah : MahParams ℝ → ℝ → ℝ → ℝ) (lgt0 : ℝ) (nTimes : ℕ) (cat : List CatRow)
    (cen1Sat0 : List ℤ) : Option (List Halo) :=
  loadTables .tng logMah lgt0 nTimes (List.zipWith (fun r x => { r with upid := if x = 1 then -1 else x }) cat cen1Sat0)

theorem arraySplit_map {α β : Type*} (f : α → β) (l : List α) (r : ℕ) :
    arraySplit (l.map f) r = (arraySplit l r).map (List.map f) := by
  simp [arraySplit, List.map_map, Function.comp_def]

theorem arraySplit_getElem? {α : Type*} (l : List α) (r i : ℕ) (hi : i < r) :
    ∃ p, (arraySplit l r)[i]? = some p ∧ p.length = l.length / r + if i < l.length % r then 1 else 0 := by
  have h : i < (arraySplit l r).length := by rw [arraySplit_length]; exact hi
  refine ⟨_, List.getElem?_eq_getElem h, ?_⟩
  rw [← arraySplit_get_length l r i hi, List.getD_eq_getElem _ _ h]

theorem loadTables_flatten (logMah : MahParams ℝ → ℝ → ℝ → ℝ) (lgt0 : ℝ) (n : ℕ) (parts : List (List CatRow)) :
    ∃ pops, parts.mapM (loadTables .tng logMah lgt0 n) = some pops ∧ pops.length = parts.length ∧
      loadTables .tng logMah lgt0 n parts.flatten = some pops.flatten := by
  classical
  refine ⟨parts.map fun cat => (cat.filter fun r => hasFit .tng r).map (tableRow logMah lgt0 n), ?_, by simp, ?_⟩
  · refine mapM_pure_some _ _ _ fun cat _ => ?_
    simp [loadTables, tableRows, pyCall, calcSfhGalpopRequired, keywordsGiven]
  · simp [loadTables, tableRows, pyCall, calcSfhGalpopRequired, keywordsGiven, List.filter_flatten, List.map_flatten,
      Function.comp_def]

theorem mapM_range_get {α : Type*} (l : List α) : (List.range l.length).mapM (fun i => l[i]?) = some l := by
  induction l with
  | nil => simp
  | cons a l ih =>
    rw [List.length_cons, List.range_succ_eq_map, List.mapM_cons, List.mapM_map]
    simp only [List.getElem?_cons_zero, Function.comp_def, Nat.succ_eq_add_one, List.getElem?_cons_succ, ih]
    rfl

theorem mapM_range_bind {α β : Type*} (f : α → Option β) (l : List α) :
    (List.range l.length).mapM (fun i => (l[i]?).bind f) = l.mapM f := by
  induction l with
  | nil => simp
  | cons a l ih =>
    rw [List.length_cons, List.range_succ_eq_map, List.mapM_cons, List.mapM_map]
    simp only [List.getElem?_cons_zero, Function.comp_def, Nat.succ_eq_add_one, List.getElem?_cons_succ, ih,
      Option.bind_some, List.mapM_cons]

theorem mapM_congr_mem {α β : Type*} (f g : α → Option β) (l : List α) (h : ∀ a ∈ l, f a = g a) :
    l.mapM f = l.mapM g := by
  induction l with
  | nil => rfl
  | cons a l ih =>
    rw [List.mapM_cons, List.mapM_cons, h a List.mem_cons_self, ih fun b hb => h b (List.mem_cons_of_mem _ hb)]

theorem mapM_none_of_mem {α β : Type*} (f : α → Option β) (l : List α) {a : α} (ha : a ∈ l) (h : f a = none) :
    l.mapM f = none := by
  induction l with
  | nil => cases ha
  | cons b l ih =>
    rw [List.mapM_cons]
    rcases List.mem_cons.1 ha with rfl | hm
    · simp [h]
    · rw [ih hm]
      cases f b <;> rfl

theorem mapM_some_length {α β : Type*} (f : α → Option β) (l : List α) (r : List β) (h : l.mapM f = some r) :
    r.length = l.length := by
  induction l generalizing r with
  | nil => simp at h; subst h; rfl
  | cons b l ih =>
    rw [List.mapM_cons] at h
    cases hb : f b with
    | none => simp [hb] at h
    | some y =>
      cases hl : l.mapM f with
      | none => simp [hb, hl] at h
      | some ys =>
        simp [hb, hl] at h
        subst h
        simp [ih ys hl]

theorem rankHalos_zip (logMah : MahParams ℝ → ℝ → ℝ → ℝ) (lgt0 : ℝ) (n : ℕ) (z : List (CatRow × ℤ)) (rank : ℕ)
    (hr : rank < 20) :
    rankHalos logMah lgt0 n (z.map Prod.fst) (z.map Prod.snd) rank =
      ((arraySplit (z.map fun q => ({ q.1 with upid := if q.2 = 1 then -1 else q.2 } : CatRow)) 20)[rank]?).bind
        (loadTables .tng logMah lgt0 n) := by
  obtain ⟨p, hp, -⟩ := arraySplit_getElem? z 20 rank hr
  simp [rankHalos, chunk, NCHUNKS, arraySplit_map, hp, List.zipWith_map, List.zipWith_self, finalUpid]

/-- The run needs exactly 20 ranks and chunks of equal lengths. -/
theorem tngRun_none {nm na nb : ℕ} (mh : Fin (nm + 1) → ℝ) (ms : Fin (na + 1) → ℝ) (sf : Fin (nb + 1) → ℝ)
    (tid : ℕ) (logMah : MahParams ℝ → ℝ → ℝ → ℝ) (lgt0 : ℝ) (nTimes : ℕ) (cat : List CatRow) (cen1Sat0 : List ℤ)
    (nranks nchunks : ℕ)
    (h : nranks < 20 ∨ ∃ r < nranks, rankHalos logMah lgt0 nTimes cat cen1Sat0 r = none) :
    tngRun mh ms sf tid logMah lgt0 nTimes cat cen1Sat0 nranks nchunks = none := by
  unfold tngRun
  rcases h with h | ⟨r, hr, hn⟩
  · cases hp : (List.range nranks).mapM (rankHalos logMah lgt0 nTimes cat cen1Sat0) with
    | none => rfl
    | some pops =>
      have hl := mapM_some_length _ _ _ hp
      rw [List.length_range] at hl
      have : (List.range NCHUNKS).mapM (fun i => pops[i]?) = none :=
        mapM_none_of_mem _ _ (a := nranks) (List.mem_range.2 h) (List.getElem?_eq_none (by omega))
      simp [this]
  · rw [mapM_none_of_mem _ _ (List.mem_range.2 hr) hn]
    rfl

/-! ### C99 -/

/-- C99 (partial: 20 ranks, and as many rows in the simulation's catalogue as in the catalogue of fits): every fitted
galaxy is measured once, with its own central flag: the result is the measurement of the whole catalogue. -/
theorem C99_twenty_ranks_partial {nm na nb : ℕ} (mh : Fin (nm + 1) → ℝ) (ms : Fin (na + 1) → ℝ) (sf : Fin (nb + 1) → ℝ)
    (tid : ℕ) (logMah : MahParams ℝ → ℝ → ℝ → ℝ) (lgt0 : ℝ) (nTimes : ℕ) (cat : List CatRow) (cen1Sat0 : List ℤ)
    (nchunks : ℕ) (hlen : cat.length = cen1Sat0.length) :
    ∃ pop, Spec.tngHalos logMah lgt0 nTimes cat cen1Sat0 = some pop ∧
      tngRun mh ms sf tid logMah lgt0 nTimes cat cen1Sat0 20 nchunks = some (measureAtz mh ms sf pop tid) := by
  set f : CatRow × ℤ → CatRow := fun q => { q.1 with upid := if q.2 = 1 then -1 else q.2 } with hf
  have hz1 : (cat.zip cen1Sat0).map Prod.fst = cat := List.map_fst_zip hlen.le
  have hz2 : (cat.zip cen1Sat0).map Prod.snd = cen1Sat0 := List.map_snd_zip hlen.ge
  set parts := arraySplit ((cat.zip cen1Sat0).map f) 20 with hparts
  have hpl : parts.length = 20 := by rw [hparts, arraySplit_length]
  obtain ⟨pops, h1, h2, h3⟩ := loadTables_flatten logMah lgt0 nTimes parts
  have hfl : parts.flatten = List.zipWith (fun r x => { r with upid := if x = 1 then -1 else x }) cat cen1Sat0 := by
    rw [hparts, arraySplit_flatten _ _ (by norm_num), List.map_zip_eq_zipWith]
    rfl
  refine ⟨pops.flatten, by rw [Spec.tngHalos, ← hfl, h3], ?_⟩
  have hrun : (List.range 20).mapM (rankHalos logMah lgt0 nTimes cat cen1Sat0) = some pops := by
    rw [← h1]
    have hg := mapM_range_bind (loadTables .tng logMah lgt0 nTimes) parts
    rw [hpl] at hg
    rw [← hg]
    refine mapM_congr_mem _ _ _ fun i hi => ?_
    have := rankHalos_zip logMah lgt0 nTimes (cat.zip cen1Sat0) i (List.mem_range.1 hi)
    rwa [hz1, hz2] at this
  have hfiles : (List.range NCHUNKS).mapM (fun i => pops[i]?) = some pops := by
    have := mapM_range_get pops
    rwa [h2, hpl] at this
  unfold tngRun
  simp only [hrun, hfiles, Option.bind_eq_bind, Option.bind_some]
  exact C73_pooled_partial mh ms sf tid pops

/-- C99 fails for any other number of ranks (20 is not checked and `-nchunks` does not change it): with fewer, rank 0
finds temporary files missing; with more, the extra ranks ask for chunks that do not exist. -/
theorem C99_rank_count_violated {nm na nb : ℕ} (mh : Fin (nm + 1) → ℝ) (ms : Fin (na + 1) → ℝ) (sf : Fin (nb + 1) → ℝ)
    (tid : ℕ) (logMah : MahParams ℝ → ℝ → ℝ → ℝ) (lgt0 : ℝ) (nTimes : ℕ) (cat : List CatRow) (cen1Sat0 : List ℤ)
    (nranks nchunks : ℕ) (h : nranks ≠ 20) :
    tngRun mh ms sf tid logMah lgt0 nTimes cat cen1Sat0 nranks nchunks = none := by
  refine tngRun_none mh ms sf tid logMah lgt0 nTimes cat cen1Sat0 nranks nchunks ?_
  rcases lt_or_gt_of_ne h with h | h
  · exact Or.inl h
  · refine Or.inr ⟨20, h, ?_⟩
    have : chunk cat 20 = none := List.getElem?_eq_none (by rw [arraySplit_length]; exact le_refl _)
    simp [rankHalos, this]

/-- C99: catalogues of different lengths are never paired row by row: the run raises. -/
theorem C99_length_mismatch_raises {nm na nb : ℕ} (mh : Fin (nm + 1) → ℝ) (ms : Fin (na + 1) → ℝ) (sf : Fin (nb + 1) → ℝ)
    (tid : ℕ) (logMah : MahParams ℝ → ℝ → ℝ → ℝ) (lgt0 : ℝ) (nTimes : ℕ) (cat : List CatRow) (cen1Sat0 : List ℤ)
    (nranks nchunks : ℕ) (h : cat.length ≠ cen1Sat0.length) :
    tngRun mh ms sf tid logMah lgt0 nTimes cat cen1Sat0 nranks nchunks = none := by
  refine tngRun_none mh ms sf tid logMah lgt0 nTimes cat cen1Sat0 nranks nchunks ?_
  by_cases h20 : nranks < 20
  · exact Or.inl h20
  refine Or.inr ?_
  -- chunks 0 and 19 cannot both agree in length for all ranks
  have key : ∃ r < 20, cat.length / 20 + (if r < cat.length % 20 then 1 else 0) ≠
      cen1Sat0.length / 20 + (if r < cen1Sat0.length % 20 then 1 else 0) := by
    by_contra hn
    push Not at hn
    have hsum : ∀ m : ℕ, ∑ r ∈ Finset.range 20, (m / 20 + if r < m % 20 then 1 else 0) = m := by
      intro m
      have hm : m % 20 < 20 := Nat.mod_lt _ (by norm_num)
      have hd := Nat.div_add_mod m 20
      rw [Finset.sum_add_distrib, Finset.sum_boole]
      have : (Finset.range 20).filter (fun r => r < m % 20) = Finset.range (m % 20) := by
        ext r; simp only [Finset.mem_filter, Finset.mem_range]; omega
      rw [this]
      simp
      omega
    apply h
    rw [← hsum cat.length, ← hsum cen1Sat0.length]
    exact Finset.sum_congr rfl fun r hr => hn r (Finset.mem_range.1 hr)
  obtain ⟨r, hr, hne⟩ := key
  refine ⟨r, by omega, ?_⟩
  obtain ⟨c, hc, hcl⟩ := arraySplit_getElem? cat 20 r hr
  obtain ⟨u, hu, hul⟩ := arraySplit_getElem? cen1Sat0 20 r hr
  have hcu : c.length ≠ u.length := by rw [hcl, hul]; exact hne
  simp [rankHalos, chunk, NCHUNKS, hc, hu, hcu]

/-- Two catalogues of one fitted central and one fitted satellite, and a shorter column. -/
example : ([⟨⟨12, 0, 2, 1, 14⟩, ⟨12, -1, 1, -1, 1, 0, -1, -0.5⟩, 1, 1, 1, 0⟩, ⟨⟨13, 0, 2, 1, 14⟩, ⟨12, -1, 1, -1, 1, 0, -1, -0.5⟩,
      1, 1, 1, 0⟩] : List CatRow).length = ([1, 0] : List ℤ).length ∧
    (Spec.tngHalos (fun p _ _ => p.logmp) 1 3 [⟨⟨12, 0, 2, 1, 14⟩, ⟨12, -1, 1, -1, 1, 0, -1, -0.5⟩, 1, 1, 1, 0⟩,
      ⟨⟨13, 0, 2, 1, 14⟩, ⟨12, -1, 1, -1, 1, 0, -1, -0.5⟩, 1, 1, 1, 0⟩] [1, 0]).map (List.map Halo.upid) =
      some [-1, 0] ∧
    ([1, 0, 1] : List ℤ).length ≠ ([1, 0] : List ℤ).length ∧ (4 : ℕ) ≠ 20 := by
  refine ⟨rfl, ?_, by decide, by decide⟩
  simp [Spec.tngHalos, loadTables, tableRows, pyCall, calcSfhGalpopRequired, keywordsGiven, hasFit, tableRow]

end Diffstar.Props
