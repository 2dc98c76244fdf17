import Verif.Model.SampleArrays
import Verif.Props.Targets
import Verif.Props.SimLoaders

/-! C98: the arrays of the sampled halos stay aligned. -/

namespace Diffstar.Props

open Diffstar Diffstar.Targets Diffstar.SampleArrays

/-- The arrays of `load_diffstar_sfh_tables` for a list of halos: parameter arrays have one row per parameter. -/
def Spec.tablesOf (pop : List Halo) : Tables where
  logMah tid := pop.map fun h => h.logMah tid
  mahParams := ⟨pop.length, [pop.map fun h => h.mah.logmp, pop.map fun h => h.mah.logtc,
    pop.map fun h => h.mah.earlyIndex, pop.map fun h => h.mah.lateIndex, pop.map fun h => h.mah.tPeak]⟩
  sfhParams := ⟨pop.length, [pop.map fun h => h.sfh.lgmcrit, pop.map fun h => h.sfh.lgyAtMcrit,
    pop.map fun h => h.sfh.indxLo, pop.map fun h => h.sfh.indxHi, pop.map fun h => h.sfh.lgQt,
    pop.map fun h => h.sfh.qlglgdt, pop.map fun h => h.sfh.lgDrop, pop.map fun h => h.sfh.lgRejuv]⟩
  upid := pop.map fun h => h.upid

/-- Entry `k` along the halo axis of all nine arrays of the final file describes the halo `h`, sampled at target number
`zid` in mass bin `j`. -/
structure Spec.FileRow (file : Columns) (k : ℕ) (h : Halo) (zid : ℕ) (tobs z : ℝ) (j : ℕ) (mid : ℝ) : Prop where
  logmhId : file.logmhId[k]? = some j
  logmhVal : file.logmhVal[k]? = some mid
  mah : file.mah.rows.map (fun r => r[k]?) = [some h.mah.logmp, some h.mah.logtc, some h.mah.earlyIndex,
    some h.mah.lateIndex, some h.mah.tPeak]
  ms : file.ms.rows.map (fun r => r[k]?) = [some h.sfh.lgmcrit, some h.sfh.lgyAtMcrit, some h.sfh.indxLo,
    some h.sfh.indxHi]
  q : file.q.rows.map (fun r => r[k]?) = [some h.sfh.lgQt, some h.sfh.qlglgdt, some h.sfh.lgDrop, some h.sfh.lgRejuv]
  upid : file.upid[k]? = some h.upid
  tobsId : file.tobsId[k]? = some zid
  tobsVal : file.tobsVal[k]? = some tobs
  redshift : file.redshift[k]? = some z

/-! ### Helper lemmas -/

def mahF : List (Sample → ℝ) := [fun s => s.mah.logmp, fun s => s.mah.logtc, fun s => s.mah.earlyIndex,
  fun s => s.mah.lateIndex, fun s => s.mah.tPeak]

def msF : List (Sample → ℝ) := [fun s => s.ms.lgmcrit, fun s => s.ms.lgyAtMcrit, fun s => s.ms.indxLo, fun s => s.ms.indxHi]

def qF : List (Sample → ℝ) := [fun s => s.q.lgQt, fun s => s.q.qlglgdt, fun s => s.q.lgDrop, fun s => s.q.lgRejuv]

/-- The arrays which hold the given samples (before the final transposition). -/
def colsOf (S : List Sample) : Columns where
  logmhId := S.map Sample.logmhId
  logmhVal := S.map Sample.logmhVal
  mah := ⟨S.length, mahF.map fun f => S.map f⟩
  ms := ⟨4, S.map fun s => msF.map fun f => f s⟩
  q := ⟨4, S.map fun s => qF.map fun f => f s⟩
  upid := S.map Sample.upid
  tobsId := S.map Sample.tobsId
  tobsVal := S.map Sample.tobsVal
  redshift := S.map Sample.redshift

theorem T_fields {α : Type*} (fs : List (α → ℝ)) (l : List α) :
    Arr.T ⟨l.length, fs.map fun f => l.map f⟩ = ⟨fs.length, l.map fun x => fs.map fun f => f x⟩ := by
  simp only [Arr.T, List.length_map, Arr.mk.injEq, true_and]
  apply List.ext_getElem (by simp)
  intro j h1 h2
  simp only [List.getElem_map, List.getElem_range, List.map_map, List.map_inj_left]
  intro f _
  simp at h1
  simp [List.getD_eq_getElem?_getD, h1]

theorem T_rows {α : Type*} (fs : List (α → ℝ)) (l : List α) :
    Arr.T ⟨fs.length, l.map fun x => fs.map fun f => f x⟩ = ⟨l.length, fs.map fun f => l.map f⟩ := by
  simp only [Arr.T, List.length_map, Arr.mk.injEq, true_and]
  apply List.ext_getElem (by simp)
  intro j h1 h2
  simp only [List.getElem_map, List.getElem_range, List.map_map, List.map_inj_left]
  intro x _
  simp at h1
  simp [List.getD_eq_getElem?_getD, h1]

theorem takeIdx_map {α β : Type*} (f : α → β) (l : List α) (sel : List ℕ) (h : ∀ i ∈ sel, i < l.length) :
    takeIdx (l.map f) sel = some ((sel.filterMap fun i => l[i]?).map f) := by
  unfold takeIdx
  induction sel with
  | nil => rfl
  | cons i sel ih =>
    have hi := h i List.mem_cons_self
    rw [List.mapM_cons, ih fun k hk => h k (List.mem_cons_of_mem _ hk)]
    simp [hi]

theorem takeRows_map {α : Type*} (n : ℕ) (f : α → List ℝ) (l : List α) (sel : List ℕ) (h : ∀ i ∈ sel, i < l.length) :
    Arr.takeRows ⟨n, l.map f⟩ sel = some ⟨n, (sel.filterMap fun i => l[i]?).map f⟩ := by
  simp [Arr.takeRows, takeIdx_map f l sel h]

theorem concat2_map {α : Type*} (n : ℕ) (f : α → List ℝ) (ls : List (List α)) (h : ls ≠ []) :
    concat2 (ls.map fun l => ⟨n, l.map f⟩) = some ⟨n, ls.flatten.map f⟩ := by
  cases ls with
  | nil => exact absurd rfl h
  | cons l ls =>
    rw [List.map_cons, concat2, if_pos (by simp)]
    simp [List.map_flatten, Function.comp_def]

theorem concat1_map {α β : Type*} (f : α → β) (ls : List (List α)) (h : ls ≠ []) :
    concat1 (ls.map fun l => l.map f) = some (ls.flatten.map f) := by
  rw [concat1, if_neg (by simpa using h), List.map_flatten]

theorem mapM_pure_some {α β : Type*} (f : α → Option β) (g : α → β) (l : List α) (h : ∀ a ∈ l, f a = some (g a)) :
    l.mapM f = some (l.map g) := by
  induction l with
  | nil => rfl
  | cons a l ih =>
    rw [List.mapM_cons, h a List.mem_cons_self, ih fun b hb => h b (List.mem_cons_of_mem _ hb)]
    rfl

theorem concatenate_colsOf (Ss : List (List Sample)) (h : Ss ≠ []) :
    concatenate (Ss.map colsOf) = some (colsOf Ss.flatten) := by
  have e1 : (Ss.map colsOf).map Columns.logmhId = Ss.map fun l => l.map Sample.logmhId := by simp [colsOf]
  have e2 : (Ss.map colsOf).map Columns.logmhVal = Ss.map fun l => l.map Sample.logmhVal := by simp [colsOf]
  have e3 : (Ss.map colsOf).map (fun d => d.mah.T) = Ss.map fun l => ⟨5, l.map fun s => mahF.map fun f => f s⟩ := by
    simp only [List.map_map, List.map_inj_left]
    intro S _
    exact T_fields mahF S
  have e4 : (Ss.map colsOf).map Columns.ms = Ss.map fun l => ⟨4, l.map fun s => msF.map fun f => f s⟩ := by simp [colsOf]
  have e5 : (Ss.map colsOf).map Columns.q = Ss.map fun l => ⟨4, l.map fun s => qF.map fun f => f s⟩ := by simp [colsOf]
  have e6 : (Ss.map colsOf).map Columns.upid = Ss.map fun l => l.map Sample.upid := by simp [colsOf]
  have e7 : (Ss.map colsOf).map Columns.tobsId = Ss.map fun l => l.map Sample.tobsId := by simp [colsOf]
  have e8 : (Ss.map colsOf).map Columns.tobsVal = Ss.map fun l => l.map Sample.tobsVal := by simp [colsOf]
  have e9 : (Ss.map colsOf).map Columns.redshift = Ss.map fun l => l.map Sample.redshift := by simp [colsOf]
  have e10 : Arr.T ⟨5, Ss.flatten.map fun s => mahF.map fun f => f s⟩ = ⟨Ss.flatten.length, mahF.map fun f => Ss.flatten.map f⟩ :=
    T_rows mahF Ss.flatten
  simp only [concatenate, e1, e2, e3, e4, e5, e6, e7, e8, e9, concat1_map _ _ h, concat2_map _ _ _ h, Option.bind_eq_bind,
    Option.bind_some, e10, makeMah]
  rfl

/-- The halo axis of the samples of the row model, before the time columns are added. -/
theorem sampleBin_eq {nb : ℕ} (choice : Choice) (call per : ℕ) (bins : Fin (nb + 1) → ℝ) (pop : List Halo)
    (tid zid : ℕ) (tobs z : ℝ) (j : Fin nb) :
    sampleBin choice call per bins pop tid zid tobs z j =
      ((chosen choice call per bins pop tid j).filterMap fun i => pop[i]?).map fun h =>
        ⟨j.val, (bins j.castSucc + bins j.succ) / 2, h.mah, h.sfh.ms, h.sfh.q, h.upid, zid, tobs, z⟩ := by
  rw [List.map_filterMap]
  rfl

theorem binIndices_eq {nb : ℕ} (bins : Fin (nb + 1) → ℝ) (pop : List Halo) (tid : ℕ) (j : Fin nb) :
    binIndices bins (pop.map fun h => h.logMah tid) j = binMembers bins pop tid j := by
  unfold binIndices binMembers
  rw [List.length_map]
  congr 1
  funext i
  simp [List.getElem?_map, Option.any_map]

theorem chosenRows_eq {nb : ℕ} (choice : Choice) (call per : ℕ) (bins : Fin (nb + 1) → ℝ) (pop : List Halo) (tid : ℕ)
    (j : Fin nb) : chosenRows choice call per bins (pop.map fun h => h.logMah tid) j = chosen choice call per bins pop tid j := by
  unfold chosenRows
  rw [binIndices_eq]
  rfl

theorem chosen_lt {nb : ℕ} {choice : Choice} (hc : Spec.IsNpChoice choice) (call per : ℕ) (bins : Fin (nb + 1) → ℝ)
    (pop : List Halo) (tid : ℕ) (j : Fin nb) : ∀ i ∈ chosen choice call per bins pop tid j, i < pop.length := by
  intro i hi
  have := hc.mem _ _ _ _ _ hi
  unfold binMembers at this
  exact List.mem_range.1 (List.mem_filter.1 this).1

theorem flatMap_filter_nil {α β : Type*} (p : α → Bool) (f : α → List β) (l : List α) (h : ∀ a, p a = false → f a = []) :
    (l.filter p).flatMap f = l.flatMap f := by
  induction l with
  | nil => rfl
  | cons a l ih =>
    cases hp : p a with
    | true => rw [List.filter_cons_of_pos hp, List.flatMap_cons, List.flatMap_cons, ih]
    | false => rw [List.filter_cons_of_neg (by simp [hp]), List.flatMap_cons, h a hp, List.nil_append, ih]

theorem filterMap_range_length {α : Type*} (l : List α) (sel : List ℕ) (h : ∀ i ∈ sel, i < l.length) :
    (sel.filterMap fun i => l[i]?).length = sel.length := by
  induction sel with
  | nil => rfl
  | cons i sel ih =>
    have hi := h i List.mem_cons_self
    simp [hi, ih fun k hk => h k (List.mem_cons_of_mem _ hk)]

theorem loopBins_flatMap {nb : ℕ} (skipEmpty : Bool) (choice : Choice) (hc : Spec.IsNpChoice choice) (call per : ℕ)
    (bins : Fin (nb + 1) → ℝ) (pop : List Halo) (tid i : ℕ) (tobs z : ℝ) :
    ((loopBins skipEmpty bins (pop.map fun h => h.logMah tid)).map
      (sampleBin choice call per bins pop tid i tobs z)).flatten =
    Targets.sampleHalos choice call per bins pop tid i tobs z := by
  rw [← List.flatMap_def, loopBins, Targets.sampleHalos]
  apply flatMap_filter_nil
  intro j hj
  simp only [Bool.not_eq_false', Bool.and_eq_true, List.isEmpty_iff, binIndices_eq] at hj
  rw [← List.length_eq_zero_iff, sampleBin_length hc, hj.2]
  simp

theorem sampleHalos_arrays {nb : ℕ} (skipEmpty : Bool) (choice : Choice) (hc : Spec.IsNpChoice choice) (call per : ℕ)
    (bins : Fin (nb + 1) → ℝ) (pop : List Halo) (tid i : ℕ) (tobs z : ℝ)
    (hne : loopBins skipEmpty bins (pop.map fun h => h.logMah tid) ≠ []) :
    SampleArrays.sampleHalos skipEmpty choice call per bins ((Spec.tablesOf pop).logMah tid) (Spec.tablesOf pop).mahParams
      (Spec.tablesOf pop).sfhParams (Spec.tablesOf pop).upid i tobs z =
    some (colsOf (Targets.sampleHalos choice call per bins pop tid i tobs z)) := by
  rw [← loopBins_flatMap skipEmpty choice hc call per bins pop tid i tobs z]
  have hlog : (Spec.tablesOf pop).logMah tid = pop.map fun h => h.logMah tid := rfl
  rw [hlog]
  set js := loopBins skipEmpty bins (pop.map fun h => h.logMah tid) with hjs
  set S := sampleBin choice call per bins pop tid i tobs z with hS
  have hSj : ∀ j, S j = ((chosen choice call per bins pop tid j).filterMap fun i => pop[i]?).map fun h =>
        ⟨j.val, (bins j.castSucc + bins j.succ) / 2, h.mah, h.sfh.ms, h.sfh.q, h.upid, i, tobs, z⟩ :=
    sampleBin_eq choice call per bins pop tid i tobs z
  have hne' : js.map S ≠ [] := by simpa using hne
  have hlt := chosen_lt hc call per bins pop tid
  have hlen : ∀ j, ((chosen choice call per bins pop tid j).filterMap fun i => pop[i]?).length =
      (chosen choice call per bins pop tid j).length := fun j => filterMap_range_length _ _ (hlt j)
  have hm : (Spec.tablesOf pop).mahParams.T = ⟨5, pop.map fun h => [h.mah.logmp, h.mah.logtc, h.mah.earlyIndex,
      h.mah.lateIndex, h.mah.tPeak]⟩ :=
    T_fields [fun h : Halo => h.mah.logmp, fun h => h.mah.logtc, fun h => h.mah.earlyIndex, fun h => h.mah.lateIndex,
      fun h => h.mah.tPeak] pop
  have hq : (Spec.tablesOf pop).sfhParams.T = ⟨8, pop.map fun h => [h.sfh.lgmcrit, h.sfh.lgyAtMcrit, h.sfh.indxLo,
      h.sfh.indxHi, h.sfh.lgQt, h.sfh.qlglgdt, h.sfh.lgDrop, h.sfh.lgRejuv]⟩ :=
    T_fields [fun h : Halo => h.sfh.lgmcrit, fun h => h.sfh.lgyAtMcrit, fun h => h.sfh.indxLo, fun h => h.sfh.indxHi,
      fun h => h.sfh.lgQt, fun h => h.sfh.qlglgdt, fun h => h.sfh.lgDrop, fun h => h.sfh.lgRejuv] pop
  have hms : (Spec.tablesOf pop).sfhParams.T.colsTo 4 = ⟨4, pop.map fun h => [h.sfh.lgmcrit, h.sfh.lgyAtMcrit,
      h.sfh.indxLo, h.sfh.indxHi]⟩ := by rw [hq]; simp [Arr.colsTo]
  have hqq : (Spec.tablesOf pop).sfhParams.T.colsFrom 4 = ⟨4, pop.map fun h => [h.sfh.lgQt, h.sfh.qlglgdt, h.sfh.lgDrop,
      h.sfh.lgRejuv]⟩ := by rw [hq]; simp [Arr.colsFrom]
  have e1 : concat1 (js.map fun j => (chosen choice call per bins pop tid j).map fun _ => j.val) =
      some ((js.map S).flatten.map Sample.logmhId) := by
    rw [← concat1_map _ _ hne', List.map_map]
    congr 1
    refine List.map_congr_left fun j _ => ?_
    simp only [Function.comp_apply, hSj, List.map_map, List.map_const', Function.comp_def, hlen]
  have e2 : concat1 (js.map fun j => (chosen choice call per bins pop tid j).map fun _ =>
      (bins j.castSucc + bins j.succ) / 2) = some ((js.map S).flatten.map Sample.logmhVal) := by
    rw [← concat1_map _ _ hne', List.map_map]
    congr 1
    refine List.map_congr_left fun j _ => ?_
    simp only [Function.comp_apply, hSj, List.map_map, List.map_const', Function.comp_def, hlen]
  have e3 : (js.mapM fun j => Arr.takeRows ⟨5, pop.map fun h => [h.mah.logmp, h.mah.logtc, h.mah.earlyIndex,
      h.mah.lateIndex, h.mah.tPeak]⟩ (chosen choice call per bins pop tid j)) =
      some ((js.map S).map fun l => ⟨5, l.map fun s => mahF.map fun f => f s⟩) := by
    rw [List.map_map]
    refine mapM_pure_some _ _ _ fun j _ => ?_
    rw [takeRows_map _ _ _ _ (hlt j)]
    simp only [Function.comp_apply, hSj, List.map_map]
    rfl
  have e4 : (js.mapM fun j => Arr.takeRows ⟨4, pop.map fun h => [h.sfh.lgmcrit, h.sfh.lgyAtMcrit,
      h.sfh.indxLo, h.sfh.indxHi]⟩ (chosen choice call per bins pop tid j)) =
      some ((js.map S).map fun l => ⟨4, l.map fun s => msF.map fun f => f s⟩) := by
    rw [List.map_map]
    refine mapM_pure_some _ _ _ fun j _ => ?_
    rw [takeRows_map _ _ _ _ (hlt j)]
    simp only [Function.comp_apply, hSj, List.map_map]
    rfl
  have e5 : (js.mapM fun j => Arr.takeRows ⟨4, pop.map fun h => [h.sfh.lgQt, h.sfh.qlglgdt, h.sfh.lgDrop,
      h.sfh.lgRejuv]⟩ (chosen choice call per bins pop tid j)) =
      some ((js.map S).map fun l => ⟨4, l.map fun s => qF.map fun f => f s⟩) := by
    rw [List.map_map]
    refine mapM_pure_some _ _ _ fun j _ => ?_
    rw [takeRows_map _ _ _ _ (hlt j)]
    simp only [Function.comp_apply, hSj, List.map_map]
    rfl
  have e6 : (js.mapM fun j => takeIdx (Spec.tablesOf pop).upid (chosen choice call per bins pop tid j)) =
      some ((js.map S).map fun l => l.map Sample.upid) := by
    rw [List.map_map]
    refine mapM_pure_some _ _ _ fun j _ => ?_
    simp only [Spec.tablesOf]
    rw [takeIdx_map _ _ _ (hlt j)]
    simp only [Function.comp_apply, hSj, List.map_map]
    rfl
  have e7 : Arr.T ⟨5, (js.map S).flatten.map fun s => mahF.map fun f => f s⟩ =
      ⟨(js.map S).flatten.length, mahF.map fun f => (js.map S).flatten.map f⟩ := T_rows mahF _
  have htime : ∀ s ∈ (js.map S).flatten, s.tobsId = i ∧ s.tobsVal = tobs ∧ s.redshift = z := by
    intro s hs
    simp only [List.mem_flatten, List.mem_map] at hs
    obtain ⟨_, ⟨j, _, rfl⟩, hs⟩ := hs
    rw [hSj, List.mem_map] at hs
    obtain ⟨h, _, rfl⟩ := hs
    exact ⟨rfl, rfl, rfl⟩
  have t1 : ((js.map S).flatten.map Sample.logmhId).map (fun _ => i) = (js.map S).flatten.map Sample.tobsId := by
    rw [List.map_map]
    exact List.map_congr_left fun s hs => (htime s hs).1.symm
  have t2 : ((js.map S).flatten.map Sample.logmhId).map (fun _ => tobs) = (js.map S).flatten.map Sample.tobsVal := by
    rw [List.map_map]
    exact List.map_congr_left fun s hs => (htime s hs).2.1.symm
  have t3 : ((js.map S).flatten.map Sample.logmhId).map (fun _ => z) = (js.map S).flatten.map Sample.redshift := by
    rw [List.map_map]
    exact List.map_congr_left fun s hs => (htime s hs).2.2.symm
  simp only [SampleArrays.sampleHalos, hm, hms, hqq, ← hjs, chosenRows_eq, e1, e2, e3, e4, e5, e6, Option.bind_eq_bind,
    Option.bind_some, concat2_map _ _ _ hne', concat1_map _ _ hne', e7, makeMah, t1, t2, t3]
  rfl

/-- At least one bin is visited by the loop of `sample_halos`: always when empty bins are visited too. -/
def Spec.SomeBin {nb : ℕ} (skipEmpty : Bool) (bins : Fin (nb + 1) → ℝ) (pop : List Halo) (tid : ℕ) : Prop :=
  ∃ j : Fin nb, skipEmpty = true → ∃ h ∈ pop, bins j.castSucc ≤ h.logMah tid ∧ h.logMah tid < bins j.succ

theorem loopBins_ne_nil {nb : ℕ} {skipEmpty : Bool} {bins : Fin (nb + 1) → ℝ} {pop : List Halo} {tid : ℕ}
    (h : Spec.SomeBin skipEmpty bins pop tid) : loopBins skipEmpty bins (pop.map fun h => h.logMah tid) ≠ [] := by
  obtain ⟨j, hj⟩ := h
  refine List.ne_nil_of_mem (a := j) (List.mem_filter.2 ⟨List.mem_finRange j, ?_⟩)
  cases skipEmpty with
  | false => rfl
  | true =>
    obtain ⟨h, hh, h1, h2⟩ := hj rfl
    obtain ⟨i, hi, rfl⟩ := List.mem_iff_getElem.1 hh
    have : i ∈ binMembers bins pop tid j := by
      unfold binMembers
      rw [List.mem_filter]
      exact ⟨List.mem_range.2 hi, by simp [hi, h1, h2]⟩
    rw [binIndices_eq]
    simpa using List.ne_nil_of_mem this

/-- The samples of one subvolume, target by target. -/
noncomputable def subvolumeRows {nb : ℕ} (choice : Choice) (per : ℕ) (bins : Fin (nb + 1) → ℝ) (pop : List Halo)
    (targets : List Target) : List (List Sample) :=
  targets.zipIdx.map fun x => Targets.sampleHalos choice (x.2 * nb) per bins pop x.1.tid x.2 x.1.tobs x.1.z

theorem subvolumeSamples_eq {nb : ℕ} (skipEmpty : Bool) (choice : Choice) (hc : Spec.IsNpChoice choice) (per : ℕ)
    (bins : Fin (nb + 1) → ℝ) (pop : List Halo) (targets : List Target) (ht : targets ≠ [])
    (hb : ∀ t ∈ targets, Spec.SomeBin skipEmpty bins pop t.tid) :
    subvolumeSamples skipEmpty choice per bins (Spec.tablesOf pop) targets =
      some (colsOf (subvolumeRows choice per bins pop targets).flatten) := by
  have : (targets.zipIdx.mapM fun x => SampleArrays.sampleHalos skipEmpty choice (x.2 * nb) per bins
      ((Spec.tablesOf pop).logMah x.1.tid) (Spec.tablesOf pop).mahParams (Spec.tablesOf pop).sfhParams
      (Spec.tablesOf pop).upid x.2 x.1.tobs x.1.z) = some ((subvolumeRows choice per bins pop targets).map colsOf) := by
    rw [subvolumeRows, List.map_map]
    refine mapM_pure_some _ _ _ fun x hx => ?_
    exact sampleHalos_arrays skipEmpty choice hc _ per bins pop x.1.tid x.2 x.1.tobs x.1.z
      (loopBins_ne_nil (hb _ (List.fst_mem_of_mem_zipIdx hx)))
  unfold subvolumeSamples
  rw [this]
  refine concatenate_colsOf _ ?_
  simpa [subvolumeRows] using ht

theorem forall₂_mem_right {α β : Type*} {R : α → β → Prop} {l : List α} {l' : List β} (h : List.Forall₂ R l l') (b : β)
    (hb : b ∈ l') : ∃ a ∈ l, R a b := by
  induction h with
  | nil => simp at hb
  | cons hr _ ih =>
    rcases List.mem_cons.1 hb with rfl | hb
    · exact ⟨_, List.mem_cons_self, hr⟩
    · obtain ⟨a, ha, hab⟩ := ih hb
      exact ⟨a, List.mem_cons_of_mem _ ha, hab⟩

theorem mem_subvolumeRows {nb : ℕ} {choice : Choice} (hc : Spec.IsNpChoice choice) (per : ℕ)
    (bins : Fin (nb + 1) → ℝ) (pop : List Halo) (targets : List Target) (s : Sample)
    (hs : s ∈ (subvolumeRows choice per bins pop targets).flatten) :
    ∃ (zid : ℕ) (t : Target) (h : Halo), targets[zid]? = some t ∧ h ∈ pop ∧ Describes bins t.tid zid t.tobs t.z h s := by
  simp only [subvolumeRows, List.mem_flatten, List.mem_map] at hs
  obtain ⟨_, ⟨⟨t, zid⟩, hx, rfl⟩, hs⟩ := hs
  refine ⟨zid, t, ?_⟩
  simp only [Targets.sampleHalos, List.mem_flatMap] at hs
  obtain ⟨j, _, hs⟩ := hs
  obtain ⟨i, _, h, hh, hd, _⟩ := forall₂_mem_right (sampleBin_forall₂ hc (zid * nb) per bins pop t.tid zid t.tobs t.z j) s hs
  exact ⟨h, List.mem_zipIdx_iff_getElem?.1 hx, List.mem_of_getElem? hh, hd⟩

/-- The rows of the final file: subvolume by subvolume, target by target, bin by bin. -/
noncomputable def Spec.fileRows {nb : ℕ} (choice : ℕ → Choice) (per : ℕ) (bins : Fin (nb + 1) → ℝ) (pops : List (List Halo))
    (targets : List Target) : List Sample :=
  pops.zipIdx.flatMap fun v => targets.zipIdx.flatMap fun x =>
    Targets.sampleHalos (choice v.2) (x.2 * nb) per bins v.1 x.1.tid x.2 x.1.tobs x.1.z

theorem runFile_eq {nb : ℕ} (skipEmpty : Bool) (choice : ℕ → Choice) (hc : ∀ v, Spec.IsNpChoice (choice v)) (per : ℕ)
    (bins : Fin (nb + 1) → ℝ) (pops : List (List Halo)) (targets : List Target) (hp : pops ≠ []) (ht : targets ≠ [])
    (hb : ∀ pop ∈ pops, ∀ t ∈ targets, Spec.SomeBin skipEmpty bins pop t.tid) :
    runFile skipEmpty choice per bins (pops.map Spec.tablesOf) targets =
      let c := colsOf (Spec.fileRows choice per bins pops targets)
      some { c with ms := c.ms.T, q := c.q.T } := by
  have h1 : ((pops.map Spec.tablesOf).zipIdx.mapM fun v => subvolumeSamples skipEmpty (choice v.2) per bins v.1 targets) =
      some ((pops.zipIdx.map fun v => (subvolumeRows (choice v.2) per bins v.1 targets).flatten).map colsOf) := by
    rw [List.map_map, List.zipIdx_map, List.mapM_map]
    refine mapM_pure_some _ _ _ fun v hv => ?_
    exact subvolumeSamples_eq skipEmpty _ (hc _) per bins v.1 targets ht (hb _ (List.fst_mem_of_mem_zipIdx hv))
  have h2 : (pops.zipIdx.map fun v => (subvolumeRows (choice v.2) per bins v.1 targets).flatten).flatten =
      Spec.fileRows choice per bins pops targets := by
    rw [← List.flatMap_def]
    rfl
  unfold runFile
  rw [h1]
  simp only [Option.bind_eq_bind, Option.bind_some, sampleFile]
  rw [concatenate_colsOf _ (by simpa using hp), h2]
  rfl

/-! ### C98 -/

/-- C98: the file of sampled halos holds exactly the sampled rows, in order, in all nine arrays: the parameters as arrays
of shape (5, n), (4, n), (4, n), the others of length n. -/
theorem C98_file_is_sampled_rows {nb : ℕ} (skipEmpty : Bool) (choice : ℕ → Choice) (hc : ∀ v, Spec.IsNpChoice (choice v))
    (per : ℕ) (bins : Fin (nb + 1) → ℝ) (pops : List (List Halo)) (targets : List Target) (hp : pops ≠ []) (ht : targets ≠ [])
    (hb : ∀ pop ∈ pops, ∀ t ∈ targets, Spec.SomeBin skipEmpty bins pop t.tid) :
    let S := Spec.fileRows choice per bins pops targets
    runFile skipEmpty choice per bins (pops.map Spec.tablesOf) targets = some
      { logmhId := S.map fun s => s.logmhId
        logmhVal := S.map fun s => s.logmhVal
        mah := ⟨S.length, [S.map fun s => s.mah.logmp, S.map fun s => s.mah.logtc, S.map fun s => s.mah.earlyIndex,
          S.map fun s => s.mah.lateIndex, S.map fun s => s.mah.tPeak]⟩
        ms := ⟨S.length, [S.map fun s => s.ms.lgmcrit, S.map fun s => s.ms.lgyAtMcrit, S.map fun s => s.ms.indxLo,
          S.map fun s => s.ms.indxHi]⟩
        q := ⟨S.length, [S.map fun s => s.q.lgQt, S.map fun s => s.q.qlglgdt, S.map fun s => s.q.lgDrop,
          S.map fun s => s.q.lgRejuv]⟩
        upid := S.map fun s => s.upid
        tobsId := S.map fun s => s.tobsId
        tobsVal := S.map fun s => s.tobsVal
        redshift := S.map fun s => s.redshift } := by
  intro S
  rw [runFile_eq skipEmpty choice hc per bins pops targets hp ht hb]
  have h1 : (colsOf S).ms.T = ⟨S.length, msF.map fun f => S.map f⟩ := T_rows msF S
  have h2 : (colsOf S).q.T = ⟨S.length, qF.map fun f => S.map f⟩ := T_rows qF S
  simp only [S] at h1 h2 ⊢
  rw [h1, h2]
  rfl

/-- C98: entry `k` along the halo axis of all nine arrays belongs to one halo of one subvolume, sampled at one target
time, whose mass at that time lies in the recorded bin. -/
theorem C98_file_columns_aligned {nb : ℕ} (skipEmpty : Bool) (choice : ℕ → Choice) (hc : ∀ v, Spec.IsNpChoice (choice v))
    (per : ℕ) (bins : Fin (nb + 1) → ℝ) (pops : List (List Halo)) (targets : List Target) (hp : pops ≠ []) (ht : targets ≠ [])
    (hb : ∀ pop ∈ pops, ∀ t ∈ targets, Spec.SomeBin skipEmpty bins pop t.tid) :
    ∃ file, runFile skipEmpty choice per bins (pops.map Spec.tablesOf) targets = some file ∧
      ∀ k < file.logmhId.length, ∃ pop ∈ pops, ∃ h ∈ pop, ∃ (zid : ℕ) (t : Target) (j : Fin nb), targets[zid]? = some t ∧
        bins j.castSucc ≤ h.logMah t.tid ∧ h.logMah t.tid < bins j.succ ∧
        Spec.FileRow file k h zid t.tobs t.z j.val ((bins j.castSucc + bins j.succ) / 2) := by
  refine ⟨_, C98_file_is_sampled_rows skipEmpty choice hc per bins pops targets hp ht hb, fun k hk => ?_⟩
  set S := Spec.fileRows choice per bins pops targets with hS
  have hk' : k < S.length := by simpa using hk
  obtain ⟨s, hs⟩ : ∃ s, S[k]? = some s := ⟨_, List.getElem?_eq_getElem hk'⟩
  have hmem := List.mem_of_getElem? hs
  rw [hS, Spec.fileRows, List.mem_flatMap] at hmem
  obtain ⟨v, hv, hmem⟩ := hmem
  rw [List.flatMap_def] at hmem
  obtain ⟨zid, t, h, hz, hh, d1, d2, d3, d4, d5, d6, d7, j, d8, d9, d10, d11⟩ :=
    mem_subvolumeRows (hc v.2) per bins v.1 targets s hmem
  refine ⟨v.1, List.fst_mem_of_mem_zipIdx hv, h, hh, zid, t, j, hz, d10, d11, ?_⟩
  constructor <;> simp [hs, d1, d2, d3, d4, d5, d6, d7, d8, d9, DiffstarParams.ms, DiffstarParams.q]

/-- C98: reading the rows `sel` back gives the MAH parameters and host ids of those sampled rows. -/
theorem C98_read_back {nb : ℕ} (skipEmpty : Bool) (choice : ℕ → Choice) (hc : ∀ v, Spec.IsNpChoice (choice v))
    (per : ℕ) (bins : Fin (nb + 1) → ℝ) (pops : List (List Halo)) (targets : List Target) (hp : pops ≠ []) (ht : targets ≠ [])
    (hb : ∀ pop ∈ pops, ∀ t ∈ targets, Spec.SomeBin skipEmpty bins pop t.tid) (sel : List ℕ)
    (hsel : ∀ i ∈ sel, i < (Spec.fileRows choice per bins pops targets).length) :
    let rows := sel.filterMap fun i => (Spec.fileRows choice per bins pops targets)[i]?
    rows.length = sel.length ∧
    ∃ file, runFile skipEmpty choice per bins (pops.map Spec.tablesOf) targets = some file ∧
      readRows file sel = some (⟨sel.length, [rows.map fun s => s.mah.logmp, rows.map fun s => s.mah.logtc,
        rows.map fun s => s.mah.earlyIndex, rows.map fun s => s.mah.lateIndex, rows.map fun s => s.mah.tPeak]⟩,
        rows.map fun s => s.upid) := by
  intro rows
  refine ⟨filterMap_range_length _ _ hsel, _, C98_file_is_sampled_rows skipEmpty choice hc per bins pops targets hp ht hb, ?_⟩
  simp [readRows, Arr.takeCols, takeIdx_map _ _ _ hsel, rows]

/-- C98 (Galacticus): where no halo lies in any bin, `sample_halos` raises. -/
theorem C98_galacticus_no_halo {nb : ℕ} (choice : Choice) (call per : ℕ) (bins : Fin (nb + 1) → ℝ) (pop : List Halo)
    (tid i : ℕ) (tobs z : ℝ) (h : ∀ x ∈ pop, ∀ j : Fin nb, ¬(bins j.castSucc ≤ x.logMah tid ∧ x.logMah tid < bins j.succ)) :
    SampleArrays.sampleHalos true choice call per bins ((Spec.tablesOf pop).logMah tid) (Spec.tablesOf pop).mahParams
      (Spec.tablesOf pop).sfhParams (Spec.tablesOf pop).upid i tobs z = none := by
  have : loopBins true bins ((Spec.tablesOf pop).logMah tid) = [] := by
    rw [loopBins, List.filter_eq_nil_iff]
    intro j _
    change ¬(!(true && (binIndices bins (pop.map fun h => h.logMah tid) j).isEmpty)) = true
    rw [binIndices_eq]
    have : binMembers bins pop tid j = [] := by
      rw [List.eq_nil_iff_forall_not_mem]
      intro k hk
      obtain ⟨x, hx, h1, h2⟩ := mem_binMembers hk
      exact h x (List.mem_of_getElem? hx) j ⟨h1, h2⟩
    simp [this]
  simp [SampleArrays.sampleHalos, this, concat1]

/-- The hypotheses of C98 are met by two subvolumes and two targets, with and without skipping empty bins, and of
`C98_galacticus_no_halo` by a halo outside the bins. -/
example : Spec.SomeBin true (unitEdges 2) [flatHalo 0.5 1 0 (-1), flatHalo 0.7 1 0 7] 0 ∧
    Spec.SomeBin false (unitEdges 2) [] 0 ∧
    (∀ x ∈ [flatHalo 5 1 0 (-1)], ∀ j : Fin 2, ¬(unitEdges 2 j.castSucc ≤ x.logMah 0 ∧ x.logMah 0 < unitEdges 2 j.succ)) := by
  refine ⟨⟨0, fun _ => ⟨flatHalo 0.5 1 0 (-1), by simp, ?_⟩⟩, ⟨0, by simp⟩, ?_⟩
  · simp [unitEdges, flatHalo]; norm_num
  · intro x hx j
    simp only [List.mem_singleton] at hx
    subst hx
    fin_cases j
    · simp [unitEdges, flatHalo]
    · simp [unitEdges, flatHalo]; norm_num

/-- A run with one halo in the first bin has a row to read back. -/
example : (Spec.fileRows (fun _ => fun _ a k r => if r then (match a with | [] => [] | x :: _ => List.replicate k x) else
    a.take k) 1 (unitEdges 1) [[flatHalo 0.5 1 0 (-1)]] [⟨0, 13, 0⟩]).length = 1 := by
  classical
  simp only [Spec.fileRows, Targets.sampleHalos, List.zipIdx_cons, List.zipIdx_nil, List.flatMap_cons, List.flatMap_nil,
    List.append_nil, List.finRange_succ, List.finRange_zero, List.map_nil]
  refine (sampleBin_length Spec.exists_isNpChoice _ _ _ _ _ _ _ _ _).trans ?_
  rw [binMembers_length]
  simp [flatHalo, unitEdges]
  norm_num

end Diffstar.Props
