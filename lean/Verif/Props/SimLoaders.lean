import Verif.Model.SimLoaders
import Verif.Props.Smh
import Verif.Props.Loaders

/-! C97: histories returned by the loaders of simulated galaxies. -/

namespace Diffstar.Props

open Diffstar Diffstar.Spec Diffstar.Load Diffstar.Fit Diffstar.Text Set

/-- `row` is the base-10 logarithm of the mass formed at the times `t` by the star formation rates `s`: `1e9` times the
integral from `0.001` of the linear interpolant through `(0.001, 1e-14)` and the table; every entry is a finite number
and entries never decrease. -/
structure Spec.IsLogMassFormed (t s : List ℝ) (row : List F) : Prop where
  length : row.length = t.length
  entry : ∀ f, IsLinInterp (0.001 :: t) (1 / 10 ^ 14 :: s) f → ∀ i (hi : i < t.length),
    ∃ m : ℝ, row[i]? = some (some (m : EReal)) ∧ (10 : ℝ) ^ m = 10 ^ 9 * ∫ x in (0.001 : ℝ)..t[i], f x
  mono : ∀ (i j : ℕ) (a b : F), i ≤ j → row[i]? = some a → row[j]? = some b → ∃ x y : ℝ, a = some (x : EReal) ∧
    b = some (y : EReal) ∧ x ≤ y

/-- The star formation and mass histories of `r` come row by row from the field `key` of the table. -/
structure Spec.HistoriesFrom (T : Table) (t : List ℝ) (key : Str) (r : Loaded) : Prop where
  time : r.t = t
  count : r.haloIds.length = T.rows.length ∧ r.sfrh.length = T.rows.length ∧ r.logSmahs.length = T.rows.length
  row : ∀ (k : ℕ) (cells : Str → Cell'), T.rows[k]? = some cells → ∃ s row, cells key = .hist s ∧ s.length = t.length ∧ r.sfrh[k]? = some s ∧
    r.logSmahs[k]? = some row ∧ (Increasing (0.001 :: t) → (∀ y ∈ s, 0 ≤ y) → Spec.IsLogMassFormed t s row)

/-- Row `k` carries the identifier of row `k` of the table. -/
def Spec.IdsFrom (T : Table) (ids : List ℤ) : Prop :=
  ∀ (k : ℕ) (cells : Str → Cell'), T.rows[k]? = some cells → ∃ n, cells "halo_id".toList = .int n ∧ ids[k]? = some n

/-- A table with a usable field of histories. -/
def Spec.HasHists (T : Table) (key : Str) (n : ℕ) : Prop :=
  key ∈ T.names ∧ ∀ c ∈ T.rows, ∃ l, c key = .hist l ∧ l.length = n

/-- A table with a usable field of integers. -/
def Spec.HasInts (T : Table) (key : Str) : Prop := key ∈ T.names ∧ ∀ c ∈ T.rows, ∃ n, c key = .int n

/-! ### Helper lemmas -/

theorem mapM_some_get {α β : Type*} (f : α → Option β) (l : List α) (r : List β) (h : l.mapM f = some r) :
    r.length = l.length ∧ ∀ (k : ℕ) (a : α), l[k]? = some a → ∃ b, f a = some b ∧ r[k]? = some b := by
  induction l generalizing r with
  | nil => simp at h; subst h; simp
  | cons x xs ih =>
    simp only [List.mapM_cons, Option.bind_eq_bind, Option.bind_eq_some_iff, Option.pure_def, Option.some.injEq] at h
    obtain ⟨b, hb, bs, hbs, rfl⟩ := h
    obtain ⟨h1, h2⟩ := ih bs hbs
    refine ⟨by simp [h1], fun k a hk => ?_⟩
    cases k with
    | zero => simp at hk; subst hk; exact ⟨b, hb, rfl⟩
    | succ k => exact h2 k a (by simpa using hk)

theorem mapM_isSome {α β : Type*} (f : α → Option β) (l : List α) (h : ∀ a ∈ l, (f a).isSome) : (l.mapM f).isSome := by
  induction l with
  | nil => simp
  | cons x xs ih =>
    obtain ⟨b, hb⟩ := Option.isSome_iff_exists.1 (h x List.mem_cons_self)
    obtain ⟨bs, hbs⟩ := Option.isSome_iff_exists.1 (ih fun a ha => h a (List.mem_cons_of_mem _ ha))
    simp [hb, hbs]

theorem ints_some {T : Table} {key : Str} {l : List ℤ} (h : T.ints key = some l) :
    l.length = T.rows.length ∧ ∀ (k : ℕ) (c : Str → Cell'), T.rows[k]? = some c → ∃ n, c key = .int n ∧ l[k]? = some n := by
  unfold Table.ints at h
  split at h
  · obtain ⟨h1, h2⟩ := mapM_some_get _ _ _ h
    refine ⟨h1, fun k c hc => ?_⟩
    obtain ⟨n, hn, hk⟩ := h2 k c hc
    rcases hcell : c key with m | m <;> simp [hcell] at hn
    exact ⟨m, rfl, by rw [hk, hn]⟩
  · simp at h

theorem hists_some {T : Table} {key : Str} {l : List (List ℝ)} (h : T.hists key = some l) :
    l.length = T.rows.length ∧ ∀ (k : ℕ) (c : Str → Cell'), T.rows[k]? = some c → ∃ n, c key = .hist n ∧ l[k]? = some n := by
  unfold Table.hists at h
  split at h
  · obtain ⟨h1, h2⟩ := mapM_some_get _ _ _ h
    refine ⟨h1, fun k c hc => ?_⟩
    obtain ⟨n, hn, hk⟩ := h2 k c hc
    rcases hcell : c key with m | m <;> simp [hcell] at hn
    exact ⟨m, rfl, by rw [hk, hn]⟩
  · simp at h

theorem ints_isSome {T : Table} {key : Str} (h : Spec.HasInts T key) : (T.ints key).isSome := by
  unfold Table.ints
  rw [if_pos h.1]
  refine mapM_isSome _ _ fun c hc => ?_
  obtain ⟨n, hn⟩ := h.2 c hc
  simp [hn]

theorem hists_isSome {T : Table} {key : Str} {n : ℕ} (h : Spec.HasHists T key n) :
    ∃ l, T.hists key = some l ∧ ∀ s ∈ l, s.length = n := by
  have : (T.hists key).isSome := by
    unfold Table.hists
    rw [if_pos h.1]
    refine mapM_isSome _ _ fun c hc => ?_
    obtain ⟨n, hn, -⟩ := h.2 c hc
    simp [hn]
  obtain ⟨l, hl⟩ := Option.isSome_iff_exists.1 this
  refine ⟨l, hl, fun s hs => ?_⟩
  obtain ⟨h1, h2⟩ := hists_some hl
  obtain ⟨k, hk, rfl⟩ := List.mem_iff_getElem.1 hs
  have hk' : k < T.rows.length := h1 ▸ hk
  obtain ⟨l', hl', hle⟩ := h.2 _ (List.getElem_mem hk')
  obtain ⟨m, hm, hkm⟩ := h2 k _ (List.getElem?_eq_getElem hk')
  rw [List.getElem?_eq_getElem hk, Option.some.injEq] at hkm
  rw [hkm]
  rw [hl'] at hm
  cases hm
  exact hle

/-- Masses are positive as soon as the rates are not negative: the first step starts from `SFR_MIN > 0`. -/
theorem cmf_pos (t s : List ℝ) (hinc : Increasing (0.001 :: t)) (hp : ∀ y ∈ s, 0 ≤ y) :
    ∀ m ∈ cumulativeMstarFormed t s, 0 < m := by
  rw [cmf_eq]
  intro m hm
  obtain ⟨x, hx, rfl⟩ := List.mem_map.1 hm
  suffices 0 < x by positivity
  cases t with
  | nil => simp at hx
  | cons a t =>
    cases s with
    | nil => simp at hx
    | cons y s =>
      unfold Increasing at hinc
      rw [List.pairwise_cons, List.pairwise_cons] at hinc
      have ha := hinc.1 a List.mem_cons_self
      have hy := hp y List.mem_cons_self
      have hv : 0 < 0 + (a - 0.001) * (y + 1 / 10 ^ 14) / 2 := by
        have : 0 < a - 0.001 := by linarith
        have : 0 < y + 1 / 10 ^ 14 := by positivity
        positivity
      simp only [List.zip_cons_cons, trapFrom_cons, List.mem_cons] at hx
      rcases hx with rfl | hx
      · exact hv
      · exact hv.trans_le ((trapFrom_mono a y _ (t.zip s) hy (fun p hp' => (hinc.2.1 _ (mem_zip_fst hp')).le)
          ((pairwise_zip hinc.2.2 s).imp fun h => h.le)
          (fun p hp' => hp _ (List.mem_cons_of_mem _ (mem_zip_snd hp')))).1 x hx)

theorem npLog10_pos {x : ℝ} (h : 0 < x) : npLog10 x = some ((Real.logb 10 x : ℝ) : EReal) := by
  unfold npLog10
  rw [if_neg (by linarith), if_neg h.ne']

theorem isLogMassFormed (t s : List ℝ) (hs : s.length = t.length) (hinc : Increasing (0.001 :: t))
    (hp : ∀ y ∈ s, 0 ≤ y) : Spec.IsLogMassFormed t s ((cumulativeMstarFormed t s).map npLog10) := by
  have hpos := cmf_pos t s hinc hp
  have hlen := cmf_length t s hs
  refine ⟨by simp [hlen], fun f hf i hi => ?_, fun i j a b hij ha hb => ?_⟩
  · have h := C11_smh_is_integral t s hs hinc f hf i hi
    have hm := hpos _ (List.mem_of_getElem? h)
    refine ⟨Real.logb 10 (10 ^ 9 * ∫ x in (0.001 : ℝ)..t[i], f x), ?_, ?_⟩
    · rw [List.getElem?_map, h, Option.map_some, npLog10_pos hm]
    · exact Real.rpow_logb (by norm_num) (by norm_num) hm
  · rw [List.getElem?_map, Option.map_eq_some_iff] at ha hb
    obtain ⟨x, hx, rfl⟩ := ha
    obtain ⟨y, hy, rfl⟩ := hb
    have hx0 := hpos _ (List.mem_of_getElem? hx)
    have hy0 := hpos _ (List.mem_of_getElem? hy)
    refine ⟨_, _, npLog10_pos hx0, npLog10_pos hy0, ?_⟩
    refine Real.logb_le_logb_of_le (by norm_num) hx0 ?_
    rcases hij.eq_or_lt with rfl | hlt
    · rw [hx] at hy; cases hy; exact le_rfl
    · have hpw := ((C12_smh_increasing t s hs hinc).2 hp).2
      obtain ⟨hi, rfl⟩ := List.getElem?_eq_some_iff.1 hx
      obtain ⟨hj, rfl⟩ := List.getElem?_eq_some_iff.1 hy
      exact List.pairwise_iff_getElem.1 hpw i j hi hj hlt

theorem historiesFrom {T : Table} {t : List ℝ} {key : Str} {ids : List ℤ} {sfrh : List (List ℝ)} {rows : List (List F)}
    (hid : ids.length = T.rows.length) (hs : T.hists key = some sfrh) (hr : logSmahs t sfrh = some rows) :
    Spec.HistoriesFrom T t key ⟨ids, rows, sfrh, t⟩ := by
  obtain ⟨h1, h2⟩ := hists_some hs
  unfold logSmahs at hr
  split at hr
  · rename_i hl
    simp only [Option.some.injEq] at hr
    subst hr
    refine ⟨rfl, ⟨hid, h1, by simpa using h1⟩, fun k cells hk => ?_⟩
    obtain ⟨s, hc, hks⟩ := h2 k cells hk
    have hsl := hl s (List.mem_of_getElem? hks)
    exact ⟨s, _, hc, hsl, hks, by simp [hks], fun hinc hp => isLogMassFormed t s hsl hinc hp⟩
  · simp at hr

theorem loadUm_spec (disk : Disk) (fn tfn : Str) :
    (∀ r, loadUm disk fn tfn = some r → ∃ T t, disk.tables fn = some T ∧ disk.times tfn = some t ∧
      Spec.HistoriesFrom T t "sfr_history_main_prog".toList r ∧ Spec.IdsFrom T r.haloIds) ∧
    (∀ T t, disk.tables fn = some T → disk.times tfn = some t → Spec.HasInts T "halo_id".toList →
      Spec.HasHists T "sfr_history_main_prog".toList t.length → (loadUm disk fn tfn).isSome) := by
  constructor
  · intro r h
    simp only [loadUm, Option.bind_eq_bind, Option.bind_eq_some_iff, Option.pure_def, Option.some.injEq] at h
    obtain ⟨T, hT, t, ht, ids, hids, sfrh, hs, rows, hr, rfl⟩ := h
    obtain ⟨i1, i2⟩ := ints_some hids
    exact ⟨T, t, hT, ht, historiesFrom i1 hs hr, i2⟩
  · intro T t hT ht hi hh
    obtain ⟨ids, hids⟩ := Option.isSome_iff_exists.1 (ints_isSome hi)
    obtain ⟨l, hl, hlen⟩ := hists_isSome hh
    have hlog : logSmahs t l = some (l.map fun s => (cumulativeMstarFormed t s).map npLog10) := if_pos hlen
    simp only [loadUm, hT, ht, hids, hl, hlog, Option.bind_eq_bind, Option.bind_some, Option.pure_def, Option.isSome_some]

/-- What is claimed of one UniverseMachine loader reading the table `fn` and the times `tfn`. -/
def Spec.UmLoader (disk : Disk) (result : Option Loaded) (fn tfn : String) : Prop :=
  (∀ r, result = some r → ∃ T t, disk.tables fn.toList = some T ∧ disk.times tfn.toList = some t ∧
    Spec.HistoriesFrom T t "sfr_history_main_prog".toList r ∧ Spec.IdsFrom T r.haloIds) ∧
  (∀ T t, disk.tables fn.toList = some T → disk.times tfn.toList = some t → Spec.HasInts T "halo_id".toList →
    Spec.HasHists T "sfr_history_main_prog".toList t.length → result.isSome)

/-! ### C97 -/

/-- C97 (Bolshoi and MDPL2): the galaxy type selects the file; rows keep the order, the identifiers and the rates of the
file; the masses are the logarithms of the integrated rates, finite and never decreasing, whenever the times increase
from above `0.001` and the rates are not negative. -/
theorem C97_universemachine_histories (disk : Disk) (galType drn : String) :
    Spec.UmLoader disk (loadBolshoi disk galType.toList drn.toList) (drn ++ "/bpl_diffmah_" ++ galType ++ ".npy")
      (drn ++ "/bpl_cosmic_time.npy") ∧
    Spec.UmLoader disk (loadBolshoiSmall disk galType.toList drn.toList)
      (drn ++ "/um_histories_subsample_dr1_bpl_" ++ galType ++ "_diffmah.npy") (drn ++ "/bpl_cosmic_time.npy") ∧
    Spec.UmLoader disk (loadMdpl disk galType.toList drn.toList) (drn ++ "/mdpl2_diffmah_" ++ galType ++ ".npy")
      (drn ++ "/mdpl2_cosmic_time.npy") ∧
    Spec.UmLoader disk (loadMdplSmall disk galType.toList drn.toList)
      (drn ++ "/um_histories_dr1_mdpl2_small_" ++ galType ++ ".npy") (drn ++ "/mdpl2_cosmic_time.npy") := by
  refine ⟨?_, ?_, ?_, ?_⟩
  · have h := loadUm_spec disk (drn ++ "/bpl_diffmah_" ++ galType ++ ".npy").toList (drn ++ "/bpl_cosmic_time.npy").toList
    have e : loadBolshoi disk galType.toList drn.toList = loadUm disk (drn ++ "/bpl_diffmah_" ++ galType ++ ".npy").toList
      (drn ++ "/bpl_cosmic_time.npy").toList := by simp [loadBolshoi, joinPath]
    rw [Spec.UmLoader, e]; exact h
  · have h := loadUm_spec disk (drn ++ "/um_histories_subsample_dr1_bpl_" ++ galType ++ "_diffmah.npy").toList
      (drn ++ "/bpl_cosmic_time.npy").toList
    have e : loadBolshoiSmall disk galType.toList drn.toList = loadUm disk
      (drn ++ "/um_histories_subsample_dr1_bpl_" ++ galType ++ "_diffmah.npy").toList
      (drn ++ "/bpl_cosmic_time.npy").toList := by simp [loadBolshoiSmall, joinPath]
    rw [Spec.UmLoader, e]; exact h
  · have h := loadUm_spec disk (drn ++ "/mdpl2_diffmah_" ++ galType ++ ".npy").toList
      (drn ++ "/mdpl2_cosmic_time.npy").toList
    have e : loadMdpl disk galType.toList drn.toList = loadUm disk (drn ++ "/mdpl2_diffmah_" ++ galType ++ ".npy").toList
      (drn ++ "/mdpl2_cosmic_time.npy").toList := by simp [loadMdpl, joinPath]
    rw [Spec.UmLoader, e]; exact h
  · have h := loadUm_spec disk (drn ++ "/um_histories_dr1_mdpl2_small_" ++ galType ++ ".npy").toList
      (drn ++ "/mdpl2_cosmic_time.npy").toList
    have e : loadMdplSmall disk galType.toList drn.toList = loadUm disk
      (drn ++ "/um_histories_dr1_mdpl2_small_" ++ galType ++ ".npy").toList
      (drn ++ "/mdpl2_cosmic_time.npy").toList := by simp [loadMdplSmall, joinPath]
    rw [Spec.UmLoader, e]; exact h

/-- A table of two halos, the second of which never forms stars. -/
def twoHalos : Table :=
  ⟨["halo_id".toList, "sfr_history_main_prog".toList],
    [fun k => if k = "halo_id".toList then .int 7 else .hist [1, 2],
      fun k => if k = "halo_id".toList then .int 9 else .hist [0, 0]]⟩

/-- The loader succeeds on that table and the times and rates meet the hypotheses of C97. -/
example : (loadBolshoi ⟨fun _ => some twoHalos, fun _ => some [1, 13]⟩ "cens".toList "d".toList).isSome ∧
    Increasing ((0.001 : ℝ) :: [1, 13]) ∧ ∀ y ∈ ([0, 0] : List ℝ), 0 ≤ y := by
  refine ⟨(C97_universemachine_histories ⟨fun _ => some twoHalos, fun _ => some [1, 13]⟩ "cens" "d").1.2 twoHalos [1, 13]
    rfl rfl ⟨List.mem_cons_self, ?_⟩ ⟨List.mem_cons_of_mem _ List.mem_cons_self, ?_⟩, ?_, by simp⟩
  · intro c hc
    simp only [twoHalos, List.mem_cons, List.not_mem_nil, or_false] at hc
    rcases hc with rfl | rfl
    · exact ⟨7, if_pos rfl⟩
    · exact ⟨9, if_pos rfl⟩
  · intro c hc
    simp only [twoHalos, List.mem_cons, List.not_mem_nil, or_false] at hc
    rcases hc with rfl | rfl
    · exact ⟨[1, 2], if_neg (by decide), rfl⟩
    · exact ⟨[0, 0], if_neg (by decide), rfl⟩
  · unfold Increasing; norm_num

theorem loadTngFile_spec (disk : Disk) (drn bn : Str) (T : Table) (r : Loaded) (h : loadTngFile disk drn bn = some (T, r)) :
    ∃ t, disk.tables (joinPath drn bn) = some T ∧ disk.times (joinPath drn "tng_cosmic_time.npy".toList) = some t ∧
      Spec.HistoriesFrom T t "sfh".toList r ∧ ∀ k < T.rows.length, r.haloIds[k]? = some (k : ℤ) := by
  simp only [loadTngFile, Option.bind_eq_bind, Option.bind_eq_some_iff, Option.pure_def, Option.some.injEq,
    Prod.mk.injEq] at h
  obtain ⟨T', hT, t, ht, n, hn, sfrh, hs, rows, hr, rfl, rfl⟩ := h
  have hn' : n = T'.rows.length := by
    unfold Table.len at hn
    split at hn
    · simpa using hn.symm
    · simp at hn
  subst hn'
  refine ⟨t, hT, ht, historiesFrom (by simp) hs hr, fun k hk => ?_⟩
  simp [hk]

/-- C97 (TNG): rows keep the order and the rates of the file, masses as for the other loaders, the mass histories are the
running maxima of the file's logarithms divided by `h = 0.6774`, and `logmp0` is the last of them. The "halo ids" are row
numbers. -/
theorem C97_tng_histories (disk : Disk) (drn : String) :
    (∀ r mahs mp, loadTng disk drn.toList = some (r, mahs, mp) →
      ∃ T t, disk.tables (drn ++ "/tng_diffmah.npy").toList = some T ∧
        disk.times (drn ++ "/tng_cosmic_time.npy").toList = some t ∧ Spec.HistoriesFrom T t "sfh".toList r ∧
        (∀ k < T.rows.length, r.haloIds[k]? = some (k : ℤ)) ∧
        mahs.length = T.rows.length ∧ mp.length = T.rows.length ∧
        ∀ (k : ℕ) (cells : Str → Cell'), T.rows[k]? = some cells → ∃ l m, cells "mpeakh".toList = .hist l ∧ mahs[k]? = some m ∧
          m.length = l.length ∧ m.getLast? = mp[k]? ∧
          ∀ i < l.length, ∃ v, m[i]? = some v ∧
            IsGreatest {y | ∃ j ≤ i, ∃ x, l[j]? = some x ∧ y = x - Real.logb 10 0.6774} v) ∧
    (∀ galType r, loadTngSmall disk galType drn.toList = some r →
      ∃ T t, disk.tables (drn ++ "/tng_small.npy").toList = some T ∧
        disk.times (drn ++ "/tng_cosmic_time.npy").toList = some t ∧ Spec.HistoriesFrom T t "sfh".toList r ∧
        ∀ k < T.rows.length, r.haloIds[k]? = some (k : ℤ)) := by
  constructor
  · intro r mahs mp h
    simp only [loadTng, Option.bind_eq_bind, Option.bind_eq_some_iff, Option.pure_def, Option.some.injEq,
      Prod.mk.injEq, Prod.exists] at h
    obtain ⟨T, r', hf, hl, hh, mp', hmp, rfl, rfl, rfl⟩ := h
    obtain ⟨t, hT, ht, h1, h2⟩ := loadTngFile_spec _ _ _ _ _ hf
    obtain ⟨a1, a2⟩ := hists_some hh
    obtain ⟨b1, b2⟩ := mapM_some_get _ _ _ hmp
    refine ⟨T, t, by simpa [joinPath] using hT, by simpa [joinPath] using ht, h1, h2, by simpa using a1,
      by simpa [a1] using b1, fun k cells hk => ?_⟩
    obtain ⟨l, hl1, hl2⟩ := a2 k cells hk
    have hm : (hl.map (tngLogMah H_TNG))[k]? = some (tngLogMah H_TNG l) := by simp [hl2]
    obtain ⟨v, hv, hmk⟩ := b2 k _ hm
    refine ⟨l, _, hl1, hm, by simp [tngLogMah, accMax_length], by rw [hv, hmk], fun i hi => ?_⟩
    exact C56_tng_running_maximum 0.6774 l i hi
  · intro g r h
    simp only [loadTngSmall, Option.map_eq_some_iff, Prod.exists] at h
    obtain ⟨T, r', hf, rfl⟩ := h
    obtain ⟨t, hT, ht, h1, h2⟩ := loadTngFile_spec _ _ _ _ _ hf
    exact ⟨T, t, by simpa [joinPath] using hT, by simpa [joinPath] using ht, h1, h2⟩

/-- A disk with a TNG file of two halos. -/
def twoTngHalos : Disk :=
  ⟨fun _ => some ⟨["mpeak".toList, "sfh".toList, "mpeakh".toList],
    [fun k => if k = "sfh".toList then .hist [1, 2] else .hist [10, 9], fun _ => .hist [0, 3]]⟩, fun _ => some [1, 13]⟩

theorem twoTng_loads :
    (loadTng twoTngHalos "d".toList).isSome ∧ (loadTngSmall twoTngHalos "cens".toList "d".toList).isSome := by
  simp [twoTngHalos, loadTng, loadTngSmall, loadTngFile, Table.len, Table.hists, logSmahs, tngLogMah, accMax, accMaxFrom]

/-- C97: the galaxy type given to `load_tng_small_data` has no effect, although it is documented to name the file. -/
theorem C97_tng_galaxy_type_ignored (disk : Disk) (drn g g' : Str) : loadTngSmall disk g drn = loadTngSmall disk g' drn :=
  rfl

example : loadTngSmall twoTngHalos "sats".toList "d".toList ≠ none := fun h => by
  have := twoTng_loads.2
  rw [C97_tng_galaxy_type_ignored _ _ _ "sats".toList, h] at this
  simp at this

theorem loadSmdpl_spec (um : List Str → Str → List Str → Option Table) (disk : Disk) (subvols : List Str) (drn key : Str)
    (r : Loaded) (mahs : List (List ℝ)) (mp : List ℝ) (h : loadSmdpl um disk subvols drn key = some (r, mahs, mp)) :
    ∃ T t, um subvols drn ["halo_id".toList, key, "mpeak_history_main_prog".toList] = some T ∧
      disk.times (joinPath drn "smdpl_cosmic_time.txt".toList) = some t ∧ Spec.HistoriesFrom T t key r ∧ Spec.IdsFrom T r.haloIds ∧
      mahs.length = T.rows.length ∧ mp.length = T.rows.length ∧
      ∀ (k : ℕ) (cells : Str → Cell'), T.rows[k]? = some cells → ∃ l m, cells "mpeak_history_main_prog".toList = .hist l ∧ mahs[k]? = some m ∧
        m.length = l.length ∧ m.getLast? = mp[k]? ∧ (∃ v, mp[k]? = some v) ∧
        ∀ i < l.length, ∃ v, m[i]? = some v ∧
          IsGreatest {y | ∃ j ≤ i, ∃ x, l[j]? = some x ∧ y = if x < 10 ^ 7 then 0 else Real.logb 10 x} v := by
  simp only [loadSmdpl, Option.bind_eq_bind, Option.bind_eq_some_iff, Option.pure_def, Option.some.injEq,
    Prod.mk.injEq] at h
  obtain ⟨T, hT, t, ht, ids, hids, sfrh, hs, rows, hr, l, hl, mp', hmp, rfl, rfl, rfl⟩ := h
  obtain ⟨i1, i2⟩ := ints_some hids
  obtain ⟨a1, a2⟩ := hists_some hl
  obtain ⟨b1, b2⟩ := mapM_some_get _ _ _ hmp
  refine ⟨T, t, hT, ht, historiesFrom i1 hs hr, i2, by simpa using a1, by rw [b1, a1], fun k cells hk => ?_⟩
  obtain ⟨x, hx1, hx2⟩ := a2 k cells hk
  obtain ⟨v, hv, hmk⟩ := b2 k _ hx2
  obtain ⟨c1, c2, -, -⟩ := C56_running_maximum x
  refine ⟨x, _, hx1, by simp [hx2], c1, by rw [hmk, ← hv]; rfl, ⟨v, hmk⟩, fun i hi => ?_⟩
  obtain ⟨w, hw, -, hg⟩ := c2 i hi
  exact ⟨w, hw, hg⟩

/-- What is claimed of one SMDPL loader whose star formation rates are the field `key`. -/
def Spec.SmdplLoader (um : List Str → Str → List Str → Option Table) (disk : Disk) (subvols : List Str) (drn : String)
    (result : Option (Loaded × List (List ℝ) × List ℝ)) (key : String) : Prop :=
  ∀ r mahs mp, result = some (r, mahs, mp) →
    ∃ T t, um subvols drn.toList ["halo_id".toList, key.toList, "mpeak_history_main_prog".toList] = some T ∧
      disk.times (drn ++ "/smdpl_cosmic_time.txt").toList = some t ∧ Spec.HistoriesFrom T t key.toList r ∧
      Spec.IdsFrom T r.haloIds ∧ mahs.length = T.rows.length ∧ mp.length = T.rows.length ∧
      ∀ (k : ℕ) (cells : Str → Cell'), T.rows[k]? = some cells → ∃ l m, cells "mpeak_history_main_prog".toList = .hist l ∧ mahs[k]? = some m ∧
        m.length = l.length ∧ m.getLast? = mp[k]? ∧ (∃ v, mp[k]? = some v) ∧
        ∀ i < l.length, ∃ v, m[i]? = some v ∧
          IsGreatest {y | ∃ j ≤ i, ∃ x, l[j]? = some x ∧ y = if x < 10 ^ 7 then 0 else Real.logb 10 x} v

/-- C97 (SMDPL): the "no merging" loader reads the main-progenitor rates, the DR1 loader those of all progenitors; ids,
rates, masses and mass histories of a row all come from the same row of the mock. -/
theorem C97_smdpl_histories (um : List Str → Str → List Str → Option Table) (disk : Disk) (subvols : List Str)
    (drn : String) :
    Spec.SmdplLoader um disk subvols drn (loadSmdplNomerging um disk subvols drn.toList) "sfr_history_main_prog" ∧
    Spec.SmdplLoader um disk subvols drn (loadSmdplDr1 um disk subvols drn.toList) "sfr_history_all_prog" := by
  constructor <;> intro r mahs mp h <;>
  · obtain ⟨T, t, h1, h2, h3⟩ := loadSmdpl_spec _ _ _ _ _ _ _ _ h
    exact ⟨T, t, h1, by simpa [joinPath] using h2, h3⟩

/-- A mock with one halo is loaded. -/
example : (loadSmdplDr1 (fun _ _ names => some ⟨names, [fun k => if k.length = 7 then .int 3 else .hist [1, 10 ^ 9]]⟩)
    ⟨fun _ => none, fun _ => some [1, 13]⟩ [] []).isSome := by
  have h1 : "halo_id".toList.length = 7 := by decide
  have h2 : "sfr_history_all_prog".toList.length = 20 := by decide
  have h3 : "mpeak_history_main_prog".toList.length = 23 := by decide
  simp only [loadSmdplDr1, loadSmdpl]
  generalize "halo_id".toList = a at *
  generalize "sfr_history_all_prog".toList = b at *
  generalize "mpeak_history_main_prog".toList = c at *
  simp [Table.ints, Table.hists, logSmahs, smdplLogmp0, smdplLogMah, accMax, accMaxFrom, h1, h2, h3]

end Diffstar.Props
