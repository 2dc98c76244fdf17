import Verif.Model.TestRuns
import Verif.Props.Interrupt

/-!
C132: short test runs of the fitting scripts.
-/

namespace Diffstar.Props

open Diffstar Diffstar.Text Diffstar.Fit Diffstar.Output Diffstar.Load Diffstar.Galcus Diffstar.Scripts
open Diffstar.RankFiles

/-- C132: without `-test` (or with an empty text) the scripts are those of C110 and C129. -/
theorem C132_no_option (L : Libs) (o : Opts) :
    TestRuns.galRun none L o = galRun L o ∧ TestRuns.galRun (some []) L o = galRun L o ∧
    TestRuns.umScript (TestRuns.testOption none) L o = umScript L o ∧
    TestRuns.tngFitScript (TestRuns.testOption none) L o = tngFitScript L o ∧
    ∀ avail istart iend, TestRuns.umSubvolumes (TestRuns.testOption none) avail istart iend =
      some (umSubvolumes istart iend) :=
  ⟨rfl, rfl, rfl, rfl, fun _ _ _ => rfl⟩

/-- C132 fails: whatever text is given after `-test`, also `False`, `0` or `no`, the run is a test run. -/
theorem C132_false_is_true_violated (s : Str) (h : s ≠ []) (L : Libs) (o : Opts) :
    TestRuns.testOption (some s) = true ∧ TestRuns.galRun (some s) L o = TestRuns.galRun (some "True".toList) L o ∧
    TestRuns.testOption (some "False".toList) = true := by
  have e : TestRuns.testOption (some s) = true := by simp [TestRuns.testOption, TestRuns.pyBool, h]
  have e' : TestRuns.testOption (some "True".toList) = true := by decide
  refine ⟨e, ?_, by decide⟩
  unfold TestRuns.galRun
  rw [e, e']

theorem takeIdx_take {α : Type} (l : List α) (n : ℕ) (indx : List ℕ) (h : ∀ i ∈ indx, i < n) :
    takeIdx (l.take n) indx = takeIdx l indx := by
  unfold takeIdx
  induction indx with
  | nil => rfl
  | cons i is ih =>
    rw [List.mapM_cons, List.mapM_cons, ih fun j hj => h j (by simp [hj]), List.getElem?_take_of_lt (h i (by simp))]

theorem split_mem {n r k i : ℕ} (hr : 1 ≤ r) (h : i ∈ (arraySplit (List.range n) r).getD k []) : i < n := by
  have h1 : i ∈ (arraySplit (List.range n) r).flatten := by
    rw [List.mem_flatten]
    rcases Nat.lt_or_ge k (arraySplit (List.range n) r).length with hk | hk
    · rw [List.getD_eq_getElem _ _ hk] at h
      exact ⟨_, List.getElem_mem hk, h⟩
    · rw [List.getD_eq_default _ _ hk] at h
      simp at h
  rw [arraySplit_flatten _ _ hr] at h1
  exact List.mem_range.1 h1

/-- C132: a test run of the SMDPL script, for a subvolume with at least five galaxies per rank, writes the catalogue that a
normal run would write for the first `5 * nranks` galaxies alone. -/
theorem C132_smdpl_partial (L : Libs) (o : Opts) (haloIds : List ℤ) (sfhs : List (List ℝ)) (t : List ℝ)
    (mahRows : List MahRow) (r : ℕ) (hr : 1 ≤ r) (hn : 5 * r ≤ haloIds.length)
    (hm : mahRows.length = haloIds.length) :
    TestRuns.umScript true L o haloIds sfhs t mahRows r =
      umScript L o (haloIds.take (5 * r)) (sfhs.take (5 * r)) t (mahRows.take (5 * r)) r := by
  unfold TestRuns.umScript umScript
  congr 2
  funext k
  have hl : ∀ rows : List MahRow, loadDiffmahFits L.logMah L.defaultMah T0_SMDPL NPTS_FIT_MIN rows 0 none =
      rows.map (loadRow L.logMah L.defaultMah T0_SMDPL NPTS_FIT_MIN) := by
    intro rows
    simp [loadDiffmahFits, slice]
  unfold TestRuns.umRank umRank TestRuns.nhalosTot
  simp only [hl, List.length_map, List.length_take, hm, Nat.min_eq_left hn, if_true, ne_eq, not_true, if_false,
    Nat.mul_comm r 5, List.map_take]
  have hmem : ∀ i ∈ (arraySplit (List.range (5 * r)) r).getD k [], i < 5 * r := fun i hi => split_mem hr hi
  rw [takeIdx_take _ _ _ hmem, takeIdx_take _ _ _ hmem, takeIdx_take _ _ _ hmem]

theorem slice_take {α : Type} (l : List α) (n i e : ℕ) (h : e ≤ n) : slice (l.take n) i (some e) = slice l i (some e) := by
  simp [slice, List.take_take, Nat.min_eq_left h]

/-- C132: the same for TNG. -/
theorem C132_tng_partial (L : Libs) (o : Opts) (haloIds : List ℤ) (sfhs : List (List ℝ)) (t : List ℝ)
    (mahRows : List MahRow) (r : ℕ) (hr : 1 ≤ r) (hn : 5 * r ≤ haloIds.length) :
    TestRuns.tngFitScript true L o haloIds sfhs t mahRows r =
      tngFitScript L o (haloIds.take (5 * r)) (sfhs.take (5 * r)) t (mahRows.take (5 * r)) r := by
  unfold TestRuns.tngFitScript tngFitScript
  congr 1
  have key : ∀ k ∈ List.range r, TestRuns.tngFitRank true L o haloIds sfhs t mahRows r k =
      tngFitRank L o (haloIds.take (5 * r)) (sfhs.take (5 * r)) t (mahRows.take (5 * r)) r k := by
    intro k hk
    obtain ⟨istart, iend, h1, h2, h3, h4, h5⟩ := C70_rank_block_contiguous (5 * r) r k hr (by omega) (List.mem_range.1 hk)
    have hmem : ∀ i ∈ (arraySplit (List.range (5 * r)) r).getD k [], i < 5 * r := fun i hi => split_mem hr hi
    unfold TestRuns.tngFitRank tngFitRank TestRuns.nhalosTot
    simp only [List.length_take, Nat.min_eq_left hn, if_true, Nat.mul_comm r 5, h1, h2, Option.bind_eq_bind,
      Option.bind_some]
    rw [takeIdx_take _ _ _ hmem, takeIdx_take _ _ _ hmem]
    simp only [loadDiffmahFits]
    rw [slice_take _ _ _ _ (by omega)]
  have gen : ∀ l : List ℕ, (∀ k ∈ l, k ∈ List.range r) → l.mapM (TestRuns.tngFitRank true L o haloIds sfhs t mahRows r) =
      l.mapM (tngFitRank L o (haloIds.take (5 * r)) (sfhs.take (5 * r)) t (mahRows.take (5 * r)) r) := by
    intro l
    induction l with
    | nil => intro _; rfl
    | cons k ks ih =>
      intro hl
      rw [List.mapM_cons, List.mapM_cons, key k (hl k (by simp)), ih fun j hj => hl j (by simp [hj])]
  exact gen _ fun k hk => hk

example : 5 * 2 ≤ (List.range 12).length := by simp

theorem mapM_none {α β : Type} (f : α → Option β) (l : List α) (a : α) (ha : a ∈ l) (h : f a = none) : l.mapM f = none := by
  induction l with
  | nil => simp at ha
  | cons b l ih =>
    rw [List.mapM_cons]
    rcases List.mem_cons.1 ha with rfl | ha
    · rw [h]; rfl
    · rw [ih ha]
      cases f b <;> rfl

/-- C132 fails for small samples: with fewer than five galaxies per rank a test run of the SMDPL or the TNG script raises
(`IndexError`), although a normal run is possible (C110). -/
theorem C132_small_samples_violated (L : Libs) (o : Opts) (haloIds : List ℤ) (sfhs : List (List ℝ)) (t : List ℝ)
    (mahRows : List MahRow) (r : ℕ) (hr : 1 ≤ r) (hn : haloIds.length < 5 * r) :
    TestRuns.umScript true L o haloIds sfhs t mahRows r = none ∧
    TestRuns.tngFitScript true L o haloIds sfhs t mahRows r = none := by
  have hex : ∃ k < r, 5 * r - 1 ∈ (arraySplit (List.range (r * 5)) r).getD k [] := by
    obtain ⟨k, ⟨hk, hm⟩, -⟩ := C52_exactly_one_rank (r * 5) r hr (5 * r - 1) (by omega)
    exact ⟨k, hk, hm⟩
  obtain ⟨k, hk, hm⟩ := hex
  have hids : takeIdx haloIds ((arraySplit (List.range (r * 5)) r).getD k []) = none := by
    unfold takeIdx
    exact mapM_none _ _ _ hm (List.getElem?_eq_none (by omega))
  constructor
  · unfold TestRuns.umScript
    rw [mapM_none _ _ k (List.mem_range.2 hk)]
    · rfl
    · unfold TestRuns.umRank TestRuns.nhalosTot
      simp only [if_true, hids]
      split_ifs <;> rfl
  · unfold TestRuns.tngFitScript
    rw [mapM_none _ _ k (List.mem_range.2 hk)]
    · rfl
    · unfold TestRuns.tngFitRank TestRuns.nhalosTot
      simp only [if_true, hids]
      cases t.getLast? with
      | none => rfl
      | some t0 =>
        simp only [Option.bind_eq_bind, Option.bind_some]
        cases ((arraySplit (List.range (r * 5)) r).getD k []).head? with
        | none => rfl
        | some a =>
          simp only [Option.bind_some]
          cases ((arraySplit (List.range (r * 5)) r).getD k []).getLast? <;> rfl

theorem range_mapM_take {β : Type} (f : ℕ → Option β) (n m : ℕ) (l : List β) (h : (List.range n).mapM f = some l)
    (hm : m ≤ n) : (List.range m).mapM f = some (l.take m) := by
  have hl := mapM_some_get f (List.range n) l h
  have hlen : l.length = n := by simpa using hl.1
  rcases Nat.eq_zero_or_pos n with rfl | hn
  · obtain rfl : m = 0 := by omega
    rfl
  have hne : 0 < l.length := by omega
  rw [mapM_pure_some f (fun i => l.getD i l[0])]
  · congr 1
    apply List.ext_getElem
    · simp; omega
    · intro i h1 h2
      have hi : i < l.length := by simp at h1; omega
      simp only [List.getElem_map, List.getElem_range, List.getElem_take]
      rw [List.getD_eq_getElem _ _ hi]
  · intro i hi
    have hi' := List.mem_range.1 hi
    obtain ⟨b, hb, hb2⟩ := hl.2 i i (by rw [List.getElem?_range (by omega)])
    rw [hb, List.getD_eq_getElem?_getD, hb2]
    rfl

/-- A rank of a Galacticus test run writes the first 30 rows of its part, or raises if there are fewer. -/
theorem galRank_test (L : Libs) (o : Opts) (ty : SfhType) (block : Flat Cell) (mahRows : List MahRow) (r k : ℕ)
    (l : List HaloOut) (h : galRank L o ty block mahRows r k = some l) :
    TestRuns.galRank true L o ty block mahRows r k = if 30 ≤ l.length then some (l.take 30) else none := by
  unfold galRank at h
  unfold TestRuns.galRank
  simp only [Option.bind_eq_bind] at h ⊢
  obtain ⟨ins, h1, h⟩ := Option.bind_eq_some_iff.1 h
  obtain ⟨istart, h2, h⟩ := Option.bind_eq_some_iff.1 h
  obtain ⟨last, h3, h⟩ := Option.bind_eq_some_iff.1 h
  obtain ⟨data, h4, h⟩ := Option.bind_eq_some_iff.1 h
  obtain ⟨tarr, h5, h⟩ := Option.bind_eq_some_iff.1 h
  obtain ⟨t0, h6, h⟩ := Option.bind_eq_some_iff.1 h
  obtain ⟨sfhs, h7, h⟩ := Option.bind_eq_some_iff.1 h
  simp only [h1, h2, h3, h4, h5, h6, h7, Option.bind_some, if_true, TestRuns.NHALOS_TEST]
  have hlen : l.length = (slice (List.range ins.length) istart (some (last + 1))).length := by
    simpa using (mapM_some_get _ _ _ h).1
  split_ifs with hc
  · exact range_mapM_take _ _ 30 l h (by omega)
  · refine mapM_none _ _ 29 (by simp) ?_
    rw [List.getElem?_eq_none (by omega)]
    rfl

/-- The start of a section of `np.array_split`. -/
theorem sum_take_sectionSizes (n r k : ℕ) (hk : k ≤ r) (hr : 1 ≤ r) :
    ((sectionSizes n r).take k).sum = k * (n / r) + min k (n % r) := by
  unfold sectionSizes
  have hm : n % r < r := Nat.mod_lt _ (by omega)
  rw [List.take_append, List.take_replicate, List.take_replicate, List.length_replicate, List.sum_append,
    List.sum_replicate, List.sum_replicate]
  rcases Nat.le_total k (n % r) with h | h
  · rw [Nat.min_eq_left h, Nat.sub_eq_zero_of_le h]
    simp
    ring
  · rw [Nat.min_eq_right h, Nat.min_eq_left (by omega)]
    obtain ⟨d, rfl⟩ := Nat.exists_eq_add_of_le h
    rw [Nat.add_sub_cancel_left]
    simp only [smul_eq_mul]
    ring

theorem split_getElem {n r k i : ℕ} (hr : 1 ≤ r) (hk : k < r) (h : i < n / r) :
    ((arraySplit (List.range n) r).getD k [])[i]? = some (k * (n / r) + min k (n % r) + i) := by
  have hlen := arraySplit_get_length (List.range n) r k hk
  have hk' : k < (arraySplit (List.range n) r).length := by rw [arraySplit_length]; exact hk
  rw [List.getD_eq_getElem _ _ hk'] at hlen ⊢
  have hg : (arraySplit (List.range n) r)[k] =
      ((List.range n).take ((sectionSizes (List.range n).length r).take (k + 1)).sum).drop
        ((sectionSizes (List.range n).length r).take k).sum := by
    simp [arraySplit]
  have hi : i < (arraySplit (List.range n) r)[k].length := by
    rw [hlen, List.length_range]; omega
  rw [List.getElem?_eq_getElem hi]
  simp only [hg, List.getElem_drop, List.getElem_take, List.getElem_range, List.length_range]
  rw [sum_take_sectionSizes n r k (by omega) hr]

/-- The files of a run of the Galacticus script whose ranks write `parts`. -/
theorem gal_files (f4 : F → F) (ty : SfhType) (r : ℕ) (dir : Str) (hp : Diffstar.Spec.PlainPath dir)
    (parts : List (List HaloOut)) (hlen : parts.length = r) (file : H5) (hcol : collate f4 parts = some file) (fs : Fs) :
    ∃ names fs', ((List.range r).mapM fun i => pyFormat [natStr i, ty.text] (pathJoin dir galTmp)) = some names ∧
      collateFiles (writeRanks f4 fs names parts) names = some file ∧
      fs' = names.foldl (fun fs fn => fs.rm fn)
        ((writeRanks f4 fs names parts).write (pathJoin dir (galOutName ty)) (.h5 file)) ∧
      fs' (Diffstar.Spec.inDir dir (Spec.galCatName ty)) = some (.h5 file) := by
  set names := (List.range r).map fun i => Diffstar.Spec.inDir dir (Spec.galTmpName ty i) with hnames
  have hfmt : ((List.range r).mapM fun i => pyFormat [natStr i, ty.text] (pathJoin dir galTmp)) = some names := by
    apply mapM_pure_some
    intro i _
    rw [pathJoin_eq _ _ (by decide), pyFormat_inDir _ fun c hc => ⟨(plain_char (hp.1 c hc)).2.2.1,
      (plain_char (hp.1 c hc)).2.2.2.1⟩, pyFormat_galTmp]
    rfl
  have hnd : names.Nodup := by
    rw [hnames]
    apply List.Nodup.map _ List.nodup_range
    intro i j hij
    exact (galTmpName_inj (inDir_inj hij)).2
  have hl : names.length = parts.length := by
    rw [hlen, hnames]; simp
  have hmem : ∀ p, p ∈ names ↔ ∃ k < r, Diffstar.Spec.inDir dir (Spec.galTmpName ty k) = p := by
    intro p; simp [hnames]
  have htok : ∀ n ∈ names, IsTok n ∧ '*' ∉ n := by
    intro n hn
    obtain ⟨k, -, rfl⟩ := (hmem n).1 hn
    refine ⟨isTok_inDir hp (galTmpName_head ty k).1 fun c hc => ?_, star_inDir hp fun hc => ?_⟩
    · exact ⟨(galTmpName_chars ty k c hc).1, (galTmpName_chars ty k c hc).2.1⟩
    · exact (galTmpName_chars ty k _ hc).2.2.1 rfl
  have hout : pathJoin dir (galOutName ty) = Diffstar.Spec.inDir dir (Spec.galCatName ty) := by
    rw [pathJoin_eq]
    · rfl
    · cases ty <;> decide
  have hout' : Diffstar.Spec.inDir dir (Spec.galCatName ty) ∉ names := by
    intro hm
    obtain ⟨k, -, e⟩ := (hmem _).1 hm
    exact galCatName_ne ty k (inDir_inj e)
  refine ⟨names, _, hfmt, ?_, rfl, ?_⟩
  · rw [collateFiles_eq f4 names parts fs hnd hl, hcol]
  · rw [rm_names _ _ htok, if_neg hout', hout, Fs.write, if_pos rfl]

/-- C132 (partial: at least 30 galaxies per rank): a test run of the Galacticus script writes, for each rank, the first 30
rows of the part of the catalogue that the rank has in a normal run. -/
theorem C132_galacticus_partial (L : Libs) (o : Opts) (ty : SfhType) (tgt : Target) (mahRows : List MahRow)
    (r n : ℕ) (t0 : ℝ) (hr : 1 ≤ r) (hn : 30 * r ≤ n) (ht0 : tgt.tarr.getLast? = some t0)
    (hins : tgt.sfhInSitu.length = n) (htot : tgt.sfhTot.length = n) (hmah : mahRows.length = n)
    (hrow : ∀ x ∈ tgt.sfhInSitu ++ tgt.sfhTot, x.length = tgt.tarr.length)
    (indir outdir dir : Str) (hdir : dir = if outdir = [] then indir else outdir) (hp : Diffstar.Spec.PlainPath dir)
    (fs : Fs) :
    ∃ (file file' : H5) (halos halos' : List HaloOut) (fs' fs'' : Fs),
      galRun L o ty (writeBlock tgt) mahRows r indir outdir fs = some fs' ∧
      fs' (Diffstar.Spec.inDir dir (Spec.galCatName ty)) = some (.h5 file) ∧ Spec.Describes L.f4 file halos ∧
      halos.length = n ∧
      TestRuns.galRun (some "True".toList) L o ty (writeBlock tgt) mahRows r indir outdir fs = some fs'' ∧
      fs'' (Diffstar.Spec.inDir dir (Spec.galCatName ty)) = some (.h5 file') ∧ Spec.Describes L.f4 file' halos' ∧
      halos'.length = 30 * r ∧
      ∀ k < r, ∀ i < 30, halos'[30 * k + i]? = halos[k * (n / r) + min k (n % r) + i]? := by
  have htn : tgt.tarr ≠ [] := by rintro h; rw [h] at ht0; simp at ht0
  have hlen : (fitColumn ty tgt).length = n := by cases ty <;> assumption
  have hrow' : ∀ x ∈ fitColumn ty tgt, x.length = tgt.tarr.length := by
    intro x hx
    apply hrow
    cases ty
    · exact List.mem_append_left _ hx
    · exact List.mem_append_right _ hx
  have hex : ∀ i, ∃ h, i < n → ∃ sfh row, (fitColumn ty tgt)[i]? = some sfh ∧ mahRows[i]? = some row ∧
      galHalo L o tgt.tarr t0 i sfh (loadRow L.logMah L.defaultMah t0 NPTS_FIT_MIN row) = some h := by
    intro i
    by_cases hi : i < n
    · have a : i < (fitColumn ty tgt).length := by omega
      have b : i < mahRows.length := by omega
      obtain ⟨h, h1, -⟩ := galHalo_row L o tgt.tarr t0 i (fitColumn ty tgt)[i] mahRows[i]
        (hrow' _ (List.getElem_mem a)) htn
      exact ⟨h, fun _ => ⟨_, _, List.getElem?_eq_getElem a, List.getElem?_eq_getElem b, h1⟩⟩
    · exact ⟨⟨0, none⟩, fun h => absurd h hi⟩
  choose E hE using hex
  have hrank : ∀ k < r, galRank L o ty (writeBlock tgt) mahRows r k =
      some (((arraySplit (List.range n) r).getD k []).map E) := fun k hk =>
    galRank_eq L o ty tgt mahRows r k t0 E n hins ht0 hr (by omega) hk hE
  have hq : 30 ≤ n / r := (Nat.le_div_iff_mul_le (by omega)).2 hn
  set E' : ℕ → HaloOut := fun j => E (j / 30 * (n / r) + min (j / 30) (n % r) + j % 30) with hE'
  have htest : ∀ k < r, TestRuns.galRank true L o ty (writeBlock tgt) mahRows r k =
      some (((arraySplit (List.range (30 * r)) r).getD k []).map E') := by
    intro k hk
    have hl1 := arraySplit_get_length (List.range n) r k hk
    have hl2 := arraySplit_get_length (List.range (30 * r)) r k hk
    rw [List.length_range] at hl1 hl2
    have e1 : 30 * r / r = 30 := Nat.mul_div_cancel _ (by omega)
    have e2 : 30 * r % r = 0 := Nat.mul_mod_left _ _
    rw [e1, e2, if_neg (by omega)] at hl2
    rw [galRank_test L o ty _ mahRows r k _ (hrank k hk), List.length_map, hl1, if_pos (by omega)]
    congr 1
    apply List.ext_getElem?
    intro i
    by_cases hi : i < 30
    · rw [List.getElem?_take_of_lt hi, List.getElem?_map, List.getElem?_map, split_getElem hr hk (by omega),
        split_getElem hr hk (by rw [e1]; exact hi), e1, e2]
      simp only [hE', Option.map_some, Nat.min_zero, Nat.add_zero]
      congr 2
      have a1 : (k * 30 + i) / 30 = k := by omega
      have a2 : (k * 30 + i) % 30 = i := by omega
      rw [a1, a2]
    · rw [List.getElem?_eq_none (by simp; omega), List.getElem?_eq_none (by rw [List.length_map, hl2]; omega)]
  obtain ⟨file, hf, hd⟩ := collate_split L.f4 n r hr (by omega) E _ hrank
  obtain ⟨file', hf', hd'⟩ := collate_split L.f4 (30 * r) r hr (by omega) E' _ htest
  obtain ⟨parts, hparts, hcol⟩ := Option.bind_eq_some_iff.1 hf
  obtain ⟨parts', hparts', hcol'⟩ := Option.bind_eq_some_iff.1 hf'
  obtain ⟨names, fs1, a1, a2, a3, a4⟩ := gal_files L.f4 ty r dir hp parts (parts_length hparts) file hcol fs
  obtain ⟨names', fs2, b1, b2, b3, b4⟩ := gal_files L.f4 ty r dir hp parts' (parts_length hparts') file' hcol' fs
  refine ⟨file, file', _, _, fs1, fs2, ?_, a4, hd, by simp, ?_, b4, hd', by simp, ?_⟩
  · unfold galRun
    simp only [← hdir, hparts, a1, Option.bind_eq_bind, Option.bind_some, a2, a3]
    rfl
  · have e' : TestRuns.testOption (some "True".toList) = true := by decide
    unfold TestRuns.galRun
    rw [e']
    simp only [← hdir, hparts', b1, Option.bind_eq_bind, Option.bind_some, b2, b3]
    rfl
  · intro k hk i hi
    have hlt : 30 * k + i < 30 * r := by omega
    have hk1 : (k + 1) * (n / r) ≤ r * (n / r) := Nat.mul_le_mul_right _ hk
    have hk2 : r * (n / r) + n % r = n := Nat.div_add_mod n r
    have hlt2 : k * (n / r) + min k (n % r) + i < n := by
      have := Nat.min_le_right k (n % r)
      rw [Nat.add_mul, Nat.one_mul] at hk1
      omega
    rw [List.getElem?_map, List.getElem?_map, List.getElem?_range hlt, List.getElem?_range hlt2]
    simp only [hE', Option.map_some]
    have c1 : (30 * k + i) / 30 = k := by omega
    have c2 : (30 * k + i) % 30 = i := by omega
    rw [c1, c2]

/-- C132 fails: a test run writes under the name of the catalogue, so that the catalogue of a normal run is replaced by one of
30 galaxies per rank. -/
theorem C132_overwrites_violated (L : Libs) (o : Opts) (ty : SfhType) (tgt : Target) (mahRows : List MahRow)
    (r n : ℕ) (t0 : ℝ) (hr : 1 ≤ r) (hn : 30 * r < n) (ht0 : tgt.tarr.getLast? = some t0)
    (hins : tgt.sfhInSitu.length = n) (htot : tgt.sfhTot.length = n) (hmah : mahRows.length = n)
    (hrow : ∀ x ∈ tgt.sfhInSitu ++ tgt.sfhTot, x.length = tgt.tarr.length)
    (indir outdir dir : Str) (hdir : dir = if outdir = [] then indir else outdir) (hp : Diffstar.Spec.PlainPath dir)
    (fs : Fs) :
    ∃ (file file' : H5) (ids ids' : List ℤ) (fs' fs'' : Fs),
      galRun L o ty (writeBlock tgt) mahRows r indir outdir fs = some fs' ∧
      fs' (Diffstar.Spec.inDir dir (Spec.galCatName ty)) = some (.h5 file) ∧
      file.get "halo_id".toList = some (.int ids) ∧ ids.length = n ∧
      TestRuns.galRun (some "True".toList) L o ty (writeBlock tgt) mahRows r indir outdir fs' = some fs'' ∧
      fs'' (Diffstar.Spec.inDir dir (Spec.galCatName ty)) = some (.h5 file') ∧
      file'.get "halo_id".toList = some (.int ids') ∧ ids'.length = 30 * r := by
  obtain ⟨file, -, halos, -, fs', -, h1, h2, h3, h4, -⟩ := C132_galacticus_partial L o ty tgt mahRows r n t0 hr hn.le ht0
    hins htot hmah hrow indir outdir dir hdir hp fs
  obtain ⟨-, file', -, halos', -, fs'', -, -, -, -, h5, h6, h7, h8, -⟩ := C132_galacticus_partial L o ty tgt mahRows r n t0 hr
    hn.le ht0 hins htot hmah hrow indir outdir dir hdir hp fs'
  exact ⟨file, file', _, _, fs', fs'', h1, h2, h3.1, by simp [h4], h5, h6, h7.1, by simp [h8]⟩

/-- 35 galaxies, one rank. -/
example : ∃ (tgt : Target) (mahRows : List MahRow) (t0 : ℝ), 1 ≤ 1 ∧ 30 * 1 < 35 ∧ tgt.tarr.getLast? = some t0 ∧
    tgt.sfhInSitu.length = 35 ∧ tgt.sfhTot.length = 35 ∧ mahRows.length = 35 ∧
    ∀ x ∈ tgt.sfhInSitu ++ tgt.sfhTot, x.length = tgt.tarr.length := by
  refine ⟨⟨[1, 10], List.replicate 35 [1, 2], List.replicate 35 [3, 4], List.replicate 35 1⟩,
    List.replicate 35 ⟨⟨12, 0.3, 2, 1, 14⟩, 0.1, 40⟩, 10, by simp, by simp, rfl, by simp, by simp, by simp, ?_⟩
  intro x hx
  simp at hx
  rcases hx with rfl | rfl <;> rfl

end Diffstar.Props
