import Verif.Model.Interrupt
import Verif.Props.RankFiles

/-!
C131: schedules and crash points of the Galacticus fitting script.
-/

namespace Diffstar.Props

open Diffstar Diffstar.Text Diffstar.Fit Diffstar.Output Diffstar.Load Diffstar.Galcus Diffstar.Scripts
open Diffstar.RankFiles Diffstar.Interrupt

/-! ### Interleavings -/

theorem mem_interleaved {ranks : List (List Act)} {s : List Act} (h : Interleaved ranks s) :
    ∀ a ∈ s, ∃ l ∈ ranks, a ∈ l := by
  induction h with
  | done ranks h => simp
  | step pre a l post s h ih =>
    intro b hb
    rcases List.mem_cons.1 hb with rfl | hb
    · exact ⟨b :: l, by simp, by simp⟩
    · obtain ⟨m, hm, hbm⟩ := ih b hb
      simp only [List.mem_append, List.mem_cons] at hm
      rcases hm with hm | rfl | hm
      · exact ⟨m, by simp [hm], hbm⟩
      · exact ⟨a :: m, by simp, by simp [hbm]⟩
      · exact ⟨m, by simp [hm], hbm⟩

theorem filter_interleaved {ranks : List (List Act)} {s : List Act} (h : Interleaved ranks s) (P : Act → Bool) :
    Interleaved (ranks.map (List.filter P)) (s.filter P) := by
  induction h with
  | done ranks h =>
    apply Interleaved.done
    intro l hl
    obtain ⟨m, hm, rfl⟩ := List.mem_map.1 hl
    rw [h m hm]; rfl
  | step pre a l post s h ih =>
    rw [List.map_append, List.map_cons] at ih ⊢
    by_cases ha : P a = true
    · rw [List.filter_cons_of_pos ha, List.filter_cons_of_pos ha]
      exact Interleaved.step _ _ _ _ _ ih
    · rw [List.filter_cons_of_neg ha, List.filter_cons_of_neg ha]
      exact ih

theorem interleaved_single {ranks : List (List Act)} {s : List Act} (h : Interleaved ranks s) (i : ℕ) (l : List Act)
    (hi : ranks[i]? = some l) (hj : ∀ j, j ≠ i → ∀ l', ranks[j]? = some l' → l' = []) : s = l := by
  induction h generalizing l with
  | done ranks h => rw [h l (List.mem_of_getElem? hi)]
  | step pre a l0 post s h ih =>
    have hat : (pre ++ (a :: l0) :: post)[pre.length]? = some (a :: l0) := by simp
    have hii : i = pre.length := by
      by_contra hne
      have := hj pre.length (fun e => hne e.symm) _ hat
      exact absurd this (by simp)
    subst hii
    rw [hat] at hi
    rw [← Option.some.inj hi]
    congr 1
    apply ih l0 (by simp)
    intro j hne l' hl'
    apply hj j hne l'
    rw [← hl']
    rcases Nat.lt_or_ge j pre.length with hlt | hge
    · rw [List.getElem?_append_left hlt, List.getElem?_append_left hlt]
    · rw [List.getElem?_append_right hge, List.getElem?_append_right hge]
      obtain ⟨d, hd⟩ : ∃ d, j - pre.length = d + 1 := ⟨j - pre.length - 1, by omega⟩
      rw [hd]; rfl

/-- The ranks can run one after the other. -/
theorem interleaved_flatten (m : ℕ) (ranks : List (List Act)) :
    Interleaved (List.replicate m [] ++ ranks) ranks.flatten := by
  induction ranks generalizing m with
  | nil =>
    apply Interleaved.done
    intro l hl
    simp at hl
    exact hl.2
  | cons l ls ih =>
    rw [List.flatten_cons]
    induction l with
    | nil =>
      have := ih (m + 1)
      rw [List.replicate_succ', List.append_assoc] at this
      exact this
    | cons a l ih2 =>
      exact Interleaved.step _ _ _ _ _ ih2

/-! ### Steps -/

/-- The steps that concern the text file `n`. -/
def onFile (n : Str) : Act → Bool
  | .create p => p == n
  | .append p _ => p == n
  | .createH5 _ => false
  | .addCol _ _ => false
  | .rm _ => false

theorem after_cons (fs : Fs) (a : Act) (l : List Act) : after fs (a :: l) = after (a.apply fs) l := rfl

theorem after_append (fs : Fs) (l l' : List Act) : after fs (l ++ l') = after (after fs l) l' := by
  unfold after; rw [List.foldl_append]

/-- Steps of text files. -/
def textStep : Act → Bool
  | .create _ => true
  | .append _ _ => true
  | _ => false

theorem apply_other (fs : Fs) (a : Act) (q : Str) (ht : textStep a = true) (h : onFile q a = false) :
    a.apply fs q = fs q := by
  cases a with
  | create p =>
    simp only [onFile, beq_eq_false_iff_ne] at h
    show (if q = p then _ else fs q) = fs q
    rw [if_neg fun e => h e.symm]
  | append p s =>
    simp only [onFile, beq_eq_false_iff_ne] at h
    simp only [Act.apply]
    rcases hp : fs p with _ | (t | t)
    · rfl
    · show (if q = p then _ else fs q) = fs q
      rw [if_neg fun e => h e.symm]
    · rfl
  | createH5 p => cases ht
  | addCol p c => cases ht
  | rm p => cases ht

theorem apply_congr (fs fs' : Fs) (a : Act) (q : Str) (h : onFile q a = true) (e : fs q = fs' q) :
    a.apply fs q = a.apply fs' q := by
  cases a with
  | create p =>
    simp only [onFile, beq_iff_eq] at h
    subst h
    simp [Act.apply, Fs.write]
  | append p s =>
    simp only [onFile, beq_iff_eq] at h
    subst h
    simp only [Act.apply]
    rw [e]
    rcases hp : fs' p with _ | (t | t)
    · exact e
    · simp [Fs.write]
    · exact e
  | createH5 p => cases h
  | addCol p c => cases h
  | rm p => cases h

/-- A text file depends only on its own steps. -/
theorem after_filter (fs : Fs) (l : List Act) (q : Str) (ht : ∀ a ∈ l, textStep a = true) :
    after fs l q = after fs (l.filter (onFile q)) q := by
  have key : ∀ (l : List Act) (fs fs' : Fs), (∀ a ∈ l, textStep a = true) → fs q = fs' q →
      after fs l q = after fs' (l.filter (onFile q)) q := by
    intro l
    induction l with
    | nil => intro fs fs' _ e; exact e
    | cons a l ih =>
      intro fs fs' ht e
      rw [after_cons]
      by_cases ha : onFile q a = true
      · rw [List.filter_cons_of_pos ha, after_cons]
        exact ih _ _ (fun b hb => ht b (by simp [hb])) (apply_congr fs fs' a q ha e)
      · rw [List.filter_cons_of_neg ha]
        refine ih _ _ (fun b hb => ht b (by simp [hb])) ?_
        rw [apply_other fs a q (ht a (by simp)) (by simpa using ha), e]
  exact key l fs fs ht rfl

theorem after_appends (n : Str) (pieces : List Str) (fs : Fs) (t : Str) (h : fs n = some (.text t)) :
    after fs (pieces.map (Act.append n)) n = some (.text (t ++ pieces.flatten)) := by
  induction pieces generalizing fs t with
  | nil => simpa [after] using h
  | cons s ss ih =>
    rw [List.map_cons, after_cons, ih _ (t ++ s)]
    · simp
    · simp [Act.apply, h, Fs.write]

theorem after_rankActs (n : Str) (pieces : List Str) (fs : Fs) :
    after fs (rankActs n pieces) n = some (.text pieces.flatten) := by
  unfold rankActs
  rw [after_cons, after_appends n pieces _ []]
  · simp
  · simp [Act.apply, Fs.write]

theorem rankActs_onFile (n q : Str) (pieces : List Str) :
    (rankActs n pieces).filter (onFile q) = if n = q then rankActs n pieces else [] := by
  unfold rankActs
  split_ifs with h
  · rw [List.filter_eq_self]
    intro a ha
    rcases List.mem_cons.1 ha with rfl | ha
    · simp [onFile, h]
    · obtain ⟨s, -, rfl⟩ := List.mem_map.1 ha
      simp [onFile, h]
  · rw [List.filter_eq_nil_iff]
    intro a ha
    rcases List.mem_cons.1 ha with rfl | ha
    · simp [onFile, h]
    · obtain ⟨s, -, rfl⟩ := List.mem_map.1 ha
      simp [onFile, h]

theorem rankActs_text {names : List Str} {pieces : List (List Str)} {a : Act} {l : List Act}
    (hl : l ∈ List.zipWith rankActs names pieces) (ha : a ∈ l) : textStep a = true ∧ ∃ n ∈ names, onFile n a = true := by
  obtain ⟨i, hi, rfl⟩ := List.getElem_of_mem hl
  rw [List.getElem_zipWith] at ha
  simp only [List.length_zipWith] at hi
  have hn : names[i]'(by omega) ∈ names := List.getElem_mem _
  rcases List.mem_cons.1 ha with rfl | ha
  · exact ⟨rfl, _, hn, by simp [onFile]⟩
  · obtain ⟨s, -, rfl⟩ := List.mem_map.1 ha
    exact ⟨rfl, _, hn, by simp [onFile]⟩

theorem onFile_unique {a : Act} {p q : Str} (h : onFile p a = true) (h' : onFile q a = true) : p = q := by
  cases a <;> simp_all [onFile]

/-- While the ranks are writing, other files do not change. -/
theorem after_sched_other {names : List Str} {pieces : List (List Str)} {sched : List Act}
    (h : Interleaved (List.zipWith rankActs names pieces) sched) (fs : Fs) (k : ℕ) (q : Str) (hq : q ∉ names) :
    after fs (sched.take k) q = fs q := by
  have hs : ∀ a ∈ sched.take k, textStep a = true ∧ ∃ n ∈ names, onFile n a = true := by
    intro a ha
    obtain ⟨l, hl, hal⟩ := mem_interleaved h a (List.mem_of_mem_take ha)
    exact rankActs_text hl hal
  rw [after_filter _ _ _ fun a ha => (hs a ha).1]
  have : (sched.take k).filter (onFile q) = [] := by
    rw [List.filter_eq_nil_iff]
    intro a ha hqa
    obtain ⟨-, n, hn, hna⟩ := hs a ha
    exact hq (onFile_unique hqa hna ▸ hn)
  rw [this]
  rfl

/-- Whatever the order of the steps, the ranks leave their texts. -/
theorem after_sched (f4 : F → F) {names : List Str} {pieces : List (List Str)} {parts : List (List HaloOut)}
    {sched : List Act} (hnd : names.Nodup) (hlen : names.length = parts.length)
    (hp : pieces.map List.flatten = parts.map (rankFile f4))
    (h : Interleaved (List.zipWith rankActs names pieces) sched) (fs : Fs) :
    after fs sched = writeRanks f4 fs names parts := by
  funext q
  have hpl : pieces.length = parts.length := by
    have := congrArg List.length hp
    simpa using this
  by_cases hq : q ∈ names
  · obtain ⟨i, hi, rfl⟩ := List.getElem_of_mem hq
    have hi2 : i < pieces.length := by omega
    have hi3 : i < parts.length := by omega
    have htx : ∀ a ∈ sched, textStep a = true := by
      intro a ha
      obtain ⟨l, hl, hal⟩ := mem_interleaved h a ha
      exact (rankActs_text hl hal).1
    rw [after_filter _ _ _ htx, interleaved_single (filter_interleaved h (onFile names[i])) i (rankActs names[i] pieces[i]),
      after_rankActs]
    · have h1 := (mapM_some_get _ _ _ (writeRanks_read f4 names parts fs hnd hlen)).2 i names[i] (by simp [hi])
      obtain ⟨b, hb, hb2⟩ := h1
      have hb3 : b = pieces[i].flatten := by
        rw [← hp] at hb2
        simp only [List.getElem?_map, List.getElem?_eq_getElem hi2, Option.map_some, Option.some.injEq] at hb2
        exact hb2.symm
      unfold Fs.readText at hb
      split at hb
      · rename_i s hs
        rw [hs, ← hb3, Option.some.inj hb]
      · cases hb
    · rw [List.getElem?_map, List.getElem?_eq_getElem (by simp; omega), List.getElem_zipWith, Option.map_some,
        rankActs_onFile, if_pos rfl]
    · intro j hj l' hl'
      rw [List.getElem?_map, Option.map_eq_some_iff] at hl'
      obtain ⟨l0, hl0, rfl⟩ := hl'
      obtain ⟨hj2, rfl⟩ := List.getElem?_eq_some_iff.1 hl0
      rw [List.getElem_zipWith, rankActs_onFile, if_neg]
      intro e
      exact hj ((List.Nodup.getElem_inj_iff hnd).1 e)
  · have := after_sched_other h fs sched.length q hq
    rw [List.take_length] at this
    rw [this, writeRanks_of_not_mem _ _ _ _ _ hq]

/-! ### The collated file -/

theorem after_addCols (out : Str) (cols : List (Str × Col)) (fs : Fs) (f : H5) (h : fs out = some (.h5 f)) :
    after fs (cols.map (Act.addCol out)) = fs.write out (.h5 (f ++ cols)) := by
  induction cols generalizing fs f with
  | nil =>
    funext q
    simp only [List.map_nil, List.append_nil, after, List.foldl_nil, Fs.write]
    split_ifs with e
    · rw [e, h]
    · rfl
  | cons c cs ih =>
    rw [List.map_cons, after_cons, ih _ (f ++ [c])]
    · funext q
      simp only [Act.apply, h, Fs.write, List.append_assoc, List.singleton_append]
      split_ifs <;> rfl
    · simp [Act.apply, h, Fs.write]

theorem after_createH5 (out : Str) (cols : List (Str × Col)) (fs : Fs) :
    after fs (.createH5 out :: cols.map (Act.addCol out)) = fs.write out (.h5 cols) := by
  rw [after_cons, after_addCols out cols _ []]
  · funext q
    simp only [Act.apply, Fs.write, List.nil_append]
    split_ifs <;> rfl
  · simp [Act.apply, Fs.write]

theorem after_rms (names : List Str) (fs : Fs) :
    after fs (names.map Act.rm) = names.foldl (fun fs fn => fs.rm fn) fs := by
  unfold after
  rw [List.foldl_map]
  rfl

/-- The states during the collation. -/
theorem after_collate_take (out : Str) (file : H5) (names : List Str) (fs : Fs) (k : ℕ) :
    after fs ((collateActs out file names).take k) = fs ∨
    (∃ j, after fs ((collateActs out file names).take k) = fs.write out (.h5 (file.take j))) ∨
    ∃ j, after fs ((collateActs out file names).take k) =
      (names.take j).foldl (fun fs fn => fs.rm fn) (fs.write out (.h5 file)) := by
  unfold collateActs
  rw [List.take_append]
  cases k with
  | zero => left; simp [after]
  | succ k =>
    right
    rcases Nat.lt_or_ge k file.length with h | h
    · left
      refine ⟨k, ?_⟩
      have e : (k + 1) - (Act.createH5 out :: file.map (Act.addCol out)).length = 0 := by simp; omega
      rw [e, List.take_zero, List.append_nil, List.take_succ_cons, ← List.map_take, after_createH5]
    · right
      refine ⟨(k + 1) - (Act.createH5 out :: file.map (Act.addCol out)).length, ?_⟩
      rw [List.take_of_length_le (by simp; omega), ← List.map_take, after_append, after_createH5, after_rms]


/-- The name of the catalogue written by the Galacticus script. -/
def Spec.galCatName (ty : SfhType) : Str := "diffstar_fits_".toList ++ ty.text ++ ".hdf5".toList

theorem galCatName_head (ty : SfhType) : (Spec.galCatName ty).head? = some 'd' := by
  unfold Spec.galCatName
  rw [List.append_assoc, show "diffstar_fits_".toList = 'd' :: "iffstar_fits_".toList by decide]
  rfl

theorem galCatName_ne (ty : SfhType) (k : ℕ) : Spec.galTmpName ty k ≠ Spec.galCatName ty := by
  intro e
  have h1 := (galTmpName_head ty k).2
  rw [e, galCatName_head] at h1
  exact absurd h1 (by decide)

/-- What a run consists of. -/
theorem run_data {L : Libs} {o : Opts} {ty : SfhType} {block : Flat Cell} {mahRows : List MahRow} {r : ℕ}
    {indir outdir dir : Str} (hdir : dir = if outdir = [] then indir else outdir) (hp : Diffstar.Spec.PlainPath dir)
    {fs : Fs} {steps : List Act} (h : IsRun L o ty block mahRows r indir outdir fs steps) :
    ∃ (names : List Str) (sched : List Act) (file : H5),
      (∀ p, p ∈ names ↔ ∃ k < r, Diffstar.Spec.inDir dir (Spec.galTmpName ty k) = p) ∧
      (∀ n ∈ names, IsTok n ∧ '*' ∉ n) ∧ Diffstar.Spec.inDir dir (Spec.galCatName ty) ∉ names ∧
      galNames ty r dir = some names ∧
      galScript L o ty block mahRows r = some file ∧
      steps = sched ++ collateActs (Diffstar.Spec.inDir dir (Spec.galCatName ty)) file names ∧
      (∀ k, ∀ q, q ∉ names → after fs (sched.take k) q = fs q) ∧
      collateFiles (after fs sched) names = some file ∧
      (∀ n ∈ names, ∃ t, after fs sched n = some (.text t)) ∧
      galRun L o ty block mahRows r indir outdir fs = some (after fs steps) := by
  unfold IsRun at h
  simp only [← hdir] at h
  obtain ⟨parts, names', pieces, file, sched, hparts, hn, hpieces, hint, hcol, rfl⟩ := h
  set names := (List.range r).map fun i => Diffstar.Spec.inDir dir (Spec.galTmpName ty i) with hnames
  have hfmt : ((List.range r).mapM fun i => pyFormat [natStr i, ty.text] (pathJoin dir galTmp)) = some names := by
    apply mapM_pure_some
    intro i _
    rw [pathJoin_eq _ _ (by decide), pyFormat_inDir _ fun c hc => ⟨(plain_char (hp.1 c hc)).2.2.1,
      (plain_char (hp.1 c hc)).2.2.2.1⟩, pyFormat_galTmp]
    rfl
  have hn' : names' = names := by
    unfold galNames at hn
    rw [hfmt] at hn
    exact (Option.some.inj hn).symm
  subst hn'
  have hnd : names.Nodup := by
    rw [hnames]
    apply List.Nodup.map _ List.nodup_range
    intro i j hij
    exact (galTmpName_inj (inDir_inj hij)).2
  have hlen : names.length = parts.length := by
    rw [parts_length hparts, hnames]; simp
  have hmem : ∀ p, p ∈ names ↔ ∃ k < r, Diffstar.Spec.inDir dir (Spec.galTmpName ty k) = p := by
    intro p; simp [hnames]
  have htok : ∀ n ∈ names, IsTok n ∧ '*' ∉ n := by
    intro n hn
    obtain ⟨k, -, rfl⟩ := (hmem n).1 hn
    refine ⟨isTok_inDir hp (galTmpName_head ty k).1 fun c hc => ?_, star_inDir hp fun hc => ?_⟩
    · exact ⟨(galTmpName_chars ty k c hc).1, (galTmpName_chars ty k c hc).2.1⟩
    · exact (galTmpName_chars ty k _ hc).2.2.1 rfl
  have hout : pathJoin dir (galOutName ty) = Diffstar.Spec.inDir dir (Spec.galCatName ty) := by
    rw [pathJoin_eq]
    · rfl
    · cases ty <;> decide
  have hout' : Diffstar.Spec.inDir dir (Spec.galCatName ty) ∉ names := by
    intro hm
    obtain ⟨k, -, e⟩ := (hmem _).1 hm
    exact galCatName_ne ty k (inDir_inj e)
  have hs := after_sched L.f4 hnd hlen hpieces hint fs
  have hcol' := hcol
  rw [hs, collateFiles_eq L.f4 names parts fs hnd hlen] at hcol'
  refine ⟨names, sched, file, hmem, htok, hout', hn, ?_, ?_, ?_, hcol, ?_, ?_⟩
  · unfold galScript
    rw [hparts]
    exact hcol'
  · rw [hout]
  · intro k q hq
    exact after_sched_other hint fs k q hq
  · intro n hn
    have h1 : ∃ l, names.mapM (after fs sched).readText = some l := by
      rw [hs, writeRanks_read L.f4 names parts fs hnd hlen]
      exact ⟨_, rfl⟩
    obtain ⟨l, hl⟩ := h1
    obtain ⟨i, hi, rfl⟩ := List.getElem_of_mem hn
    obtain ⟨b, hb, -⟩ := (mapM_some_get _ _ _ hl).2 i names[i] (by simp [hi])
    unfold Fs.readText at hb
    split at hb
    · rename_i s hs'
      exact ⟨s, hs'⟩
    · cases hb
  · unfold galRun
    simp only [← hdir, hparts, hfmt, Option.bind_eq_bind, Option.bind_some]
    rw [← hs, hcol, Option.bind_some, after_append, collateActs, List.cons_append, ← List.cons_append, after_append,
      after_createH5, after_rms]
    rfl

/-- C131: the order in which the ranks run and the sizes of the pieces in which they write do not matter: every complete
run leaves the same file system, the one of C129. -/
theorem C131_schedule_independent (L : Libs) (o : Opts) (ty : SfhType) (block : Flat Cell) (mahRows : List MahRow) (r : ℕ)
    (indir outdir dir : Str) (hdir : dir = if outdir = [] then indir else outdir) (hp : Diffstar.Spec.PlainPath dir)
    (fs : Fs) (steps : List Act) (h : IsRun L o ty block mahRows r indir outdir fs steps) :
    ∃ file, galScript L o ty block mahRows r = some file ∧
      after fs steps (Diffstar.Spec.inDir dir (Spec.galCatName ty)) = some (.h5 file) ∧
      (∀ k < r, after fs steps (Diffstar.Spec.inDir dir (Spec.galTmpName ty k)) = none) ∧
      ∀ p, p ≠ Diffstar.Spec.inDir dir (Spec.galCatName ty) →
        (∀ k < r, p ≠ Diffstar.Spec.inDir dir (Spec.galTmpName ty k)) → after fs steps p = fs p := by
  obtain ⟨names, sched, file, -, -, -, -, hscript, -, -, -, -, hrun⟩ := run_data hdir hp h
  obtain ⟨fs', h1, h2, h3, h4⟩ := C129_galacticus_partial L o ty block mahRows r indir outdir dir hdir hp file hscript fs
  rw [hrun] at h1
  obtain rfl := Option.some.inj h1
  exact ⟨file, hscript, h2, h3, h4⟩

/-- C131: whenever a run of the Galacticus script is interrupted, the files other than the catalogue and the text files of the
ranks are as before. The catalogue is as before, or complete, or has the first few of its columns; in the last case the text
files are still complete: collating them gives the catalogue. -/
theorem C131_crash_points_partial (L : Libs) (o : Opts) (ty : SfhType) (block : Flat Cell) (mahRows : List MahRow) (r : ℕ)
    (indir outdir dir : Str) (hdir : dir = if outdir = [] then indir else outdir) (hp : Diffstar.Spec.PlainPath dir)
    (fs : Fs) (steps : List Act) (h : IsRun L o ty block mahRows r indir outdir fs steps) (k : ℕ) :
    ∃ file, galScript L o ty block mahRows r = some file ∧
      (∀ p, p ≠ Diffstar.Spec.inDir dir (Spec.galCatName ty) →
        (∀ k < r, p ≠ Diffstar.Spec.inDir dir (Spec.galTmpName ty k)) → after fs (steps.take k) p = fs p) ∧
      (after fs (steps.take k) (Diffstar.Spec.inDir dir (Spec.galCatName ty)) =
          fs (Diffstar.Spec.inDir dir (Spec.galCatName ty)) ∨
        after fs (steps.take k) (Diffstar.Spec.inDir dir (Spec.galCatName ty)) = some (.h5 file) ∨
        ∃ j, after fs (steps.take k) (Diffstar.Spec.inDir dir (Spec.galCatName ty)) = some (.h5 (file.take j)) ∧
          collateFiles (after fs (steps.take k))
            ((List.range r).map fun i => Diffstar.Spec.inDir dir (Spec.galTmpName ty i)) = some file) := by
  obtain ⟨names, sched, file, hmem, htok, hout, hnames, hscript, rfl, hother, hcol, htext, -⟩ := run_data hdir hp h
  have hne : ∀ {p}, (∀ k < r, p ≠ Diffstar.Spec.inDir dir (Spec.galTmpName ty k)) → p ∉ names := by
    intro p h1 hm
    obtain ⟨k, hk, e⟩ := (hmem p).1 hm
    exact h1 k hk e.symm
  have hnm : names = (List.range r).map fun i => Diffstar.Spec.inDir dir (Spec.galTmpName ty i) := by
    have hfmt : galNames ty r dir = some ((List.range r).map fun i => Diffstar.Spec.inDir dir (Spec.galTmpName ty i)) := by
      apply mapM_pure_some
      intro i _
      rw [pathJoin_eq _ _ (by decide), pyFormat_inDir _ fun c hc => ⟨(plain_char (hp.1 c hc)).2.2.1,
        (plain_char (hp.1 c hc)).2.2.2.1⟩, pyFormat_galTmp]
      rfl
    exact Option.some.inj (hnames.symm.trans hfmt)
  refine ⟨file, hscript, ?_⟩
  rw [List.take_append, after_append, ← hnm]
  rcases Nat.lt_or_ge k sched.length with hk | hk
  · rw [Nat.sub_eq_zero_of_le hk.le, List.take_zero]
    exact ⟨fun p _ h2 => hother k p (hne h2), Or.inl (hother k _ hout)⟩
  · rw [List.take_of_length_le hk]
    have hsch : ∀ q, q ∉ names → after fs sched q = fs q := by
      intro q hq
      have := hother sched.length q hq
      rwa [List.take_length] at this
    rcases after_collate_take (Diffstar.Spec.inDir dir (Spec.galCatName ty)) file names (after fs sched) (k - sched.length)
      with e | ⟨j, e⟩ | ⟨j, e⟩
    · rw [e]
      exact ⟨fun p _ h2 => hsch p (hne h2), Or.inl (hsch _ hout)⟩
    · rw [e]
      refine ⟨fun p h1 h2 => ?_, Or.inr (Or.inr ⟨j, ?_, ?_⟩)⟩
      · rw [Fs.write, if_neg h1, hsch p (hne h2)]
      · rw [Fs.write, if_pos rfl]
      · have e2 : names.mapM ((after fs sched).write (Diffstar.Spec.inDir dir (Spec.galCatName ty)) (.h5 (file.take j))).readText =
            names.mapM (after fs sched).readText := by
          have key : ∀ l : List Str, (∀ n ∈ l, n ∈ names) →
              l.mapM ((after fs sched).write (Diffstar.Spec.inDir dir (Spec.galCatName ty)) (.h5 (file.take j))).readText =
                l.mapM (after fs sched).readText := by
            intro l
            induction l with
            | nil => intro _; rfl
            | cons n l ih =>
              intro hl
              have hn : n ≠ Diffstar.Spec.inDir dir (Spec.galCatName ty) := fun e => hout (e ▸ hl n (by simp))
              rw [List.mapM_cons, List.mapM_cons, ih fun m hm => hl m (by simp [hm])]
              simp only [Fs.readText, Fs.write, if_neg hn]
          exact key names fun n hn => hn
        unfold collateFiles at hcol ⊢
        rw [e2]
        exact hcol
    · rw [e]
      have htok' : ∀ n ∈ names.take j, IsTok n ∧ '*' ∉ n := fun n hn => htok n (List.mem_of_mem_take hn)
      refine ⟨fun p h1 h2 => ?_, Or.inr (Or.inl ?_)⟩
      · rw [rm_names _ _ htok', if_neg fun hm => hne h2 (List.mem_of_mem_take hm), Fs.write, if_neg h1, hsch p (hne h2)]
      · rw [rm_names _ _ htok', if_neg fun hm => hout (List.mem_of_mem_take hm), Fs.write, if_pos rfl]

/-- C131: an interrupted run can be repeated: running the script again with the same number of ranks gives exactly the file
system that an uninterrupted run would have given. -/
theorem C131_rerun (L : Libs) (o : Opts) (ty : SfhType) (block : Flat Cell) (mahRows : List MahRow) (r : ℕ)
    (indir outdir dir : Str) (hdir : dir = if outdir = [] then indir else outdir) (hp : Diffstar.Spec.PlainPath dir)
    (fs : Fs) (steps steps' : List Act) (h : IsRun L o ty block mahRows r indir outdir fs steps) (k : ℕ)
    (h' : IsRun L o ty block mahRows r indir outdir (after fs (steps.take k)) steps') :
    after (after fs (steps.take k)) steps' = after fs steps := by
  obtain ⟨f1, e1, a1, a2, a3⟩ := C131_schedule_independent L o ty block mahRows r indir outdir dir hdir hp fs steps h
  obtain ⟨f2, e2, b1, b2, b3⟩ := C131_schedule_independent L o ty block mahRows r indir outdir dir hdir hp _ steps' h'
  obtain ⟨f3, -, c1, -⟩ := C131_crash_points_partial L o ty block mahRows r indir outdir dir hdir hp fs steps h k
  obtain rfl := Option.some.inj (e1.symm.trans e2)
  funext p
  by_cases hp1 : p = Diffstar.Spec.inDir dir (Spec.galCatName ty)
  · rw [hp1, a1, b1]
  · by_cases hp2 : ∀ k < r, p ≠ Diffstar.Spec.inDir dir (Spec.galTmpName ty k)
    · rw [b3 p hp1 hp2, c1 p hp1 hp2, a3 p hp1 hp2]
    · push Not at hp2
      obtain ⟨j, hj, rfl⟩ := hp2
      rw [a2 j hj, b2 j hj]

/-- C131: there are runs, from any file system, if the collation succeeds (C110); e.g. the ranks can run one after the other. -/
theorem C131_runs_exist (L : Libs) (o : Opts) (ty : SfhType) (block : Flat Cell) (mahRows : List MahRow) (r : ℕ)
    (indir outdir dir : Str) (hdir : dir = if outdir = [] then indir else outdir) (hp : Diffstar.Spec.PlainPath dir)
    (file : H5) (h : galScript L o ty block mahRows r = some file) (fs : Fs) :
    ∃ steps, IsRun L o ty block mahRows r indir outdir fs steps := by
  unfold galScript at h
  obtain ⟨parts, hparts, hcol⟩ := Option.bind_eq_some_iff.1 h
  set names := (List.range r).map fun i => Diffstar.Spec.inDir dir (Spec.galTmpName ty i) with hnames
  have hfmt : galNames ty r dir = some names := by
    apply mapM_pure_some
    intro i _
    rw [pathJoin_eq _ _ (by decide), pyFormat_inDir _ fun c hc => ⟨(plain_char (hp.1 c hc)).2.2.1,
      (plain_char (hp.1 c hc)).2.2.2.1⟩, pyFormat_galTmp]
    rfl
  have hnd : names.Nodup := by
    apply List.Nodup.map _ List.nodup_range
    intro i j hij
    exact (galTmpName_inj (inDir_inj hij)).2
  have hlen : names.length = parts.length := by
    rw [parts_length hparts, hnames]; simp
  have hpieces : (parts.map fun p => [rankFile L.f4 p]).map List.flatten = parts.map (rankFile L.f4) := by
    rw [List.map_map]
    apply List.map_congr_left
    intro p _
    simp
  have hint := interleaved_flatten 0 (List.zipWith rankActs names (parts.map fun p => [rankFile L.f4 p]))
  rw [List.replicate_zero, List.nil_append] at hint
  refine ⟨_, parts, names, _, file, _, hparts, ?_, hpieces, hint, ?_, rfl⟩
  · rw [← hdir]; exact hfmt
  · rw [after_sched L.f4 hnd hlen hpieces hint fs, collateFiles_eq L.f4 names parts fs hnd hlen]
    exact hcol

/-- C131: every run goes through a state in which the catalogue of an earlier run is lost and the new one has no column yet:
`write_collated_data` writes under the final name. -/
theorem C131_catalogue_kept_violated (L : Libs) (o : Opts) (ty : SfhType) (block : Flat Cell) (mahRows : List MahRow) (r : ℕ)
    (indir outdir dir : Str) (hdir : dir = if outdir = [] then indir else outdir) (hp : Diffstar.Spec.PlainPath dir)
    (fs : Fs) (steps : List Act) (h : IsRun L o ty block mahRows r indir outdir fs steps) :
    ∃ k < steps.length, after fs (steps.take k) (Diffstar.Spec.inDir dir (Spec.galCatName ty)) = some (.h5 []) := by
  obtain ⟨names, sched, file, hmem, htok, hout, hnames, hscript, rfl, -, -, -, -⟩ := run_data hdir hp h
  have hfile : file ≠ [] := by
    rintro rfl
    unfold galScript at hscript
    obtain ⟨parts, -, hcol⟩ := Option.bind_eq_some_iff.1 hscript
    unfold collate at hcol
    obtain ⟨data, -, hw⟩ := Option.bind_eq_some_iff.1 hcol
    unfold writeCollated at hw
    split at hw
    · cases hw
    · rename_i rows
      split_ifs at hw
      obtain ⟨cols, hl, hres, -⟩ := (writeCols_spec rows colnames 0 [] colnames_nodup (by simp) []).mp hw
      have := congrArg List.length hres
      simp only [List.length_nil, List.nil_append, List.length_zip, hl] at this
      simp [colnames] at this
  refine ⟨sched.length + 1, ?_, ?_⟩
  · obtain ⟨c, cs, rfl⟩ := List.exists_cons_of_ne_nil hfile
    simp [collateActs]
  · rw [List.take_append, List.take_of_length_le (by omega), after_append]
    have : sched.length + 1 - sched.length = 1 := by omega
    rw [this]
    simp [collateActs, after, Act.apply, Fs.write]

/-- C131: after an interruption a run with fewer ranks completes, but leaves text files of the earlier run. -/
theorem C131_fewer_ranks_violated (L : Libs) (o : Opts) (ty : SfhType) (block : Flat Cell) (mahRows : List MahRow) (r r' : ℕ)
    (hr : r' < r)
    (indir outdir dir : Str) (hdir : dir = if outdir = [] then indir else outdir) (hp : Diffstar.Spec.PlainPath dir)
    (fs : Fs) (steps : List Act) (h : IsRun L o ty block mahRows r indir outdir fs steps) :
    ∃ k, ∀ steps', IsRun L o ty block mahRows r' indir outdir (after fs (steps.take k)) steps' →
      ∃ t, after (after fs (steps.take k)) steps' (Diffstar.Spec.inDir dir (Spec.galTmpName ty r')) = some (.text t) := by
  obtain ⟨names, sched, file, hmem, htok, hout, hnames, hscript, rfl, -, -, htext, -⟩ := run_data hdir hp h
  refine ⟨sched.length, fun steps' h' => ?_⟩
  rw [List.take_left] at h' ⊢
  obtain ⟨f2, -, -, -, b3⟩ := C131_schedule_independent L o ty block mahRows r' indir outdir dir hdir hp _ steps' h'
  have hm : Diffstar.Spec.inDir dir (Spec.galTmpName ty r') ∈ names := (hmem _).2 ⟨r', hr, rfl⟩
  obtain ⟨t, ht⟩ := htext _ hm
  refine ⟨t, ?_⟩
  rw [b3, ht]
  · intro e; exact hout (e ▸ hm)
  · intro j hj e
    have := (galTmpName_inj (inDir_inj e)).2
    omega

/-- Runs of two ranks with four galaxies exist, from a file system with an old catalogue. -/
example (L : Libs) (o : Opts) (ty : SfhType) : ∃ (tgt : Target) (mahRows : List MahRow) (steps : List Act),
    IsRun L o ty (writeBlock tgt) mahRows 2 "/data".toList []
      (fun p => if p = "/data/diffstar_fits_in_situ.hdf5".toList then some (.h5 [("halo_id".toList, .int [1])]) else none)
      steps := by
  have hl : ∀ x ∈ [[(1 : ℝ), 2], [3, 4], [1, 2], [3, 4]], x.length = [(1 : ℝ), 10].length := by
    intro x hx
    simp at hx
    rcases hx with rfl | rfl | rfl | rfl <;> rfl
  obtain ⟨f1, -, h1, -⟩ := C110_galacticus_catalogue_partial L o ty ⟨[1, 10], [[1, 2], [3, 4], [1, 2], [3, 4]],
      [[1, 2], [3, 4], [1, 2], [3, 4]], [1, 0, 1, 0]⟩
    [⟨⟨12, 0.3, 2, 1, 14⟩, 0.1, 40⟩, ⟨⟨11, 0.3, 2, 1, 14⟩, 0.2, 30⟩, ⟨⟨12, 0.3, 2, 1, 14⟩, 0.1, 40⟩,
      ⟨⟨11, 0.3, 2, 1, 14⟩, 0.2, 30⟩] 2 4 10 (by simp) (by simp) rfl rfl rfl rfl
    (by intro x hx; rcases List.mem_append.1 hx with h | h <;> exact hl x h)
  obtain ⟨steps, hs⟩ := C131_runs_exist L o ty _ _ 2 "/data".toList [] "/data".toList rfl
    (by unfold Diffstar.Spec.PlainPath; decide) f1 h1 _
  exact ⟨_, _, steps, hs⟩

end Diffstar.Props
