import Verif.Model.RankFiles
import Verif.Lemmas.Text
import Verif.Props.TngRanks
import Verif.Props.SimLoaders
import Verif.Props.FitScripts

/-!
C129: the files left behind by the fitting scripts.
-/

namespace Diffstar.Spec

open Diffstar.Text

/-- The path of a file in a directory. -/
def inDir (dir bn : Str) : Str := (if dir = [] ∨ dir.getLast? = some '/' then dir else dir ++ ['/']) ++ bn

/-- Paths of letters, digits, `_`, `-`, `.` and `/`, not starting with `-`. -/
def PlainPath (dir : Str) : Prop :=
  (∀ c ∈ dir, c.isAlphanum ∨ c = '_' ∨ c = '-' ∨ c = '.' ∨ c = '/') ∧ dir.head? ≠ some '-'

end Diffstar.Spec

namespace Diffstar.Props

open Diffstar Diffstar.Text Diffstar.Fit Diffstar.Output Diffstar.Load Diffstar.Galcus Diffstar.Scripts
open Diffstar.RankFiles

theorem pyFormat_plain (args : List Str) (a b : Str) (h : ∀ c ∈ a, c ≠ '{' ∧ c ≠ '}') :
    pyFormat args (a ++ b) = (pyFormat args b).map (a ++ ·) := by
  induction a with
  | nil => simp
  | cons c cs ih =>
    have h1 := h c (by simp)
    have h2 := ih fun x hx => h x (by simp [hx])
    rw [List.cons_append]
    conv_lhs => unfold pyFormat
    split <;> simp_all [Option.map_map, Function.comp_def]

theorem globMatch_lit_append (a ps s : Str) (h : '*' ∉ a) :
    globMatch (a ++ ps) s = true ↔ ∃ r, s = a ++ r ∧ globMatch ps r = true := by
  induction a generalizing s with
  | nil => simp
  | cons c cs ih =>
    have hc : c ≠ '*' := fun e => h (by simp [e])
    have hcs : '*' ∉ cs := fun e => h (by simp [e])
    cases s with
    | nil => rw [List.cons_append, globMatch]; simp [hc]
    | cons x xs =>
      rw [List.cons_append, globMatch]
      simp only [hc, if_false, Bool.and_eq_true, beq_iff_eq, ih xs hcs]
      constructor
      · rintro ⟨rfl, r, rfl, hr⟩; exact ⟨r, by simp, hr⟩
      · rintro ⟨r, e, hr⟩
        simp only [List.cons_append, List.cons.injEq] at e
        exact ⟨e.1.symm, r, e.2, hr⟩

theorem globMatch_nil (s : Str) : globMatch [] s = true ↔ s = [] := by
  rw [globMatch]; simp

theorem globMatch_lit (a s : Str) (h : '*' ∉ a) : globMatch a s = true ↔ s = a := by
  have := globMatch_lit_append a [] s h
  rw [List.append_nil] at this
  rw [this]
  constructor
  · rintro ⟨r, rfl, hr⟩
    rw [(globMatch_nil r).1 hr, List.append_nil]
  · rintro rfl
    exact ⟨[], by simp, (globMatch_nil _).2 rfl⟩

theorem globMatch_star (b s : Str) (hb : '*' ∉ b) :
    globMatch ('*' :: b) s = true ↔ ∃ r, '/' ∉ r ∧ s = r ++ b := by
  induction s with
  | nil =>
    rw [globMatch]
    simp only [if_true, globMatch_lit b [] hb]
    constructor
    · rintro rfl; exact ⟨[], by simp, rfl⟩
    · rintro ⟨r, -, e⟩
      have := List.append_eq_nil_iff.1 e.symm
      exact this.2.symm
  | cons c cs ih =>
    rw [globMatch]
    simp only [if_true, Bool.or_eq_true, Bool.and_eq_true, bne_iff_ne, ne_eq, globMatch_lit b _ hb, ih]
    constructor
    · rintro (e | ⟨h1, r, h2, e⟩)
      · exact ⟨[], by simp, by simpa using e⟩
      · refine ⟨c :: r, ?_, by rw [e]; rfl⟩
        intro hm
        rcases List.mem_cons.1 hm with h | h
        · exact h1 h.symm
        · exact h2 h
    · rintro ⟨r, hr, e⟩
      cases r with
      | nil => left; simpa using e
      | cons x xs =>
        simp only [List.cons_append, List.cons.injEq] at e
        right
        refine ⟨fun h => hr (by rw [← e.1, h]; simp), xs, fun h => hr (by simp [h]), e.2⟩

theorem rm_tok (fs : Fs) (arg q : Str) (h : IsTok arg) :
    fs.rm arg q = if globMatch arg q = true then none else fs q := by
  have e : splitWs ("rm ".toList ++ arg) = ["rm".toList, arg] := by
    have := splitWs_tok_ws "rm".toList arg ' ' (by decide) (by refine ⟨by decide, ?_⟩; decide)
    rw [splitWs_tok arg h] at this
    exact this
  unfold Fs.rm
  rw [e]
  simp

theorem writeAll_of_not_mem (l : List (Str × File)) (fs : Fs) (p : Str) (h : p ∉ l.map Prod.fst) :
    fs.writeAll l p = fs p := by
  induction l generalizing fs with
  | nil => rfl
  | cons x xs ih =>
    have h' := ih (fs.write x.1 x.2) (fun hm => h (by simp only [List.map_cons, List.mem_cons]; exact Or.inr hm))
    have hp : p ≠ x.1 := fun e => h (by simp [e])
    show (fs.write x.1 x.2).writeAll xs p = fs p
    rw [h', Fs.write, if_neg hp]

theorem writeRanks_read (f4 : F → F) (names : List Str) (parts : List (List HaloOut)) (fs : Fs) (hnd : names.Nodup)
    (hl : names.length = parts.length) :
    names.mapM (writeRanks f4 fs names parts).readText = some (parts.map (rankFile f4)) := by
  induction names generalizing parts fs with
  | nil =>
    cases parts with
    | nil => rfl
    | cons _ _ => simp at hl
  | cons n ns ih =>
    cases parts with
    | nil => simp at hl
    | cons q qs =>
      have hn := List.nodup_cons.1 hnd
      have hfs : writeRanks f4 fs (n :: ns) (q :: qs) = writeRanks f4 (fs.write n (.text (rankFile f4 q))) ns qs := rfl
      rw [hfs]
      have h1 := ih qs (fs.write n (.text (rankFile f4 q))) hn.2 (by simpa using hl)
      have h2 : (writeRanks f4 (fs.write n (.text (rankFile f4 q))) ns qs).readText n = some (rankFile f4 q) := by
        unfold Fs.readText writeRanks
        rw [writeAll_of_not_mem]
        · simp [Fs.write]
        · intro hm
          apply hn.1
          rw [List.mem_map] at hm
          obtain ⟨⟨a, b⟩, hab, rfl⟩ := hm
          exact (List.of_mem_zip hab).1
      rw [List.mapM_cons, h2, h1]
      rfl

theorem collateFiles_eq (f4 : F → F) (names : List Str) (parts : List (List HaloOut)) (fs : Fs) (hnd : names.Nodup)
    (hl : names.length = parts.length) :
    collateFiles (writeRanks f4 fs names parts) names = collate f4 parts := by
  unfold collateFiles
  rw [writeRanks_read f4 names parts fs hnd hl]
  rfl

theorem writeRanks_of_not_mem (f4 : F → F) (names : List Str) (parts : List (List HaloOut)) (fs : Fs) (p : Str)
    (h : p ∉ names) : writeRanks f4 fs names parts p = fs p := by
  unfold writeRanks
  apply writeAll_of_not_mem
  intro hm
  rw [List.mem_map] at hm
  obtain ⟨⟨a, b⟩, hab, rfl⟩ := hm
  exact h (List.of_mem_zip hab).1

theorem natStr_inj {i j : ℕ} (h : natStr i = natStr j) : i = j := by
  have := congrArg parseNat h
  rw [parseNat_natStr, parseNat_natStr] at this
  exact Option.some.inj this

theorem pathJoin_eq (a b : Str) (hb : b.head? ≠ some '/') : pathJoin a b = Spec.inDir a b := by
  unfold pathJoin Spec.inDir
  rw [if_neg hb]
  split_ifs <;> simp

/-- Characters that are literal in formats and in the shell. -/
theorem plain_char {c : Char} (h : c.isAlphanum ∨ c = '_' ∨ c = '-' ∨ c = '.' ∨ c = '/') :
    isWs c = false ∧ c ≠ '#' ∧ c ≠ '{' ∧ c ≠ '}' ∧ c ≠ '*' := by
  refine ⟨?_, ?_, ?_, ?_, ?_⟩
  · unfold isWs
    rw [decide_eq_false_iff_not]
    rintro (rfl | rfl | rfl | rfl) <;> revert h <;> decide
  all_goals rintro rfl; revert h; decide

theorem mem_inDir {dir bn : Str} {c : Char} (h : c ∈ Spec.inDir dir bn) : c ∈ dir ∨ c = '/' ∨ c ∈ bn := by
  unfold Spec.inDir at h
  split_ifs at h <;> simp at h <;> tauto

theorem plain_inDir {dir bn : Str} (hp : Spec.PlainPath dir) {c : Char} (h : c ∈ Spec.inDir dir bn) :
    (isWs c = false ∧ c ≠ '#' ∧ c ≠ '{' ∧ c ≠ '}' ∧ c ≠ '*') ∨ c ∈ bn := by
  rcases mem_inDir h with h | rfl | h
  · exact Or.inl (plain_char (hp.1 c h))
  · left; decide
  · exact Or.inr h

theorem isTok_inDir {dir bn : Str} (hp : Spec.PlainPath dir) (h0 : bn ≠ []) (h : ∀ c ∈ bn, isWs c = false ∧ c ≠ '#') :
    IsTok (Spec.inDir dir bn) := by
  refine ⟨?_, fun c hc => ?_⟩
  · unfold Spec.inDir; simp [h0]
  · rcases plain_inDir hp hc with h' | h'
    · exact ⟨h'.1, h'.2.1⟩
    · exact h c h'

theorem star_inDir {dir bn : Str} (hp : Spec.PlainPath dir) (h : '*' ∉ bn) : '*' ∉ Spec.inDir dir bn := by
  intro hm
  rcases plain_inDir hp hm with h' | h'
  · exact h'.2.2.2.2 rfl
  · exact h h'

theorem inDir_append (dir a b : Str) : Spec.inDir dir (a ++ b) = Spec.inDir dir a ++ b := by
  simp [Spec.inDir]

theorem inDir_inj {dir a b : Str} (h : Spec.inDir dir a = Spec.inDir dir b) : a = b :=
  List.append_cancel_left h

theorem pyFormat_inDir (args : List Str) {dir : Str} (hp : ∀ c ∈ dir, c ≠ '{' ∧ c ≠ '}') (b : Str) :
    pyFormat args (Spec.inDir dir b) = (pyFormat args b).map (Spec.inDir dir) := by
  rw [← List.nil_append b, inDir_append, pyFormat_plain]
  · congr 1
    funext x
    simp [Spec.inDir]
  · intro c hc
    rcases mem_inDir hc with h | rfl | h
    · exact hp c h
    · decide
    · simp at h

theorem rm_names (names : List Str) (fs : Fs) (h : ∀ n ∈ names, IsTok n ∧ '*' ∉ n) (q : Str) :
    names.foldl (fun fs fn => fs.rm fn) fs q = if q ∈ names then none else fs q := by
  induction names generalizing fs with
  | nil => simp
  | cons n ns ih =>
    have hn := h n (by simp)
    rw [List.foldl_cons, ih (fs.rm n) fun x hx => h x (by simp [hx]), rm_tok fs n q hn.1]
    simp only [globMatch_lit n q hn.2, List.mem_cons]
    by_cases h1 : q = n <;> by_cases h2 : q ∈ ns <;> simp [h1, h2]

/-- The base name of the text file of a rank in the Galacticus script. -/
theorem pyFormat_galTmp (n ty : Str) :
    pyFormat [n, ty] galTmp = some ("tmp_sfh_fits_rank_".toList ++ n ++ "_".toList ++ ty ++ ".dat".toList) := by
  have e : galTmp = "tmp_sfh_fits_rank_".toList ++ '{' :: '0' :: '}' :: ("_".toList ++ '{' :: '1' :: '}' :: ".dat".toList) := by
    decide
  have e2 : pyFormat [n, ty] ".dat".toList = some ".dat".toList := by
    simp [pyFormat]
  rw [e, pyFormat_plain _ _ _ (by decide)]
  have e3 : pyFormat [n, ty] ('{' :: '1' :: '}' :: ".dat".toList) = some (ty ++ ".dat".toList) := by
    rw [pyFormat, e2] <;> first | rfl | decide
  have e4 : pyFormat [n, ty] ('{' :: '0' :: '}' :: ("_".toList ++ '{' :: '1' :: '}' :: ".dat".toList)) =
      some (n ++ ("_".toList ++ (ty ++ ".dat".toList))) := by
    rw [pyFormat, pyFormat_plain _ _ _ (by decide), e3] <;> first | rfl | decide
  rw [e4]
  simp

/-- The base name of the text file of a rank in the other scripts. -/
theorem pyFormat_tmp (n : Str) : pyFormat [n] tmp = some ("tmp_sfh_fits_rank_".toList ++ n ++ ".dat".toList) := by
  have e : tmp = "tmp_sfh_fits_rank_".toList ++ '{' :: '0' :: '}' :: ".dat".toList := by decide
  have e2 : pyFormat [n] ".dat".toList = some ".dat".toList := by
    simp [pyFormat]
  have e3 : pyFormat [n] ('{' :: '0' :: '}' :: ".dat".toList) = some (n ++ ".dat".toList) := by
    rw [pyFormat, e2] <;> first | rfl | decide
  rw [e, pyFormat_plain _ _ _ (by decide), e3]
  simp

theorem parts_length {α : Type} {r : ℕ} {rank : ℕ → Option (List α)} {parts : List (List α)}
    (h : (List.range r).mapM rank = some parts) : parts.length = r := by
  simpa using (mapM_some_get _ _ _ h).1

theorem natStr_chars (k : ℕ) (c : Char) (h : c ∈ natStr k) : isWs c = false ∧ c ≠ '#' ∧ c ≠ '*' ∧ c ≠ '/' := by
  have hd := isDigit_natStr k c h
  exact ⟨(isDigit_tok hd).1, (isDigit_tok hd).2, isDigit_ne hd (by decide), isDigit_ne hd (by decide)⟩

/-- The base name of the text file of a rank of the Galacticus script. -/
def Spec.galTmpName (ty : SfhType) (k : ℕ) : Str :=
  "tmp_sfh_fits_rank_".toList ++ natStr k ++ "_".toList ++ ty.text ++ ".dat".toList

theorem galTmpName_chars (ty : SfhType) (k : ℕ) (c : Char) (h : c ∈ Spec.galTmpName ty k) :
    isWs c = false ∧ c ≠ '#' ∧ c ≠ '*' ∧ c ≠ '/' := by
  unfold Spec.galTmpName at h
  simp only [List.mem_append] at h
  rcases h with (((h | h) | h) | h) | h
  · revert c; decide
  · exact natStr_chars k c h
  · revert c; decide
  · cases ty
    · revert c; decide
    · revert c; decide
  · revert c; decide

theorem galTmpName_inj {ty ty' : SfhType} {k k' : ℕ} (h : Spec.galTmpName ty k = Spec.galTmpName ty' k') :
    ty = ty' ∧ k = k' := by
  unfold Spec.galTmpName at h
  simp only [List.append_assoc] at h
  have h1 := List.append_cancel_left h
  have hd : ∀ j : ℕ, ∀ x ∈ natStr j, (fun c : Char => c.isDigit) x = true := fun j x hx => isDigit_natStr j x hx
  have e : ∀ (j : ℕ) (t : Str), (natStr j ++ ("_".toList ++ t)).takeWhile (fun c : Char => c.isDigit) = natStr j :=
    fun j t => (takeWhile_append_sep _ (natStr j) t '_' (hd j) (by decide)).1
  have h2 := congrArg (List.takeWhile fun c : Char => c.isDigit) h1
  rw [e, e] at h2
  have hk := natStr_inj h2
  subst hk
  refine ⟨?_, rfl⟩
  have h3 := List.append_cancel_left (List.append_cancel_left h1)
  have h4 := List.append_cancel_right h3
  cases ty <;> cases ty' <;> first | rfl | (exfalso; revert h4; decide)

theorem galTmpName_head (ty : SfhType) (k : ℕ) :
    Spec.galTmpName ty k ≠ [] ∧ (Spec.galTmpName ty k).head? = some 't' := by
  have e : "tmp_sfh_fits_rank_".toList = 't' :: "mp_sfh_fits_rank_".toList := by decide
  unfold Spec.galTmpName
  rw [e]
  simp only [List.cons_append, List.head?_cons, ne_eq, reduceCtorEq, not_false_eq_true, and_self]

/-- C129 (partial: the output directory has only letters, digits, `_`, `-`, `.` and `/`): after a run of the Galacticus
script whose collation succeeds (see C110), the catalogue is in the output directory, the text files of the ranks are gone
and every other file is as it was. -/
theorem C129_galacticus_partial (L : Libs) (o : Opts) (ty : SfhType) (block : Flat Cell) (mahRows : List MahRow) (r : ℕ)
    (indir outdir dir : Str) (hdir : dir = if outdir = [] then indir else outdir) (hp : Spec.PlainPath dir) (file : H5)
    (h : galScript L o ty block mahRows r = some file) (fs : Fs) :
    ∃ fs', galRun L o ty block mahRows r indir outdir fs = some fs' ∧
      fs' (Spec.inDir dir ("diffstar_fits_".toList ++ ty.text ++ ".hdf5".toList)) = some (.h5 file) ∧
      (∀ k < r, fs' (Spec.inDir dir (Spec.galTmpName ty k)) = none) ∧
      ∀ p, p ≠ Spec.inDir dir ("diffstar_fits_".toList ++ ty.text ++ ".hdf5".toList) →
        (∀ k < r, p ≠ Spec.inDir dir (Spec.galTmpName ty k)) → fs' p = fs p := by
  unfold galScript at h
  obtain ⟨parts, hparts, hcol⟩ := Option.bind_eq_some_iff.1 h
  set names := (List.range r).map fun i => Spec.inDir dir (Spec.galTmpName ty i) with hnames
  have hfmt : ((List.range r).mapM fun i => pyFormat [natStr i, ty.text] (pathJoin dir galTmp)) = some names := by
    apply mapM_pure_some
    intro i _
    rw [pathJoin_eq _ _ (by decide), pyFormat_inDir _ fun c hc => ⟨(plain_char (hp.1 c hc)).2.2.1,
      (plain_char (hp.1 c hc)).2.2.2.1⟩, pyFormat_galTmp]
    rfl
  have hnd : names.Nodup := by
    apply List.Nodup.map _ List.nodup_range
    intro i j hij
    exact (galTmpName_inj (inDir_inj hij)).2
  have hlen : names.length = parts.length := by
    rw [parts_length hparts, hnames]; simp
  have hmem : ∀ p, p ∈ names ↔ ∃ k < r, Spec.inDir dir (Spec.galTmpName ty k) = p := by
    intro p; simp [hnames]
  have htok : ∀ n ∈ names, IsTok n ∧ '*' ∉ n := by
    intro n hn
    obtain ⟨k, -, rfl⟩ := (hmem n).1 hn
    refine ⟨isTok_inDir hp (galTmpName_head ty k).1 fun c hc => ?_, star_inDir hp fun hc => ?_⟩
    · exact ⟨(galTmpName_chars ty k c hc).1, (galTmpName_chars ty k c hc).2.1⟩
    · exact (galTmpName_chars ty k _ hc).2.2.1 rfl
  have hout : pathJoin dir (galOutName ty) =
      Spec.inDir dir ("diffstar_fits_".toList ++ ty.text ++ ".hdf5".toList) := by
    rw [pathJoin_eq]
    · rfl
    · cases ty <;> decide
  have hout' : Spec.inDir dir ("diffstar_fits_".toList ++ ty.text ++ ".hdf5".toList) ∉ names := by
    intro hm
    obtain ⟨k, -, e⟩ := (hmem _).1 hm
    have h1 := (galTmpName_head ty k).2
    rw [inDir_inj e, List.append_assoc, show "diffstar_fits_".toList = 'd' :: "iffstar_fits_".toList by decide] at h1
    exact absurd h1 (by simp)
  refine ⟨names.foldl (fun fs fn => fs.rm fn)
    ((writeRanks L.f4 fs names parts).write (Spec.inDir dir ("diffstar_fits_".toList ++ ty.text ++ ".hdf5".toList))
      (.h5 file)), ?_, ?_, ?_, ?_⟩
  · unfold galRun
    simp only [← hdir, hparts, hfmt, Option.bind_eq_bind, Option.bind_some, collateFiles_eq L.f4 names parts fs hnd hlen,
      hcol, hout]
    rfl
  · rw [rm_names _ _ htok, if_neg hout', Fs.write, if_pos rfl]
  · intro k hk
    rw [rm_names _ _ htok, if_pos ((hmem _).2 ⟨k, hk, rfl⟩)]
  · intro p h1 h2
    have h3 : p ∉ names := fun hm => by
      obtain ⟨k, hk, e⟩ := (hmem p).1 hm
      exact h2 k hk e.symm
    rw [rm_names _ _ htok, if_neg h3, Fs.write, if_neg h1, writeRanks_of_not_mem _ _ _ _ _ h3]

example : Spec.PlainPath "/lcrc/project/halotools/Galacticus/diffstarpop_data".toList ∧ Spec.PlainPath "out/".toList ∧
    ¬ Spec.PlainPath "my dir".toList := by
  unfold Spec.PlainPath
  refine ⟨by decide, by decide, by decide⟩

/-- C129: runs of the Galacticus script for the two values of `sfh_type` use different files, so that neither removes
or changes a file of the other. -/
theorem C129_sfh_types_independent (L : Libs) (o : Opts) (ty ty' : SfhType) (hty : ty ≠ ty') (block : Flat Cell)
    (mahRows : List MahRow) (r : ℕ) (indir outdir dir : Str) (hdir : dir = if outdir = [] then indir else outdir)
    (hp : Spec.PlainPath dir) (file : H5) (h : galScript L o ty block mahRows r = some file) (fs : Fs) :
    ∃ fs', galRun L o ty block mahRows r indir outdir fs = some fs' ∧
      (∀ k, fs' (Spec.inDir dir (Spec.galTmpName ty' k)) = fs (Spec.inDir dir (Spec.galTmpName ty' k))) ∧
      fs' (Spec.inDir dir ("diffstar_fits_".toList ++ ty'.text ++ ".hdf5".toList)) =
        fs (Spec.inDir dir ("diffstar_fits_".toList ++ ty'.text ++ ".hdf5".toList)) := by
  obtain ⟨fs', h1, -, -, h4⟩ := C129_galacticus_partial L o ty block mahRows r indir outdir dir hdir hp file h fs
  have hd : ∀ (t : SfhType), ("diffstar_fits_".toList ++ t.text ++ ".hdf5".toList).head? = some 'd' := by
    intro t
    rw [List.append_assoc, show "diffstar_fits_".toList = 'd' :: "iffstar_fits_".toList by decide]; rfl
  refine ⟨fs', h1, fun k => h4 _ ?_ ?_, h4 _ ?_ ?_⟩
  · intro e
    have h5 := (galTmpName_head ty' k).2
    rw [inDir_inj e, hd] at h5
    exact absurd h5 (by decide)
  · intro j _ e
    exact hty (galTmpName_inj (inDir_inj e)).1.symm
  · intro e
    have h5 := List.append_cancel_left (List.append_cancel_right (inDir_inj e))
    apply hty
    cases ty <;> cases ty' <;> first | rfl | (exfalso; revert h5; decide)
  · intro j _ e
    have h5 := (galTmpName_head ty j).2
    rw [← inDir_inj e, hd] at h5
    exact absurd h5 (by decide)

/-! ### SMDPL -/

namespace Spec

/-- The name of a subvolume with leading zeros. -/
def subvolName (numSubvolsTot i : ℕ) : Str := "subvol_".toList ++ zpad (natStr numSubvolsTot).length (natStr i)

/-- The base name of the text file of a rank of the SMDPL script. -/
def umTmpName (numSubvolsTot i k : ℕ) : Str :=
  subvolName numSubvolsTot i ++ "_tmp_sfh_fits_rank_".toList ++ natStr k ++ ".dat".toList

/-- The base name of the catalogue of a subvolume. -/
def umOutName (i : ℕ) : Str := "diffstar_fits_subvol_".toList ++ natStr i ++ ".hdf5".toList

/-- A file of the directory whose name starts with `pre` and ends with `.dat`. -/
def Swept (dir pre p : Str) : Prop := ∃ s : Str, '/' ∉ s ∧ p = Diffstar.Spec.inDir dir (pre ++ s ++ ".dat".toList)

end Spec

theorem rm_sweep (fs : Fs) (dir pre p : Str) (hp : Diffstar.Spec.PlainPath dir)
    (hpre : ∀ c ∈ pre, isWs c = false ∧ c ≠ '#' ∧ c ≠ '*' ∧ c ≠ '/') [Decidable (Spec.Swept dir pre p)] :
    fs.rm (Diffstar.Spec.inDir dir (pre ++ "*.dat".toList)) p = if Spec.Swept dir pre p then none else fs p := by
  have ht : IsTok (Diffstar.Spec.inDir dir (pre ++ "*.dat".toList)) := by
    refine isTok_inDir hp (List.append_ne_nil_of_right_ne_nil _ (by decide)) fun c hc => ?_
    rcases List.mem_append.1 hc with h | h
    · exact ⟨(hpre c h).1, (hpre c h).2.1⟩
    · clear hc; revert c; decide
  rw [rm_tok _ _ _ ht]
  have e : globMatch (Diffstar.Spec.inDir dir (pre ++ "*.dat".toList)) p = true ↔ Spec.Swept dir pre p := by
    rw [inDir_append, globMatch_lit_append _ _ _ (star_inDir hp fun h => (hpre _ h).2.2.1 rfl),
      show "*.dat".toList = '*' :: ".dat".toList by decide]
    unfold Spec.Swept
    constructor
    · rintro ⟨r, rfl, hr⟩
      obtain ⟨s, h1, rfl⟩ := (globMatch_star _ _ (by decide)).1 hr
      exact ⟨s, h1, by rw [List.append_assoc, inDir_append]⟩
    · rintro ⟨s, h1, rfl⟩
      refine ⟨s ++ ".dat".toList, by rw [List.append_assoc, inDir_append], ?_⟩
      exact (globMatch_star _ _ (by decide)).2 ⟨s, h1, rfl⟩
  by_cases h : Spec.Swept dir pre p
  · rw [if_pos (e.2 h), if_pos h]
  · rw [if_neg (fun h' => h (e.1 h')), if_neg h]

theorem subvolName_chars (n i : ℕ) (c : Char) (h : c ∈ Spec.subvolName n i) :
    isWs c = false ∧ c ≠ '#' ∧ c ≠ '*' ∧ c ≠ '/' := by
  unfold Spec.subvolName at h
  rcases List.mem_append.1 h with h' | h'
  · clear h; revert c; decide
  · have hd := zpad_digits _ _ c h'
    exact ⟨(isDigit_tok hd).1, (isDigit_tok hd).2, isDigit_ne hd (by decide), isDigit_ne hd (by decide)⟩

theorem subvolName_head (n i : ℕ) (t : Str) : (Spec.subvolName n i ++ t).head? = some 's' := by
  unfold Spec.subvolName
  rw [show "subvol_".toList = 's' :: "ubvol_".toList by decide]
  rfl

theorem umOutName_head (i : ℕ) : (Spec.umOutName i).head? = some 'd' := by
  unfold Spec.umOutName
  rw [show "diffstar_fits_subvol_".toList = 'd' :: "iffstar_fits_subvol_".toList by decide]
  rfl

theorem umOut_not_swept (dir : Str) (n i j : ℕ) :
    ¬ Spec.Swept dir (Spec.subvolName n i) (Diffstar.Spec.inDir dir (Spec.umOutName j)) := by
  rintro ⟨s, -, e⟩
  have h := umOutName_head j
  rw [inDir_inj e, List.append_assoc, subvolName_head] at h
  exact absurd h (by decide)

open Classical in
theorem umPass_eq (L : Libs) (o : Opts) (data : ℕ → UmData) (n r : ℕ) (dir : Str) (hp : Diffstar.Spec.PlainPath dir)
    (i : ℕ) (file : H5)
    (h : umScript L o (data i).haloIds (data i).sfhs (data i).t (data i).mahRows r = some file) (fs : Fs) :
    ∃ fs', umPass L o data n r dir fs i = some fs' ∧ ∀ p, fs' p =
      if Spec.Swept dir (Spec.subvolName n i) p then none
      else if p = Diffstar.Spec.inDir dir (Spec.umOutName i) then some (.h5 file) else fs p := by
  unfold umScript at h
  obtain ⟨parts, hparts, hcol⟩ := Option.bind_eq_some_iff.1 h
  set names := (List.range r).map fun k => Diffstar.Spec.inDir dir (Spec.umTmpName n i k) with hnames
  have hbr : ∀ c ∈ dir, c ≠ '{' ∧ c ≠ '}' := fun c hc => ⟨(plain_char (hp.1 c hc)).2.2.1, (plain_char (hp.1 c hc)).2.2.2.1⟩
  have hsub : ∀ c ∈ Spec.subvolName n i ++ ['_'], c ≠ '{' ∧ c ≠ '}' := by
    intro c hc
    rcases List.mem_append.1 hc with h | h
    · unfold Spec.subvolName at h
      rcases List.mem_append.1 h with h' | h'
      · clear h hc; revert c; decide
      · have hd := zpad_digits _ _ c h'
        exact ⟨isDigit_ne hd (by decide), isDigit_ne hd (by decide)⟩
    · clear hc; revert c; decide
  have hfmt : ((List.range r).mapM fun k => pyFormat [natStr k] (pathJoin dir (subvolStr n i ++ '_' :: tmp))) =
      some names := by
    apply mapM_pure_some
    intro k _
    have e : subvolStr n i ++ '_' :: tmp = (Spec.subvolName n i ++ ['_']) ++ tmp := by
      rw [List.append_assoc]; rfl
    rw [e, pathJoin_eq _ _ (by rw [List.append_assoc, subvolName_head]; decide), pyFormat_inDir _ hbr,
      pyFormat_plain _ _ _ hsub, pyFormat_tmp, Option.map_some, Option.map_some]
    congr 2
    unfold Spec.umTmpName
    rw [show "_tmp_sfh_fits_rank_".toList = ['_'] ++ "tmp_sfh_fits_rank_".toList by decide]
    simp only [List.append_assoc]
  have hnd : names.Nodup := by
    apply List.Nodup.map _ List.nodup_range
    intro a b hab
    have e := inDir_inj hab
    unfold Spec.umTmpName at e
    exact natStr_inj (List.append_cancel_left (List.append_cancel_right e))
  have hlen : names.length = parts.length := by
    rw [parts_length hparts, hnames]; simp
  have hsw : ∀ p ∈ names, Spec.Swept dir (Spec.subvolName n i) p := by
    intro p hm
    rw [hnames, List.mem_map] at hm
    obtain ⟨k, -, rfl⟩ := hm
    refine ⟨"_tmp_sfh_fits_rank_".toList ++ natStr k, ?_, ?_⟩
    · intro hc
      rcases List.mem_append.1 hc with h | h
      · revert h; decide
      · exact (natStr_chars k _ h).2.2.2 rfl
    · unfold Spec.umTmpName
      simp only [List.append_assoc]
  have hout : pathJoin dir ("diffstar_fits_subvol_".toList ++ natStr i ++ ".hdf5".toList) =
      Diffstar.Spec.inDir dir (Spec.umOutName i) := by
    rw [pathJoin_eq _ _ (by have := umOutName_head i; unfold Spec.umOutName at this; rw [this]; decide)]
    rfl
  have hpat : pathJoin dir (subvolStr n i ++ "*.dat".toList) =
      Diffstar.Spec.inDir dir (Spec.subvolName n i ++ "*.dat".toList) := by
    refine pathJoin_eq _ _ ?_
    have := subvolName_head n i "*.dat".toList
    intro h'
    exact absurd (this.symm.trans h') (by decide)
  refine ⟨Fs.rm ((writeRanks L.f4 fs names parts).write (Diffstar.Spec.inDir dir (Spec.umOutName i)) (.h5 file))
    (Diffstar.Spec.inDir dir (Spec.subvolName n i ++ "*.dat".toList)), ?_, fun p => ?_⟩
  · unfold umPass
    simp only [hparts, hfmt, Option.bind_eq_bind, Option.bind_some, collateFiles_eq L.f4 names parts fs hnd hlen,
      hcol, hout, hpat]
    rfl
  · rw [rm_sweep _ _ _ _ hp (subvolName_chars n i)]
    by_cases h1 : Spec.Swept dir (Spec.subvolName n i) p
    · rw [if_pos h1, if_pos h1]
    · rw [if_neg h1, if_neg h1, Fs.write, writeRanks_of_not_mem _ _ _ _ _ fun hm => h1 (hsw p hm)]

/-- C129 (partial: the output directory has only plain characters, and files of it whose names start with the name of a
subvolume of the run and end with `.dat` are taken for text files of the run): after a run of the SMDPL script whose
collations succeed (see C110), the catalogue of every subvolume is in the output directory, the text files of the ranks
are gone, and every other file is as it was. -/
theorem C129_smdpl_partial (L : Libs) (o : Opts) (data : ℕ → UmData) (n r : ℕ) (dir : Str)
    (hp : Diffstar.Spec.PlainPath dir) (subvols : List ℕ) (file : ℕ → H5)
    (h : ∀ i ∈ subvols, umScript L o (data i).haloIds (data i).sfhs (data i).t (data i).mahRows r = some (file i))
    (fs : Fs) :
    ∃ fs', umRun L o data n r dir subvols fs = some fs' ∧
      (∀ i ∈ subvols, fs' (Diffstar.Spec.inDir dir (Spec.umOutName i)) = some (.h5 (file i))) ∧
      (∀ i ∈ subvols, ∀ k, fs' (Diffstar.Spec.inDir dir (Spec.umTmpName n i k)) = none) ∧
      ∀ p, (∀ i ∈ subvols, p ≠ Diffstar.Spec.inDir dir (Spec.umOutName i) ∧ ¬ Spec.Swept dir (Spec.subvolName n i) p) →
        fs' p = fs p := by
  classical
  have key : ∃ fs', umRun L o data n r dir subvols fs = some fs' ∧ ∀ p,
      ((∃ i ∈ subvols, Spec.Swept dir (Spec.subvolName n i) p) → fs' p = none) ∧
      (∀ i ∈ subvols, p = Diffstar.Spec.inDir dir (Spec.umOutName i) → fs' p = some (.h5 (file i))) ∧
      ((∀ i ∈ subvols, p ≠ Diffstar.Spec.inDir dir (Spec.umOutName i) ∧ ¬ Spec.Swept dir (Spec.subvolName n i) p) →
        fs' p = fs p) := by
    induction subvols generalizing fs with
    | nil => exact ⟨fs, rfl, fun p => ⟨by simp, by simp, fun _ => rfl⟩⟩
    | cons i is ih =>
      obtain ⟨fs1, h1, h2⟩ := umPass_eq L o data n r dir hp i (file i) (h i (by simp)) fs
      obtain ⟨fs2, h3, h4⟩ := ih (fun j hj => h j (by simp [hj])) fs1
      refine ⟨fs2, ?_, fun p => ⟨?_, ?_, ?_⟩⟩
      · unfold umRun at h3 ⊢
        rw [List.foldlM_cons, h1]
        exact h3
      · rintro ⟨j, hj, hs⟩
        by_cases hr : ∃ j ∈ is, Spec.Swept dir (Spec.subvolName n j) p
        · exact (h4 p).1 hr
        · have hji : j = i := by
            rcases List.mem_cons.1 hj with e | e
            · exact e
            · exact absurd ⟨j, e, hs⟩ hr
          rw [(h4 p).2.2 fun l hl => ⟨fun e => ?_, fun hs' => hr ⟨l, hl, hs'⟩⟩, h2, if_pos (hji ▸ hs)]
          rw [e] at hs
          exact umOut_not_swept dir n j l hs
      · rintro j hj e
        by_cases hr : j ∈ is
        · exact (h4 p).2.1 j hr e
        · have hji : j = i := by
            rcases List.mem_cons.1 hj with e | e
            · exact e
            · exact absurd e hr
          rw [(h4 p).2.2 fun l hl => ⟨fun e' => ?_, fun hs' => ?_⟩, h2, if_neg, if_pos (hji ▸ e), hji]
          · rw [e]; exact umOut_not_swept dir n i j
          · apply hr
            have e2 := inDir_inj (e.symm.trans e')
            unfold Spec.umOutName at e2
            rw [natStr_inj (List.append_cancel_left (List.append_cancel_right e2))]
            exact hl
          · rw [e] at hs'
            exact umOut_not_swept dir n l j hs'
      · intro hq
        rw [(h4 p).2.2 fun l hl => hq l (by simp [hl]), h2, if_neg (hq i (by simp)).2, if_neg (hq i (by simp)).1]
  obtain ⟨fs', h1, h2⟩ := key
  refine ⟨fs', h1, fun i hi => (h2 _).2.1 i hi rfl, fun i hi k => (h2 _).1 ⟨i, hi, ?_⟩, fun p hq => (h2 p).2.2 hq⟩
  refine ⟨"_tmp_sfh_fits_rank_".toList ++ natStr k, ?_, ?_⟩
  · intro hc
    rcases List.mem_append.1 hc with h | h
    · revert h; decide
    · exact (natStr_chars k _ h).2.2.2 rfl
  · unfold Spec.umTmpName
    simp only [List.append_assoc]

theorem lt_pow_length (n : ℕ) : n < 10 ^ (natStr n).length :=
  (Nat.length_toDigits_le_iff (by norm_num) (List.length_pos_iff.2 (natStr_ne_nil n))).mp le_rfl

/-- C129: a run of the SMDPL script over some of the subvolumes leaves the text files and the catalogues of the other
subvolumes alone, so that the subvolumes can be fitted by concurrent jobs. -/
theorem C129_smdpl_jobs_independent (L : Libs) (o : Opts) (data : ℕ → UmData) (n r : ℕ) (dir : Str)
    (hp : Diffstar.Spec.PlainPath dir) (subvols : List ℕ) (hn : ∀ i ∈ subvols, i < n) (file : ℕ → H5)
    (h : ∀ i ∈ subvols, umScript L o (data i).haloIds (data i).sfhs (data i).t (data i).mahRows r = some (file i))
    (fs : Fs) (j : ℕ) (hj : j < n) (hjs : j ∉ subvols) :
    ∃ fs', umRun L o data n r dir subvols fs = some fs' ∧
      fs' (Diffstar.Spec.inDir dir (Spec.umOutName j)) = fs (Diffstar.Spec.inDir dir (Spec.umOutName j)) ∧
      ∀ k, fs' (Diffstar.Spec.inDir dir (Spec.umTmpName n j k)) = fs (Diffstar.Spec.inDir dir (Spec.umTmpName n j k)) := by
  obtain ⟨fs', h1, -, -, h4⟩ := C129_smdpl_partial L o data n r dir hp subvols file h fs
  have hw : 0 < (natStr n).length := List.length_pos_iff.2 (natStr_ne_nil n)
  refine ⟨fs', h1, h4 _ fun i hi => ⟨fun e => ?_, umOut_not_swept dir n i j⟩, fun k => h4 _ fun i hi => ⟨fun e => ?_, ?_⟩⟩
  · have e2 := inDir_inj e
    unfold Spec.umOutName at e2
    exact hjs (natStr_inj (List.append_cancel_left (List.append_cancel_right e2)) ▸ hi)
  · have h5 := umOutName_head i
    rw [← inDir_inj e, Spec.umTmpName, List.append_assoc, List.append_assoc, subvolName_head] at h5
    exact absurd h5 (by decide)
  · rintro ⟨s, -, e⟩
    have e2 := inDir_inj e
    unfold Spec.umTmpName Spec.subvolName at e2
    simp only [List.append_assoc] at e2
    have e3 := List.append_cancel_left e2
    have li : (zpad (natStr n).length (natStr i)).length = (natStr n).length :=
      length_zpad hw (lt_trans (hn i hi) (lt_pow_length n))
    have lj : (zpad (natStr n).length (natStr j)).length = (natStr n).length :=
      length_zpad hw (lt_trans hj (lt_pow_length n))
    have e4 := (List.append_inj e3 (lj.trans li.symm)).1
    have e5 := congrArg (fun x => Nat.ofDigitChars 10 x 0) e4
    simp only [ofDigitChars_zpad] at e5
    exact hjs (e5 ▸ hi)

/-- C129 fails for the SMDPL script and other files of the output directory: whatever starts with the name of a subvolume
of the run and ends with `.dat` is removed, for instance `subvol_007_notes.dat`. -/
theorem C129_smdpl_other_files_violated (L : Libs) (o : Opts) (data : ℕ → UmData) (r : ℕ) (dir : Str)
    (hp : Diffstar.Spec.PlainPath dir) (file : H5)
    (h : umScript L o (data 7).haloIds (data 7).sfhs (data 7).t (data 7).mahRows r = some file) (fs : Fs) :
    ∃ fs', umRun L o data 576 r dir [7] fs = some fs' ∧
      fs' (Diffstar.Spec.inDir dir "subvol_007_notes.dat".toList) = none := by
  classical
  obtain ⟨fs', h1, h2⟩ := umPass_eq L o data 576 r dir hp 7 file h fs
  refine ⟨fs', ?_, ?_⟩
  · unfold umRun
    rw [List.foldlM_cons, h1]
    rfl
  · rw [h2, if_pos]
    exact ⟨"_notes".toList, by decide, by congr 1⟩

/-! ### TNG -/

theorem basename_inDir (dir bn : Str) (h : '/' ∉ bn) : basename (Diffstar.Spec.inDir dir bn) = bn := by
  have hr : ∀ x ∈ bn.reverse, (fun c : Char => decide (c ≠ '/')) x = true := by
    intro x hx
    rw [List.mem_reverse] at hx
    simp only [decide_eq_true_eq]
    rintro rfl
    exact h hx
  unfold basename Diffstar.Spec.inDir
  split_ifs with h1
  · rcases h1 with rfl | h1
    · rw [List.nil_append, takeWhile_all _ _ hr, List.reverse_reverse]
    · obtain ⟨d, rfl⟩ := List.getLast?_eq_some_iff.1 h1
      rw [List.reverse_append, List.reverse_append, List.reverse_singleton, List.singleton_append,
        (takeWhile_append_sep _ _ _ _ hr (by decide)).1, List.reverse_reverse]
  · rw [List.reverse_append, List.reverse_append, List.reverse_singleton, List.singleton_append,
      (takeWhile_append_sep _ _ _ _ hr (by decide)).1, List.reverse_reverse]

/-- C129 (partial: the output directory has only plain characters, and files of it with names
`tmp_sfh_fits_rank_*.dat` are taken for text files of the run): after a run of the TNG script whose collation succeeds (see
C110), the catalogue is in the output directory, the text files of the ranks are gone and every other file is as it was. -/
theorem C129_tng_partial (L : Libs) (o : Opts) (haloIds : List ℤ) (sfhs : List (List ℝ)) (t : List ℝ)
    (mahRows : List MahRow) (r : ℕ) (hr : 1 ≤ r) (dir : Str) (hp : Diffstar.Spec.PlainPath dir) (file : H5)
    (h : tngFitScript L o haloIds sfhs t mahRows r = some file) (fs : Fs) :
    ∃ fs', tngRun L o haloIds sfhs t mahRows r dir fs = some fs' ∧
      fs' (Diffstar.Spec.inDir dir "diffstar_tng_fits.hdf5".toList) = some (.h5 file) ∧
      (∀ p, Spec.Swept dir "tmp_sfh_fits_rank_".toList p → fs' p = none) ∧
      (∀ k, fs' (Diffstar.Spec.inDir dir ("tmp_sfh_fits_rank_".toList ++ natStr k ++ ".dat".toList)) = none) ∧
      ∀ p, p ≠ Diffstar.Spec.inDir dir "diffstar_tng_fits.hdf5".toList →
        ¬ Spec.Swept dir "tmp_sfh_fits_rank_".toList p → fs' p = fs p := by
  classical
  unfold tngFitScript at h
  obtain ⟨parts, hparts, hcol⟩ := Option.bind_eq_some_iff.1 h
  set nm : ℕ → Str := fun k => Diffstar.Spec.inDir dir ("tmp_sfh_fits_rank_".toList ++ natStr k ++ ".dat".toList) with hnm
  set names := (List.range r).map nm with hnames
  have hbr : ∀ c ∈ dir, c ≠ '{' ∧ c ≠ '}' := fun c hc => ⟨(plain_char (hp.1 c hc)).2.2.1, (plain_char (hp.1 c hc)).2.2.2.1⟩
  have hfmt : ((List.range r).mapM fun k => pyFormat [natStr k] (pathJoin dir tmp)) = some names := by
    apply mapM_pure_some
    intro k _
    rw [pathJoin_eq _ _ (by decide), pyFormat_inDir _ hbr, pyFormat_tmp]
    rfl
  have hnd : names.Nodup := by
    apply List.Nodup.map _ List.nodup_range
    intro a b hab
    exact natStr_inj (List.append_cancel_left (List.append_cancel_right (inDir_inj hab)))
  have hlen : names.length = parts.length := by
    rw [parts_length hparts, hnames]; simp
  have hsw1 : ∀ k, Spec.Swept dir "tmp_sfh_fits_rank_".toList (nm k) := fun k =>
    ⟨natStr k, fun hc => (natStr_chars k _ hc).2.2.2 rfl, rfl⟩
  have hsw : ∀ p ∈ names, Spec.Swept dir "tmp_sfh_fits_rank_".toList p := by
    intro p hm
    rw [hnames, List.mem_map] at hm
    obtain ⟨k, -, rfl⟩ := hm
    exact hsw1 k
  have hhead : (names.map basename).head? = some "tmp_sfh_fits_rank_0.dat".toList := by
    obtain ⟨r', rfl⟩ : ∃ r', r = r' + 1 := ⟨r - 1, by omega⟩
    rw [hnames, List.range_succ_eq_map, List.map_cons, List.map_cons, List.head?_cons, hnm]
    simp only
    rw [basename_inDir]
    · decide
    · decide
  have hpat0 : joinUnderscore (("tmp_sfh_fits_rank_0.dat".toList).splitOn '_').dropLast ++ "_*.dat".toList =
      "tmp_sfh_fits_rank_".toList ++ "*.dat".toList := by decide +kernel
  have hout : pathJoin dir "diffstar_tng_fits.hdf5".toList = Diffstar.Spec.inDir dir "diffstar_tng_fits.hdf5".toList :=
    pathJoin_eq _ _ (by decide)
  have hpat : pathJoin dir ("tmp_sfh_fits_rank_".toList ++ "*.dat".toList) =
      Diffstar.Spec.inDir dir ("tmp_sfh_fits_rank_".toList ++ "*.dat".toList) := pathJoin_eq _ _ (by decide)
  have hosw : ¬ Spec.Swept dir "tmp_sfh_fits_rank_".toList (Diffstar.Spec.inDir dir "diffstar_tng_fits.hdf5".toList) := by
    rintro ⟨s, -, e⟩
    have e2 := inDir_inj e
    rw [List.append_assoc, show "tmp_sfh_fits_rank_".toList = 't' :: "mp_sfh_fits_rank_".toList by decide,
      show "diffstar_tng_fits.hdf5".toList = 'd' :: "iffstar_tng_fits.hdf5".toList by decide, List.cons_append,
      List.cons.injEq] at e2
    exact absurd e2.1 (by decide)
  have hfin : ∀ p, Fs.rm ((writeRanks L.f4 fs names parts).write (Diffstar.Spec.inDir dir "diffstar_tng_fits.hdf5".toList)
      (.h5 file)) (Diffstar.Spec.inDir dir ("tmp_sfh_fits_rank_".toList ++ "*.dat".toList)) p =
      if Spec.Swept dir "tmp_sfh_fits_rank_".toList p then none else
      if p = Diffstar.Spec.inDir dir "diffstar_tng_fits.hdf5".toList then some (.h5 file) else fs p := by
    intro p
    rw [rm_sweep _ _ _ _ hp (by decide)]
    by_cases h1 : Spec.Swept dir "tmp_sfh_fits_rank_".toList p
    · rw [if_pos h1, if_pos h1]
    · rw [if_neg h1, if_neg h1, Fs.write, writeRanks_of_not_mem _ _ _ _ _ fun hm => h1 (hsw p hm)]
  refine ⟨Fs.rm ((writeRanks L.f4 fs names parts).write (Diffstar.Spec.inDir dir "diffstar_tng_fits.hdf5".toList)
      (.h5 file)) (Diffstar.Spec.inDir dir ("tmp_sfh_fits_rank_".toList ++ "*.dat".toList)), ?_, ?_, ?_, ?_, ?_⟩
  rotate_left
  · rw [hfin, if_neg hosw, if_pos rfl]
  · intro p h1
    rw [hfin, if_pos h1]
  · intro k
    rw [hfin, if_pos (hsw1 k)]
  · intro p h1 h2
    rw [hfin, if_neg h2, if_neg h1]
  · unfold tngRun
    simp only [hparts, hfmt, Option.bind_eq_bind, Option.bind_some, collateFiles_eq L.f4 names parts fs hnd hlen,
      hcol, hout, hhead, hpat0, hpat]
    rfl

/-- C129 fails for the TNG script and other jobs: a run removes the text files that a Galacticus job is writing to the same
directory. -/
theorem C129_tng_other_jobs_violated (L : Libs) (o : Opts) (haloIds : List ℤ) (sfhs : List (List ℝ)) (t : List ℝ)
    (mahRows : List MahRow) (r : ℕ) (hr : 1 ≤ r) (dir : Str) (hp : Diffstar.Spec.PlainPath dir) (file : H5)
    (h : tngFitScript L o haloIds sfhs t mahRows r = some file) (fs : Fs) :
    ∃ fs', tngRun L o haloIds sfhs t mahRows r dir fs = some fs' ∧
      ∀ ty k, fs' (Diffstar.Spec.inDir dir (Spec.galTmpName ty k)) = none := by
  obtain ⟨fs', h1, -, h3, -, -⟩ := C129_tng_partial L o haloIds sfhs t mahRows r hr dir hp file h fs
  refine ⟨fs', h1, fun ty k => h3 _ ⟨natStr k ++ "_".toList ++ ty.text, ?_, ?_⟩⟩
  · intro hc
    apply (galTmpName_chars ty k '/' ?_).2.2.2 rfl
    unfold Spec.galTmpName
    simp only [List.append_assoc] at hc ⊢
    simp only [List.mem_append] at hc ⊢
    tauto
  · unfold Spec.galTmpName
    simp only [List.append_assoc]

theorem inDir_blank (a b bn : Str) (hb0 : b ≠ []) :
    Diffstar.Spec.inDir (a ++ ' ' :: b) bn = a ++ ' ' :: Diffstar.Spec.inDir b bn := by
  have e : (a ++ ' ' :: b).getLast? = b.getLast? := by
    rw [List.getLast?_append_of_ne_nil _ (by simp), List.getLast?_cons_of_ne_nil hb0]
  unfold Diffstar.Spec.inDir
  rw [e]
  by_cases h : b.getLast? = some '/'
  · simp [h]
  · simp [h, hb0]

theorem rm_blank (fs : Fs) (a c q : Str) (ha : IsTok a) (hc : IsTok c) (ha' : '*' ∉ a) (hc' : '*' ∉ c) :
    fs.rm (a ++ ' ' :: c) q = if q = a ∨ q = c then none else fs q := by
  have e : splitWs ("rm ".toList ++ (a ++ ' ' :: c)) = ["rm".toList, a, c] := by
    have h1 := splitWs_tok_ws "rm".toList (a ++ ' ' :: c) ' ' (by decide) (by refine ⟨by decide, ?_⟩; decide)
    rw [splitWs_tok_ws a c ' ' (by decide) ha, splitWs_tok c hc] at h1
    exact h1
  unfold Fs.rm
  rw [e]
  simp only [List.tail_cons, List.any_cons, List.any_nil, Bool.or_false, Bool.or_eq_true, globMatch_lit a q ha',
    globMatch_lit c q hc']

theorem rm_blanks (ns : List Str) (fs : Fs) (a q : Str) (ha : IsTok a) (ha' : '*' ∉ a)
    (h : ∀ c ∈ ns, IsTok c ∧ '*' ∉ c) :
    (ns.map fun c => a ++ ' ' :: c).foldl (fun fs fn => fs.rm fn) fs q =
      if (q = a ∧ ns ≠ []) ∨ q ∈ ns then none else fs q := by
  induction ns generalizing fs with
  | nil => simp
  | cons n ns ih =>
    have hn := h n (by simp)
    rw [List.map_cons, List.foldl_cons, ih _ fun c hc => h c (by simp [hc]), rm_blank fs a n q ha hn.1 ha' hn.2]
    by_cases h1 : q = a <;> by_cases h2 : q = n <;> by_cases h3 : q ∈ ns <;> simp [h1, h2, h3]

/-- C129 fails for output directories with a blank in their name: the text files of the ranks are not removed, and a file
named like the part before the blank is. -/
theorem C129_blank_violated (L : Libs) (o : Opts) (ty : SfhType) (block : Flat Cell) (mahRows : List MahRow) (r : ℕ)
    (hr : 1 ≤ r) (a b indir : Str) (ha : Diffstar.Spec.PlainPath a) (hb : Diffstar.Spec.PlainPath b) (ha0 : a ≠ [])
    (hb0 : b ≠ []) (file : H5) (h : galScript L o ty block mahRows r = some file) (fs : Fs) :
    ∃ fs', galRun L o ty block mahRows r indir (a ++ ' ' :: b) fs = some fs' ∧
      (∀ k < r, fs' (Diffstar.Spec.inDir (a ++ ' ' :: b) (Spec.galTmpName ty k)) ≠ none) ∧ fs' a = none := by
  unfold galScript at h
  obtain ⟨parts, hparts, hcol⟩ := Option.bind_eq_some_iff.1 h
  set ns := (List.range r).map fun i => Diffstar.Spec.inDir b (Spec.galTmpName ty i) with hns
  set names := ns.map fun c => a ++ ' ' :: c with hnames
  have hnames' : names = (List.range r).map fun i => Diffstar.Spec.inDir (a ++ ' ' :: b) (Spec.galTmpName ty i) := by
    rw [hnames, hns, List.map_map]
    apply List.map_congr_left
    intro i _
    exact (inDir_blank a b _ hb0).symm
  have hbr : ∀ c ∈ a ++ ' ' :: b, c ≠ '{' ∧ c ≠ '}' := by
    intro c hc
    simp only [List.mem_append, List.mem_cons] at hc
    rcases hc with hc | rfl | hc
    · exact ⟨(plain_char (ha.1 c hc)).2.2.1, (plain_char (ha.1 c hc)).2.2.2.1⟩
    · decide
    · exact ⟨(plain_char (hb.1 c hc)).2.2.1, (plain_char (hb.1 c hc)).2.2.2.1⟩
  have hfmt : ((List.range r).mapM fun i => pyFormat [natStr i, ty.text] (pathJoin (a ++ ' ' :: b) galTmp)) =
      some names := by
    rw [hnames']
    apply mapM_pure_some
    intro i _
    rw [pathJoin_eq _ _ (by decide), pyFormat_inDir _ hbr, pyFormat_galTmp]
    rfl
  have hnd : names.Nodup := by
    rw [hnames']
    apply List.Nodup.map _ List.nodup_range
    intro i j hij
    exact (galTmpName_inj (inDir_inj hij)).2
  have hlen : names.length = parts.length := by
    rw [parts_length hparts, hnames']; simp
  have hatok : IsTok a ∧ '*' ∉ a :=
    ⟨⟨ha0, fun c hc => ⟨(plain_char (ha.1 c hc)).1, (plain_char (ha.1 c hc)).2.1⟩⟩,
      fun hc => (plain_char (ha.1 _ hc)).2.2.2.2 rfl⟩
  have htok : ∀ n ∈ ns, IsTok n ∧ '*' ∉ n := by
    intro n hn
    rw [hns, List.mem_map] at hn
    obtain ⟨k, -, rfl⟩ := hn
    refine ⟨isTok_inDir hb (galTmpName_head ty k).1 fun c hc => ?_, star_inDir hb fun hc => ?_⟩
    · exact ⟨(galTmpName_chars ty k c hc).1, (galTmpName_chars ty k c hc).2.1⟩
    · exact (galTmpName_chars ty k _ hc).2.2.1 rfl
  have hout : pathJoin (a ++ ' ' :: b) (galOutName ty) = Diffstar.Spec.inDir (a ++ ' ' :: b) (galOutName ty) := by
    refine pathJoin_eq _ _ ?_
    cases ty <;> decide
  have hfin := rm_blanks ns ((writeRanks L.f4 fs names parts).write
    (Diffstar.Spec.inDir (a ++ ' ' :: b) (galOutName ty)) (.h5 file)) a
  refine ⟨names.foldl (fun fs fn => fs.rm fn) ((writeRanks L.f4 fs names parts).write
    (Diffstar.Spec.inDir (a ++ ' ' :: b) (galOutName ty)) (.h5 file)), ?_, ?_, ?_⟩
  · unfold galRun
    simp only [hparts, hfmt, Option.bind_eq_bind, Option.bind_some, collateFiles_eq L.f4 names parts fs hnd hlen,
      hcol, hout, List.append_eq_nil_iff, reduceCtorEq, and_false, if_false]
    rfl
  · intro k hk
    have hsp : ∀ q : Str, ' ' ∉ q → Diffstar.Spec.inDir (a ++ ' ' :: b) (Spec.galTmpName ty k) ≠ q := by
      intro q hq e
      apply hq
      rw [← e, inDir_blank a b _ hb0]
      simp
    have hmem : Diffstar.Spec.inDir (a ++ ' ' :: b) (Spec.galTmpName ty k) ∈ names := by
      rw [hnames']
      exact List.mem_map.2 ⟨k, List.mem_range.2 hk, rfl⟩
    have hspace : ∀ q : Str, IsTok q → ' ' ∉ q := fun q hq hm => by
      have := (hq.2 _ hm).1
      revert this; decide
    rw [hfin _ hatok.1 hatok.2 htok, if_neg]
    · rw [Fs.write]
      split_ifs
      · simp
      · obtain ⟨i, hi⟩ := List.getElem?_of_mem hmem
        obtain ⟨x, hx, -⟩ := (mapM_some_get _ _ _ (writeRanks_read L.f4 names parts fs hnd hlen)).2 i _ hi
        intro h0
        unfold Fs.readText at hx
        rw [h0] at hx
        exact absurd hx (by simp)
    · rintro (⟨e, -⟩ | hm)
      · exact hsp a (hspace a hatok.1) e
      · exact hsp _ (hspace _ (htok _ hm).1) rfl
  · rw [hfin _ hatok.1 hatok.2 htok, if_pos]
    left
    refine ⟨rfl, ?_⟩
    rw [hns]
    intro e
    have := congrArg List.length e
    simp at this
    omega

example : Diffstar.Spec.PlainPath "/data/my".toList ∧ Diffstar.Spec.PlainPath "run".toList := by
  unfold Diffstar.Spec.PlainPath
  refine ⟨by decide, by decide⟩

/-- The collations of the three scripts succeed for two galaxies and one rank. -/
example (L : Libs) (o : Opts) (ty : SfhType) : ∃ (tgt : Target) (mahRows : List MahRow) (d : UmData) (f1 f2 f3 : H5),
    galScript L o ty (writeBlock tgt) mahRows 1 = some f1 ∧
    umScript L o d.haloIds d.sfhs d.t d.mahRows 1 = some f2 ∧
    tngFitScript L o d.haloIds d.sfhs d.t d.mahRows 1 = some f3 := by
  have hl : ∀ x ∈ [[(1 : ℝ), 2], [3, 4]], x.length = [(1 : ℝ), 10].length := by
    intro x hx
    simp at hx
    rcases hx with rfl | rfl <;> rfl
  obtain ⟨f1, -, h1, -⟩ := C110_galacticus_catalogue_partial L o ty ⟨[1, 10], [[1, 2], [3, 4]], [[1, 2], [3, 4]], [1, 0]⟩
    [⟨⟨12, 0.3, 2, 1, 14⟩, 0.1, 40⟩, ⟨⟨11, 0.3, 2, 1, 14⟩, 0.2, 30⟩] 1 2 10 (by simp) (by simp) rfl rfl rfl rfl
    (by intro x hx; rcases List.mem_append.1 hx with h | h <;> exact hl x h)
  obtain ⟨f2, -, h2, -⟩ := (C110_smdpl_catalogue_partial L o [7, 9] [[1, 2], [3, 4]] [1, 10]
    [⟨⟨12, 0.3, 2, 1, 14⟩, 0.1, 40⟩, ⟨⟨11, 0.3, 2, 1, 14⟩, 0.2, 30⟩] 1 (by simp) (by simp) (by simp) rfl hl).2 rfl
  obtain ⟨f3, -, h3, -⟩ := C110_tng_catalogue_partial L o [7, 9] [[1, 2], [3, 4]] [1, 10] 10
    [⟨⟨12, 0.3, 2, 1, 14⟩, 0.1, 40⟩, ⟨⟨11, 0.3, 2, 1, 14⟩, 0.2, 30⟩] 1 (by simp) (by simp) rfl rfl hl rfl
  exact ⟨_, _, ⟨[7, 9], [[1, 2], [3, 4]], [1, 10], [⟨⟨12, 0.3, 2, 1, 14⟩, 0.1, 40⟩, ⟨⟨11, 0.3, 2, 1, 14⟩, 0.2, 30⟩]⟩,
    f1, f2, f3, h1, h2, h3⟩

end Diffstar.Props
