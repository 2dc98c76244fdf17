import Verif.Model.CatFiles
import Verif.Props.RankFiles
import Verif.Props.SubvolFiles
import Verif.Props.SubvolNames

/-!
C130: the catalogues written by the fitting scripts are found by the readers of the pipeline.
-/

namespace Diffstar.Props

open Diffstar Diffstar.Text Diffstar.Fit Diffstar.Output Diffstar.Load Diffstar.Galcus Diffstar.Scripts
open Diffstar.RankFiles Diffstar.CatFiles Diffstar.SubvolFiles

/-- `listing` is the list of the names of the files in the directory. -/
def Spec.Listing (fs : Fs) (dir : Str) (listing : List Str) : Prop :=
  ∀ s, s ∈ listing ↔ '/' ∉ s ∧ fs (Diffstar.Spec.inDir dir s) ≠ none

theorem readH5_of {fs : Fs} {p : Str} {f : H5} (h : fs p = some (.h5 f)) : readH5 fs p = some f := by
  unfold readH5; rw [h]

theorem readH5_none {fs : Fs} {p : Str} (h : fs p = none) : readH5 fs p = none := by
  unfold readH5; rw [h]

/-- Files of different base names are different, also in different directories. -/
theorem inDir_ne {d d' a b : Str} (ha : '/' ∉ a) (hb : '/' ∉ b) (h : a ≠ b) :
    Diffstar.Spec.inDir d a ≠ Diffstar.Spec.inDir d' b := by
  intro e
  apply h
  rw [← basename_inDir d a ha, e, basename_inDir d' b hb]

theorem galOut_eq : ("diffstar_fits_".toList ++ SfhType.inSitu.text ++ ".hdf5".toList = "diffstar_fits_in_situ.hdf5".toList) ∧
    ("diffstar_fits_".toList ++ SfhType.inPlusExSitu.text ++ ".hdf5".toList =
      "diffstar_fits_in_plus_ex_situ.hdf5".toList) := by
  constructor <;> decide

theorem not_slash_galOut (ty : SfhType) : '/' ∉ "diffstar_fits_".toList ++ ty.text ++ ".hdf5".toList := by
  cases ty <;> decide

/-- A run of the Galacticus script does not touch the diffmah fits. -/
theorem gal_keeps_mah {L : Libs} {o : Opts} {ty : SfhType} {block : Flat Cell} {mahRows : List MahRow} {r : ℕ}
    {indir outdir dir dm : Str} (hdir : dir = if outdir = [] then indir else outdir) (hp : Diffstar.Spec.PlainPath dir)
    {file : H5} (h : galScript L o ty block mahRows r = some file) (fs : Fs) :
    ∃ fs', galRun L o ty block mahRows r indir outdir fs = some fs' ∧
      fs' (Diffstar.Spec.inDir dir ("diffstar_fits_".toList ++ ty.text ++ ".hdf5".toList)) = some (.h5 file) ∧
      (∀ ty' ≠ ty, fs' (Diffstar.Spec.inDir dir ("diffstar_fits_".toList ++ ty'.text ++ ".hdf5".toList)) =
        fs (Diffstar.Spec.inDir dir ("diffstar_fits_".toList ++ ty'.text ++ ".hdf5".toList))) ∧
      fs' (Diffstar.Spec.inDir dm "diffmah_fits.h5".toList) = fs (Diffstar.Spec.inDir dm "diffmah_fits.h5".toList) := by
  obtain ⟨fs', h1, h2, -, h4⟩ := C129_galacticus_partial L o ty block mahRows r indir outdir dir hdir hp file h fs
  refine ⟨fs', h1, h2, fun ty' hty => ?_, h4 _ ?_ fun k _ => ?_⟩
  · obtain ⟨fs'', g1, -, g3⟩ := C129_sfh_types_independent L o ty ty' hty.symm block mahRows r indir outdir dir hdir hp
      file h fs
    rw [h1] at g1
    rw [Option.some.inj g1, g3]
  · refine inDir_ne (by decide) (not_slash_galOut ty) ?_
    cases ty <;> decide
  · refine inDir_ne (by decide) (fun hc => (galTmpName_chars ty k _ hc).2.2.2 rfl) ?_
    intro e
    have h5 := (galTmpName_head ty k).2
    rw [← e] at h5
    revert h5; decide

/-- C130 (partial: both fits have been run, into the same directory): after the runs of the Galacticus script for the two
values of `sfh_type`, `load_galacticus_diffstar_data` returns the diffmah fits, the two catalogues, each under its own name,
and the histories. -/
theorem C130_galacticus_partial (L : Libs) (o : Opts) (block : Flat Cell) (mahRows : List MahRow) (r r' : ℕ)
    (indir outdir dir : Str) (hdir : dir = if outdir = [] then indir else outdir) (hp : Diffstar.Spec.PlainPath dir)
    (f1 f2 : H5) (h1 : galScript L o .inSitu block mahRows r = some f1)
    (h2 : galScript L o .inPlusExSitu block mahRows r' = some f2) (fs : Fs) (target : Str → Option Target) (drn dm : Str)
    (tgt : Target) (ht : target drn = some tgt) (mah : H5)
    (hm : fs (Diffstar.Spec.inDir dm "diffmah_fits.h5".toList) = some (.h5 mah)) :
    ∃ fs1 fs2, galRun L o .inSitu block mahRows r indir outdir fs = some fs1 ∧
      galRun L o .inPlusExSitu block mahRows r' indir outdir fs1 = some fs2 ∧
      loadGalacticusDiffstarData fs2 target drn dir dm = some ⟨mah, f1, f2, tgt⟩ := by
  obtain ⟨fs1, a1, a2, -, a4⟩ := gal_keeps_mah (dm := dm) hdir hp h1 fs
  obtain ⟨fs2, b1, b2, b3, b4⟩ := gal_keeps_mah (dm := dm) hdir hp h2 fs1
  refine ⟨fs1, fs2, a1, b1, ?_⟩
  have e1 := (b3 .inSitu (by decide)).trans a2
  rw [galOut_eq.1] at e1
  rw [galOut_eq.2] at b2
  unfold loadGalacticusDiffstarData
  rw [pathJoin_eq _ _ (by decide), pathJoin_eq _ _ (by decide), pathJoin_eq _ _ (by decide),
    readH5_of (b4.trans (a4.trans hm)), readH5_of e1, readH5_of b2, ht]
  rfl

/-- C130 fails after one of the two fits: although the fits of the in-situ histories are complete, nothing can be loaded
before those of the total histories have been run as well, and the other way round. -/
theorem C130_one_fit_violated (L : Libs) (o : Opts) (ty ty' : SfhType) (hty : ty' ≠ ty) (block : Flat Cell)
    (mahRows : List MahRow) (r : ℕ) (indir outdir dir : Str) (hdir : dir = if outdir = [] then indir else outdir)
    (hp : Diffstar.Spec.PlainPath dir) (file : H5) (h : galScript L o ty block mahRows r = some file) (fs : Fs)
    (hno : fs (Diffstar.Spec.inDir dir ("diffstar_fits_".toList ++ ty'.text ++ ".hdf5".toList)) = none)
    (target : Str → Option Target) (drn dm : Str) :
    ∃ fs', galRun L o ty block mahRows r indir outdir fs = some fs' ∧
      fs' (Diffstar.Spec.inDir dir ("diffstar_fits_".toList ++ ty.text ++ ".hdf5".toList)) = some (.h5 file) ∧
      loadGalacticusDiffstarData fs' target drn dir dm = none := by
  obtain ⟨fs', h1, h2, h3, -⟩ := gal_keeps_mah (dm := dm) hdir hp h fs
  refine ⟨fs', h1, h2, ?_⟩
  have e := (h3 ty' hty).trans hno
  unfold loadGalacticusDiffstarData
  rw [pathJoin_eq _ _ (by decide), pathJoin_eq _ _ (by decide), pathJoin_eq _ _ (by decide)]
  cases ty'
  · rw [galOut_eq.1] at e
    rw [readH5_none e]
    cases readH5 fs' (Diffstar.Spec.inDir dm "diffmah_fits.h5".toList) <;> rfl
  · rw [galOut_eq.2] at e
    rw [readH5_none e]
    cases readH5 fs' (Diffstar.Spec.inDir dm "diffmah_fits.h5".toList) <;>
      cases readH5 fs' (Diffstar.Spec.inDir dir "diffstar_fits_in_situ.hdf5".toList) <;> rfl

/-- C130: after a run of the TNG script, `load_diffdata` returns the catalogue together with the file of diffmah fits that the
script has read. -/
theorem C130_tng (L : Libs) (o : Opts) (haloIds : List ℤ) (sfhs : List (List ℝ)) (t : List ℝ)
    (mahRows : List MahRow) (r : ℕ) (hr : 1 ≤ r) (dir dm : Str) (hp : Diffstar.Spec.PlainPath dir) (file : H5)
    (h : tngFitScript L o haloIds sfhs t mahRows r = some file) (fs : Fs) (mah : H5)
    (hm : fs (tngMahFile dm) = some (.h5 mah)) :
    ∃ fs', tngRun L o haloIds sfhs t mahRows r dir fs = some fs' ∧ loadDiffdata fs' dm dir = some (mah, file) := by
  obtain ⟨fs', h1, h2, -, -, h5⟩ := C129_tng_partial L o haloIds sfhs t mahRows r hr dir hp file h fs
  refine ⟨fs', h1, ?_⟩
  have e : pyReplace "diffstar".toList "diffmah".toList "diffstar_tng_fits.hdf5".toList = "diffmah_tng_fits.hdf5".toList := by
    decide +kernel
  unfold tngMahFile at hm
  rw [pathJoin_eq _ _ (by decide)] at hm
  have hmah : fs' (Diffstar.Spec.inDir dm "diffmah_tng_fits.hdf5".toList) = some (.h5 mah) := by
    rw [h5, hm]
    · exact inDir_ne (by decide) (by decide) (by decide)
    · rintro ⟨s, hs, e⟩
      refine inDir_ne (by decide) ?_ ?_ e
      · intro hc
        rcases List.mem_append.1 hc with hc | hc
        · rcases List.mem_append.1 hc with hc | hc
          · revert hc; decide
          · exact hs hc
        · revert hc; decide
      · rw [List.append_assoc, show "tmp_sfh_fits_rank_".toList = 't' :: "mp_sfh_fits_rank_".toList by decide,
          show "diffmah_tng_fits.hdf5".toList = 'd' :: "iffmah_tng_fits.hdf5".toList by decide, List.cons_append]
        simp
  unfold loadDiffdata
  simp only
  rw [e, pathJoin_eq _ _ (by decide), pathJoin_eq _ _ (by decide), readH5_of h2, readH5_of hmah]
  rfl

/-- C130: the diffmah fits are read from the file that is asked for. -/
theorem C130_same_file (dir bn : Str) (hb : '/' ∉ bn) (hd : dir.getLast? ≠ some '/') :
    precomputedFile (dir ++ '/' :: bn) = dir ++ '/' :: bn ∧ precomputedFile bn = bn := by
  have hbn : basename bn = bn := by
    have := basename_inDir [] bn hb
    simpa [Diffstar.Spec.inDir] using this
  have hb1 : basename (dir ++ '/' :: bn) = bn := by
    have e : dir ++ '/' :: bn = Diffstar.Spec.inDir (dir ++ ['/']) bn := by simp [Diffstar.Spec.inDir]
    rw [e, basename_inDir _ _ hb]
  have hh : bn.head? ≠ some '/' := fun e => hb (List.mem_of_mem_head? e)
  constructor
  · unfold precomputedFile dirname
    simp only
    have e1 : (dir ++ '/' :: bn).length - bn.length = (dir ++ ['/']).length := by simp; omega
    have e2 : (dir ++ '/' :: bn).take (dir ++ ['/']).length = dir ++ ['/'] := by
      rw [show dir ++ '/' :: bn = (dir ++ ['/']) ++ bn by simp, List.take_left']
      rfl
    rw [hb1, e1, e2]
    rcases List.eq_nil_or_concat dir with rfl | ⟨d, x, rfl⟩
    · simp [pathJoin, hh]
    · have hx : x ≠ '/' := by simpa using hd
      rw [if_pos]
      · simp [pathJoin, hh, hx]
      · exact ⟨by simp, x, by simp, hx⟩
  · unfold precomputedFile dirname
    simp only
    rw [hbn]
    simp [pathJoin, hh]

/-! ### SMDPL -/

theorem natStr_digits (i : ℕ) : ∀ c ∈ natStr i, c.isDigit = true := fun c hc => isDigit_natStr i c hc

theorem starFile_out (i : ℕ) (hi : i < 1000) : Spec.StarFile (Spec.umOutName i) (natStr i) i := by
  refine ⟨⟨rfl, natStr_digits i, List.length_pos_iff.2 (natStr_ne_nil i), length_natStr_le (by norm_num) (by simpa using hi)⟩, ?_⟩
  have := ofDigitChars_zpad 0 i
  simpa [zpad] using this

theorem not_slash_out (i : ℕ) : '/' ∉ Spec.umOutName i := by
  unfold Spec.umOutName
  intro h
  rcases List.mem_append.1 h with h | h
  · rcases List.mem_append.1 h with h | h
    · revert h; decide
    · exact (natStr_chars i _ h).2.2.2 rfl
  · revert h; decide

/-- The catalogues in a directory that had none before the run are those of the run. -/
theorem listing_star {L : Libs} {o : Opts} {data : ℕ → UmData} {n r : ℕ} {dir : Str} (hp : Diffstar.Spec.PlainPath dir)
    {subvols : List ℕ} {file : ℕ → H5}
    (h : ∀ i ∈ subvols, umScript L o (data i).haloIds (data i).sfhs (data i).t (data i).mahRows r = some (file i))
    {fs : Fs} (h0 : ∀ s, fs (Diffstar.Spec.inDir dir ("diffstar_fits_subvol_".toList ++ s ++ ".hdf5".toList)) = none) :
    ∃ fs', umRun L o data n r dir subvols fs = some fs' ∧
      (∀ i ∈ subvols, fs' (Diffstar.Spec.inDir dir (Spec.umOutName i)) = some (.h5 (file i))) ∧
      (∀ p : Str, p.head? = some 'd' → '/' ∉ p → (∀ i ∈ subvols, p ≠ Spec.umOutName i) → ∀ d',
        fs' (Diffstar.Spec.inDir d' p) = fs (Diffstar.Spec.inDir d' p)) ∧
      ∀ listing, Spec.Listing fs' dir listing →
        (∀ i ∈ subvols, Spec.umOutName i ∈ listing) ∧
        ∀ g e k, g ∈ listing → Spec.StarFile g e k → ∃ i ∈ subvols, e = natStr i := by
  obtain ⟨fs', h1, h2, -, h4⟩ := C129_smdpl_partial L o data n r dir hp subvols file h fs
  have hsw : ∀ (i : ℕ) (p : Str), p.head? = some 'd' → '/' ∉ p → ∀ d',
      ¬ Spec.Swept dir (Spec.subvolName n i) (Diffstar.Spec.inDir d' p) := by
    rintro i p hd hs d' ⟨s, hs', e⟩
    have hs2 : '/' ∉ Spec.subvolName n i ++ s ++ ".dat".toList := by
      intro hc
      rcases List.mem_append.1 hc with hc | hc
      · rcases List.mem_append.1 hc with hc | hc
        · exact (subvolName_chars n i _ hc).2.2.2 rfl
        · exact hs' hc
      · revert hc; decide
    have e2 : p = Spec.subvolName n i ++ s ++ ".dat".toList := by
      rw [← basename_inDir d' p hs, e, basename_inDir dir _ hs2]
    rw [e2, List.append_assoc, subvolName_head] at hd
    exact absurd hd (by decide)
  have hkeep : ∀ p : Str, p.head? = some 'd' → '/' ∉ p → (∀ i ∈ subvols, p ≠ Spec.umOutName i) → ∀ d',
      fs' (Diffstar.Spec.inDir d' p) = fs (Diffstar.Spec.inDir d' p) := by
    intro p hd hs hne d'
    exact h4 _ fun i hi => ⟨inDir_ne hs (not_slash_out i) (hne i hi), hsw i p hd hs d'⟩
  refine ⟨fs', h1, h2, hkeep, fun listing hl => ⟨fun i hi => ?_, fun g e k hg he => ?_⟩⟩
  · rw [hl]
    exact ⟨not_slash_out i, by rw [h2 i hi]; simp⟩
  · obtain ⟨hgs, hg⟩ := (hl g).1 hg
    have hg' := he.1.1
    by_contra hne
    push Not at hne
    apply hg
    rw [hkeep g ?_ hgs ?_ dir, hg', h0]
    · rw [hg', List.append_assoc, show "diffstar_fits_subvol_".toList = 'd' :: "iffstar_fits_subvol_".toList by decide]
      rfl
    · intro i hi e'
      rw [hg'] at e'
      exact hne i hi (List.append_cancel_left (List.append_cancel_right e'))

/-- C130 (partial: the numbers of the fitted subvolumes all have the same number of digits, or one of them is below ten; the
output directory is plain and has no other catalogues): after a run of the SMDPL script, `load_diffstar_subvolume` returns for
every subvolume of the run its catalogue, together with the diffmah fits of the same subvolume. -/
theorem C130_smdpl_partial (L : Libs) (o : Opts) (data : ℕ → UmData) (n r : ℕ) (dir dm : Str)
    (hp : Diffstar.Spec.PlainPath dir) (subvols : List ℕ) (file mah : ℕ → H5) (hs : ∀ i ∈ subvols, i < 1000)
    (hw : (∃ m, ∀ i ∈ subvols, (natStr i).length = m) ∨ ∃ i ∈ subvols, i < 10)
    (h : ∀ i ∈ subvols, umScript L o (data i).haloIds (data i).sfhs (data i).t (data i).mahRows r = some (file i))
    (fs : Fs) (h0 : ∀ s, fs (Diffstar.Spec.inDir dir ("diffstar_fits_subvol_".toList ++ s ++ ".hdf5".toList)) = none)
    (hm : ∀ i ∈ subvols,
      fs (Diffstar.Spec.inDir dm ("diffmah_fits_subvol_".toList ++ natStr i ++ ".hdf5".toList)) = some (.h5 (mah i))) :
    ∃ fs', umRun L o data n r dir subvols fs = some fs' ∧
      ∀ listing mahListing, Spec.Listing fs' dir listing → ∀ i ∈ subvols,
        loadSubvolume fs' .dr1 listing mahListing dir dm i = some (mah i, file i) := by
  obtain ⟨fs', h1, h2, hkeep, h3⟩ := listing_star (n := n) hp h h0
  refine ⟨fs', h1, fun listing mahListing hl i hi => ?_⟩
  obtain ⟨hl1, hl2⟩ := h3 listing hl
  have hfiles := C101_dr1_files_partial listing mahListing i (Spec.umOutName i) (natStr i) (hl1 i hi)
    (starFile_out i (hs i hi)) (by
      rcases hw with ⟨m, hw⟩ | ⟨j, hj, hj10⟩
      · left
        intro g e k hg he
        obtain ⟨j, hj, rfl⟩ := hl2 g e k hg he
        rw [hw i hi, hw j hj]
      · right
        refine ⟨rfl, Spec.umOutName j, natStr j, j, hl1 j hj, starFile_out j (hs j hj), ?_⟩
        have h2 : (natStr j).length ≤ 1 := length_natStr_le (by omega) (by simpa using hj10)
        have h3 : (natStr j).length ≠ 0 := by simpa [List.length_eq_zero_iff] using natStr_ne_nil j
        omega)
  have hmn : ("diffmah_fits_subvol_".toList ++ natStr i ++ ".hdf5".toList).head? = some 'd' := by
    rw [List.append_assoc, show "diffmah_fits_subvol_".toList = 'd' :: "iffmah_fits_subvol_".toList by decide]
    rfl
  have hms : '/' ∉ "diffmah_fits_subvol_".toList ++ natStr i ++ ".hdf5".toList := by
    intro hc
    rcases List.mem_append.1 hc with hc | hc
    · rcases List.mem_append.1 hc with hc | hc
      · revert hc; decide
      · exact (natStr_chars i _ hc).2.2.2 rfl
    · revert hc; decide
  have hmah := hkeep _ hmn hms (by
    intro j _ e
    unfold Spec.umOutName at e
    rw [List.append_assoc, List.append_assoc, show "diffmah_fits_subvol_".toList = "diff".toList ++ 'm' :: "ah_fits_subvol_".toList
      by decide, show "diffstar_fits_subvol_".toList = "diff".toList ++ 's' :: "tar_fits_subvol_".toList by decide,
      List.append_assoc, List.append_assoc] at e
    have e2 := List.append_cancel_left e
    simp at e2) dm
  unfold loadSubvolume
  rw [hfiles]
  simp only [Option.bind_eq_bind, Option.bind_some]
  rw [pathJoin_eq _ _ (by rw [umOutName_head]; decide), pathJoin_eq _ _ (by rw [hmn]; decide), readH5_of (h2 i hi),
    readH5_of (hmah.trans (hm i hi))]
  rfl

example : (∃ i ∈ List.range 576, i < 10) ∧ ∀ i ∈ List.range 576, i < 1000 :=
  ⟨⟨3, by simp, by norm_num⟩, fun i hi => by have := List.mem_range.1 hi; omega⟩

/-- C130 fails if the numbers of the fitted subvolumes have two and three digits, as for `-istart 99 -iend 101`: the names are
written without leading zeros, and the reader finds no catalogue at all. -/
theorem C130_mixed_digits_violated (L : Libs) (o : Opts) (data : ℕ → UmData) (n r : ℕ) (dir dm : Str)
    (hp : Diffstar.Spec.PlainPath dir) (file : ℕ → H5)
    (h : ∀ i ∈ [99, 100], umScript L o (data i).haloIds (data i).sfhs (data i).t (data i).mahRows r = some (file i))
    (fs : Fs) (h0 : ∀ s, fs (Diffstar.Spec.inDir dir ("diffstar_fits_subvol_".toList ++ s ++ ".hdf5".toList)) = none) :
    ∃ fs', umRun L o data n r dir [99, 100] fs = some fs' ∧
      (∀ i ∈ [99, 100], fs' (Diffstar.Spec.inDir dir (Spec.umOutName i)) = some (.h5 (file i))) ∧
      ∀ listing mahListing sim i, Spec.Listing fs' dir listing →
        loadSubvolume fs' sim listing mahListing dir dm i = none := by
  obtain ⟨fs', h1, h2, hkeep, h3⟩ := listing_star (n := n) hp h h0
  refine ⟨fs', h1, h2, fun listing mahListing sim i hl => ?_⟩
  obtain ⟨hl1, hl2⟩ := h3 listing hl
  have hnone : SubvolFiles.subvolStr i listing = none := by
    unfold SubvolFiles.subvolStr
    set l := (matchingFiles starPre starPost listing).map lastField with hlist
    have hmem : ∀ j ∈ [99, 100], natStr j ∈ l := by
      intro j hj
      have hj' : j < 1000 := by
        simp at hj; omega
      have hs := starFile_out j hj'
      exact List.mem_map.2 ⟨Spec.umOutName j, mem_matchingFiles.2 ⟨hl1 j hj, natStr j, hs.1⟩, lastField_star hs.1⟩
    have hall : ∀ e ∈ l, e.length = 2 ∨ e.length = 3 := by
      intro e he
      obtain ⟨g, hg, rfl⟩ := List.mem_map.1 he
      obtain ⟨hg1, d, hd⟩ := mem_matchingFiles.1 hg
      rw [lastField_star hd]
      obtain ⟨j, hj, rfl⟩ := hl2 g d _ hg1 ⟨hd, rfl⟩
      simp only [List.mem_cons, List.not_mem_nil, or_false] at hj
      rcases hj with rfl | rfl
      · left; decide
      · right; decide
    have l2 : (natStr 99).length = 2 := by decide
    have l3 : (natStr 100).length = 3 := by decide
    unfold Targets.returnSubvolStr
    simp only
    rw [if_neg]
    · cases hmx : (l.map List.length).max? with
      | none => rfl
      | some m =>
        rw [Option.bind_some, if_neg]
        intro ha
        rw [List.all_eq_true] at ha
        have a1 := ha 2 (List.mem_map.2 ⟨_, hmem 99 (by simp), l2⟩)
        have a2 := ha 3 (List.mem_map.2 ⟨_, hmem 100 (by simp), l3⟩)
        simp only [beq_iff_eq] at a1 a2
        omega
    · intro ha
      rw [List.any_eq_true] at ha
      obtain ⟨x, hx, hx1⟩ := ha
      obtain ⟨e, he, rfl⟩ := List.mem_map.1 hx
      simp only [beq_iff_eq] at hx1
      rcases hall e he with h | h <;> omega
  unfold loadSubvolume subvolFiles
  rw [hnone]
  rfl

end Diffstar.Props
