import Verif.Model.SubvolFiles
import Verif.Lemmas.Text
import Mathlib.Data.List.Basic
import Mathlib.Data.List.GetD
import Mathlib.Data.List.Sort

/-!
C101: the files of a subvolume of SMDPL.
-/

namespace Diffstar.Props

open Diffstar Diffstar.Targets Diffstar.Text Diffstar.SubvolFiles

namespace Spec

/-- The file `f` has one to three digits `d` between `pre` and `post`. -/
def NamedBy (pre post f d : Str) : Prop :=
  f = pre ++ d ++ post ∧ (∀ c ∈ d, c.isDigit = true) ∧ 1 ≤ d.length ∧ d.length ≤ 3

/-- The file `f` is the diffstar file with the digits `d`, of number `n`. -/
def StarFile (f d : Str) (n : ℕ) : Prop :=
  NamedBy "diffstar_fits_subvol_".toList ".hdf5".toList f d ∧ Nat.ofDigitChars 10 d 0 = n

/-- The file `f` is the diffmah file of the merger-free simulation with the digits `d`, of number `n`. -/
def MahFile (f d : Str) (n : ℕ) : Prop :=
  NamedBy "subvol_".toList "_diffmah_fits.h5".toList f d ∧ Nat.ofDigitChars 10 d 0 = n

end Spec

/-! ### Digit strings -/

theorem digit_bounds {c : Char} (h : c.isDigit = true) : 48 ≤ c.toNat ∧ c.toNat ≤ 57 := by
  simp only [Char.isDigit, Bool.and_eq_true, decide_eq_true_eq] at h
  exact ⟨by simpa [UInt32.le_iff_toNat_le] using h.1, by simpa [UInt32.le_iff_toNat_le] using h.2⟩

theorem digits_lt (d : Str) (h : ∀ c ∈ d, c.isDigit = true) : Nat.ofDigitChars 10 d 0 < 10 ^ d.length := by
  induction d with
  | nil => simp
  | cons c cs ih =>
    have h1 := ih fun x hx => h x (by simp [hx])
    have h2 := digit_bounds (h c (by simp))
    rw [Nat.ofDigitChars_cons, Nat.ofDigitChars_eq_ofDigitChars_zero, List.length_cons, pow_succ]
    have h3 : '0'.toNat = 48 := rfl
    rw [h3]
    have h4 : 10 * 0 + (c.toNat - 48) ≤ 9 := by omega
    have h5 := Nat.mul_le_mul_left (10 ^ cs.length) h4
    omega

/-- Digit strings of the same length and value are equal. -/
theorem digits_inj (d e : Str) (hd : ∀ c ∈ d, c.isDigit = true) (he : ∀ c ∈ e, c.isDigit = true)
    (hl : d.length = e.length) (hv : Nat.ofDigitChars 10 d 0 = Nat.ofDigitChars 10 e 0) : d = e := by
  induction d generalizing e with
  | nil => cases e with
    | nil => rfl
    | cons _ _ => simp at hl
  | cons c cs ih => cases e with
    | nil => simp at hl
    | cons b bs =>
      have hl' : cs.length = bs.length := by simpa using hl
      have hcs : ∀ x ∈ cs, x.isDigit = true := fun x hx => hd x (by simp [hx])
      have hbs : ∀ x ∈ bs, x.isDigit = true := fun x hx => he x (by simp [hx])
      have h1 := digits_lt cs hcs
      have h2 := digits_lt bs hbs
      have hc := digit_bounds (hd c (by simp))
      have hb := digit_bounds (he b (by simp))
      have h3 : '0'.toNat = 48 := rfl
      rw [Nat.ofDigitChars_cons, Nat.ofDigitChars_eq_ofDigitChars_zero, Nat.ofDigitChars_cons,
        Nat.ofDigitChars_eq_ofDigitChars_zero (l := bs), h3, ← hl', Nat.mul_zero, Nat.zero_add, Nat.zero_add] at hv
      rw [← hl'] at h2
      have hq : c.toNat - 48 = b.toNat - 48 := by
        have e1 : (10 ^ cs.length * (c.toNat - 48) + Nat.ofDigitChars 10 cs 0) / 10 ^ cs.length = c.toNat - 48 := by
          rw [Nat.mul_add_div (by positivity), Nat.div_eq_of_lt h1, Nat.add_zero]
        have e2 : (10 ^ cs.length * (b.toNat - 48) + Nat.ofDigitChars 10 bs 0) / 10 ^ cs.length = b.toNat - 48 := by
          rw [Nat.mul_add_div (by positivity), Nat.div_eq_of_lt h2, Nat.add_zero]
        rw [← e1, ← e2, hv]
      have hcb : c = b := Char.toNat_inj.mp (by omega)
      have hr : Nat.ofDigitChars 10 cs 0 = Nat.ofDigitChars 10 bs 0 := by rw [hq] at hv; omega
      rw [hcb, ih bs hcs hbs hl' hr]

/-! ### Names -/

theorem pyMatch_iff (pre post f : Str) : pyMatch pre post f = true ↔ ∃ d, Spec.NamedBy pre post f d := by
  unfold pyMatch Spec.NamedBy
  rw [List.any_eq_true]
  constructor
  · rintro ⟨k, hk, h⟩
    simp only [Bool.and_eq_true, beq_iff_eq, List.all_eq_true] at h
    obtain ⟨⟨⟨h1, h2⟩, h3⟩, h4⟩ := h
    refine ⟨(f.drop pre.length).take k, ?_, h3, ?_, ?_⟩
    · conv_lhs => rw [← List.take_append_drop pre.length f, ← List.take_append_drop k (f.drop pre.length)]
      rw [List.drop_drop, h1, h4, List.append_assoc]
    · rw [h2]; fin_cases hk <;> decide
    · rw [h2]; fin_cases hk <;> decide
  · rintro ⟨d, rfl, h3, h1, h2⟩
    refine ⟨d.length, ?_, ?_⟩
    · have : d.length = 1 ∨ d.length = 2 ∨ d.length = 3 := by omega
      simpa using this
    · rw [List.append_assoc]
      have e1 : (pre ++ (d ++ post)).take pre.length = pre := by simp
      have e2 : (pre ++ (d ++ post)).drop pre.length = d ++ post := by simp
      have e3 : (d ++ post).take d.length = d := by simp
      have e4 : (pre ++ (d ++ post)).drop (pre.length + d.length) = post := by
        rw [← List.drop_drop, e2]; simp
      rw [e1, e2, e3, e4]
      simpa using h3

theorem namedBy_unique {pre post f d e : Str} (h : Spec.NamedBy pre post f d) (h' : Spec.NamedBy pre post f e) :
    d = e := by
  have := h.1.symm.trans h'.1
  simpa using this

theorem not_mem_digits {d : Str} (h : ∀ c ∈ d, c.isDigit = true) {x : Char} (hx : x.isDigit = false) : x ∉ d :=
  fun hm => by rw [h x hm] at hx; cases hx

theorem lastField_star {f d : Str} (h : Spec.NamedBy starPre starPost f d) : lastField f = d := by
  obtain ⟨rfl, hd, -, -⟩ := h
  have h1 : starPre = "diffstar".toList ++ '_' :: ("fits".toList ++ '_' :: ("subvol".toList ++ '_' :: [])) := by decide
  have h2 : starPost = '.' :: "hdf5".toList := by decide
  have hd1 : '_' ∉ d := not_mem_digits hd (by decide)
  have hd2 : '.' ∉ d := not_mem_digits hd (by decide)
  have h3 : '_' ∉ d ++ '.' :: "hdf5".toList := by
    intro hm
    rcases List.mem_append.mp hm with hm | hm
    · exact hd1 hm
    · revert hm; decide
  unfold lastField
  rw [h1, h2]
  simp only [List.append_assoc, List.cons_append, List.nil_append]
  rw [List.splitOn_append_cons_self_of_not_mem (by decide), List.splitOn_append_cons_self_of_not_mem (by decide),
    List.splitOn_append_cons_self_of_not_mem (by decide), List.splitOn_eq_singleton h3]
  rw [List.getLastD_cons, List.getLastD_cons, List.getLastD_cons, List.getLastD_cons, List.getLastD_nil,
    List.splitOn_append_cons_self_of_not_mem hd2]
  rfl

theorem secondField_mah {f d : Str} (h : Spec.NamedBy mahPre mahPost f d) : secondField f = d := by
  obtain ⟨rfl, hd, -, -⟩ := h
  have h1 : mahPre = "subvol".toList ++ '_' :: [] := by decide
  have h2 : mahPost = '_' :: "diffmah_fits.h5".toList := by decide
  have hd1 : '_' ∉ d := not_mem_digits hd (by decide)
  unfold secondField
  rw [h1, h2]
  simp only [List.append_assoc, List.cons_append, List.nil_append]
  rw [List.splitOn_append_cons_self_of_not_mem (by decide), List.splitOn_append_cons_self_of_not_mem hd1]
  rfl

theorem pyReplaceAux_digits (d r : Str) (h : ∀ c ∈ d, c.isDigit = true) :
    pyReplaceAux "diffstar".toList "diffmah".toList 0 (d ++ r)
      = d ++ pyReplaceAux "diffstar".toList "diffmah".toList 0 r := by
  induction d with
  | nil => rfl
  | cons c cs ih =>
    have hc : ('d' == c) = false := by
      rw [beq_eq_false_iff_ne]
      exact (isDigit_ne (h c (by simp)) (by decide)).symm
    rw [List.cons_append, pyReplaceAux, if_neg, ih fun x hx => h x (by simp [hx])]
    · rfl
    · have : "diffstar".toList = 'd' :: "iffstar".toList := by decide
      rw [this, List.isPrefixOf, hc]
      simp

theorem pyReplace_star (d : Str) (h : ∀ c ∈ d, c.isDigit = true) :
    pyReplace "diffstar".toList "diffmah".toList (starPre ++ d ++ starPost)
      = "diffmah_fits_subvol_".toList ++ d ++ ".hdf5".toList := by
  have h1 : ∀ r, pyReplaceAux "diffstar".toList "diffmah".toList 0 (starPre ++ r)
      = "diffmah_fits_subvol_".toList ++ pyReplaceAux "diffstar".toList "diffmah".toList 0 r := fun r => rfl
  unfold pyReplace
  rw [List.append_assoc, h1, pyReplaceAux_digits d _ h, List.append_assoc]
  rfl

theorem pyReplace_mah (d : Str) (h : ∀ c ∈ d, c.isDigit = true) :
    pyReplace "diffstar".toList "diffmah".toList (mahPre ++ d ++ mahPost) = mahPre ++ d ++ mahPost := by
  have h1 : ∀ r, pyReplaceAux "diffstar".toList "diffmah".toList 0 (mahPre ++ r)
      = mahPre ++ pyReplaceAux "diffstar".toList "diffmah".toList 0 r := fun r => rfl
  unfold pyReplace
  rw [List.append_assoc, h1, pyReplaceAux_digits d _ h]
  rfl

theorem mem_matchingFiles {pre post f : Str} {l : List Str} :
    f ∈ matchingFiles pre post l ↔ f ∈ l ∧ ∃ d, Spec.NamedBy pre post f d := by
  unfold matchingFiles
  rw [List.mem_filter, pyMatch_iff]

theorem returnSubvolStr_width {m n : ℕ} {l : List Str} (hl : ∀ e ∈ l, e.length = m) {d : Str} (hd : d ∈ l)
    (hdig : ∀ c ∈ d, c.isDigit = true) (h0 : 1 ≤ d.length) (hn : Nat.ofDigitChars 10 d 0 = n) :
    returnSubvolStr n l = some d := by
  have hm : d.length = m := hl d hd
  have hlt : n < 10 ^ m := by rw [← hn, ← hm]; exact digits_lt d hdig
  have hm0 : 0 < m := by omega
  have hz : zpad m (natStr n) = d :=
    digits_inj _ _ (fun c hc => zpad_digits m n c hc) hdig ((length_zpad hm0 hlt).trans hm.symm)
      ((ofDigitChars_zpad m n).trans hn.symm)
  have hlen : ∀ x ∈ l.map List.length, x = m := by
    intro x hx
    obtain ⟨e, he, rfl⟩ := List.mem_map.1 hx
    exact hl e he
  have hmem : m ∈ l.map List.length := List.mem_map.2 ⟨d, hd, hm⟩
  have hmax : (l.map List.length).max? = some m := by
    rw [List.max?_eq_some_iff]
    exact ⟨hmem, fun b hb => (hlen b hb).le⟩
  unfold returnSubvolStr
  by_cases h1 : m = 1
  · subst h1
    have : ((l.map List.length).any (· == 1)) = true := List.any_eq_true.2 ⟨1, hmem, by simp⟩
    simp only [this, if_true]
    have h2 : (natStr n).length ≤ 1 := length_natStr_le (by omega) hlt
    have h3 : (natStr n).length ≠ 0 := by simpa [List.length_eq_zero_iff] using natStr_ne_nil n
    have h4 : 1 - (natStr n).length = 0 := by omega
    rw [← hz]
    simp [zpad, h4]
  · have : ((l.map List.length).any (· == 1)) = false := by
      rw [List.any_eq_false]
      intro x hx
      rw [hlen x hx]; simp [h1]
    have hall : ((l.map List.length).all (· == m)) = true := List.all_eq_true.2 fun x hx => by simp [hlen x hx]
    simp only [this, hmax, Option.bind_some, hall, if_true, Bool.false_eq_true, if_false, hz]

theorem returnSubvolStr_single {n : ℕ} {l : List Str} (hl : ∃ e ∈ l, e.length = 1) :
    returnSubvolStr n l = some (natStr n) := by
  obtain ⟨e, he, h1⟩ := hl
  have h : ((l.map List.length).any (· == 1)) = true :=
    List.any_eq_true.2 ⟨1, List.mem_map.2 ⟨e, he, h1⟩, by simp⟩
  unfold returnSubvolStr
  simp only [h, if_true]

/-- What the directory of diffstar files makes of the number of a subvolume. -/
theorem subvolStr_eq {starDrn : List Str} {n : ℕ} {f d : Str} (hf : f ∈ starDrn) (hd : Spec.StarFile f d n)
    (hw : (∀ g e k, g ∈ starDrn → Spec.StarFile g e k → e.length = d.length) ∨
      (d = natStr n ∧ ∃ g e k, g ∈ starDrn ∧ Spec.StarFile g e k ∧ e.length = 1)) :
    subvolStr n starDrn = some d := by
  unfold subvolStr
  have hmem : ∀ g e, g ∈ starDrn → Spec.NamedBy starPre starPost g e →
      e ∈ (matchingFiles starPre starPost starDrn).map lastField :=
    fun g e hg he => List.mem_map.2 ⟨g, mem_matchingFiles.2 ⟨hg, e, he⟩, lastField_star he⟩
  rcases hw with hw | ⟨hw, g, e, k, hg, he, h1⟩
  · refine returnSubvolStr_width (m := d.length) ?_ (hmem f d hf hd.1) hd.1.2.1 hd.1.2.2.1 hd.2
    intro e he
    obtain ⟨g, hg, rfl⟩ := List.mem_map.1 he
    obtain ⟨hg, e', he'⟩ := mem_matchingFiles.1 hg
    rw [lastField_star he']
    exact hw g e' _ hg ⟨he', rfl⟩
  · rw [returnSubvolStr_single ⟨e, hmem g e hg he.1, h1⟩, hw]

theorem subvolStrDiffmah_eq {mahDrn : List Str} {n : ℕ} {f d : Str} (hf : f ∈ mahDrn) (hd : Spec.MahFile f d n)
    (hw : (∀ g e k, g ∈ mahDrn → Spec.MahFile g e k → e.length = d.length) ∨
      (d = natStr n ∧ ∃ g e k, g ∈ mahDrn ∧ Spec.MahFile g e k ∧ e.length = 1)) :
    subvolStrDiffmah n .nomerging mahDrn = some d := by
  unfold subvolStrDiffmah
  have hmem : ∀ g e, g ∈ mahDrn → Spec.NamedBy mahPre mahPost g e →
      e ∈ (matchingFiles mahPre mahPost mahDrn).map secondField :=
    fun g e hg he => List.mem_map.2 ⟨g, mem_matchingFiles.2 ⟨hg, e, he⟩, secondField_mah he⟩
  rcases hw with hw | ⟨hw, g, e, k, hg, he, h1⟩
  · refine returnSubvolStr_width (m := d.length) ?_ (hmem f d hf hd.1) hd.1.2.1 hd.1.2.2.1 hd.2
    intro e he
    obtain ⟨g, hg, rfl⟩ := List.mem_map.1 he
    obtain ⟨hg, e', he'⟩ := mem_matchingFiles.1 hg
    rw [secondField_mah he']
    exact hw g e' _ hg ⟨he', rfl⟩
  · exact (returnSubvolStr_single (n := n) ⟨e, hmem g e hg he.1, h1⟩).trans (by rw [hw])

/-! ### C101 -/

/-- C101 (partial: the digits of the diffstar files have one width, or they are unpadded and one has a single digit):
for DR1 the two files opened for a subvolume are its diffstar file in the directory, and the diffmah file with the same
digits. -/
theorem C101_dr1_files_partial (starDrn mahDrn : List Str) (n : ℕ) (f d : Str) (hf : f ∈ starDrn)
    (hd : Spec.StarFile f d n)
    (hw : (∀ g e k, g ∈ starDrn → Spec.StarFile g e k → e.length = d.length) ∨
      (d = natStr n ∧ ∃ g e k, g ∈ starDrn ∧ Spec.StarFile g e k ∧ e.length = 1)) :
    subvolFiles n .dr1 starDrn mahDrn
      = some (f, "diffmah_fits_subvol_".toList ++ d ++ ".hdf5".toList) := by
  have h1 : f = starPre ++ d ++ starPost := hd.1.1
  unfold subvolFiles
  rw [subvolStr_eq hf hd hw, Option.bind_some]
  simp only
  rw [pyReplace_star d hd.1.2.1, h1]

/-- C101 (partial: in each directory the digits have one width, or they are unpadded and one has a single digit): for the
merger-free simulation the two files opened for a subvolume are its diffstar file and its diffmah file, also when the
directories pad differently. -/
theorem C101_nomerging_files_partial (starDrn mahDrn : List Str) (n : ℕ) (f d f' d' : Str) (hf : f ∈ starDrn)
    (hd : Spec.StarFile f d n) (hf' : f' ∈ mahDrn) (hd' : Spec.MahFile f' d' n)
    (hw : (∀ g e k, g ∈ starDrn → Spec.StarFile g e k → e.length = d.length) ∨
      (d = natStr n ∧ ∃ g e k, g ∈ starDrn ∧ Spec.StarFile g e k ∧ e.length = 1))
    (hw' : (∀ g e k, g ∈ mahDrn → Spec.MahFile g e k → e.length = d'.length) ∨
      (d' = natStr n ∧ ∃ g e k, g ∈ mahDrn ∧ Spec.MahFile g e k ∧ e.length = 1)) :
    subvolFiles n .nomerging starDrn mahDrn = some (f, f') := by
  have h1 : f = starPre ++ d ++ starPost := hd.1.1
  have h1' : f' = mahPre ++ d' ++ mahPost := hd'.1.1
  unfold subvolFiles
  rw [subvolStr_eq hf hd hw, Option.bind_some]
  simp only
  rw [subvolStrDiffmah_eq hf' hd' hw', Option.map_some, pyReplace_mah d' hd'.1.2.1, h1, h1']

/-- A directory with two padded diffstar files, and one with two unpadded diffmah files. -/
def twoStar : List Str := ["diffstar_fits_subvol_007.hdf5".toList, "notes.txt".toList,
  "diffstar_fits_subvol_042.hdf5".toList]

@[inherit_doc twoStar]
def twoMah : List Str := ["subvol_7_diffmah_fits.h5".toList, "subvol_42_diffmah_fits.h5".toList]

example : "diffstar_fits_subvol_042.hdf5".toList ∈ twoStar ∧
    Spec.StarFile "diffstar_fits_subvol_042.hdf5".toList "042".toList 42 ∧
    (∀ g e k, g ∈ twoStar → Spec.StarFile g e k → e.length = "042".toList.length) ∧
    "subvol_42_diffmah_fits.h5".toList ∈ twoMah ∧
    Spec.MahFile "subvol_42_diffmah_fits.h5".toList "42".toList 42 ∧
    ("42".toList = natStr 42 ∧ ∃ g e k, g ∈ twoMah ∧ Spec.MahFile g e k ∧ e.length = 1) := by
  refine ⟨by decide, ⟨⟨by decide, by decide, by decide, by decide⟩, by decide⟩, ?_, by decide,
    ⟨⟨by decide, by decide, by decide, by decide⟩, by decide⟩, by decide, "subvol_7_diffmah_fits.h5".toList,
    "7".toList, 7, by decide, ⟨⟨by decide, by decide, by decide, by decide⟩, by decide⟩, by decide⟩
  intro g e k hg he
  have hl : g.length = e.length + 26 := by
    have := congrArg List.length he.1.1
    simpa using this
  have h3 := he.1.2.2
  simp only [twoStar, List.mem_cons, List.not_mem_nil, or_false] at hg
  have l3 : "042".toList.length = 3 := by decide
  rcases hg with rfl | rfl | rfl
  · have : "diffstar_fits_subvol_007.hdf5".toList.length = 29 := by decide
    omega
  · have : "notes.txt".toList.length = 9 := by decide
    omega
  · have : "diffstar_fits_subvol_042.hdf5".toList.length = 29 := by decide
    omega

/-- C101 fails for the third value of `-sim_name`, which the script accepts: no file is opened, whatever the
directories contain (`UnboundLocalError`, not caught). -/
theorem C101_other_simulation_violated (n : ℕ) (starDrn mahDrn : List Str) :
    subvolFiles n .other starDrn mahDrn = none := by
  unfold subvolFiles
  cases subvolStr n starDrn <;> rfl

/-- C101 fails for padded names beside a name of one digit: the file that is opened is not in the directory (the
subvolume is skipped). -/
theorem C101_mixed_padding_violated :
    let starDrn := ["diffstar_fits_subvol_3.hdf5".toList, "diffstar_fits_subvol_042.hdf5".toList]
    (∃ f d, f ∈ starDrn ∧ Spec.StarFile f d 42) ∧
      ∃ p, subvolFiles 42 .dr1 starDrn [] = some p ∧ p.1 ∉ starDrn := by
  intro starDrn
  refine ⟨⟨"diffstar_fits_subvol_042.hdf5".toList, "042".toList, by decide,
    ⟨by decide, by decide, by decide, by decide⟩, by decide⟩, ?_⟩
  have h : subvolStr 42 starDrn = some (natStr 42) :=
    returnSubvolStr_single ⟨"3".toList, List.mem_map.2 ⟨"diffstar_fits_subvol_3.hdf5".toList,
      mem_matchingFiles.2 ⟨by decide, "3".toList, by decide, by decide, by decide, by decide⟩,
      lastField_star ⟨by decide, by decide, by decide, by decide⟩⟩, by decide⟩
  refine ⟨(starPre ++ natStr 42 ++ starPost,
    pyReplace "diffstar".toList "diffmah".toList (starPre ++ natStr 42 ++ starPost)), ?_, ?_⟩
  · unfold subvolFiles
    rw [h]
    rfl
  · decide

open Classical in
/-- C101: the subvolumes that are measured: in increasing order, each as often as the directory has diffstar files of
its number. -/
theorem C101_available_subvolumes (starDrn : List Str) :
    ∃ l, availableSubvols starDrn = some l ∧ l.Pairwise (· ≤ ·) ∧
      ∀ n, l.count n = starDrn.countP fun f => decide (∃ d, Spec.StarFile f d n) := by
  set g : Str → ℕ := fun f => Nat.ofDigitChars 10 (lastField f) 0 with hg
  have hm : ((matchingFiles starPre starPost starDrn).map lastField).mapM parseNat
      = some ((matchingFiles starPre starPost starDrn).map g) := by
    have : ∀ L : List Str, (∀ f ∈ L, ∃ d, Spec.NamedBy starPre starPost f d) →
        (L.map lastField).mapM parseNat = some (L.map g) := by
      intro L
      induction L with
      | nil => intro _; rfl
      | cons f fs ih =>
        intro h
        obtain ⟨d, hd⟩ := h f (by simp)
        have hp : parseNat (lastField f) = some (g f) := by
          have h0 : d ≠ [] := by rintro rfl; exact absurd hd.2.2.1 (by simp)
          rw [hg]
          simp only [lastField_star hd]
          exact parseNat_digits d h0 hd.2.1
        rw [List.map_cons, List.mapM_cons, hp, ih fun x hx => h x (by simp [hx])]
        rfl
    exact this _ fun f hf => (mem_matchingFiles.1 hf).2
  refine ⟨((matchingFiles starPre starPost starDrn).map g).mergeSort, ?_, ?_, ?_⟩
  · unfold availableSubvols
    rw [hm]
    rfl
  · simpa using List.pairwise_mergeSort (le := fun a b : ℕ => decide (a ≤ b))
      (fun a b c => by simpa using Nat.le_trans) (fun a b => by simpa using Nat.le_total a b)
      ((matchingFiles starPre starPost starDrn).map g)
  · intro n
    rw [(List.mergeSort_perm _ _).count_eq, List.count_eq_countP, List.countP_map]
    unfold matchingFiles
    rw [List.countP_filter]
    refine List.countP_congr fun f _ => ?_
    simp only [Function.comp, Bool.and_eq_true, beq_iff_eq, decide_eq_true_eq, pyMatch_iff]
    constructor
    · rintro ⟨h1, d, hd⟩
      refine ⟨d, hd, ?_⟩
      rw [← h1, hg, ← lastField_star hd]
    · rintro ⟨d, hd, h1⟩
      refine ⟨?_, d, hd⟩
      rw [← h1, hg, ← lastField_star hd]

/-- C101: the saved array `subvol_used` marks exactly the subvolumes of the directory, when their numbers are below
`n_subvol_max`. -/
theorem C101_subvol_used (nMax : ℕ) (subvols : List ℕ) (h : ∀ i ∈ subvols, i < nMax) :
    ∃ a, subvolUsed nMax subvols = some a ∧ a.length = nMax ∧
      ∀ k < nMax, a[k]? = some (if k ∈ subvols then 1 else 0) := by
  have key : ∀ (l : List ℕ) (b : List ℕ), (∀ i ∈ l, i < b.length) →
      ∃ a, l.foldlM (fun a i => if i < a.length then some (a.set i 1) else none) b = some a ∧ a.length = b.length ∧
        ∀ k < b.length, a[k]? = if k ∈ l then some 1 else b[k]? := by
    intro l
    induction l with
    | nil => intro b _; exact ⟨b, rfl, rfl, fun k _ => by simp⟩
    | cons i is ih =>
      intro b hb
      obtain ⟨a, h1, h2, h3⟩ := ih (b.set i 1) fun j hj => by simpa using hb j (by simp [hj])
      refine ⟨a, ?_, by simpa using h2, fun k hk => ?_⟩
      · rw [List.foldlM_cons, if_pos (hb i (by simp))]
        exact h1
      · rw [h3 k (by simpa using hk)]
        by_cases hki : k ∈ is
        · simp [hki]
        · by_cases h4 : k = i
          · subst h4; simp [hki, hk]
          · have : i ≠ k := fun e => h4 e.symm
            simp [hki, h4, List.getElem?_set_ne this]
  obtain ⟨a, h1, h2, h3⟩ := key subvols (List.replicate nMax 0) (by simpa using h)
  refine ⟨a, h1, by simpa using h2, fun k hk => ?_⟩
  rw [h3 k (by simpa using hk)]
  by_cases h4 : k ∈ subvols <;> simp [h4, hk]

example : ∀ i ∈ [0, 7, 42, 575], i < 576 := by decide

/-- C101: a subvolume with a number from `n_subvol_max` on ends the run with an `IndexError`. -/
theorem C101_subvol_used_raises (nMax : ℕ) (subvols : List ℕ) (h : ∃ i ∈ subvols, nMax ≤ i) :
    subvolUsed nMax subvols = none := by
  have key : ∀ (l : List ℕ) (b : List ℕ), (∃ i ∈ l, b.length ≤ i) →
      l.foldlM (fun a i => if i < a.length then some (a.set i 1) else none) b = none := by
    intro l
    induction l with
    | nil => rintro b ⟨i, hi, -⟩; simp at hi
    | cons j js ih =>
      rintro b ⟨i, hi, hb⟩
      rw [List.foldlM_cons]
      by_cases hj : j < b.length
      · rw [if_pos hj]
        refine ih (b.set j 1) ⟨i, ?_, by simpa using hb⟩
        rcases List.mem_cons.1 hi with rfl | hi
        · omega
        · exact hi
      · rw [if_neg hj]; rfl
  exact key subvols _ (by simpa using h)

example : ∃ i ∈ [0, 576], 576 ≤ i := ⟨576, by decide, le_rfl⟩

end Diffstar.Props
