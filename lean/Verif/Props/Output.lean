import Verif.Lemmas.Output

/-!
Properties C50-C53, C61, C69, C70: rows of the fit output, the collated file, division of work over ranks, reading back.
-/

namespace Diffstar.Spec

open Diffstar.Fit

/-- `a` is `b` up to the rounding of a six-digit decimal: NaN and infinities are kept, a finite number is kept to
relative accuracy `5e-6`. -/
def Close (a b : F) : Prop :=
  (a = none ∧ b = none) ∨ (a = some ⊤ ∧ b = some ⊤) ∨ (a = some ⊥ ∧ b = some ⊥) ∨
    ∃ x y : ℝ, a = some (x : EReal) ∧ b = some (y : EReal) ∧ |x - y| ≤ 5 / 10 ^ 6 * |y|

/-- What the output must say about a halo: its fitted parameters (in single precision), loss and flag, or -99, -1
and -1 if it was not fitted. -/
noncomputable def fitValues (f4 : F → F) (h : Output.HaloOut) : DiffstarParams F × F × ℤ :=
  match h.fit with
  | some (p, loss, s) => (⟨f4 p.lgmcrit, f4 p.lgyAtMcrit, f4 p.indxLo, f4 p.indxHi, f4 p.lgQt, f4 p.qlglgdt,
      f4 p.lgDrop, f4 p.lgRejuv⟩, loss, s)
  | none =>
      let m : F := some ((-99 : ℝ) : EReal)
      (⟨m, m, m, m, m, m, m, m⟩, some ((-1 : ℝ) : EReal), -1)

/-- The column `name` of the file holds, in halo order, the numbers `v` of the halos up to rounding. -/
def HoldsFloats (file : Output.H5) (name : String) (halos : List Output.HaloOut) (v : Output.HaloOut → F) : Prop :=
  ∃ col, file.get name.toList = some (Output.Col.flt col) ∧ List.Forall₂ Close col (halos.map v)

/-- The column `name` of the file holds, in halo order, exactly the integers `v` of the halos. -/
def HoldsInts (file : Output.H5) (name : String) (halos : List Output.HaloOut) (v : Output.HaloOut → ℤ) : Prop :=
  file.get name.toList = some (Output.Col.int (halos.map v))

/-- The file describes exactly the given halos, in order. -/
def Describes (f4 : F → F) (file : Output.H5) (halos : List Output.HaloOut) : Prop :=
  HoldsInts file "halo_id" halos Output.HaloOut.haloId ∧
  HoldsFloats file "lgmcrit" halos (fun h => (fitValues f4 h).1.lgmcrit) ∧
  HoldsFloats file "lgy_at_mcrit" halos (fun h => (fitValues f4 h).1.lgyAtMcrit) ∧
  HoldsFloats file "indx_lo" halos (fun h => (fitValues f4 h).1.indxLo) ∧
  HoldsFloats file "indx_hi" halos (fun h => (fitValues f4 h).1.indxHi) ∧
  HoldsFloats file "lg_qt" halos (fun h => (fitValues f4 h).1.lgQt) ∧
  HoldsFloats file "qlglgdt" halos (fun h => (fitValues f4 h).1.qlglgdt) ∧
  HoldsFloats file "lg_drop" halos (fun h => (fitValues f4 h).1.lgDrop) ∧
  HoldsFloats file "lg_rejuv" halos (fun h => (fitValues f4 h).1.lgRejuv) ∧
  HoldsFloats file "loss" halos (fun h => (fitValues f4 h).2.1) ∧
  HoldsInts file "success" halos (fun h => (fitValues f4 h).2.2)

end Diffstar.Spec

namespace Diffstar.Props

open Diffstar.Fit Diffstar.Text Diffstar.Output

/-! ### C69: numbers survive the text format -/

theorem close_fmtF (x : F) : ∃ y, parseFloat (fmtF x) = some y ∧ Spec.Close y x := by
  match x with
  | none => exact ⟨none, by unfold fmtF parseFloat; simp, Or.inl ⟨rfl, rfl⟩⟩
  | some a =>
    by_cases h1 : a = ⊤
    · subst h1
      exact ⟨some ⊤, by unfold fmtF parseFloat; simp, Or.inr (Or.inl ⟨rfl, rfl⟩)⟩
    · by_cases h2 : a = ⊥
      · subst h2
        exact ⟨some ⊥, by unfold fmtF parseFloat; simp, Or.inr (Or.inr (Or.inl ⟨rfl, rfl⟩))⟩
      · have hf : fmtF (some a) = fmtE5 a.toReal := by unfold fmtF; simp [h1, h2]
        rw [hf, parseFloat_fmtE5]
        refine ⟨_, rfl, Or.inr (Or.inr (Or.inr ⟨_, a.toReal, rfl, by rw [EReal.coe_toReal h1 h2], ?_⟩))⟩
        have hc := mantExp_close a.toReal
        by_cases hx : a.toReal < 0
        · rw [if_pos hx]
          rw [abs_of_neg hx] at hc ⊢
          rw [abs_sub_comm] at hc
          refine le_trans (le_of_eq ?_) hc
          congr 1
          ring
        · rw [if_neg hx, one_mul]
          rw [abs_of_nonneg (not_lt.mp hx)] at hc ⊢
          exact hc

/-- C69: a float formatted with `"{:.5e}"` and read back is the same NaN or infinity, or agrees to relative
accuracy `5e-6`; an integer (halo id, flag) is read back exactly. -/
theorem C69_text_round_trip (x : F) (n : ℤ) :
    (∃ y, parseFloat (fmtF x) = some y ∧ Spec.Close y x) ∧ parseInt (intStr n) = some n :=
  ⟨close_fmtF x, parseInt_intStr n⟩

example : ∃ y, parseFloat (fmtF (some ((12.345678 : ℝ) : EReal))) = some y ∧
    Spec.Close y (some ((12.345678 : ℝ) : EReal)) := (C69_text_round_trip _ 0).1

theorem log_eq_of_mem {y : ℝ} {e : ℤ} (h1 : (10 : ℝ) ^ e ≤ y) (h2 : y < (10 : ℝ) ^ (e + 1)) : Int.log 10 y = e := by
  have hy : 0 < y := lt_of_lt_of_le (by positivity) h1
  have a : e ≤ Int.log 10 y := (Int.zpow_le_iff_le_log (b := 10) (by norm_num) hy).mp (by simpa using h1)
  have b : Int.log 10 y < e + 1 := (Int.lt_zpow_iff_log_lt (b := 10) (by norm_num) hy).mp (by simpa using h2)
  omega

theorem roundHalfEven_intCast (k : ℤ) : roundHalfEven (k : ℝ) = k := by
  unfold roundHalfEven
  simp

theorem mantExp_exact (x : ℝ) (k : ℕ) (e : ℤ) (h1 : 10 ^ 5 ≤ k) (h2 : k < 10 ^ 6)
    (hx : |x| = k * (10 : ℝ) ^ (e - 5)) : mantExp x = (k, e) := by
  have hp : (0 : ℝ) < 10 ^ (e - 5) := by positivity
  have hk1 : (10 : ℝ) ^ 5 ≤ k := by exact_mod_cast h1
  have hk2 : (k : ℝ) < 10 ^ 6 := by exact_mod_cast h2
  have hx0 : x ≠ 0 := by
    intro h0
    rw [h0, abs_zero] at hx
    have : (0 : ℝ) < k * 10 ^ (e - 5) := mul_pos (by linarith) hp
    linarith
  have hl1 : (10 : ℝ) ^ e ≤ |x| := by
    rw [hx]
    calc (10 : ℝ) ^ e = 10 ^ 5 * 10 ^ (e - 5) := by
          rw [show ((10 : ℝ) ^ 5) = (10 : ℝ) ^ (5 : ℤ) by norm_cast, ← zpow_add₀ (by norm_num)]
          congr 1; ring
      _ ≤ _ := mul_le_mul_of_nonneg_right hk1 hp.le
  have hl2 : |x| < (10 : ℝ) ^ (e + 1) := by
    rw [hx]
    calc (k : ℝ) * 10 ^ (e - 5) < 10 ^ 6 * 10 ^ (e - 5) := mul_lt_mul_of_pos_right hk2 hp
      _ = (10 : ℝ) ^ (e + 1) := by
          rw [show ((10 : ℝ) ^ 6) = (10 : ℝ) ^ (6 : ℤ) by norm_cast, ← zpow_add₀ (by norm_num)]
          congr 1; ring
  have hlog := log_eq_of_mem hl1 hl2
  have hy : |x| * (10 : ℝ) ^ (5 - e) = ((k : ℤ) : ℝ) := by
    rw [hx, mul_assoc, ← zpow_add₀ (by norm_num)]
    have : e - 5 + (5 - e) = 0 := by ring
    rw [this, zpow_zero, mul_one]
    norm_cast
  unfold mantExp
  rw [if_neg hx0]
  simp only [hlog, hy, roundHalfEven_intCast]
  rw [if_neg (by simp; omega)]
  simp

/-- C69: a number with at most six significant decimal digits is read back exactly. -/
theorem C69_six_digits_exact (k : ℕ) (e : ℤ) (neg : Bool) (h1 : 10 ^ 5 ≤ k) (h2 : k < 10 ^ 6) :
    let x : ℝ := (if neg then -1 else 1) * (k * (10 : ℝ) ^ (e - 5))
    parseFloat (fmtF (some (x : EReal))) = some (some (x : EReal)) := by
  intro x
  have hp : (0 : ℝ) < k * 10 ^ (e - 5) := by
    have : (0 : ℝ) < k := by
      have : (0 : ℕ) < k := by omega
      exact_mod_cast this
    positivity
  have hax : |x| = k * (10 : ℝ) ^ (e - 5) := by
    cases neg
    · simp only [x, Bool.false_eq_true, if_false, one_mul]; exact abs_of_pos hp
    · simp only [x, if_true, neg_mul, one_mul, abs_neg]; exact abs_of_pos hp
  have hf : fmtF (some (x : EReal)) = fmtE5 x := by unfold fmtF; simp
  rw [hf, parseFloat_fmtE5, mantExp_exact x k e h1 h2 hax]
  cases neg
  · have : ¬ x < 0 := by simp only [x, Bool.false_eq_true, if_false, one_mul]; linarith
    rw [if_neg this]
    simp [x]
  · have : x < 0 := by simp only [x, if_true]; linarith
    rw [if_pos this]
    simp [x]

example : parseFloat (fmtF (some ((-99 : ℝ) : EReal))) = some (some ((-99 : ℝ) : EReal)) := by
  have := C69_six_digits_exact 990000 1 true (by norm_num) (by norm_num)
  norm_num at this
  exact this

/-! ### C50: rows match the header -/

theorem fitValues_tokens (f4 : F → F) (h : HaloOut) : rowTokens f4 h =
    [intStr h.haloId, fmtF (Spec.fitValues f4 h).1.lgmcrit, fmtF (Spec.fitValues f4 h).1.lgyAtMcrit,
      fmtF (Spec.fitValues f4 h).1.indxLo, fmtF (Spec.fitValues f4 h).1.indxHi, fmtF (Spec.fitValues f4 h).1.lgQt,
      fmtF (Spec.fitValues f4 h).1.qlglgdt, fmtF (Spec.fitValues f4 h).1.lgDrop, fmtF (Spec.fitValues f4 h).1.lgRejuv,
      fmtF (Spec.fitValues f4 h).2.1, intStr (Spec.fitValues f4 h).2.2] := by
  obtain ⟨id, fit⟩ := h
  match fit with
  | some (p, loss, s) => rfl
  | none => rfl

/-- C50: the header names 11 columns; the line of every halo is a single line without comment sign which splits on
whitespace into 11 tokens, and pairing tokens with the header names puts every value under its own name. -/
theorem C50_rows_match_header (f4 : F → F) (h : HaloOut) :
    splitWs header = "#".toList :: colnames ∧
    (∃ l, haloLine f4 h = l ++ ['\n'] ∧ '\n' ∉ l ∧ '#' ∉ l) ∧
    (splitWs (haloLine f4 h)).length = colnames.length ∧
    colnames.zip (splitWs (haloLine f4 h)) =
      [("halo_id".toList, intStr h.haloId),
       ("lgmcrit".toList, fmtF (Spec.fitValues f4 h).1.lgmcrit),
       ("lgy_at_mcrit".toList, fmtF (Spec.fitValues f4 h).1.lgyAtMcrit),
       ("indx_lo".toList, fmtF (Spec.fitValues f4 h).1.indxLo),
       ("indx_hi".toList, fmtF (Spec.fitValues f4 h).1.indxHi),
       ("lg_qt".toList, fmtF (Spec.fitValues f4 h).1.lgQt),
       ("qlglgdt".toList, fmtF (Spec.fitValues f4 h).1.qlglgdt),
       ("lg_drop".toList, fmtF (Spec.fitValues f4 h).1.lgDrop),
       ("lg_rejuv".toList, fmtF (Spec.fitValues f4 h).1.lgRejuv),
       ("loss".toList, fmtF (Spec.fitValues f4 h).2.1),
       ("success".toList, intStr (Spec.fitValues f4 h).2.2)] := by
  have htok := rowTokens_tok f4 h
  have hsplit : splitWs (haloLine f4 h) = rowTokens f4 h := by
    rw [haloLine_eq]
    have hne : rowTokens f4 h ≠ [] := by
      intro e; have := rowTokens_length f4 h; rw [e] at this; simp at this
    obtain ⟨ts, t, hts⟩ : ∃ ts t, rowTokens f4 h = ts ++ [t] := ⟨_, _, (List.dropLast_append_getLast hne).symm⟩
    have htne : ts ≠ [] := by
      intro e; have := rowTokens_length f4 h; rw [hts, e] at this; simp at this
    -- split the trailing newline off the last token
    have key : ∀ us : List Str, us ≠ [] → (∀ u ∈ us, IsTok u) → splitWs (joinWs us ++ ['\n']) = us := by
      intro us
      induction us with
      | nil => intro h; exact absurd rfl h
      | cons u us ih =>
        intro _ hu
        by_cases hus : us = []
        · subst hus
          show splitWs (u ++ '\n' :: []) = _
          rw [splitWs_tok_ws _ _ '\n' (by decide) (hu u (by simp))]
          rfl
        · rw [joinWs_cons _ _ hus, List.append_assoc, List.cons_append,
            splitWs_tok_ws _ _ ' ' (by decide) (hu u (by simp)), ih hus (fun x hx => hu x (by simp [hx]))]
    exact key _ hne htok
  refine ⟨by rw [header_eq]; decide +kernel, ⟨joinWs (rowTokens f4 h), haloLine_eq f4 h,
    joinWs_no_newline htok (Or.inl rfl), joinWs_no_newline htok (Or.inr rfl)⟩, ?_, ?_⟩
  · rw [hsplit, rowTokens_length]; decide +kernel
  · rw [hsplit, fitValues_tokens]; rfl

/-- A fitted halo for the examples. -/
noncomputable def exampleHalo : HaloOut :=
  ⟨42, some (⟨some (12 : ℝ), some (-1 : ℝ), some (1 : ℝ), some (-1 : ℝ), some (1 : ℝ), some (0 : ℝ), some (-1 : ℝ),
    some (-0.5 : ℝ)⟩, some ((0.01 : ℝ) : EReal), 1)⟩

example : (splitWs (haloLine id exampleHalo)).length = 11 := by
  rw [(C50_rows_match_header id exampleHalo).2.2.1]; decide +kernel

/-- C50: the row of a halo that was not fitted reads back as -99 for all eight parameters, loss -1 and flag -1. -/
theorem C50_nofit_row (id : ℤ) :
    (splitWs (outlineNofit id)).length = 11 ∧
    (parseInt ((splitWs (outlineNofit id)).getD 0 [])) = some id ∧
    (∀ k, 1 ≤ k → k ≤ 8 → parseFloat ((splitWs (outlineNofit id)).getD k []) = some (some ((-99 : ℝ) : EReal))) ∧
    parseFloat ((splitWs (outlineNofit id)).getD 9 []) = some (some ((-1 : ℝ) : EReal)) ∧
    parseInt ((splitWs (outlineNofit id)).getD 10 []) = some (-1) := by
  have h := C50_rows_match_header (fun x => x) ⟨id, none⟩
  have hz := h.2.2.2
  have hlen := h.2.2.1
  have hl : haloLine (fun x => x) ⟨id, none⟩ = outlineNofit id := rfl
  rw [hl] at hz hlen
  have h2 : splitWs (outlineNofit id) = (colnames.zip (splitWs (outlineNofit id))).map Prod.snd := by
    rw [List.map_snd_zip (by rw [hlen])]
  have h99 : parseFloat (fmtF (some ((-99 : ℝ) : EReal))) = some (some ((-99 : ℝ) : EReal)) := by
    have := C69_six_digits_exact 990000 1 true (by norm_num) (by norm_num)
    norm_num at this
    exact this
  have h1 : parseFloat (fmtF (some ((-1 : ℝ) : EReal))) = some (some ((-1 : ℝ) : EReal)) := by
    have := C69_six_digits_exact 100000 0 true (by norm_num) (by norm_num)
    norm_num at this
    exact this
  rw [h2, hz]
  refine ⟨rfl, parseInt_intStr id, ?_, h1, by exact parseInt_intStr (-1)⟩
  intro k hk1 hk8
  interval_cases k <;> exact h99

/-! ### C51: the collated file -/

/-- C51: a table with another number of columns than names, or a 1-d array, is refused. -/
theorem C51_refuses_mismatch (rows : List (List Str)) (names : List Str) (row : List Str) (l : List Str)
    (h : row.length ≠ names.length) :
    writeCollated (.d2 (row :: rows)) names = none ∧ writeCollated (.d1 l) names = none := by
  constructor
  · unfold writeCollated
    exact if_neg (fun e => h (Eq.symm e))
  · rfl

example : writeCollated (.d2 [["1".toList, "2".toList]]) colnames = none :=
  (C51_refuses_mismatch [] colnames _ [] (by decide +kernel)).1

/-- C51: for a rectangular table with as many columns as (distinct) names, the write succeeds exactly if every cell
can be read as a number of its column's type, and then the file has exactly the given names in order and, under each
name, the cells of that column read in row order: integers for `halo_id` and `success`, floats otherwise. -/
theorem C51_columns_by_name (rows : List (List Str)) (names : List Str) (hne : rows ≠ [])
    (hrect : ∀ r ∈ rows, r.length = names.length) (hnd : names.Nodup) :
    ((∃ h, writeCollated (.d2 rows) names = some h) ↔
      ∀ k, (hk : k < names.length) → ∀ r ∈ rows,
        if names[k] = "halo_id".toList ∨ names[k] = "success".toList then (parseInt (r.getD k [])).isSome
        else (parseFloat (r.getD k [])).isSome) ∧
    ∀ h, writeCollated (.d2 rows) names = some h →
      h.map Prod.fst = names ∧
      ∀ k, (hk : k < names.length) →
        if names[k] = "halo_id".toList ∨ names[k] = "success".toList then
          ∃ col, h.get names[k] = some (Col.int col) ∧
            List.Forall₂ (fun r v => parseInt (r.getD k []) = some v) rows col
        else
          ∃ col, h.get names[k] = some (Col.flt col) ∧
            List.Forall₂ (fun r v => parseFloat (r.getD k []) = some v) rows col := by
  have hw : writeCollated (.d2 rows) names = writeCols rows 0 names [] := by
    unfold writeCollated
    obtain ⟨r, rs, rfl⟩ := List.exists_cons_of_ne_nil hne
    exact if_pos (hrect r (by simp)).symm
  have hspec := fun res => writeCols_spec rows names 0 [] hnd (by simp) res
  have isSome_mapM : ∀ {β : Type} (f : List Str → Option β), (∀ r ∈ rows, (f r).isSome) ↔ ∃ c, rows.mapM f = some c := by
    intro β f
    constructor
    · intro h
      by_cases hβ : Nonempty β
      · obtain ⟨b⟩ := hβ
        refine ⟨_, mapM_option_some f (fun r => (f r).getD b) rows fun r hr => ?_⟩
        obtain ⟨v, hv⟩ := Option.isSome_iff_exists.mp (h r hr)
        rw [hv]; rfl
      · obtain ⟨r, rs, rfl⟩ := List.exists_cons_of_ne_nil hne
        obtain ⟨v, _⟩ := Option.isSome_iff_exists.mp (h r (by simp))
        exact absurd ⟨v⟩ hβ
    · rintro ⟨c, hc⟩ r hr
      rw [mapM_option_iff] at hc
      obtain ⟨i, hi, rfl⟩ := List.getElem_of_mem hr
      have := hc.get (i := i) hi (by rw [← hc.length_eq]; exact hi)
      simp only [List.get_eq_getElem] at this
      rw [this]; rfl
  constructor
  · rw [hw]
    constructor
    · rintro ⟨h, hh⟩ k hk
      obtain ⟨cols, hl, _, hc⟩ := (hspec h).mp hh
      have := hc k hk
      rw [Nat.zero_add, List.getElem?_eq_getElem (by rw [hl]; exact hk)] at this
      unfold colAt at this
      split_ifs at this ⊢ with hn
      · have h2 : ∃ c, intCol rows k = some c := by
          cases hq : intCol rows k with
          | none => rw [hq] at this; simp at this
          | some c => exact ⟨c, rfl⟩
        intro r hr
        exact (isSome_mapM _).mpr h2 r hr
      · have h2 : ∃ c, fltCol rows k = some c := by
          cases hq : fltCol rows k with
          | none => rw [hq] at this; simp at this
          | some c => exact ⟨c, rfl⟩
        intro r hr
        exact (isSome_mapM _).mpr h2 r hr
    · intro h
      have hcol : ∀ k, (hk : k < names.length) → ∃ c, colAt rows k names[k] = some c := by
        intro k hk
        have := h k hk
        unfold colAt
        split_ifs with hn
        · simp only [if_pos hn] at this
          obtain ⟨c, hc⟩ := (isSome_mapM _).mp this
          exact ⟨Col.int c, by unfold intCol; rw [hc]; rfl⟩
        · simp only [if_neg hn] at this
          obtain ⟨c, hc⟩ := (isSome_mapM _).mp this
          exact ⟨Col.flt c, by unfold fltCol; rw [hc]; rfl⟩
      choose g hg using hcol
      refine ⟨_, (hspec _).mpr ⟨List.ofFn fun i : Fin names.length => g i i.2, by simp, rfl, ?_⟩⟩
      intro k hk
      rw [Nat.zero_add, hg k hk]
      simp [hk]
  · intro h hh
    rw [hw] at hh
    obtain ⟨cols, hl, hres, hc⟩ := (hspec h).mp hh
    rw [List.nil_append] at hres
    refine ⟨by rw [hres, List.map_fst_zip (by rw [hl])], ?_⟩
    intro k hk
    have h1 := hc k hk
    have h2 : h.get names[k] = cols[k]? := by
      unfold H5.get
      rw [hres]
      exact lookup_zip names cols hnd hl k hk
    rw [Nat.zero_add] at h1
    unfold colAt at h1
    have hsome : cols[k]? = some cols[k] := List.getElem?_eq_getElem (by rw [hl]; exact hk)
    split_ifs at h1 ⊢ with hn
    · cases hq : intCol rows k with
      | none => rw [hq, hsome] at h1; simp at h1
      | some c =>
        rw [hq] at h1
        exact ⟨c, by rw [h2, ← h1]; rfl, (mapM_option_iff _ _ _).mp hq⟩
    · cases hq : fltCol rows k with
      | none => rw [hq, hsome] at h1; simp at h1
      | some c =>
        rw [hq] at h1
        exact ⟨c, by rw [h2, ← h1]; rfl, (mapM_option_iff _ _ _).mp hq⟩

example : (∀ r ∈ [["7".toList, "1".toList], ["8".toList, "0".toList]],
    r.length = ["halo_id".toList, "success".toList].length) ∧ ["halo_id".toList, "success".toList].Nodup := by
  decide +kernel

/-! ### C52: division of work -/

/-- C52: `r` parts; concatenated in rank order they restore the list; the first `n % r` ranks get `n / r + 1` entries
and the others `n / r`, so sizes differ by at most one. -/
theorem C52_split_partition {α : Type*} (l : List α) (r : ℕ) (hr : 1 ≤ r) :
    (arraySplit l r).length = r ∧ (arraySplit l r).flatten = l ∧
    (∀ i < r, ((arraySplit l r).getD i []).length = l.length / r + if i < l.length % r then 1 else 0) ∧
    (∀ i < r, ∀ j < r, ((arraySplit l r).getD i []).length ≤ ((arraySplit l r).getD j []).length + 1) := by
  refine ⟨arraySplit_length l r, arraySplit_flatten l r hr, fun i hi => arraySplit_get_length l r i hi, ?_⟩
  intro i hi j hj
  rw [arraySplit_get_length l r i hi, arraySplit_get_length l r j hj]
  split_ifs <;> omega

example : arraySplit [0, 1, 2, 3, 4, 5, 6] 3 = [[0, 1, 2], [3, 4], [5, 6]] := by decide +kernel

/-- C52: every halo index is handled by exactly one rank. -/
theorem C52_exactly_one_rank (n r : ℕ) (hr : 1 ≤ r) (i : ℕ) (hi : i < n) :
    ∃! k, k < r ∧ i ∈ (arraySplit (List.range n) r).getD k [] := by
  have hfl := arraySplit_flatten (List.range n) r hr
  have hlen := arraySplit_length (List.range n) r
  have hmem : i ∈ (arraySplit (List.range n) r).flatten := by rw [hfl]; simpa using hi
  obtain ⟨p, hp, hip⟩ := List.mem_flatten.mp hmem
  obtain ⟨k, hk, rfl⟩ := List.getElem_of_mem hp
  have hnd : (arraySplit (List.range n) r).flatten.Nodup := by rw [hfl]; exact List.nodup_range
  have hdis := (List.nodup_flatten.mp hnd).2
  refine ⟨k, ⟨hlen ▸ hk, by rw [List.getD_eq_getElem _ _ hk]; exact hip⟩, ?_⟩
  rintro j ⟨hj, hij⟩
  have hj' : j < (arraySplit (List.range n) r).length := by rw [hlen]; exact hj
  rw [List.getD_eq_getElem _ _ hj'] at hij
  rw [List.pairwise_iff_getElem] at hdis
  by_contra hne
  rcases lt_or_gt_of_ne hne with h | h
  · exact hdis j k hj' hk h hij hip
  · exact hdis k j hk hj' h hip hij

example : 5 ∈ (arraySplit (List.range 7) 3).getD 2 [] := by decide +kernel

/-- C70: for at least as many halos as ranks, the entries of a rank are the contiguous block from its first entry
(`istart = indx_for_rank[0]`) up to its last (`iend = indx_for_rank[-1] + 1`), so that reading rows `[istart, iend)`
of another file gives the rows of the same halos. -/
theorem C70_rank_block_contiguous (n r k : ℕ) (hr : 1 ≤ r) (hn : r ≤ n) (hk : k < r) :
    ∃ istart iend, ((arraySplit (List.range n) r).getD k []).head? = some istart ∧
      ((arraySplit (List.range n) r).getD k []).getLast? = some (iend - 1) ∧ istart < iend ∧ iend ≤ n ∧
      (arraySplit (List.range n) r).getD k [] = List.range' istart (iend - istart) := by
  have hlen := arraySplit_length (List.range n) r
  have hsize := arraySplit_get_length (List.range n) r k hk
  have hk' : k < (arraySplit (List.range n) r).length := by rw [hlen]; exact hk
  rw [List.getD_eq_getElem _ _ hk'] at hsize ⊢
  set s := ((sectionSizes (List.range n).length r).take k).sum with hs
  set t := ((sectionSizes (List.range n).length r).take (k + 1)).sum with ht
  have hg : (arraySplit (List.range n) r)[k] = ((List.range n).take t).drop s := by
    show ((List.range r).map _)[k]'(by simpa using hk) = _
    rw [List.getElem_map, List.getElem_range]
  have htn : t ≤ n := by
    have h1 : t ≤ ((sectionSizes (List.range n).length r).take r).sum := sum_take_mono _ (by omega)
    rwa [List.take_of_length_le (by rw [sectionSizes_length _ _ (by omega)]), sectionSizes_sum _ _ (by omega),
      List.length_range] at h1
  have hpos : 1 ≤ n / r := (Nat.one_le_div_iff (by omega)).mpr hn
  have hst : s < t := by
    rw [hg, List.length_drop, List.length_take, List.length_range, min_eq_left htn] at hsize
    by_contra hc
    have : t - s = 0 := by omega
    rw [this] at hsize
    omega
  have hblock : ((List.range n).take t).drop s = List.range' s (t - s) := by
    rw [List.take_range, min_eq_left htn, List.range_eq_range', List.drop_range']
    simp
  rw [hg, hblock]
  refine ⟨s, t, ?_, ?_, hst, htn, rfl⟩
  · obtain ⟨m, hm⟩ : ∃ m, t - s = m + 1 := ⟨t - s - 1, by omega⟩
    rw [hm, List.range'_succ]; rfl
  · rw [List.getLast?_range', if_neg (by omega)]
    congr 1
    omega

example : (1 : ℕ) ≤ 3 ∧ 3 ≤ 7 ∧ 1 < 3 := by decide

/-- C70: with more ranks than halos, the last rank has no entries, so that `indx_for_rank[0]` raises. -/
theorem C70_more_ranks_than_halos_violated (n r : ℕ) (hn : n < r) :
    (arraySplit (List.range n) r).getD (r - 1) [] = [] := by
  have := arraySplit_get_length (List.range n) r (r - 1) (by omega)
  rw [List.length_range, Nat.div_eq_of_lt hn, Nat.mod_eq_of_lt hn, if_neg (by omega)] at this
  exact List.eq_nil_of_length_eq_zero this

example : (arraySplit (List.range 2) 3).getD 2 [] = [] := C70_more_ranks_than_halos_violated 2 3 (by norm_num)

/-! ### C53: collation -/

/-- The number read back from the text of `x`. -/
noncomputable def reread (x : F) : F := (close_fmtF x).choose

theorem reread_parse (x : F) : parseFloat (fmtF x) = some (reread x) := (close_fmtF x).choose_spec.1

theorem reread_close (x : F) : Spec.Close (reread x) x := (close_fmtF x).choose_spec.2

theorem colnames_nodup : colnames.Nodup := by decide +kernel

theorem write_rows (f4 : F → F) (halos : List HaloOut) (hne : halos ≠ []) :
    ∃ file, writeCollated (.d2 (halos.map (rowTokens f4))) colnames = some file ∧ Spec.Describes f4 file halos := by
  set rows := halos.map (rowTokens f4) with hrows
  have hrect : ∀ r ∈ rows, r.length = colnames.length := by
    intro r hr
    obtain ⟨h, _, rfl⟩ := List.mem_map.mp hr
    rw [rowTokens_length]; decide +kernel
  have hrne : rows ≠ [] := by rw [hrows]; simpa using hne
  have hw : writeCollated (.d2 rows) colnames = writeCols rows 0 colnames [] := by
    unfold writeCollated
    obtain ⟨r, rs, hr⟩ := List.exists_cons_of_ne_nil hrne
    rw [hr]
    exact if_pos (hrect r (by rw [hr]; simp)).symm
  have hint : ∀ (k : ℕ) (v : HaloOut → ℤ), (∀ h, (rowTokens f4 h).getD k [] = intStr (v h)) →
      intCol rows k = some (halos.map v) := by
    intro k v hv
    unfold intCol
    rw [mapM_option_iff, hrows, List.forall₂_map_left_iff, List.forall₂_map_right_iff]
    refine List.forall₂_same.mpr fun h _ => ?_
    rw [hv, parseInt_intStr]
  have hflt : ∀ (k : ℕ) (v : HaloOut → F), (∀ h, (rowTokens f4 h).getD k [] = fmtF (v h)) →
      fltCol rows k = some (halos.map fun h => reread (v h)) := by
    intro k v hv
    unfold fltCol
    rw [mapM_option_iff, hrows, List.forall₂_map_left_iff, List.forall₂_map_right_iff]
    refine List.forall₂_same.mpr fun h _ => ?_
    rw [hv, reread_parse]
  have hclose : ∀ v : HaloOut → F, List.Forall₂ Spec.Close (halos.map fun h => reread (v h)) (halos.map v) := by
    intro v
    rw [List.forall₂_map_left_iff, List.forall₂_map_right_iff]
    exact List.forall₂_same.mpr fun h _ => reread_close _
  let P := fun h => (Spec.fitValues f4 h).1
  let cols : List Col := [Col.int (halos.map HaloOut.haloId),
    Col.flt (halos.map fun h => reread (P h).lgmcrit), Col.flt (halos.map fun h => reread (P h).lgyAtMcrit),
    Col.flt (halos.map fun h => reread (P h).indxLo), Col.flt (halos.map fun h => reread (P h).indxHi),
    Col.flt (halos.map fun h => reread (P h).lgQt), Col.flt (halos.map fun h => reread (P h).qlglgdt),
    Col.flt (halos.map fun h => reread (P h).lgDrop), Col.flt (halos.map fun h => reread (P h).lgRejuv),
    Col.flt (halos.map fun h => reread (Spec.fitValues f4 h).2.1),
    Col.int (halos.map fun h => (Spec.fitValues f4 h).2.2)]
  have hn : ∀ (k : ℕ) (hk : k < colnames.length), 1 ≤ k → k ≤ 9 →
      ¬ (colnames[k] = "halo_id".toList ∨ colnames[k] = "success".toList) := by
    decide +kernel
  have hn0 : colnames[0]'(by decide) = "halo_id".toList := by decide +kernel
  have hn10 : colnames[10]'(by decide) = "success".toList := by decide +kernel
  have hres : writeCols rows 0 colnames [] = some (colnames.zip cols) := by
    rw [writeCols_spec rows colnames 0 [] colnames_nodup (by simp)]
    refine ⟨cols, rfl, rfl, ?_⟩
    intro k hk
    have hk11 : k < 11 := hk
    rw [Nat.zero_add]
    unfold colAt
    interval_cases k
    · rw [if_pos (Or.inl hn0), hint 0 HaloOut.haloId (fun h => by rw [fitValues_tokens]; rfl)]; rfl
    · rw [if_neg (hn 1 hk (by norm_num) (by norm_num)), hflt 1 (fun h => (P h).lgmcrit) (fun h => by rw [fitValues_tokens]; rfl)]; rfl
    · rw [if_neg (hn 2 hk (by norm_num) (by norm_num)), hflt 2 (fun h => (P h).lgyAtMcrit) (fun h => by rw [fitValues_tokens]; rfl)]; rfl
    · rw [if_neg (hn 3 hk (by norm_num) (by norm_num)), hflt 3 (fun h => (P h).indxLo) (fun h => by rw [fitValues_tokens]; rfl)]; rfl
    · rw [if_neg (hn 4 hk (by norm_num) (by norm_num)), hflt 4 (fun h => (P h).indxHi) (fun h => by rw [fitValues_tokens]; rfl)]; rfl
    · rw [if_neg (hn 5 hk (by norm_num) (by norm_num)), hflt 5 (fun h => (P h).lgQt) (fun h => by rw [fitValues_tokens]; rfl)]; rfl
    · rw [if_neg (hn 6 hk (by norm_num) (by norm_num)), hflt 6 (fun h => (P h).qlglgdt) (fun h => by rw [fitValues_tokens]; rfl)]; rfl
    · rw [if_neg (hn 7 hk (by norm_num) (by norm_num)), hflt 7 (fun h => (P h).lgDrop) (fun h => by rw [fitValues_tokens]; rfl)]; rfl
    · rw [if_neg (hn 8 hk (by norm_num) (by norm_num)), hflt 8 (fun h => (P h).lgRejuv) (fun h => by rw [fitValues_tokens]; rfl)]; rfl
    · rw [if_neg (hn 9 hk (by norm_num) (by norm_num)), hflt 9 (fun h => (Spec.fitValues f4 h).2.1) (fun h => by rw [fitValues_tokens]; rfl)]; rfl
    · rw [if_pos (Or.inr hn10), hint 10 (fun h => (Spec.fitValues f4 h).2.2) (fun h => by rw [fitValues_tokens]; rfl)]; rfl
  have hget : ∀ (k : ℕ) (hk : k < colnames.length), H5.get (colnames.zip cols) colnames[k] = cols[k]? :=
    fun k hk => lookup_zip colnames cols colnames_nodup rfl k hk
  refine ⟨colnames.zip cols, by rw [hw, hres], hget 0 (by decide), ⟨_, hget 1 (by decide), hclose _⟩,
    ⟨_, hget 2 (by decide), hclose _⟩, ⟨_, hget 3 (by decide), hclose _⟩, ⟨_, hget 4 (by decide), hclose _⟩,
    ⟨_, hget 5 (by decide), hclose _⟩, ⟨_, hget 6 (by decide), hclose _⟩, ⟨_, hget 7 (by decide), hclose _⟩,
    ⟨_, hget 8 (by decide), hclose _⟩, ⟨_, hget 9 (by decide), hclose _⟩, hget 10 (by decide)⟩

theorem genfromtxt_ranks (f4 : F → F) (gs : List (List HaloOut)) :
    (gs.map (rankFile f4)).mapM genfromtxt = some (gs.map fun hs => if 2 ≤ hs.length then
      NdArr.d2 (hs.map (rowTokens f4)) else NdArr.d1 (hs.map (rowTokens f4)).flatten) := by
  rw [mapM_option_iff, List.forall₂_map_left_iff, List.forall₂_map_right_iff]
  exact List.forall₂_same.mpr fun hs _ => genfromtxt_rank f4 hs

/-- C53 (needs at least two halos per rank): the collation succeeds and the file describes exactly the halos, one row
per halo, in halo order, whatever the number of ranks. -/
theorem C53_collation_partial (f4 : F → F) (halos : List HaloOut) (r : ℕ) (hr : 1 ≤ r) (hn : 2 * r ≤ halos.length) :
    ∃ file, fitAndCollate f4 halos r = some file ∧ Spec.Describes f4 file halos := by
  have hsz : ∀ g ∈ arraySplit halos r, 2 ≤ g.length := by
    intro g hg
    obtain ⟨k, hk, rfl⟩ := List.getElem_of_mem hg
    have hk' : k < r := by rwa [arraySplit_length] at hk
    have := arraySplit_get_length halos r k hk'
    rw [List.getD_eq_getElem _ _ hk] at this
    rw [this]
    have : 2 ≤ halos.length / r := (Nat.le_div_iff_mul_le (by omega)).mpr hn
    omega
  have hcat : ((((arraySplit halos r).map (rankFile f4)).mapM genfromtxt).bind concatenate) =
      some (NdArr.d2 (halos.map (rowTokens f4))) := by
    rw [genfromtxt_ranks, Option.bind_some]
    have h1 : ((arraySplit halos r).map fun hs => if 2 ≤ hs.length then NdArr.d2 (hs.map (rowTokens f4))
        else NdArr.d1 (hs.map (rowTokens f4)).flatten) =
        ((arraySplit halos r).map fun hs => hs.map (rowTokens f4)).map NdArr.d2 := by
      rw [List.map_map]
      exact List.map_congr_left fun g hg => by simp [hsz g hg]
    rw [h1, concatenate_d2 _ 11]
    · rw [← List.map_flatten, arraySplit_flatten halos r hr]
    · intro e
      have := congrArg List.length e
      simp [arraySplit_length] at this
      omega
    · intro g hg
      obtain ⟨hs, hhs, rfl⟩ := List.mem_map.mp hg
      refine ⟨?_, ?_⟩
      · have := hsz hs hhs
        intro e
        have := congrArg List.length e
        simp at this
        rw [this] at hhs
        have := hsz _ hhs
        simp at this
      · intro t ht
        obtain ⟨h, _, rfl⟩ := List.mem_map.mp ht
        exact rowTokens_length f4 h
  have hne : halos ≠ [] := by
    intro e; rw [e] at hn; simp at hn; omega
  obtain ⟨file, h1, h2⟩ := write_rows f4 halos hne
  refine ⟨file, ?_, h2⟩
  unfold fitAndCollate
  simp only
  rw [hcat, Option.bind_some, h1]

example : ∃ file, fitAndCollate id [exampleHalo, ⟨1, none⟩, exampleHalo, ⟨2, none⟩, ⟨3, none⟩] 2 = some file ∧
    Spec.Describes id file [exampleHalo, ⟨1, none⟩, exampleHalo, ⟨2, none⟩, ⟨3, none⟩] :=
  C53_collation_partial id _ 2 (by norm_num) (by norm_num)

/-- C53 fails whenever there are fewer than two halos per rank: some rank's file has at most one row, which numpy reads
as a 1-d array, and the collation raises. In particular a single halo on a single rank cannot be written. -/
theorem C53_few_halos_violated (f4 : F → F) (halos : List HaloOut) (r : ℕ) (hr : 1 ≤ r) (hn : halos.length < 2 * r) :
    fitAndCollate f4 halos r = none := by
  have hsz : ∃ g ∈ arraySplit halos r, g.length < 2 := by
    have hlen := arraySplit_length halos r
    have hk : r - 1 < (arraySplit halos r).length := by omega
    refine ⟨(arraySplit halos r)[r - 1], List.getElem_mem hk, ?_⟩
    have := arraySplit_get_length halos r (r - 1) (by omega)
    rw [List.getD_eq_getElem _ _ hk] at this
    have hm := Nat.mod_lt halos.length (by omega : r > 0)
    rw [this, if_neg (by omega)]
    have : halos.length / r < 2 := (Nat.div_lt_iff_lt_mul (by omega)).mpr hn
    omega
  obtain ⟨g, hg, hg2⟩ := hsz
  unfold fitAndCollate
  simp only
  rw [genfromtxt_ranks, Option.bind_some]
  cases hc : concatenate ((arraySplit halos r).map fun hs => if 2 ≤ hs.length then NdArr.d2 (hs.map (rowTokens f4))
        else NdArr.d1 (hs.map (rowTokens f4)).flatten) with
  | none => rfl
  | some a =>
    cases a with
    | d1 l => rfl
    | d2 rows =>
      exfalso
      have := concatenate_d2_inv _ _ hc _ (List.mem_map.mpr ⟨g, hg, rfl⟩)
      rw [if_neg (by omega)] at this
      obtain ⟨_, h⟩ := this
      cases h

example : fitAndCollate id [exampleHalo] 1 = none := C53_few_halos_violated id _ 1 (by norm_num) (by norm_num)

/-! ### C61: reading back -/

/-- C61 fails: `load_fit_sfh` raises `KeyError` on every file written with the standard header, because it asks for a
column `tau_dep` which the header does not contain. -/
theorem C61_load_fit_sfh_violated (data : NdArr) (file : H5) (h : writeCollated data colnames = some file) :
    loadFitSfh file = none := by
  have hkeys : file.map Prod.fst = colnames := by
    cases data with
    | d1 l => cases h
    | d2 rows =>
      unfold writeCollated at h
      simp only at h
      split_ifs at h
      obtain ⟨cols, hl, hres, _⟩ := (writeCols_spec rows colnames 0 [] colnames_nodup (by simp) file).mp h
      rw [hres, List.nil_append, List.map_fst_zip (by rw [hl])]
  have hno : file.get "tau_dep".toList = none := by
    unfold H5.get
    rw [List.lookup_eq_none_iff]
    intro p hp
    have : p.1 ∈ colnames := by rw [← hkeys]; exact List.mem_map_of_mem hp
    have hne : "tau_dep".toList ∉ colnames := by decide +kernel
    rw [bne_iff_ne]
    intro e
    exact hne (e ▸ this)
  unfold loadFitSfh
  have : (["lgmcrit".toList, "lgy_at_mcrit".toList, "indx_lo".toList, "indx_hi".toList, "tau_dep".toList].mapM file.get) = none := by
    cases hm : (["lgmcrit".toList, "lgy_at_mcrit".toList, "indx_lo".toList, "indx_hi".toList, "tau_dep".toList].mapM file.get) with
    | none => rfl
    | some l =>
      exfalso
      rw [mapM_option_iff] at hm
      rcases hm with _ | ⟨_, hm⟩
      rcases hm with _ | ⟨_, hm⟩
      rcases hm with _ | ⟨_, hm⟩
      rcases hm with _ | ⟨_, hm⟩
      rcases hm with _ | ⟨h5, hm⟩
      rw [hno] at h5
      cases h5
  rw [this]
  rfl

example : ∃ file, writeCollated (.d2 ([exampleHalo, ⟨1, none⟩].map (rowTokens id))) colnames = some file := by
  obtain ⟨f, h, _⟩ := write_rows id [exampleHalo, ⟨1, none⟩] (by simp)
  exact ⟨f, h⟩

end Diffstar.Props
