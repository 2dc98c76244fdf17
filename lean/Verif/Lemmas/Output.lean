import Verif.Lemmas.Text
import Mathlib.Data.List.GetD
import Mathlib.Tactic.IntervalCases

/-! Helper lemmas about the fit output: rows, table reading, array splitting, collation. -/

namespace Diffstar.Output

open Diffstar.Fit Diffstar.Text

/-! ### Rows -/

/-- The tokens of a row. -/
noncomputable def rowTokens (f4 : F → F) (h : HaloOut) : List Str :=
  match h.fit with
  | some (p, loss, success) => intStr h.haloId :: ((paramList p).map f4 ++ [loss]).map fmtF ++ [intStr success]
  | none => intStr h.haloId :: ((List.replicate 8 (some ((-99 : ℝ) : EReal)) : List F) ++ [some ((-1 : ℝ) : EReal)]).map fmtF
      ++ [intStr (-1)]

theorem isTok_row (id : ℤ) (l : List F) (s : ℤ) : ∀ t ∈ intStr id :: l.map fmtF ++ [intStr s], IsTok t := by
  intro t ht
  simp only [List.cons_append, List.mem_cons, List.mem_append, List.mem_map, List.not_mem_nil, or_false] at ht
  rcases ht with rfl | ⟨x, _, rfl⟩ | rfl
  · exact isTok_intStr _
  · exact isTok_fmtF _
  · exact isTok_intStr _

theorem row_join (id : ℤ) (l : List F) (s : ℤ) (hl : l ≠ []) :
    intStr id ++ ' ' :: joinWs (l.map fmtF) ++ ' ' :: intStr s ++ ['\n'] =
      joinWs (intStr id :: l.map fmtF ++ [intStr s]) ++ ['\n'] := by
  have h1 : intStr id :: l.map fmtF ≠ [] := by simp
  have h2 : l.map fmtF ≠ [] := by simpa using hl
  rw [joinWs_append_singleton _ _ h1, joinWs_cons _ _ h2]

theorem outline_eq (f4 : F → F) (id : ℤ) (p : DiffstarParams F) (loss : F) (s : ℤ) :
    outline f4 id p loss s =
      joinWs (intStr id :: ((paramList p).map f4 ++ [loss]).map fmtF ++ [intStr s]) ++ ['\n'] :=
  row_join id _ s (by simp)

theorem outlineNofit_eq (id : ℤ) :
    outlineNofit id = joinWs (intStr id :: ((List.replicate 8 (some ((-99 : ℝ) : EReal)) : List F)
      ++ [some ((-1 : ℝ) : EReal)]).map fmtF ++ [intStr (-1)]) ++ ['\n'] := by
  have := row_join id ((List.replicate 8 (some ((-99 : ℝ) : EReal)) : List F) ++ [some ((-1 : ℝ) : EReal)]) (-1) (by simp)
  rw [← this]
  unfold outlineNofit NOFIT_FILL
  simp only [zero_add]

theorem haloLine_eq (f4 : F → F) (h : HaloOut) : haloLine f4 h = joinWs (rowTokens f4 h) ++ ['\n'] := by
  unfold haloLine rowTokens
  obtain ⟨id, fit⟩ := h
  match fit with
  | some (p, loss, s) => exact outline_eq f4 id p loss s
  | none => exact outlineNofit_eq id

theorem rowTokens_tok (f4 : F → F) (h : HaloOut) : ∀ t ∈ rowTokens f4 h, IsTok t := by
  unfold rowTokens
  split
  · exact isTok_row _ _ _
  · exact isTok_row _ _ _

theorem rowTokens_length (f4 : F → F) (h : HaloOut) : (rowTokens f4 h).length = 11 := by
  unfold rowTokens
  split <;> simp [paramList]

/-! ### Reading a rank's file -/

theorem header_eq : header = "# halo_id lgmcrit lgy_at_mcrit indx_lo indx_hi lg_qt qlglgdt lg_drop lg_rejuv loss success".toList ++ ['\n'] := by
  decide +kernel

theorem joinWs_no_newline {toks : List Str} (h : ∀ t ∈ toks, IsTok t) {c : Char} (hc : c = '\n' ∨ c = '#') :
    c ∉ joinWs toks := by
  intro hm
  rcases mem_joinWs hm with rfl | ⟨t, ht, hct⟩
  · rcases hc with h | h <;> exact absurd h (by decide)
  · have := (h t ht).2 c hct
    rcases hc with rfl | rfl
    · exact absurd this.1 (by decide)
    · exact this.2 rfl

theorem genfromtxt_rows (f4 : F → F) (hs : List HaloOut) :
    ((lines (rankFile f4 hs)).map fun l => splitWs (l.takeWhile (· ≠ '#'))).filter (· ≠ []) = hs.map (rowTokens f4) := by
  have hfl : (hs.map (haloLine f4)).flatten = ((hs.map fun h => joinWs (rowTokens f4 h)).map (· ++ ['\n'])).flatten := by
    congr 1
    rw [List.map_map]
    exact List.map_congr_left fun h _ => haloLine_eq f4 h
  unfold rankFile
  rw [header_eq, List.append_assoc, List.singleton_append, lines_line _ _ (by decide +kernel), hfl, lines_flatten]
  · have hh : splitWs (("# halo_id lgmcrit lgy_at_mcrit indx_lo indx_hi lg_qt qlglgdt lg_drop lg_rejuv loss success".toList).takeWhile (· ≠ '#')) = [] := by
      decide +kernel
    have hn : splitWs (([] : Str).takeWhile (· ≠ '#')) = [] := by decide +kernel
    rw [List.map_cons, hh, List.map_append, List.map_map]
    simp only [List.map_cons, List.map_nil, hn]
    have hmap : hs.map ((fun l => splitWs (l.takeWhile (· ≠ '#'))) ∘ fun h => joinWs (rowTokens f4 h)) = hs.map (rowTokens f4) := by
      refine List.map_congr_left fun h _ => ?_
      simp only [Function.comp]
      rw [takeWhile_all, splitWs_joinWs _ (rowTokens_tok f4 h)]
      intro c hc
      simp only [ne_eq, decide_not, Bool.not_eq_eq_eq_not, Bool.not_true, decide_eq_false_iff_not]
      rintro rfl
      exact joinWs_no_newline (rowTokens_tok f4 h) (Or.inr rfl) hc
    rw [hmap]
    simp only [ne_eq, decide_not, decide_true, Bool.not_true, Bool.false_eq_true, not_false_eq_true,
      List.filter_cons_of_neg, List.filter_append, List.filter_nil, List.append_nil]
    rw [List.filter_eq_self]
    intro t ht
    obtain ⟨h, _, rfl⟩ := List.mem_map.mp ht
    have := rowTokens_length f4 h
    have : rowTokens f4 h ≠ [] := by
      intro e; rw [e] at this; simp at this
    simp [this]
  · intro l hl
    obtain ⟨h, _, rfl⟩ := List.mem_map.mp hl
    exact joinWs_no_newline (rowTokens_tok f4 h) (Or.inl rfl)

theorem genfromtxt_rank (f4 : F → F) (hs : List HaloOut) :
    genfromtxt (rankFile f4 hs) = some (if 2 ≤ hs.length then NdArr.d2 (hs.map (rowTokens f4))
      else NdArr.d1 (hs.map (rowTokens f4)).flatten) := by
  unfold genfromtxt
  simp only [genfromtxt_rows]
  match hs with
  | [] => rfl
  | [h] => simp
  | h :: g :: hs =>
    have h1 : ∀ x ∈ (g :: hs).map (rowTokens f4), x.length = (rowTokens f4 h).length := by
      intro x hx
      obtain ⟨y, _, rfl⟩ := List.mem_map.mp hx
      rw [rowTokens_length, rowTokens_length]
    simp only [List.map_cons] at h1 ⊢
    rw [if_pos h1, if_neg (by rw [rowTokens_length]; norm_num), if_pos (by simp)]

/-! ### Concatenation -/

theorem concatenate_d2 (gs : List (List (List Str))) (w : ℕ) (hne : gs ≠ [])
    (h : ∀ g ∈ gs, g ≠ [] ∧ ∀ r ∈ g, r.length = w) :
    concatenate (gs.map NdArr.d2) = some (NdArr.d2 gs.flatten) := by
  induction gs with
  | nil => exact absurd rfl hne
  | cons g gs ih =>
    by_cases hg : gs = []
    · subst hg; simp [concatenate]
    · have hi := ih hg (fun x hx => h x (by simp [hx]))
      rw [List.map_cons, concatenate, if_neg (by simpa using hg), hi, Option.bind_some]
      have hw : ∀ l : List (List Str), l ≠ [] → (∀ r ∈ l, r.length = w) → l.head?.map List.length = some w := by
        intro l hl hr
        cases l with
        | nil => exact absurd rfl hl
        | cons a l => simp [hr a (by simp)]
      have h1 := h g (by simp)
      have h2 : gs.flatten ≠ [] := by
        intro e
        obtain ⟨g', hg'⟩ := List.exists_mem_of_ne_nil gs hg
        exact (h g' (by simp [hg'])).1 (List.flatten_eq_nil_iff.mp e g' hg')
      have h3 : ∀ r ∈ gs.flatten, r.length = w := by
        intro r hr
        obtain ⟨x, hx, hrx⟩ := List.mem_flatten.mp hr
        exact (h x (by simp [hx])).2 r hrx
      unfold concat2
      simp only
      rw [if_pos ((hw g h1.1 h1.2).trans (hw _ h2 h3).symm), List.flatten_cons]

theorem concatenate_d2_inv (as : List NdArr) (rows : List (List Str)) (h : concatenate as = some (NdArr.d2 rows)) :
    ∀ a ∈ as, ∃ r, a = NdArr.d2 r := by
  induction as generalizing rows with
  | nil => simp
  | cons a as ih =>
    rw [concatenate] at h
    split_ifs at h with has
    · subst has
      simp only [Option.some.injEq] at h
      intro x hx
      rw [List.mem_singleton] at hx
      exact ⟨rows, hx.trans h⟩
    · cases hc : concatenate as with
      | none => rw [hc] at h; simp at h
      | some c =>
        rw [hc, Option.bind_some] at h
        cases a with
        | d1 l => cases c <;> simp [concat2] at h
        | d2 r =>
          cases c with
          | d1 l => simp [concat2] at h
          | d2 r' =>
            intro x hx
            rcases List.mem_cons.mp hx with rfl | hx
            · exact ⟨r, rfl⟩
            · exact ih r' hc x hx

/-! ### Splitting -/

theorem flatten_slices {α : Type*} (l : List α) (p : ℕ → ℕ) (h0 : p 0 = 0) (hm : Monotone p) (r : ℕ) :
    ((List.range r).map fun i => (l.take (p (i + 1))).drop (p i)).flatten = l.take (p r) := by
  induction r with
  | zero => simp [h0]
  | succ r ih =>
    rw [List.range_succ, List.map_append, List.flatten_append, ih]
    simp only [List.map_cons, List.map_nil, List.flatten_cons, List.flatten_nil, List.append_nil]
    have : l.take (p r) = (l.take (p (r + 1))).take (p r) := by
      rw [List.take_take, min_eq_left (hm (Nat.le_succ r))]
    rw [this, List.take_append_drop]

theorem sum_take_mono (s : List ℕ) : Monotone fun i => (s.take i).sum := by
  intro i j h
  have : s.take j = s.take i ++ (s.drop i).take (j - i) := by
    rw [← List.take_add]; congr 1; omega
  simp only [this, List.sum_append]
  omega

theorem sectionSizes_length (n r : ℕ) (hr : 0 < r) : (sectionSizes n r).length = r := by
  unfold sectionSizes
  have := Nat.mod_lt n hr
  simp only [List.length_append, List.length_replicate]
  omega

theorem sectionSizes_sum (n r : ℕ) (hr : 0 < r) : (sectionSizes n r).sum = n := by
  unfold sectionSizes
  have h1 := Nat.mod_lt n hr
  have h2 := Nat.div_add_mod n r
  simp only [List.sum_append, List.sum_replicate, smul_eq_mul]
  obtain ⟨k, hk⟩ := Nat.exists_eq_add_of_le h1.le
  have : r - n % r = k := by omega
  rw [this]
  calc n % r * (n / r + 1) + k * (n / r) = (n % r + k) * (n / r) + n % r := by ring
    _ = r * (n / r) + n % r := by rw [← hk]
    _ = n := h2

theorem sectionSizes_get (n r i : ℕ) (hi : i < r) :
    (sectionSizes n r).getD i 0 = n / r + if i < n % r then 1 else 0 := by
  have h1 := Nat.mod_lt n (by omega : 0 < r)
  unfold sectionSizes
  split_ifs with h
  · rw [List.getD_append _ _ _ _ (by simpa using h), List.getD_replicate _ h]
  · rw [List.getD_append_right _ _ _ _ (by simpa using h), List.length_replicate, List.getD_replicate _ (by omega)]
    omega

theorem sum_take_succ (s : List ℕ) (i : ℕ) : (s.take (i + 1)).sum = (s.take i).sum + s.getD i 0 := by
  by_cases h : i < s.length
  · rw [List.take_succ_eq_append_getElem h, List.sum_append, List.getD_eq_getElem _ _ h]
    simp
  · rw [List.take_of_length_le (by omega), List.take_of_length_le (by omega), List.getD_eq_default _ _ (by omega)]
    simp

theorem arraySplit_flatten {α : Type*} (l : List α) (r : ℕ) (hr : 0 < r) : (arraySplit l r).flatten = l := by
  unfold arraySplit
  simp only
  rw [flatten_slices l _ (by simp) (sum_take_mono _)]
  have : (sectionSizes l.length r).take r = sectionSizes l.length r :=
    List.take_of_length_le (by rw [sectionSizes_length _ _ hr])
  rw [this, sectionSizes_sum _ _ hr, List.take_length]

theorem arraySplit_length {α : Type*} (l : List α) (r : ℕ) : (arraySplit l r).length = r := by
  unfold arraySplit; simp

theorem arraySplit_get_length {α : Type*} (l : List α) (r i : ℕ) (hi : i < r) :
    ((arraySplit l r).getD i []).length = l.length / r + if i < l.length % r then 1 else 0 := by
  have hr : 0 < r := by omega
  have hle : ((sectionSizes l.length r).take (i + 1)).sum ≤ l.length := by
    calc _ ≤ ((sectionSizes l.length r).take r).sum := sum_take_mono _ (by omega)
      _ = l.length := by
        rw [List.take_of_length_le (by rw [sectionSizes_length _ _ hr]), sectionSizes_sum _ _ hr]
  have h0 : i < (arraySplit l r).length := by rw [arraySplit_length]; exact hi
  rw [List.getD_eq_getElem _ _ h0]
  have hg : (arraySplit l r)[i] = (l.take (((sectionSizes l.length r).take (i + 1)).sum)).drop
      (((sectionSizes l.length r).take i).sum) := by
    show ((List.range r).map _)[i]'(by simpa using hi) = _
    rw [List.getElem_map, List.getElem_range]
  rw [hg, List.length_drop, List.length_take, min_eq_left hle, sum_take_succ, sectionSizes_get _ _ _ hi,
    Nat.add_sub_cancel_left]

/-! ### Writing -/

theorem mapM_option_some {α β : Type*} (f : α → Option β) (g : α → β) (l : List α) (h : ∀ x ∈ l, f x = some (g x)) :
    l.mapM f = some (l.map g) := by
  induction l with
  | nil => rfl
  | cons a l ih =>
    rw [List.mapM_cons, h a (by simp), ih (fun x hx => h x (by simp [hx]))]
    rfl

theorem mapM_option_iff {α β : Type*} (f : α → Option β) (l : List α) (l' : List β) :
    l.mapM f = some l' ↔ List.Forall₂ (fun a b => f a = some b) l l' := by
  induction l generalizing l' with
  | nil =>
    simp only [List.mapM_nil]
    constructor
    · intro h
      cases h
      exact List.Forall₂.nil
    · intro h
      cases h
      rfl
  | cons a l ih =>
    rw [List.mapM_cons]
    constructor
    · intro h
      cases hf : f a with
      | none => rw [hf] at h; simp at h
      | some b =>
        rw [hf] at h
        cases hm : l.mapM f with
        | none => rw [hm] at h; simp at h
        | some bs =>
          rw [hm] at h
          simp only [Option.bind_eq_bind, Option.bind_some, Option.pure_def, Option.some.injEq] at h
          rw [← h]
          exact List.Forall₂.cons hf ((ih bs).mp hm)
    · intro h
      cases h with
      | cons h1 h2 =>
        rw [h1, (ih _).mpr h2]
        rfl

/-- The column stored under `name` at position `i`. -/
noncomputable def colAt (rows : List (List Str)) (i : ℕ) (name : Str) : Option Col :=
  if name = "halo_id".toList ∨ name = "success".toList then (intCol rows i).map Col.int
  else (fltCol rows i).map Col.flt

theorem writeCols_eq (rows : List (List Str)) (i : ℕ) (name : Str) (names : List Str) (hdf : H5)
    (h : name ∉ hdf.map Prod.fst) :
    writeCols rows i (name :: names) hdf =
      (colAt rows i name).bind fun c => writeCols rows (i + 1) names (hdf ++ [(name, c)]) := by
  rw [writeCols, if_neg (by simpa using h)]
  unfold colAt
  split_ifs
  · cases intCol rows i <;> simp
  · cases fltCol rows i <;> simp

theorem writeCols_spec (rows : List (List Str)) (names : List Str) (i : ℕ) (hdf : H5)
    (hnd : names.Nodup) (hdis : ∀ n ∈ names, n ∉ hdf.map Prod.fst) (res : H5) :
    writeCols rows i names hdf = some res ↔
      ∃ cols : List Col, cols.length = names.length ∧ res = hdf ++ names.zip cols ∧
        ∀ k, (hk : k < names.length) → colAt rows (i + k) names[k] = cols[k]? := by
  induction names generalizing i hdf with
  | nil =>
    simp only [writeCols, Option.some.injEq]
    constructor
    · rintro rfl
      exact ⟨[], rfl, by simp, by simp⟩
    · rintro ⟨cols, hl, hres, _⟩
      simp at hres
      exact hres.symm
  | cons name names ih =>
    rw [writeCols_eq _ _ _ _ _ (hdis name (by simp))]
    rw [List.nodup_cons] at hnd
    constructor
    · intro h
      cases hc : colAt rows i name with
      | none => rw [hc] at h; simp at h
      | some c =>
        rw [hc, Option.bind_some] at h
        obtain ⟨cols, hl, hres, hk⟩ := (ih (i + 1) (hdf ++ [(name, c)]) hnd.2 (by
          intro n hn
          simp only [List.map_append, List.map_cons, List.map_nil, List.mem_append, List.mem_singleton, not_or]
          exact ⟨hdis n (by simp [hn]), fun e => hnd.1 (e ▸ hn)⟩)).mp h
        refine ⟨c :: cols, by simp [hl], by rw [hres]; simp, ?_⟩
        intro k hk'
        cases k with
        | zero => simpa using hc
        | succ k =>
          have := hk k (by simpa using hk')
          have e : i + 1 + k = i + (k + 1) := by omega
          rw [e] at this
          simpa using this
    · rintro ⟨cols, hl, hres, hk⟩
      cases cols with
      | nil => simp at hl
      | cons c cols =>
        have hc := hk 0 (by simp)
        simp only [Nat.add_zero, List.getElem_cons_zero, List.getElem?_cons_zero] at hc
        rw [hc, Option.bind_some]
        refine (ih (i + 1) (hdf ++ [(name, c)]) hnd.2 (by
          intro n hn
          simp only [List.map_append, List.map_cons, List.map_nil, List.mem_append, List.mem_singleton, not_or]
          exact ⟨hdis n (by simp [hn]), fun e => hnd.1 (e ▸ hn)⟩)).mpr ⟨cols, by simpa using hl, by rw [hres]; simp, ?_⟩
        intro k hk'
        have := hk (k + 1) (by simpa using hk')
        have e : i + 1 + k = i + (k + 1) := by omega
        rw [e]
        simpa using this

theorem lookup_zip (names : List Str) (cols : List Col) (hnd : names.Nodup) (hl : cols.length = names.length) (k : ℕ)
    (hk : k < names.length) : (names.zip cols).lookup names[k] = cols[k]? := by
  induction names generalizing cols k with
  | nil => simp at hk
  | cons n names ih =>
    cases cols with
    | nil => simp at hl
    | cons c cols =>
      rw [List.nodup_cons] at hnd
      cases k with
      | zero => simp
      | succ k =>
        have hne : names[k]'(by simpa using hk) ≠ n := by
          intro e
          exact hnd.1 (e ▸ List.getElem_mem _)
        rw [List.zip_cons_cons, List.getElem_cons_succ, List.lookup_cons]
        have hb : (names[k]'(by simpa using hk) == n) = false := by simpa using hne
        rw [hb]
        simp only [List.getElem?_cons_succ]
        exact ih cols hnd.2 (by simpa using hl) k (by simpa using hk)

end Diffstar.Output
