import Verif.Model.Output
import Mathlib.Tactic.Linarith
import Mathlib.Tactic.NormNum
import Mathlib.Tactic.FieldSimp
import Mathlib.Tactic.Ring
import Mathlib.Tactic.Push

/-! Helper lemmas about formatting, splitting and parsing of text. -/

namespace Diffstar.Text

open Diffstar.Fit

/-- A token: non-empty, without whitespace, comment sign. -/
def IsTok (s : Str) : Prop := s ≠ [] ∧ ∀ c ∈ s, isWs c = false ∧ c ≠ '#'

theorem splitWsAux_tok (tok rest : Str) (h : ∀ c ∈ tok, isWs c = false) (cur : Str) :
    splitWsAux cur (tok ++ rest) = splitWsAux (tok.reverse ++ cur) rest := by
  induction tok generalizing cur with
  | nil => rfl
  | cons c cs ih =>
    rw [List.cons_append, splitWsAux, h c (by simp)]
    simp only [Bool.false_eq_true, if_false]
    rw [ih (fun d hd => h d (by simp [hd]))]
    simp

theorem splitWs_tok_ws (tok rest : Str) (w : Char) (hw : isWs w = true) (h : IsTok tok) :
    splitWs (tok ++ w :: rest) = tok :: splitWs rest := by
  unfold splitWs
  rw [splitWsAux_tok _ _ (fun c hc => (h.2 c hc).1)]
  rw [splitWsAux]
  have : tok.reverse ++ [] ≠ [] := by simpa using h.1
  simp [hw, h.1]

theorem splitWs_tok (tok : Str) (h : IsTok tok) : splitWs tok = [tok] := by
  unfold splitWs
  have := splitWsAux_tok tok [] (fun c hc => (h.2 c hc).1) []
  rw [List.append_nil] at this
  rw [this, splitWsAux]
  simp [h.1]

theorem splitWs_joinWs (toks : List Str) (h : ∀ t ∈ toks, IsTok t) : splitWs (joinWs toks) = toks := by
  induction toks with
  | nil => rfl
  | cons t ts ih =>
    cases ts with
    | nil => exact splitWs_tok t (h t (by simp))
    | cons u us =>
      rw [joinWs]
      · rw [splitWs_tok_ws _ _ ' ' (by decide) (h t (by simp)), ih (fun x hx => h x (by simp [hx]))]
      · simp

theorem mem_joinWs {toks : List Str} {c : Char} (h : c ∈ joinWs toks) : c = ' ' ∨ ∃ t ∈ toks, c ∈ t := by
  induction toks with
  | nil => simp [joinWs] at h
  | cons t ts ih =>
    cases ts with
    | nil => exact Or.inr ⟨t, by simp, by simpa [joinWs] using h⟩
    | cons u us =>
      rw [joinWs] at h
      · rcases List.mem_append.mp h with h | h
        · exact Or.inr ⟨t, by simp, h⟩
        · rcases List.mem_cons.mp h with h | h
          · exact Or.inl h
          · rcases ih h with h | ⟨x, hx, hc⟩
            · exact Or.inl h
            · exact Or.inr ⟨x, by simp [hx], hc⟩
      · simp

/-- Joining lists of tokens. -/
theorem joinWs_cons (t : Str) (ts : List Str) (h : ts ≠ []) : joinWs (t :: ts) = t ++ ' ' :: joinWs ts := by
  cases ts with
  | nil => exact absurd rfl h
  | cons u us => rw [joinWs]; simp

theorem joinWs_append_singleton (ts : List Str) (t : Str) (h : ts ≠ []) :
    joinWs (ts ++ [t]) = joinWs ts ++ ' ' :: t := by
  induction ts with
  | nil => exact absurd rfl h
  | cons u us ih =>
    cases us with
    | nil => simp [joinWs]
    | cons v vs =>
      rw [List.cons_append, joinWs_cons _ _ (by simp), ih (by simp), joinWs_cons u (v :: vs) (by simp)]
      simp

theorem linesAux_line (l rest : Str) (h : '\n' ∉ l) (cur : Str) :
    linesAux cur (l ++ '\n' :: rest) = (cur.reverse ++ l) :: linesAux [] rest := by
  induction l generalizing cur with
  | nil => simp [linesAux]
  | cons c cs ih =>
    have hc : c ≠ '\n' := fun e => h (by simp [e])
    rw [List.cons_append, linesAux, if_neg hc, ih (fun e => h (by simp [e]))]
    simp

theorem lines_line (l rest : Str) (h : '\n' ∉ l) : lines (l ++ '\n' :: rest) = l :: lines rest := by
  unfold lines
  rw [linesAux_line l rest h]
  rfl

theorem lines_flatten (ls : List Str) (h : ∀ l ∈ ls, '\n' ∉ l) :
    lines ((ls.map (· ++ ['\n'])).flatten) = ls ++ [[]] := by
  induction ls with
  | nil => rfl
  | cons l ls ih =>
    rw [List.map_cons, List.flatten_cons, List.append_assoc, List.singleton_append,
      lines_line l _ (h l (by simp)), ih (fun x hx => h x (by simp [hx]))]
    rfl

theorem takeWhile_all {α : Type*} (p : α → Bool) (l : List α) (h : ∀ x ∈ l, p x = true) : l.takeWhile p = l := by
  induction l with
  | nil => rfl
  | cons a l ih => simp [h a (by simp), ih (fun x hx => h x (by simp [hx]))]

theorem takeWhile_append_sep {α : Type*} (p : α → Bool) (l r : List α) (c : α) (h : ∀ x ∈ l, p x = true)
    (hc : p c = false) : (l ++ c :: r).takeWhile p = l ∧ (l ++ c :: r).dropWhile p = c :: r := by
  induction l with
  | nil => simp [hc]
  | cons a l ih =>
    have := ih (fun x hx => h x (by simp [hx]))
    simp [h a (by simp), this.1, this.2]

/-! ### Integers -/

theorem isDigit_natStr (n : ℕ) (c : Char) (h : c ∈ natStr n) : c.isDigit = true :=
  Nat.isDigit_of_mem_toDigits (by norm_num) le_rfl h

theorem natStr_ne_nil (n : ℕ) : natStr n ≠ [] := Nat.toDigits_ne_nil

theorem isDigit_ne {c d : Char} (h : c.isDigit = true) (hd : d.isDigit = false) : c ≠ d := by
  rintro rfl; rw [h] at hd; cases hd

theorem isDigit_tok {c : Char} (h : c.isDigit = true) : isWs c = false ∧ c ≠ '#' := by
  refine ⟨?_, isDigit_ne h (by decide)⟩
  have h1 : c ≠ ' ' := isDigit_ne h (by decide)
  have h2 : c ≠ '\n' := isDigit_ne h (by decide)
  have h3 : c ≠ '\t' := isDigit_ne h (by decide)
  have h4 : c ≠ '\r' := isDigit_ne h (by decide)
  simp [isWs, h1, h2, h3, h4]

theorem isTok_intStr (n : ℤ) : IsTok (intStr n) := by
  unfold intStr
  split
  · refine ⟨by simp, fun c hc => ?_⟩
    rcases List.mem_cons.mp hc with rfl | hc
    · decide
    · exact isDigit_tok (isDigit_natStr _ _ hc)
  · exact ⟨natStr_ne_nil _, fun c hc => isDigit_tok (isDigit_natStr _ _ hc)⟩

theorem parseNat_digits (s : Str) (h0 : s ≠ []) (h : ∀ c ∈ s, c.isDigit = true) :
    parseNat s = some (Nat.ofDigitChars 10 s 0) := by
  unfold parseNat
  rw [if_pos ⟨h0, by simpa using h⟩]

theorem parseNat_natStr (n : ℕ) : parseNat (natStr n) = some n := by
  rw [parseNat_digits _ (natStr_ne_nil n) (fun c hc => isDigit_natStr n c hc)]
  unfold natStr
  rw [Nat.ofDigitChars_ten_toDigits]

theorem parseInt_digits (s : Str) (h0 : s ≠ []) (h : ∀ c ∈ s, c.isDigit = true) :
    parseInt s = some (Nat.ofDigitChars 10 s 0 : ℤ) := by
  have := parseNat_digits s h0 h
  unfold parseInt
  split
  · exact absurd (h '-' (by simp)) (by decide)
  · exact absurd (h '+' (by simp)) (by decide)
  · rw [this]; rfl

theorem parseInt_intStr (n : ℤ) : parseInt (intStr n) = some n := by
  unfold intStr
  split
  · rename_i h
    unfold parseInt
    simp only [parseNat_natStr]
    rw [Option.map_some, Option.some.injEq]
    omega
  · rename_i h
    rw [parseInt_digits _ (natStr_ne_nil _) (fun c hc => isDigit_natStr _ c hc)]
    unfold natStr
    rw [Nat.ofDigitChars_ten_toDigits]
    simp only [Option.some.injEq]
    omega

/-! ### Floats -/

theorem zpad_digits (k n : ℕ) (c : Char) (h : c ∈ zpad k (natStr n)) : c.isDigit = true := by
  unfold zpad at h
  rcases List.mem_append.mp h with h | h
  · rw [(List.mem_replicate.mp h).2]; decide
  · exact isDigit_natStr n c h

theorem zpad_ne_nil (k n : ℕ) : zpad k (natStr n) ≠ [] := by
  unfold zpad
  simp [natStr_ne_nil]

theorem ofDigitChars_zpad (k n : ℕ) : Nat.ofDigitChars 10 (zpad k (natStr n)) 0 = n := by
  unfold zpad natStr
  rw [Nat.ofDigitChars_append, Nat.ofDigitChars_replicate_zero, Nat.mul_zero, Nat.ofDigitChars_ten_toDigits]

theorem length_natStr_le {n k : ℕ} (hk : 0 < k) (h : n < 10 ^ k) : (natStr n).length ≤ k :=
  (Nat.length_toDigits_le_iff (by norm_num) hk).mpr h

theorem length_zpad {n k : ℕ} (hk : 0 < k) (h : n < 10 ^ k) : (zpad k (natStr n)).length = k := by
  unfold zpad
  have := length_natStr_le hk h
  simp only [List.length_append, List.length_replicate]
  omega

theorem parseInt_expStr (e : ℤ) : parseInt (expStr e) = some e := by
  unfold expStr
  have hp : parseNat (zpad 2 (natStr e.natAbs)) = some e.natAbs := by
    rw [parseNat_digits _ (zpad_ne_nil _ _) (zpad_digits _ _), ofDigitChars_zpad]
  split
  · unfold parseInt
    simp only [hp]
    rw [Option.map_some, Option.some.injEq]
    omega
  · unfold parseInt
    simp only [hp]
    rw [Option.map_some, Option.some.injEq]
    omega

theorem roundHalfEven_abs (y : ℝ) : |(roundHalfEven y : ℝ) - y| ≤ 1 / 2 := by
  have h1 := Int.floor_le y
  have h2 := Int.lt_floor_add_one y
  unfold roundHalfEven
  simp only
  rw [abs_le]
  split_ifs <;> push_cast <;> constructor <;> linarith

/-- Mantissa and exponent: six digits, and the value is within half a unit of the last digit. -/
theorem mantExp_spec (x : ℝ) (hx : x ≠ 0) :
    (mantExp x).1 < 10 ^ 6 ∧ 10 ^ 5 ≤ (mantExp x).1 ∧
      |((mantExp x).1 : ℝ) * (10 : ℝ) ^ ((mantExp x).2 - 5) - (|x|)| ≤ 5 / 10 ^ 6 * |x| := by
  have hax : 0 < |x| := abs_pos.mpr hx
  set e := Int.log 10 |x| with he
  have hlo : (10 : ℝ) ^ e ≤ |x| := by
    have := Int.zpow_log_le_self (b := 10) (by norm_num) hax
    simpa using this
  have hhi : |x| < (10 : ℝ) ^ (e + 1) := by
    have := Int.lt_zpow_succ_log_self (b := 10) (by norm_num) |x|
    simpa using this
  set y := |x| * (10 : ℝ) ^ (5 - e) with hy
  have hpe : (0 : ℝ) < 10 ^ (5 - e) := by positivity
  have hy1 : (10 : ℝ) ^ 5 ≤ y := by
    calc (10 : ℝ) ^ 5 = 10 ^ e * 10 ^ (5 - e) := by
          rw [← zpow_add₀ (by norm_num)]
          have : e + (5 - e) = (5 : ℕ) := by push_cast; ring
          rw [this, zpow_natCast]
      _ ≤ y := mul_le_mul_of_nonneg_right hlo hpe.le
  have hy2 : y < (10 : ℝ) ^ 6 := by
    calc y < 10 ^ (e + 1) * 10 ^ (5 - e) := mul_lt_mul_of_pos_right hhi hpe
      _ = (10 : ℝ) ^ 6 := by
          rw [← zpow_add₀ (by norm_num)]
          have : e + 1 + (5 - e) = (6 : ℕ) := by push_cast; ring
          rw [this, zpow_natCast]
  have hr := roundHalfEven_abs y
  rw [abs_le] at hr
  set k := roundHalfEven y with hk
  have hk1 : (10 : ℤ) ^ 5 ≤ k := by
    by_contra h
    push Not at h
    have h' : k ≤ 10 ^ 5 - 1 := by omega
    have : (k : ℝ) ≤ 10 ^ 5 - 1 := by exact_mod_cast h'
    linarith [hr.1]
  have hk2 : k ≤ 10 ^ 6 := by
    by_contra h
    push Not at h
    have h' : (10 : ℤ) ^ 6 + 1 ≤ k := by omega
    have : (10 : ℝ) ^ 6 + 1 ≤ k := by exact_mod_cast h'
    linarith [hr.2]
  have hkn : ((k.toNat : ℕ) : ℤ) = k := Int.toNat_of_nonneg (by omega)
  have hknr : ((k.toNat : ℕ) : ℝ) = k := by exact_mod_cast hkn
  have hval : |(k : ℝ) * (10 : ℝ) ^ (e - 5) - (|x|)| ≤ 5 / 10 ^ 6 * |x| := by
    have hxy : |x| = y * 10 ^ (e - 5) := by
      rw [hy, mul_assoc, ← zpow_add₀ (by norm_num)]
      have : 5 - e + (e - 5) = 0 := by ring
      rw [this, zpow_zero, mul_one]
    have hp5 : (0 : ℝ) < 10 ^ (e - 5) := by positivity
    have h5 : (10 : ℝ) ^ (e - 5) = 10 ^ e / 10 ^ 5 := by
      rw [zpow_sub₀ (by norm_num)]; norm_cast
    calc |(k : ℝ) * (10 : ℝ) ^ (e - 5) - (|x|)| = |((k : ℝ) - y) * 10 ^ (e - 5)| := by
          rw [sub_mul, ← hxy]
      _ = |(k : ℝ) - y| * 10 ^ (e - 5) := by rw [abs_mul, abs_of_pos hp5]
      _ ≤ 1 / 2 * 10 ^ (e - 5) := mul_le_mul_of_nonneg_right (roundHalfEven_abs y) hp5.le
      _ = 5 / 10 ^ 6 * 10 ^ e := by rw [h5]; ring
      _ ≤ 5 / 10 ^ 6 * |x| := mul_le_mul_of_nonneg_left hlo (by norm_num)
  have hm : mantExp x = if k.toNat = 10 ^ 6 then (10 ^ 5, e + 1) else (k.toNat, e) := by
    unfold mantExp
    rw [if_neg hx]
  rw [hm]
  split_ifs with h6
  · refine ⟨by norm_num, le_rfl, ?_⟩
    have hk6 : k = 10 ^ 6 := by rw [← hkn, h6]; norm_num
    have : ((10 ^ 5 : ℕ) : ℝ) * 10 ^ (e + 1 - 5) = (k : ℝ) * 10 ^ (e - 5) := by
      rw [hk6]
      have : e + 1 - 5 = (e - 5) + 1 := by ring
      rw [this, zpow_add_one₀ (by norm_num)]
      push_cast
      ring
    simp only
    rw [this]
    exact hval
  · simp only
    refine ⟨by omega, by omega, ?_⟩
    rw [hknr]
    exact hval

theorem mantExp_lt (x : ℝ) : (mantExp x).1 < 10 ^ 6 := by
  by_cases hx : x = 0
  · unfold mantExp; rw [if_pos hx]; norm_num
  · exact (mantExp_spec x hx).1

/-- Number printed by `fmtE5`. -/
theorem mantExp_close (x : ℝ) :
    |((mantExp x).1 : ℝ) * (10 : ℝ) ^ ((mantExp x).2 - 5) - (|x|)| ≤ 5 / 10 ^ 6 * |x| := by
  by_cases hx : x = 0
  · unfold mantExp; rw [if_pos hx]; simp [hx]
  · exact (mantExp_spec x hx).2.2

theorem parseSci_fmt (m : ℕ) (e : ℤ) (hm : m < 10 ^ 6) :
    parseSci ((zpad 6 (natStr m)).take 1 ++ '.' :: (zpad 6 (natStr m)).drop 1 ++ 'e' :: expStr e) =
      some ((m : ℝ) * (10 : ℝ) ^ (e - 5)) := by
  set d := zpad 6 (natStr m) with hd
  have hlen : d.length = 6 := length_zpad (by norm_num) hm
  have hdig : ∀ c ∈ d, c.isDigit = true := fun c hc => zpad_digits 6 m c hc
  have ht : ∀ c ∈ d.take 1, c.isDigit = true := fun c hc => hdig c (List.mem_of_mem_take hc)
  have hr : ∀ c ∈ d.drop 1, c.isDigit = true := fun c hc => hdig c (List.mem_of_mem_drop hc)
  have hte : d.take 1 ≠ [] := by
    intro h; have := congrArg List.length h; simp [hlen] at this
  have hre : d.drop 1 ≠ [] := by
    intro h; have := congrArg List.length h; simp [hlen] at this
  have h1 := takeWhile_append_sep (fun c : Char => decide (c ≠ 'e')) (d.take 1 ++ '.' :: d.drop 1) (expStr e) 'e'
    (by
      intro c hc
      rcases List.mem_append.mp hc with h | h
      · simpa using isDigit_ne (ht c h) (by decide)
      · rcases List.mem_cons.mp h with rfl | h
        · decide
        · simpa using isDigit_ne (hr c h) (by decide)) (by decide)
  have h2 := takeWhile_append_sep (fun c : Char => decide (c ≠ '.')) (d.take 1) (d.drop 1) '.'
    (by intro c hc; simpa using isDigit_ne (ht c hc) (by decide)) (by decide)
  unfold parseSci
  simp only [h1.1, h1.2, h2.1, h2.2, List.drop_succ_cons, List.drop_zero, parseInt_expStr]
  rw [parseNat_digits _ hte ht, parseNat_digits _ hre hr]
  simp only
  rw [List.take_append_drop, hd, ofDigitChars_zpad, ← hd, List.length_drop, hlen]
  norm_num

/-- The characters of `fmtE5`. -/
theorem fmtE5_chars (x : ℝ) (c : Char) (h : c ∈ fmtE5 x) : c.isDigit = true ∨ c = '-' ∨ c = '+' ∨ c = '.' ∨ c = 'e' := by
  unfold fmtE5 expStr at h
  simp only [List.mem_append, List.mem_cons] at h
  rcases h with ((h | h) | h | h) | h | h | h
  · split at h
    · simp at h; tauto
    · simp at h
  · exact Or.inl (zpad_digits _ _ _ (List.mem_of_mem_take h))
  · tauto
  · exact Or.inl (zpad_digits _ _ _ (List.mem_of_mem_drop h))
  · tauto
  · split at h <;> tauto
  · exact Or.inl (zpad_digits _ _ _ h)

theorem isTok_fmtF (x : F) : IsTok (fmtF x) := by
  unfold fmtF
  split
  · exact ⟨by simp, by decide⟩
  · split_ifs
    · exact ⟨by simp, by decide⟩
    · exact ⟨by simp, by decide⟩
    · refine ⟨by unfold fmtE5; simp, fun c hc => ?_⟩
      rcases fmtE5_chars _ c hc with h | h | h | h | h
      · exact isDigit_tok h
      all_goals subst h; decide

/-- Value read back from a formatted number. -/
theorem parseFloat_fmtE5 (x : ℝ) : parseFloat (fmtE5 x) =
    some (some (((if x < 0 then -1 else 1) * ((mantExp x).1 * (10 : ℝ) ^ ((mantExp x).2 - 5)) : ℝ) : EReal)) := by
  have hn : ∀ c ∈ fmtE5 x, c ≠ 'n' := by
    intro c hc
    rcases fmtE5_chars _ c hc with h | h | h | h | h
    · exact isDigit_ne h (by decide)
    all_goals subst h; decide
  unfold parseFloat
  rw [if_neg, if_neg, if_neg]
  rotate_left
  · intro h; exact hn 'n' (by rw [h]; decide) rfl
  · intro h; exact hn 'n' (by rw [h]; decide) rfl
  · intro h; exact hn 'n' (by rw [h]; decide) rfl
  have hp := parseSci_fmt (mantExp x).1 (mantExp x).2 (mantExp_lt x)
  by_cases hx : x < 0
  · have hs : fmtE5 x = '-' :: ((zpad 6 (natStr (mantExp x).1)).take 1 ++ '.' :: (zpad 6 (natStr (mantExp x).1)).drop 1
        ++ 'e' :: expStr (mantExp x).2) := by
      unfold fmtE5; simp [hx]
    rw [hs]
    simp only [hp, Option.map_some, if_pos hx]
    norm_num
  · have hs : fmtE5 x = ((zpad 6 (natStr (mantExp x).1)).take 1 ++ '.' :: (zpad 6 (natStr (mantExp x).1)).drop 1
        ++ 'e' :: expStr (mantExp x).2) := by
      unfold fmtE5; simp [hx]
    rw [hs]
    split
    · rename_i t h
      exfalso
      set d := zpad 6 (natStr (mantExp x).1) with hd
      have hlen : d.length = 6 := length_zpad (by norm_num) (mantExp_lt x)
      match d, hlen with
      | a :: d', _ =>
        simp at h
        have := zpad_digits 6 (mantExp x).1 '-' (by rw [← hd, h.1]; simp)
        exact absurd this (by decide)
    · rw [hp]
      simp [hx]

end Diffstar.Text
