import Verif.Model.Targets
import Verif.Lemmas.Text

/-!
C83: the name of a subvolume found from the listing of a directory.
-/

namespace Diffstar.Props

open Diffstar Diffstar.Targets Diffstar.Text

/-- C83 (partial: the ids are zero-padded to a common width): the string made for a subvolume of the listing is its
name in the listing. -/
theorem C83_padded_partial (m : ℕ) (hm : 0 < m) (ids : List ℕ) (hids : ∀ i ∈ ids, i < 10 ^ m) (n : ℕ) (hn : n ∈ ids) :
    ∃ s, returnSubvolStr n (ids.map fun i => zpad m (natStr i)) = some s ∧ s ∈ ids.map (fun i => zpad m (natStr i)) ∧
      s.length = m ∧ parseNat s = some n := by
  have hlen : ∀ x ∈ (ids.map fun i => zpad m (natStr i)).map List.length, x = m := by
    intro x hx
    simp only [List.map_map, List.mem_map, Function.comp] at hx
    obtain ⟨i, hi, rfl⟩ := hx
    exact length_zpad hm (hids i hi)
  have hmem : zpad m (natStr n) ∈ ids.map fun i => zpad m (natStr i) := List.mem_map.2 ⟨n, hn, rfl⟩
  refine ⟨zpad m (natStr n), ?_, hmem, length_zpad hm (hids n hn), ?_⟩
  · have hm' : m ∈ (ids.map fun i => zpad m (natStr i)).map List.length :=
      List.mem_map.2 ⟨_, hmem, length_zpad hm (hids n hn)⟩
    have hmax : ((ids.map fun i => zpad m (natStr i)).map List.length).max? = some m := by
      rw [List.max?_eq_some_iff]
      exact ⟨hm', fun b hb => (hlen b hb).le⟩
    unfold returnSubvolStr
    by_cases h1 : m = 1
    · subst h1
      have : (((ids.map fun i => zpad 1 (natStr i)).map List.length).any (· == 1)) = true :=
        List.any_eq_true.2 ⟨1, hm', by simp⟩
      simp only [this, if_true]
      have h2 : (natStr n).length ≤ 1 := length_natStr_le (by omega) (hids n hn)
      have h3 : (natStr n).length ≠ 0 := by simpa [List.length_eq_zero_iff] using natStr_ne_nil n
      have h4 : 1 - (natStr n).length = 0 := by omega
      simp [zpad, h4]
    · have : (((ids.map fun i => zpad m (natStr i)).map List.length).any (· == 1)) = false := by
        rw [List.any_eq_false]
        intro x hx
        rw [hlen x hx]; simp [h1]
      have hall : (((ids.map fun i => zpad m (natStr i)).map List.length).all (· == m)) = true :=
        List.all_eq_true.2 fun x hx => by simp [hlen x hx]
      simp only [this, hmax, Option.bind_some, hall, if_true, Bool.false_eq_true, if_false]
  · have h := parseNat_digits (zpad m (natStr n)) (zpad_ne_nil m n) (fun c hc => zpad_digits m n c hc)
    rw [h, ofDigitChars_zpad]

example : (0 < 3) ∧ (∀ i ∈ [0, 7, 42, 575], i < 10 ^ 3) ∧ 42 ∈ [0, 7, 42, 575] := by decide

/-- C83 (partial: unpadded names, one of them of a single digit): the string made for a subvolume of the listing is its
name in the listing. -/
theorem C83_unpadded_partial (ids : List ℕ) (hids : ∃ i ∈ ids, i < 10) (n : ℕ) (hn : n ∈ ids) :
    ∃ s, returnSubvolStr n (ids.map natStr) = some s ∧ s ∈ ids.map natStr ∧ parseNat s = some n := by
  obtain ⟨i, hi, hi10⟩ := hids
  have h1 : (natStr i).length = 1 := by
    have h2 : (natStr i).length ≤ 1 := length_natStr_le (by omega) (by simpa using hi10)
    have h3 : (natStr i).length ≠ 0 := by simpa [List.length_eq_zero_iff] using natStr_ne_nil i
    omega
  have h : (((ids.map natStr).map List.length).any (· == 1)) = true :=
    List.any_eq_true.2 ⟨1, List.mem_map.2 ⟨natStr i, List.mem_map.2 ⟨i, hi, rfl⟩, h1⟩, by simp⟩
  refine ⟨natStr n, ?_, List.mem_map.2 ⟨n, hn, rfl⟩, parseNat_natStr n⟩
  unfold returnSubvolStr
  simp only [h, if_true]

example : (∃ i ∈ [3, 42, 575], i < 10) ∧ 575 ∈ [3, 42, 575] := ⟨⟨3, by decide, by decide⟩, by decide⟩

/-- C83 fails for unpadded names of two and three digits: no string is made (`UnboundLocalError`), for any subvolume. -/
theorem C83_mixed_lengths_violated (n : ℕ) : returnSubvolStr n ([10, 100].map natStr) = none := by
  unfold returnSubvolStr
  have h1 : natStr 10 = ['1', '0'] := by decide
  have h2 : natStr 100 = ['1', '0', '0'] := by decide
  simp [h1, h2]

end Diffstar.Props
