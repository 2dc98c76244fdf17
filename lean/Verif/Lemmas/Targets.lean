import Verif.Model.Targets
import Verif.Lemmas.NdHist
import Mathlib.Algebra.BigOperators.Fin

/-! Lemmas on bins and on sums over populations. -/

namespace Diffstar.Targets

open Finset

theorem inHistBin_unique {nb : ℕ} {bins : Fin (nb + 1) → ℝ} (hb : StrictMono bins) {i j : Fin nb} {x : ℝ}
    (hi : inHistBin bins i x) (hj : inHistBin bins j x) : i = j := by
  by_contra hne
  wlog h : i < j generalizing i j
  · exact this hj hi (Ne.symm hne) (lt_of_le_of_ne (not_lt.1 h) (Ne.symm hne))
  have hle : bins i.succ ≤ bins j.castSucc := hb.monotone (by
    rw [Fin.le_def]; simp only [Fin.val_succ, Fin.val_castSucc]; exact h)
  rcases hi.2 with h1 | h1
  · exact absurd (lt_of_lt_of_le h1 hle) (not_lt.2 hj.1)
  · have := j.isLt
    have : i.val < j.val := h
    omega

theorem inHistBin_range {nb : ℕ} {bins : Fin (nb + 1) → ℝ} (hb : StrictMono bins) {j : Fin nb} {x : ℝ}
    (h : inHistBin bins j x) : bins 0 ≤ x ∧ x ≤ bins (Fin.last nb) := by
  refine ⟨le_trans (hb.monotone (Fin.zero_le _)) h.1, ?_⟩
  rcases h.2 with h | h
  · exact le_trans h.le (hb.monotone (Fin.le_last _))
  · rw [h.2]; exact hb.monotone (Fin.le_last _)

theorem exists_inHistBin {nb : ℕ} {bins : Fin (nb + 1) → ℝ} (hb : StrictMono bins) (hn : 0 < nb) {x : ℝ}
    (h0 : bins 0 ≤ x) (h1 : x ≤ bins (Fin.last nb)) : ∃ j, inHistBin bins j x := by
  classical
  rcases h1.lt_or_eq with h1 | h1
  · -- the first edge above `x`
    have hex : ∃ k, ∃ hk : k < nb + 1, x < bins ⟨k, hk⟩ := ⟨nb, Nat.lt_succ_self nb, h1⟩
    obtain ⟨hk, hx⟩ := Nat.find_spec hex
    have hmin := fun m (hm : m < Nat.find hex) => Nat.find_min hex hm
    set k := Nat.find hex with hkdef
    have hk0 : k ≠ 0 := by
      intro h
      have : bins ⟨k, hk⟩ = bins 0 := by congr 1; exact Fin.ext h
      rw [this] at hx
      exact absurd hx (not_lt.2 h0)
    refine ⟨⟨k - 1, by omega⟩, ?_, Or.inl ?_⟩
    · have := hmin (k - 1) (by omega)
      push Not at this
      exact this (by omega)
    · have : (⟨k - 1, by omega⟩ : Fin nb).succ = ⟨k, hk⟩ := Fin.ext (by simp; omega)
      rw [this]; exact hx
  · refine ⟨⟨nb - 1, by omega⟩, ?_, Or.inr ⟨by simp; omega, ?_⟩⟩
    swap
    · rw [h1]; congr 1; apply Fin.ext; simp; omega
    · rw [h1]; exact hb.monotone (Fin.le_last _)

/-- Each number in the range of the bins is in exactly one of them. -/
theorem sum_inHistBin {nb : ℕ} {bins : Fin (nb + 1) → ℝ} (hb : StrictMono bins) (hn : 0 < nb) (x y : ℝ)
    [∀ j, Decidable (inHistBin bins j x)] [Decidable (bins 0 ≤ x ∧ x ≤ bins (Fin.last nb))] :
    ∑ j, (if inHistBin bins j x then y else 0) = if bins 0 ≤ x ∧ x ≤ bins (Fin.last nb) then y else 0 := by
  by_cases h : bins 0 ≤ x ∧ x ≤ bins (Fin.last nb)
  · obtain ⟨j, hj⟩ := exists_inHistBin hb hn h.1 h.2
    rw [if_pos h, sum_eq_single j, if_pos hj]
    · intro i _ hi
      rw [if_neg fun h' => hi (inHistBin_unique hb h' hj)]
    · intro h; exact absurd (mem_univ j) h
  · rw [if_neg h]
    apply sum_eq_zero
    intro j _
    rw [if_neg fun h' => h (inHistBin_range hb h')]

theorem sum_filter_length {nb : ℕ} {α : Type*} {bins : Fin (nb + 1) → ℝ} (hb : StrictMono bins) (hn : 0 < nb)
    (f : α → ℝ) (l : List α) [∀ j x, Decidable (inHistBin bins j x)]
    [∀ x, Decidable (bins 0 ≤ x ∧ x ≤ bins (Fin.last nb))] :
    ∑ j, (l.filter fun a => inHistBin bins j (f a)).length =
      (l.filter fun a => bins 0 ≤ f a ∧ f a ≤ bins (Fin.last nb)).length := by
  induction l with
  | nil => simp
  | cons a l ih =>
    have key : ∀ (p : Prop) [Decidable p] (m : List α), ((if p then a :: m else m).length : ℝ) =
        (if p then 1 else 0) + m.length := by
      intro p _ m; split_ifs <;> simp [add_comm]
    have : ((∑ j, ((a :: l).filter fun a => inHistBin bins j (f a)).length : ℕ) : ℝ) =
        (((a :: l).filter fun a => bins 0 ≤ f a ∧ f a ≤ bins (Fin.last nb)).length : ℕ) := by
      push_cast
      simp only [List.filter_cons, decide_eq_true_eq]
      simp only [key]
      rw [sum_add_distrib, sum_inHistBin hb hn]
      congr 1
      exact_mod_cast ih
    exact_mod_cast this

theorem sum_filter_sum {nb : ℕ} {α : Type*} {bins : Fin (nb + 1) → ℝ} (hb : StrictMono bins) (hn : 0 < nb)
    (f g : α → ℝ) (l : List α) [∀ j x, Decidable (inHistBin bins j x)]
    [∀ x, Decidable (bins 0 ≤ x ∧ x ≤ bins (Fin.last nb))] :
    ∑ j, ((l.filter fun a => inHistBin bins j (f a)).map g).sum =
      ((l.filter fun a => bins 0 ≤ f a ∧ f a ≤ bins (Fin.last nb)).map g).sum := by
  induction l with
  | nil => simp
  | cons a l ih =>
    have key : ∀ (p : Prop) [Decidable p] (m : List α), ((if p then a :: m else m).map g).sum =
        (if p then g a else 0) + (m.map g).sum := by
      intro p _ m; split_ifs <;> simp
    simp only [List.filter_cons, decide_eq_true_eq]
    simp only [key]
    rw [sum_add_distrib, sum_inHistBin hb hn, ih]

/-- A weighted histogram is a sum over the list of data points. -/
theorem twNdhistWeighted_list {α B : Type*} {d : ℕ} (l : List α) (x : α → Fin d → ℝ) (s : Fin d → ℝ) (y : α → ℝ)
    (lo hi : B → Fin d → ℝ) (b : B) :
    NdHist.twNdhistWeighted (fun i : Fin l.length => x l[i]) (fun _ => s) (fun i : Fin l.length => y l[i]) lo hi b =
      (l.map fun a => (∏ k, NdHist.twBinWeightLaxKern (x a k) (s k) (lo b k) (hi b k)) * y a).sum := by
  unfold NdHist.twNdhistWeighted NdHist.twNdhistWeightedKern NdHist.twNdhistWeightedSumKern
  exact Fin.sum_univ_fun_getElem l fun a => (∏ k, NdHist.twBinWeightLaxKern (x a k) (s k) (lo b k) (hi b k)) * y a

theorem diffHist_fst {nb : ℕ} (bins : Fin (nb + 1) → ℝ) (data : List (ℝ × ℝ)) (j : Fin nb) :
    (computeDiffHistogramsAtz bins data).1 j = (data.map fun a =>
      NdHist.twBinWeightLaxKern a.1 (PopLoss.meanDiff bins) (bins j.castSucc) (bins j.succ)).sum := by
  have := twNdhistWeighted_list (B := Fin nb) data (fun a (_ : Fin 1) => a.1) (fun _ => PopLoss.meanDiff bins + 0)
    (fun _ => 1) (fun j _ => bins j.castSucc) (fun j _ => bins j.succ) j
  simp only [Finset.univ_unique, Finset.prod_singleton, mul_one, add_zero] at this
  unfold computeDiffHistogramsAtz
  simp only [add_zero]
  exact this

theorem diffHist_snd {nb : ℕ} (bins : Fin (nb + 1) → ℝ) (data : List (ℝ × ℝ)) (j : Fin nb) :
    (computeDiffHistogramsAtz bins data).2 j = (data.map fun a =>
      NdHist.twBinWeightLaxKern a.1 (PopLoss.meanDiff bins) (bins j.castSucc) (bins j.succ) * a.2).sum := by
  have := twNdhistWeighted_list (B := Fin nb) data (fun a (_ : Fin 1) => a.1) (fun _ => PopLoss.meanDiff bins + 0)
    (fun a => a.2) (fun j _ => bins j.castSucc) (fun j _ => bins j.succ) j
  simp only [Finset.univ_unique, Finset.prod_singleton, add_zero] at this
  unfold computeDiffHistogramsAtz
  simp only [add_zero]
  exact this

theorem diffHistMstarAtz_fst {nb : ℕ} (bins : Fin (nb + 1) → ℝ) (l : List ℝ) (j : Fin nb) :
    (diffHistMstarAtz bins l).1 j = (l.map fun x =>
      NdHist.twBinWeightLaxKern x (PopLoss.meanDiff bins) (bins j.castSucc) (bins j.succ)).sum := by
  have := twNdhistWeighted_list (B := Fin nb) l (fun a (_ : Fin 1) => a) (fun _ => PopLoss.meanDiff bins + 0)
    (fun _ => 1) (fun j _ => bins j.castSucc) (fun j _ => bins j.succ) j
  simp only [Finset.univ_unique, Finset.prod_singleton, mul_one, add_zero] at this
  unfold diffHistMstarAtz
  simp only [add_zero]
  exact this

/-! ### Product bins -/

theorem productBins_length {na nb : ℕ} (as : Fin (na + 1) → ℝ) (bs : Fin (nb + 1) → ℝ) :
    (productBins as bs).length = na * nb := by
  simp [productBins, List.length_flatMap]

theorem getElem?_flatMap_const {α β : Type*} (f : α → List β) (n : ℕ) (hf : ∀ a, (f a).length = n) :
    ∀ (l : List α) (i j : ℕ), j < n → (l.flatMap f)[i * n + j]? = (l[i]?).bind fun a => (f a)[j]? := by
  intro l
  induction l with
  | nil => intro i j _; simp
  | cons a l ih =>
    intro i j hj
    rw [List.flatMap_cons]
    cases i with
    | zero =>
      rw [Nat.zero_mul, Nat.zero_add, List.getElem?_append_left (by rw [hf]; exact hj)]
      simp
    | succ i =>
      rw [List.getElem?_append_right (by rw [hf]; nlinarith), hf]
      have : (i + 1) * n + j - n = i * n + j := by
        have : (i + 1) * n = i * n + n := by ring
        omega
      rw [this, ih i j hj]
      simp

/-- Flat entry `a * nb + b` is the cell of bins `a` and `b`. -/
theorem productBins_getElem? {na nb : ℕ} (as : Fin (na + 1) → ℝ) (bs : Fin (nb + 1) → ℝ) (a : Fin na) (b : Fin nb) :
    (productBins as bs)[a.val * nb + b.val]? =
      some ((as a.castSucc, bs b.castSucc), (as a.succ, bs b.succ)) := by
  unfold productBins
  rw [getElem?_flatMap_const _ nb (by intro a; simp) _ a.val b.val b.isLt]
  have h1 : (List.finRange na)[a.val]? = some a := by
    rw [List.getElem?_eq_getElem (by simp)]; simp
  have h2 : (List.finRange nb)[b.val]? = some b := by
    rw [List.getElem?_eq_getElem (by simp)]; simp
  rw [h1, Option.bind_some, List.getElem?_map, h2]
  rfl

theorem diffHistMstarSsfrAtz_eq {na nb : ℕ} (mb : Fin (na + 1) → ℝ) (sb : Fin (nb + 1) → ℝ) (data : List (ℝ × ℝ))
    (a : Fin na) (b : Fin nb) :
    diffHistMstarSsfrAtz mb sb data a b = (data.map fun x =>
      NdHist.twBinWeightLaxKern x.1 (PopLoss.meanDiff mb) (mb a.castSucc) (mb a.succ) *
      NdHist.twBinWeightLaxKern x.2 (PopLoss.meanDiff sb) (sb b.castSucc) (sb b.succ)).sum := by
  unfold diffHistMstarSsfrAtz
  have hlen := productBins_length mb sb
  have hk : a.val * nb + b.val < (productBins mb sb).length := by
    rw [hlen]
    have h1 := a.isLt
    have h2 := b.isLt
    calc a.val * nb + b.val < a.val * nb + nb := by omega
      _ = (a.val + 1) * nb := by ring
      _ ≤ na * nb := Nat.mul_le_mul_right _ h1
  rw [List.getD_eq_getElem?_getD, List.getElem?_ofFn, dif_pos hk, Option.getD_some]
  have hget : (productBins mb sb)[a.val * nb + b.val]'hk =
      ((mb a.castSucc, sb b.castSucc), (mb a.succ, sb b.succ)) := by
    have := productBins_getElem? mb sb a b
    rw [List.getElem?_eq_getElem hk, Option.some.injEq] at this
    exact this
  have := twNdhistWeighted_list (B := Fin (productBins mb sb).length) data (fun x => ![x.1, x.2])
    ![PopLoss.meanDiff mb + 0, PopLoss.meanDiff sb + 0] (fun _ => 1)
    (fun k => ![(productBins mb sb)[k].1.1, (productBins mb sb)[k].1.2])
    (fun k => ![(productBins mb sb)[k].2.1, (productBins mb sb)[k].2.2]) ⟨_, hk⟩
  rw [this]
  simp only [Fin.prod_univ_two, Matrix.cons_val_zero, Matrix.cons_val_one, add_zero, mul_one, Fin.getElem_fin, hget]

/-! ### Index lists -/

theorem length_filter_range {α : Type*} (p : α → Bool) (l : List α) :
    ((List.range l.length).filter fun i => (l[i]?).any p).length = (l.filter p).length := by
  induction l with
  | nil => simp
  | cons a t ih =>
    rw [List.length_cons, List.range_succ_eq_map, List.filter_cons, List.filter_map, List.filter_cons]
    have h : ((fun i => ((a :: t)[i]?).any p) ∘ Nat.succ) = fun i => (t[i]?).any p := by
      funext i; simp
    rw [h]
    by_cases hp : p a = true <;> simp [hp, ih]

theorem mem_filter_range {α : Type*} {p : α → Bool} {l : List α} {i : ℕ}
    (h : i ∈ (List.range l.length).filter fun i => (l[i]?).any p) : ∃ a, l[i]? = some a ∧ p a = true := by
  obtain ⟨h1, h2⟩ := List.mem_filter.1 h
  have hi := List.mem_range.1 h1
  rw [List.getElem?_eq_getElem hi] at h2 ⊢
  exact ⟨_, rfl, by simpa using h2⟩

theorem nodup_filter_range {n : ℕ} (p : ℕ → Bool) : ((List.range n).filter p).Nodup :=
  List.nodup_range.filter _

end Diffstar.Targets
