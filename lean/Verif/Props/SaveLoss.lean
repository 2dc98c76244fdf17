import Verif.Model.SaveLoss
import Verif.Lemmas.Text
import Mathlib.Data.List.Dedup
import Mathlib.Data.List.Nodup
import Mathlib.Tactic.Linarith

/-!
C84: loss data written to and read from an hdf5 file.
-/

namespace Diffstar.Props

open Diffstar Diffstar.SaveLoss Diffstar.Text

/-! ### Specification -/

/-- The element of a sequence as an array. -/
def Spec.ItemIs : Item → Arr → Prop
  | .arr a, b => b = a
  | .num x, b => b.shape = [] ∧ b.data = [x]
  | .bad, _ => False

/-- All elements are arrays, of one shape. -/
def Spec.Uniform (els : List Item) (s : List ℕ) : Prop := ∀ e ∈ els, ∃ a, e = .arr a ∧ a.shape = s

/-- What must be read back for a saved sequence: a stacked array if the elements are arrays of one shape, otherwise
the list of its elements in their order. -/
def Spec.SeqReadBack (els : List Item) (o : Out) : Prop :=
  (∃ s, Spec.Uniform els s ∧ els ≠ [] ∧ ∃ b : Arr, o = .arr b ∧ b.shape = els.length :: s ∧
      ∃ blocks : List (List ℝ), b.data = blocks.flatten ∧
        List.Forall₂ (fun e d => ∃ a, e = Item.arr a ∧ a.data = d) els blocks) ∨
  (els = [] ∧ o = .arr ⟨[0], []⟩) ∨
  ((∀ s, ¬ Spec.Uniform els s) ∧ ∃ l, o = .list l ∧ List.Forall₂ Spec.ItemIs els l)

/-- What must be read back for a saved value. -/
def Spec.ReadBack : Val → Out → Prop
  | .arr a, o => o = .arr a
  | .num x, o => o = .num x
  | .json s, o => o = .json s
  | .other r, o => o = .text r
  | .seq els, o => Spec.SeqReadBack els o
  | .objArr els, o => Spec.SeqReadBack els o

/-- Values that can be saved, with at most 10000 elements in a sequence. -/
def Spec.Storable : Val → Prop
  | .seq els => (∀ e ∈ els, e ≠ Item.bad) ∧ els.length ≤ 10000
  | .objArr els => (∀ e ∈ els, e ≠ Item.bad) ∧ els.length ≤ 10000
  | _ => True

/-! ### Order of the keys -/

theorem strLe_total : ∀ a b : Str, (strLe a b || strLe b a) = true
  | [], _ => by simp [strLe]
  | _ :: _, [] => by simp [strLe]
  | a :: as, b :: bs => by
    have ih := strLe_total as bs
    simp only [strLe]
    rcases lt_trichotomy a.toNat b.toNat with h | h | h
    · simp [h]
    · simpa [h] using ih
    · simp [h]

theorem strLe_trans : ∀ a b c : Str, strLe a b = true → strLe b c = true → strLe a c = true
  | [], _, _ => by simp [strLe]
  | _ :: _, [], _ => by simp [strLe]
  | _ :: _, _ :: _, [] => by simp [strLe]
  | a :: as, b :: bs, c :: cs => by
    have ih := strLe_trans as bs cs
    simp only [strLe]
    intro h1 h2
    rcases lt_trichotomy a.toNat b.toNat with h | h | h
    · rcases lt_trichotomy b.toNat c.toNat with h' | h' | h'
      · simp [h.trans h']
      · simp [h' ▸ h]
      · simp [h', h'.le.not_gt] at h2
    · rcases lt_trichotomy b.toNat c.toNat with h' | h' | h'
      · simp [h ▸ h']
      · simp only [h, lt_irrefl, if_false] at h1
        simp only [h', lt_irrefl, if_false] at h2
        have h3 := ih h1 h2
        simp [h, h', h3]
      · simp [h', h'.le.not_gt] at h2
    · simp [h, h.le.not_gt] at h1

theorem ofDigitChars_lt : ∀ (a b : Str) (x y : ℕ), a.length = b.length → (∀ c ∈ a, c.isDigit = true) →
    (∀ c ∈ b, c.isDigit = true) → x < y → Nat.ofDigitChars 10 a x < Nat.ofDigitChars 10 b y
  | [], [], x, y, _, _, _, h => by simpa using h
  | [], _ :: _, _, _, h, _, _, _ => by simp at h
  | _ :: _, [], _, _, h, _, _, _ => by simp at h
  | a :: as, b :: bs, x, y, hl, ha, hb, h => by
    rw [Nat.ofDigitChars_cons, Nat.ofDigitChars_cons]
    refine ofDigitChars_lt as bs _ _ (by simpa using hl) (fun c hc => ha c (List.mem_cons_of_mem _ hc))
      (fun c hc => hb c (List.mem_cons_of_mem _ hc)) ?_
    have h1 := ha a List.mem_cons_self
    have h2 := hb b List.mem_cons_self
    have e1 : a.toNat - '0'.toNat ≤ 9 := by
      simp only [Char.isDigit, Bool.and_eq_true, decide_eq_true_eq] at h1
      have : a.toNat ≤ 57 := h1.2
      have : '0'.toNat = 48 := rfl
      omega
    omega

theorem strLe_of_ofDigitChars : ∀ (a b : Str) (x : ℕ), a.length = b.length → (∀ c ∈ a, c.isDigit = true) →
    (∀ c ∈ b, c.isDigit = true) → Nat.ofDigitChars 10 a x ≤ Nat.ofDigitChars 10 b x → strLe a b = true
  | [], _, _, _, _, _, _ => by simp [strLe]
  | _ :: _, [], _, h, _, _, _ => by simp at h
  | a :: as, b :: bs, x, hl, ha, hb, h => by
    rw [Nat.ofDigitChars_cons, Nat.ofDigitChars_cons] at h
    have ha' : ∀ c ∈ as, c.isDigit = true := fun c hc => ha c (List.mem_cons_of_mem _ hc)
    have hb' : ∀ c ∈ bs, c.isDigit = true := fun c hc => hb c (List.mem_cons_of_mem _ hc)
    have hl' : as.length = bs.length := by simpa using hl
    have h1 := ha a List.mem_cons_self
    have h2 := hb b List.mem_cons_self
    have e1 : 48 ≤ a.toNat := by
      simp only [Char.isDigit, Bool.and_eq_true, decide_eq_true_eq] at h1; exact h1.1
    have e2 : 48 ≤ b.toNat := by
      simp only [Char.isDigit, Bool.and_eq_true, decide_eq_true_eq] at h2; exact h2.1
    have e0 : '0'.toNat = 48 := rfl
    simp only [strLe]
    rcases lt_trichotomy a.toNat b.toNat with h3 | h3 | h3
    · simp [h3]
    · simp only [h3, lt_irrefl, if_false]
      rw [h3] at h
      exact strLe_of_ofDigitChars as bs _ hl' ha' hb' h
    · exfalso
      have := ofDigitChars_lt bs as (10 * x + (b.toNat - '0'.toNat)) (10 * x + (a.toNat - '0'.toNat)) hl'.symm hb' ha'
        (by omega)
      omega

theorem strLe_key {i j : ℕ} (hij : i ≤ j) (hj : j < 10000) : strLe (key i) (key j) = true := by
  have hi : i < 10 ^ 4 := by omega
  have hj' : j < 10 ^ 4 := by omega
  refine strLe_of_ofDigitChars _ _ 0 ?_ (fun c => zpad_digits 4 i c) (fun c => zpad_digits 4 j c) ?_
  · rw [key, key, length_zpad (by omega) hi, length_zpad (by omega) hj']
  · rw [key, key, ofDigitChars_zpad, ofDigitChars_zpad]; exact hij

theorem sub_sorted (l : List Arr) (hl : l.length ≤ 10000) :
    ((l.mapIdx fun i a => (key i, a)).mergeSort fun a b => strLe a.1 b.1).map Prod.snd = l := by
  have h : ((l.mapIdx fun i a => (key i, a)).mergeSort fun a b => strLe a.1 b.1) = l.mapIdx fun i a => (key i, a) := by
    apply List.mergeSort_of_pairwise
    rw [List.pairwise_iff_getElem]
    intro i j hi hj hij
    simp only [List.length_mapIdx] at hi hj
    simp only [List.getElem_mapIdx]
    exact strLe_key hij.le (by omega)
  rw [h]
  apply List.ext_getElem <;> simp

/-! ### Sequences -/

theorem isArr_iff (e : Item) : e.isArr = true ↔ ∃ a, e = .arr a := by
  cases e <;> simp [Item.isArr]

theorem all_eq_of_dedup {α : Type*} [DecidableEq α] {l : List α} (h : l.dedup.length ≤ 1) : ∀ x ∈ l, ∀ y ∈ l, x = y := by
  intro x hx y hy
  have hx' := List.mem_dedup.2 hx
  have hy' := List.mem_dedup.2 hy
  match hd : l.dedup with
  | [] => rw [hd] at hx'; simp at hx'
  | [z] => rw [hd] at hx' hy'; simp at hx' hy'; rw [hx', hy']
  | _ :: _ :: _ => rw [hd] at h; simp at h

theorem isRagged_false {els : List Item} (h : isRagged els = false) (hne : els ≠ []) : ∃ s, Spec.Uniform els s := by
  unfold isRagged at h
  split at h
  · rename_i hall
    have hall' : ∀ e ∈ els, ∃ a, e = .arr a := fun e he => (isArr_iff e).1 (List.all_eq_true.1 hall e he)
    have hd : ((els.filterMap fun e => e.toNumpy.map Arr.shape).dedup).length ≤ 1 := by simpa using h
    have hmem : ∀ a, Item.arr a ∈ els → a.shape ∈ els.filterMap fun e => e.toNumpy.map Arr.shape := by
      intro a ha
      exact List.mem_filterMap.2 ⟨_, ha, rfl⟩
    match els, hne, hall', hmem, hd with
    | e0 :: rest, _, hall', hmem, hd =>
      obtain ⟨a0, rfl⟩ := hall' e0 List.mem_cons_self
      refine ⟨a0.shape, fun e he => ?_⟩
      obtain ⟨a, rfl⟩ := hall' e he
      exact ⟨a, rfl, all_eq_of_dedup hd _ (hmem a he) _ (hmem a0 List.mem_cons_self)⟩
  · simp at h

theorem isRagged_true {els : List Item} (h : isRagged els = true) (s : List ℕ) : ¬ Spec.Uniform els s := by
  intro hu
  have hall : els.all Item.isArr = true := by
    rw [List.all_eq_true]
    intro e he
    obtain ⟨a, rfl, _⟩ := hu e he
    rfl
  unfold isRagged at h
  rw [if_pos hall] at h
  have h1 : 1 < ((els.filterMap fun e => e.toNumpy.map Arr.shape).dedup).length := by simpa using h
  have h2 : ∀ x ∈ (els.filterMap fun e => e.toNumpy.map Arr.shape).dedup, x = s := by
    intro x hx
    obtain ⟨e, he, hex⟩ := List.mem_filterMap.1 (List.mem_dedup.1 hx)
    obtain ⟨a, rfl, ha⟩ := hu e he
    simp only [Item.toNumpy, Option.map_some, Option.some.injEq] at hex
    rw [← hex, ha]
  have h3 := List.nodup_dedup (els.filterMap fun e => e.toNumpy.map Arr.shape)
  generalize (els.filterMap fun e => e.toNumpy.map Arr.shape).dedup = d at h1 h2 h3
  match d with
  | [] => simp at h1
  | [_] => simp at h1
  | x :: y :: r =>
    have e1 := h2 x (by simp)
    have e2 := h2 y (by simp)
    rw [e1, e2] at h3
    simp at h3

theorem toNumpy_spec {e : Item} (h : e ≠ .bad) : ∃ a, e.toNumpy = some a ∧ Spec.ItemIs e a := by
  cases e with
  | arr a => exact ⟨a, rfl, rfl⟩
  | num x => exact ⟨_, rfl, rfl, rfl⟩
  | bad => exact absurd rfl h

theorem mapM_toNumpy : ∀ {els : List Item}, (∀ e ∈ els, e ≠ Item.bad) →
    ∃ l, els.mapM Item.toNumpy = some l ∧ List.Forall₂ Spec.ItemIs els l
  | [], _ => ⟨[], rfl, .nil⟩
  | e :: es, h => by
    obtain ⟨l, hl, hf⟩ := mapM_toNumpy fun x hx => h x (List.mem_cons_of_mem _ hx)
    obtain ⟨a, ha, hia⟩ := toNumpy_spec (h e List.mem_cons_self)
    exact ⟨a :: l, by simp [List.mapM_cons, ha, hl], .cons hia hf⟩

theorem filterMap_uniform : ∀ {els : List Item} {s : List ℕ}, Spec.Uniform els s →
    (els.filterMap Item.toNumpy).length = els.length ∧ (∀ a ∈ els.filterMap Item.toNumpy, a.shape = s) ∧
    List.Forall₂ (fun e d => ∃ a, e = Item.arr a ∧ a.data = d) els ((els.filterMap Item.toNumpy).map Arr.data)
  | [], _, _ => by simp
  | e :: es, s, h => by
    obtain ⟨a, rfl, ha⟩ := h e List.mem_cons_self
    obtain ⟨h1, h2, h3⟩ := filterMap_uniform (s := s) (els := es) fun x hx => h x (List.mem_cons_of_mem _ hx)
    simp only [List.filterMap_cons, Item.toNumpy, List.length_cons, h1, List.map_cons, List.mem_cons, true_and]
    refine ⟨?_, .cons ⟨a, rfl, rfl⟩ h3⟩
    rintro b (rfl | hb)
    · exact ha
    · exact h2 b hb

/-- The group `g'` is `g` with a member or attribute `name` added, which reads back as `v`. -/
structure Added (g g' : Group) (name : Str) (v : Val) : Prop where
  order : g'.fieldOrder = g.fieldOrder
  members : ∀ n, n ≠ name → g'.members.lookup n = g.members.lookup n
  attrs : ∀ n, n ≠ name → g'.attrs.lookup n = g.attrs.lookup n
  back : g.members.lookup name = none → g.attrs.lookup name = none →
    ∃ o, loadField g' name = some o ∧ Spec.ReadBack v o

theorem lookup_append_ne {β : Type*} {l : List (Str × β)} {n m : Str} {b : β} (h : n ≠ m) :
    (l ++ [(m, b)]).lookup n = l.lookup n := by
  rw [List.lookup_append]
  have : List.lookup n [(m, b)] = none := by
    simp [List.lookup, beq_eq_false_iff_ne.2 h]
  rw [this, Option.or_none]

theorem lookup_append_self {β : Type*} {l : List (Str × β)} {n : Str} {b : β} (h : l.lookup n = none) :
    (l ++ [(n, b)]).lookup n = some b := by
  rw [List.lookup_append, h]; simp [List.lookup]

theorem added_node (g : Group) (name : Str) (v : Val) (nd : Node)
    (h : ∃ o, Spec.ReadBack v o ∧ (match nd with
      | .dataset a => o = .arr a
      | .sub items => o = .list ((items.mergeSort fun a b => strLe a.1 b.1).map Prod.snd))) :
    Added g { g with members := g.members ++ [(name, nd)] } name v := by
  obtain ⟨o, ho, hn⟩ := h
  refine ⟨rfl, fun n hn => lookup_append_ne hn, fun n _ => rfl, fun h1 _ => ⟨o, ?_, ho⟩⟩
  unfold loadField
  simp only [lookup_append_self h1]
  cases nd <;> simp_all

theorem added_attr (g : Group) (name : Str) (v : Val) (a : Attr)
    (h : ∃ o, Spec.ReadBack v o ∧ (match a with
      | .num x => o = .num x
      | .json s => o = .json s
      | .text s => o = .text s)) :
    Added g { g with attrs := g.attrs ++ [(name, a)] } name v := by
  obtain ⟨o, ho, hn⟩ := h
  refine ⟨rfl, fun n _ => rfl, fun n hn => lookup_append_ne hn, fun h1 h2 => ⟨o, ?_, ho⟩⟩
  unfold loadField
  simp only [h1, lookup_append_self h2]
  cases a <;> simp_all

theorem saveSeq_spec (g : Group) (name : Str) (els : List Item) (v : Val)
    (hv : ∀ o, Spec.ReadBack v o ↔ Spec.SeqReadBack els o) (h : (∀ e ∈ els, e ≠ Item.bad) ∧ els.length ≤ 10000) :
    ∃ g', (if isRagged els then
        (saveSub els).map fun n => { g with members := g.members ++ [(name, n)] }
      else some { g with members := g.members ++ [(name, .dataset (stack (els.filterMap Item.toNumpy)))] }) = some g' ∧
      Added g g' name v := by
  by_cases hr : isRagged els = true
  · obtain ⟨l, hl, hf⟩ := mapM_toNumpy h.1
    rw [if_pos hr, saveSub, hl]
    refine ⟨_, rfl, added_node g name v _ ⟨.list l, ?_, ?_⟩⟩
    · exact (hv _).2 (.inr (.inr ⟨fun s => isRagged_true hr s, l, rfl, hf⟩))
    · have : l.length ≤ 10000 := hf.length_eq ▸ h.2
      show Out.list l = Out.list _
      rw [sub_sorted l this]
  · rw [if_neg hr]
    refine ⟨_, rfl, added_node g name v _ ⟨.arr (stack (els.filterMap Item.toNumpy)), ?_, rfl⟩⟩
    rw [hv]
    by_cases he : els = []
    · subst he
      exact .inr (.inl ⟨rfl, rfl⟩)
    · obtain ⟨s, hs⟩ := isRagged_false (by simpa using hr) he
      obtain ⟨h1, h2, h3⟩ := filterMap_uniform hs
      refine .inl ⟨s, hs, he, _, rfl, ?_, _, ?_, h3⟩
      · match hm : els.filterMap Item.toNumpy with
        | [] =>
          rw [hm] at h1
          exact absurd (List.length_eq_zero_iff.1 h1.symm) he
        | a :: r =>
          rw [hm] at h1
          simp only [stack]
          rw [h1, h2 a (hm ▸ List.mem_cons_self)]
      · match hm : els.filterMap Item.toNumpy with
        | [] => simp [stack]
        | a :: r => simp [stack, List.flatMap_def]

theorem saveValue_spec (g : Group) (name : Str) (v : Val) (h : Spec.Storable v) :
    ∃ g', saveValue g name v = some g' ∧ Added g g' name v := by
  cases v with
  | arr a => exact ⟨_, rfl, added_node g name _ _ ⟨.arr a, rfl, rfl⟩⟩
  | num x => exact ⟨_, rfl, added_attr g name _ _ ⟨.num x, rfl, rfl⟩⟩
  | json s => exact ⟨_, rfl, added_attr g name _ _ ⟨.json s, rfl, rfl⟩⟩
  | other s => exact ⟨_, rfl, added_attr g name _ _ ⟨.text s, rfl, rfl⟩⟩
  | seq els => exact saveSeq_spec g name els _ (fun o => Iff.rfl) h
  | objArr els => exact saveSeq_spec g name els _ (fun o => Iff.rfl) h

theorem loadField_congr {g g' : Group} {n : Str} (h1 : g'.members.lookup n = g.members.lookup n)
    (h2 : g'.attrs.lookup n = g.attrs.lookup n) : loadField g' n = loadField g n := by
  unfold loadField; rw [h1, h2]

theorem saveFold_spec : ∀ (l : List (Str × Val)) (g : Group), (l.map Prod.fst).Nodup →
    (∀ p ∈ l, Spec.Storable p.2 ∧ g.members.lookup p.1 = none ∧ g.attrs.lookup p.1 = none) →
    ∃ g', l.foldlM (fun g nv => saveValue g nv.1 nv.2) g = some g' ∧ g'.fieldOrder = g.fieldOrder ∧
      (∀ n, n ∉ l.map Prod.fst → g'.members.lookup n = g.members.lookup n ∧ g'.attrs.lookup n = g.attrs.lookup n) ∧
      ∀ p ∈ l, ∃ o, loadField g' p.1 = some o ∧ Spec.ReadBack p.2 o
  | [], g, _, _ => ⟨g, rfl, rfl, fun _ _ => ⟨rfl, rfl⟩, by simp⟩
  | p :: l, g, hnd, h => by
    obtain ⟨hs, hm, ha⟩ := h p List.mem_cons_self
    obtain ⟨g1, hg1, hadd⟩ := saveValue_spec g p.1 p.2 hs
    rw [List.map_cons, List.nodup_cons] at hnd
    have hne : ∀ q ∈ l, q.1 ≠ p.1 := fun q hq e => hnd.1 (e ▸ List.mem_map.2 ⟨q, hq, rfl⟩)
    obtain ⟨g', hg', ho, hrest, hall⟩ := saveFold_spec l g1 hnd.2 fun q hq =>
      ⟨(h q (List.mem_cons_of_mem _ hq)).1, by rw [hadd.members _ (hne q hq)]; exact (h q (List.mem_cons_of_mem _ hq)).2.1,
        by rw [hadd.attrs _ (hne q hq)]; exact (h q (List.mem_cons_of_mem _ hq)).2.2⟩
    refine ⟨g', by rw [List.foldlM_cons, hg1]; exact hg', by rw [ho, hadd.order], ?_, ?_⟩
    · intro n hn
      simp only [List.map_cons, List.mem_cons, not_or] at hn
      obtain ⟨e1, e2⟩ := hrest n hn.2
      rw [e1, e2, hadd.members n hn.1, hadd.attrs n hn.1]
      exact ⟨rfl, rfl⟩
    · intro q hq
      rcases List.mem_cons.1 hq with rfl | hq
      · obtain ⟨o, hlo, hro⟩ := hadd.back hm ha
        obtain ⟨e1, e2⟩ := hrest q.1 hnd.1
        exact ⟨o, by rw [loadField_congr e1 e2]; exact hlo, hro⟩
      · exact hall q hq

theorem mapM_loadField (g : Group) : ∀ (fields : List Str) (vals : List Val), fields.length = vals.length →
    (∀ p ∈ fields.zip vals, ∃ o, loadField g p.1 = some o ∧ Spec.ReadBack p.2 o) →
    ∃ outs, fields.mapM (loadField g) = some outs ∧ List.Forall₂ Spec.ReadBack vals outs
  | [], [], _, _ => ⟨[], rfl, .nil⟩
  | [], _ :: _, h, _ => by simp at h
  | _ :: _, [], h, _ => by simp at h
  | f :: fs, v :: vs, hl, h => by
    obtain ⟨o, ho, hr⟩ := h (f, v) (by simp)
    obtain ⟨outs, hos, hrs⟩ := mapM_loadField g fs vs (by simpa using hl) fun p hp => h p (by simp [hp])
    refine ⟨o :: outs, ?_, .cons hr hrs⟩
    simp only [List.mapM_cons, hos]
    rw [show loadField g f = some o from ho]
    rfl

theorem group_round_trip (fields : List Str) (hnd : fields.Nodup) (vals : List Val) (hl : fields.length = vals.length)
    (hs : ∀ v ∈ vals, Spec.Storable v) :
    ∃ g, saveGroup fields vals = some g ∧ ∃ outs, loadGroup g = some outs ∧ List.Forall₂ Spec.ReadBack vals outs := by
  obtain ⟨g, hg, ho, _, hall⟩ := saveFold_spec (fields.zip vals) ⟨fields, [], []⟩
    (by rw [List.map_fst_zip hl.le]; exact hnd)
    (fun p hp => ⟨hs _ (List.of_mem_zip hp).2, rfl, rfl⟩)
  refine ⟨g, hg, ?_⟩
  obtain ⟨outs, h1, h2⟩ := mapM_loadField g fields vals hl hall
  exact ⟨outs, by rw [loadGroup, ho]; exact h1, h2⟩

/-- C84 (partial: at most 10000 elements per sequence): three tuples of 12, 18 and 18 storable values are written, and
reading the file gives them back, in their order: arrays and numbers as they are, sequences of arrays of one shape as
one stacked array, other sequences as the list of their elements. -/
theorem C84_round_trip_partial (mstar ssfr sat : List Val) (hm : mstar.length = 12) (hc : ssfr.length = 18)
    (hsat : sat.length = 18) (h : ∀ v ∈ mstar ++ ssfr ++ sat, Spec.Storable v) :
    ∃ f, saveLossData mstar ssfr sat = some f ∧ ∃ m c s, loadLossData f = some (m, c, s) ∧
      List.Forall₂ Spec.ReadBack mstar m ∧ List.Forall₂ Spec.ReadBack ssfr c ∧ List.Forall₂ Spec.ReadBack sat s := by
  have n1 : MSTAR_FIELDS.Nodup := by decide
  have n2 : SSFR_FIELDS.Nodup := by decide
  have n3 : SSFR_SAT_FIELDS.Nodup := by decide
  have l1 : MSTAR_FIELDS.length = 12 := rfl
  have l2 : SSFR_FIELDS.length = 18 := rfl
  have l3 : SSFR_SAT_FIELDS.length = 18 := rfl
  obtain ⟨g1, s1, m, o1, r1⟩ := group_round_trip MSTAR_FIELDS n1 mstar (by rw [l1, hm]) fun v hv => h v (by simp [hv])
  obtain ⟨g2, s2, c, o2, r2⟩ := group_round_trip SSFR_FIELDS n2 ssfr (by rw [l2, hc]) fun v hv => h v (by simp [hv])
  obtain ⟨g3, s3, s, o3, r3⟩ := group_round_trip SSFR_SAT_FIELDS n3 sat (by rw [l3, hsat]) fun v hv => h v (by simp [hv])
  refine ⟨(g1, g2, g3), ?_, m, c, s, ?_, r1, r2, r3⟩
  · simp [saveLossData, hm, hc, hsat, l1, l2, l3, s1, s2, s3]
  · simp [loadLossData, o1, o2, o3]

example : ∃ mstar ssfr sat : List Val, mstar.length = 12 ∧ ssfr.length = 18 ∧ sat.length = 18 ∧
    (∀ v ∈ mstar ++ ssfr ++ sat, Spec.Storable v) ∧
    Val.seq [.arr ⟨[2], [1, 2]⟩, .arr ⟨[1], [3]⟩] ∈ ssfr :=
  ⟨List.replicate 12 (.num 1), .seq [.arr ⟨[2], [1, 2]⟩, .arr ⟨[1], [3]⟩] :: List.replicate 17 (.num 1),
    List.replicate 18 (.arr ⟨[2], [1, 2]⟩), by simp, by simp, by simp, by
      intro v hv
      simp only [List.mem_append, List.mem_cons, List.mem_replicate] at hv
      rcases hv with (⟨_, rfl⟩ | (rfl | ⟨_, rfl⟩)) | ⟨_, rfl⟩
      · trivial
      · simp [Spec.Storable]
      · trivial
      · trivial, by simp⟩

/-- C84: tuples of another length are rejected, nothing is written. -/
theorem C84_wrong_length (mstar ssfr sat : List Val)
    (h : ¬ (mstar.length = 12 ∧ ssfr.length = 18 ∧ sat.length = 18)) : saveLossData mstar ssfr sat = none := by
  have l1 : MSTAR_FIELDS.length = 12 := rfl
  have l2 : SSFR_FIELDS.length = 18 := rfl
  have l3 : SSFR_SAT_FIELDS.length = 18 := rfl
  unfold saveLossData
  rw [l1, l2, l3]
  split
  · rfl
  · split
    · rfl
    · split
      · rfl
      · exfalso; apply h; tauto

example : ¬ (([] : List Val).length = 12 ∧ ([] : List Val).length = 18 ∧ ([] : List Val).length = 18) := by simp

/-- C84 fails for longer sequences: the file names `"1000"`, `"10000"`, `"1001"` sort in this order, so that a sequence
of more than 10000 different numbers is read back in another order. -/
theorem C84_long_sequence_violated (x : ℕ → ℝ) (hx : Function.Injective x) (n : ℕ) (hn : 10000 < n) (name : Str) :
    ∃ g, saveGroup [name] [.seq ((List.range n).map fun i => .num (x i))] = some g ∧
      ∃ l, loadGroup g = some [.list l] ∧ l.length = n ∧
        ¬ List.Forall₂ Spec.ItemIs ((List.range n).map fun i => .num (x i)) l := by
  have hr : isRagged ((List.range n).map fun i => Item.num (x i)) = true := by
    unfold isRagged
    rw [if_neg]
    rw [List.all_eq_true]
    intro h
    have := h (.num (x 0)) (List.mem_map.2 ⟨0, by simp; omega, rfl⟩)
    simp [Item.isArr] at this
  have hmap : ((List.range n).map fun i => Item.num (x i)).mapM Item.toNumpy =
      some ((List.range n).map fun i => (⟨[], [x i]⟩ : Arr)) := by
    generalize List.range n = r
    induction r with
    | nil => rfl
    | cons i r ih => simp [List.mapM_cons, ih, Item.toNumpy]
  set arrs := (List.range n).map fun i => (⟨[], [x i]⟩ : Arr) with harrs
  set items := arrs.mapIdx fun i a => (key i, a) with hitems
  have hlen : items.length = n := by simp [hitems, harrs]
  set A := items.mergeSort fun a b => strLe a.1 b.1 with hA
  have hperm : A.Perm items := List.mergeSort_perm _ _
  have hAlen : A.length = n := by rw [hperm.length_eq, hlen]
  refine ⟨⟨[name], [(name, .sub items)], []⟩, ?_, A.map Prod.snd, ?_, by simp [hAlen], ?_⟩
  · simp [saveGroup, saveValue, hr, saveSub, hmap, hitems]
  · simp [loadGroup, loadField, hA]
  · intro hf
    have hsorted : A.Pairwise fun a b => strLe a.1 b.1 = true :=
      List.pairwise_mergeSort (fun a b c => strLe_trans a.1 b.1 c.1) (fun a b => strLe_total a.1 b.1) items
    -- the entry at position `k` keeps its key
    have hkey : ∀ k (hk : k < n), (A[k]'(by rw [hAlen]; exact hk)).1 = key k := by
      intro k hk
      have h1 := List.forall₂_iff_get.1 hf |>.2 k (by simpa using hk) (by simpa [hAlen] using hk)
      simp only [List.get_eq_getElem, List.getElem_map, List.getElem_range, Spec.ItemIs] at h1
      have hmem : A[k]'(by rw [hAlen]; exact hk) ∈ items := hperm.mem_iff.1 (List.getElem_mem _)
      obtain ⟨j, hj, hjA⟩ := List.getElem_of_mem hmem
      have hij : items[j] = (key j, (⟨[], [x j]⟩ : Arr)) := by simp [hitems, harrs]
      rw [← hjA, hij] at h1 ⊢
      have : x j = x k := by simpa using h1.2
      rw [hx this]
    have h := List.pairwise_iff_getElem.1 hsorted 1001 10000 (by rw [hAlen]; omega) (by rw [hAlen]; omega) (by omega)
    rw [hkey 1001 (by omega), hkey 10000 (by omega)] at h
    have h' : strLe (key 1001) (key 10000) = false := by decide
    rw [h'] at h
    exact absurd h (by simp)

example : Function.Injective (fun n : ℕ => (n : ℝ)) ∧ 10000 < 10001 := ⟨Nat.cast_injective, by norm_num⟩

end Diffstar.Props
