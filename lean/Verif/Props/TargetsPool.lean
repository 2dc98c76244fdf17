import Verif.Props.Targets
import Verif.Props.Smh
import Verif.Props.PopLoss

/-!
Properties C73 (sum over subvolumes), C75 (time index of a redshift), C76 (tables) and C77 (marginal targets).
-/

namespace Diffstar.Props

open Diffstar.Targets Finset

/-! ### C73 -/

theorem measureAtz_append {nm na nb : ℕ} (mh : Fin (nm + 1) → ℝ) (ms : Fin (na + 1) → ℝ) (sf : Fin (nb + 1) → ℝ)
    (p q : List Halo) (tid : ℕ) :
    measureAtz mh ms sf (p ++ q) tid = (measureAtz mh ms sf p tid).add (measureAtz mh ms sf q tid) := by
  classical
  apply SubvolAtz.ext <;> funext j <;> simp only [measureAtz, SubvolAtz.add]
  · simp only [diffHist_fst, List.map_append, List.sum_append]
  · simp only [diffHist_snd, List.map_append, List.sum_append]
  · simp [computeHistogramsAtz]
  · simp [computeHistogramsAtz]
  · simp [computeHistogramsAtz]
  · simp [computeHistogramsAtz]
  · funext a
    simp only [diffHistMstarAtz_fst, List.filter_append, List.map_append, List.sum_append]
  · funext a
    simp [diffHistMstarAtz]
  · funext a b
    simp only [diffHistMstarSsfrAtz_eq, List.filter_append, List.map_append, List.sum_append]
  · funext a b
    simp only [diffHistMstarSsfrAtz_eq, List.filter_append, List.map_append, List.sum_append]

theorem measureAtz_nil {nm na nb : ℕ} (mh : Fin (nm + 1) → ℝ) (ms : Fin (na + 1) → ℝ) (sf : Fin (nb + 1) → ℝ)
    (tid : ℕ) : measureAtz mh ms sf [] tid = SubvolAtz.zero := by
  apply SubvolAtz.ext <;> funext j <;> simp only [measureAtz, SubvolAtz.zero]
  · simp [diffHist_fst]
  · simp [diffHist_snd]
  · simp [computeHistogramsAtz]
  · simp [computeHistogramsAtz]
  · simp [computeHistogramsAtz]
  · simp [computeHistogramsAtz]
  · funext a; simp [diffHistMstarAtz_fst]
  · funext a; simp [diffHistMstarAtz]
  · funext a b; simp [diffHistMstarSsfrAtz_eq]
  · funext a b; simp [diffHistMstarSsfrAtz_eq]

/-- C73 (partial: every subvolume of the listing has its input files): the collected measurement is that of the pooled
population, however it is split in subvolumes. -/
theorem C73_pooled_partial {nm na nb : ℕ} (mh : Fin (nm + 1) → ℝ) (ms : Fin (na + 1) → ℝ) (sf : Fin (nb + 1) → ℝ)
    (tid : ℕ) (subvols : List (List Halo)) :
    collect (workerFiles mh ms sf tid (subvols.map some)) = some (measureAtz mh ms sf subvols.flatten tid) := by
  unfold collect workerFiles
  have key : ∀ (l : List (List Halo)) (p : List Halo),
      List.foldlM (fun acc f => Option.map (fun f => SubvolAtz.add acc f) f) (measureAtz mh ms sf p tid)
        ((l.map some).map fun pop => Option.map (fun pop => measureAtz mh ms sf pop tid) pop) =
      some (measureAtz mh ms sf (p ++ l.flatten) tid) := by
    intro l
    induction l with
    | nil => intro p; simp
    | cons q l ih =>
      intro p
      rw [List.map_cons, List.map_cons, List.foldlM_cons]
      simp only [Option.map_some, Option.bind_eq_bind, Option.bind_some]
      rw [← measureAtz_append, ih, List.flatten_cons, List.append_assoc]
  have := key subvols []
  rw [measureAtz_nil, List.nil_append] at this
  exact this

/-- C73 (partial): the tabulated relation is the mean log stellar mass of all halos of the bin, over all subvolumes; so
it lies between any bounds of these masses. -/
theorem C73_mean_relation_partial {nm na nb : ℕ} (mh : Fin (nm + 1) → ℝ) (ms : Fin (na + 1) → ℝ) (sf : Fin (nb + 1) → ℝ)
    (tid : ℕ) (subvols : List (List Halo)) (tot : SubvolAtz nm na nb) (j : Fin nm)
    (htot : collect (workerFiles mh ms sf tid (subvols.map some)) = some tot)
    [∀ x, Decidable (Spec.InBin mh j x)] :
    let bin := subvols.flatten.filter fun h => Spec.InBin mh j (h.logMah tid)
    (bin = [] → smhm tot j = none) ∧
    (bin ≠ [] → ∃ m, smhm tot j = some m ∧ m * bin.length = (bin.map fun h => h.logSmh tid).sum ∧
      ∀ lo hi, (∀ h ∈ bin, lo ≤ h.logSmh tid ∧ h.logSmh tid ≤ hi) → lo ≤ m ∧ m ≤ hi) := by
  classical
  rw [C73_pooled_partial, Option.some.injEq] at htot
  subst htot
  intro bin
  have hbin : bin = subvols.flatten.filter fun h => inHistBin mh j (h.logMah tid) := by
    apply List.filter_congr
    intro h _
    exact decide_eq_decide.2 Iff.rfl
  have hc : (measureAtz mh ms sf subvols.flatten tid).counts j = bin.length := by
    rw [hbin]
    simp only [measureAtz, computeHistogramsAtz, List.filter_map, List.length_map, Function.comp_def]
  have hh : (measureAtz mh ms sf subvols.flatten tid).hist j = (bin.map fun h => h.logSmh tid).sum := by
    rw [hbin]
    simp only [measureAtz, computeHistogramsAtz, List.filter_map, List.map_map, Function.comp_def]
  unfold smhm
  rw [hc, hh]
  constructor
  · intro h; rw [h]; simp
  · intro hne
    have hpos : 0 < bin.length := List.length_pos_iff.2 hne
    have hpos' : (0 : ℝ) < bin.length := by exact_mod_cast hpos
    rw [if_neg hpos.ne']
    refine ⟨_, rfl, div_mul_cancel₀ _ hpos'.ne', ?_⟩
    intro lo hi hb
    have h1 : lo * bin.length ≤ (bin.map fun h => h.logSmh tid).sum ∧
        (bin.map fun h => h.logSmh tid).sum ≤ hi * bin.length := by
      clear hpos hpos' hne hc hh hbin
      generalize bin = l at hb
      induction l with
      | nil => simp
      | cons a l ih =>
        have ha := hb a List.mem_cons_self
        have := ih fun h hh => hb h (List.mem_cons_of_mem _ hh)
        simp only [List.map_cons, List.sum_cons, List.length_cons]
        push_cast
        constructor <;> linarith [this.1, this.2]
    exact ⟨(le_div_iff₀ hpos').2 h1.1, (div_le_iff₀ hpos').2 h1.2⟩

example : ∃ tot, collect (workerFiles (unitEdges 2) (unitEdges 2) (unitEdges 2) 0
    ([[flatHalo 0.5 1 0 (-1)], [], [flatHalo 0.7 3 0 (-1), flatHalo 1.2 5 0 4]].map some)) = some tot :=
  ⟨_, C73_pooled_partial _ _ _ _ _⟩

/-- C73 fails if the input of one listed subvolume is missing: the worker skips it, but the collection opens its
temporary file and stops, so that no target file is written. -/
theorem C73_missing_subvolume_violated {nm na nb : ℕ} (mh : Fin (nm + 1) → ℝ) (ms : Fin (na + 1) → ℝ)
    (sf : Fin (nb + 1) → ℝ) (tid : ℕ) (subvols : List (Option (List Halo))) (h : none ∈ subvols) :
    collect (workerFiles mh ms sf tid subvols) = none := by
  unfold collect workerFiles
  generalize (SubvolAtz.zero : SubvolAtz nm na nb) = acc
  induction subvols generalizing acc with
  | nil => simp at h
  | cons v l ih =>
    rw [List.map_cons, List.foldlM_cons]
    cases v with
    | none => rfl
    | some v =>
      simp only [Option.map_some, Option.bind_eq_bind, Option.bind_some]
      exact ih (by simpa using h) _

example : none ∈ [some [flatHalo 0.5 1 0 (-1)], none, some [flatHalo 1.5 1 0 3]] := by simp

/-! ### C75 -/

theorem digitize_spec (l : List ℝ) (x : ℝ) :
    digitizeDecreasing l x ≤ l.length ∧ (∀ k b, k < digitizeDecreasing l x → l[k]? = some b → x < b) ∧
    ∀ b, l[digitizeDecreasing l x]? = some b → b ≤ x := by
  induction l with
  | nil => simp [digitizeDecreasing]
  | cons a l ih =>
    unfold digitizeDecreasing
    obtain ⟨h1, h2, h3⟩ := ih
    split_ifs with h
    · refine ⟨by simpa using h1, ?_, ?_⟩
      · intro k b hk hb
        cases k with
        | zero => simp at hb; rw [← hb]; exact h
        | succ k => exact h2 k b (by omega) (by simpa using hb)
      · intro b hb; exact h3 b (by simpa using hb)
    · refine ⟨by simp, by simp, ?_⟩
      intro b hb; simp at hb; rw [← hb]; exact not_lt.1 h

theorem linspace_getElem? {a b : ℝ} {n k : ℕ} (hk : k < n) :
    (linspace a b n)[k]? = some (a + (k : ℝ) * ((b - a) / ((n : ℝ) - 1))) := by
  unfold linspace
  rw [List.getElem?_map, List.getElem?_range hk]
  rfl

/-- C75: let `tz` be the first age at which the redshift is at most the target. If `tz` is between the first and the
last time of the table, the target is measured at the first table time at or after `tz`: at most one step of
`(10**lgt0 - 0.01) / 199` Gyr late, and never early. -/
theorem C75_age_of_target (zOfAge : ℝ → ℝ) (z tz lgt0 : ℝ) (hz : ∀ t, zOfAge t ≤ z ↔ tz ≤ t)
    (hlo : 0.01 ≤ tz) (hhi : tz ≤ (10 : ℝ) ^ lgt0) :
    ∃ t, (linspace T_TABLE_MIN ((10 : ℝ) ^ lgt0) 200)[targetRedshiftIndex zOfAge
        (linspace T_TABLE_MIN ((10 : ℝ) ^ lgt0) 200) z]? = some t ∧
      tz ≤ t ∧ (t < tz + ((10 : ℝ) ^ lgt0 - 0.01) / 199 ∨ t = tz) := by
  set tab := linspace T_TABLE_MIN ((10 : ℝ) ^ lgt0) 200 with htab
  have hlen : tab.length = 200 := by simp [htab, linspace]
  have hget : ∀ k : ℕ, k < 200 → tab[k]? = some (0.01 + (k : ℝ) * (((10 : ℝ) ^ lgt0 - 0.01) / 199)) := by
    intro k hk
    rw [htab, linspace_getElem? hk]
    unfold T_TABLE_MIN
    norm_num
  unfold targetRedshiftIndex
  obtain ⟨h1, h2, h3⟩ := digitize_spec (tab.map zOfAge) z
  simp only
  set i := digitizeDecreasing (tab.map zOfAge) z with hi
  rw [List.length_map, hlen] at h1
  have hi200 : i ≠ 200 := by
    intro h
    have := h2 199 (zOfAge (0.01 + ((199 : ℕ) : ℝ) * (((10 : ℝ) ^ lgt0 - 0.01) / 199))) (by omega)
      (by rw [List.getElem?_map, hget 199 (by norm_num)]; rfl)
    rw [← not_le, hz] at this
    apply this
    push_cast
    linarith
  have hi' : i < 200 := by omega
  have ht := h3 _ (by rw [List.getElem?_map, hget i hi']; rfl)
  rw [hz] at ht
  refine ⟨_, hget i hi', ht, ?_⟩
  rcases Nat.eq_zero_or_pos i with h0 | h0
  · right
    rw [h0] at ht ⊢
    push_cast at ht ⊢
    linarith
  · left
    have := h2 (i - 1) (zOfAge (0.01 + ((i - 1 : ℕ) : ℝ) * (((10 : ℝ) ^ lgt0 - 0.01) / 199))) (by omega)
      (by rw [List.getElem?_map, hget (i - 1) (by omega)]; rfl)
    rw [← not_le, hz, not_le, Nat.cast_sub (by omega)] at this
    push_cast at this
    linarith

/-- C75: a target epoch after the last table time has no time index: indexing the tables raises. -/
theorem C75_out_of_range (zOfAge : ℝ → ℝ) (z tz : ℝ) (tab : List ℝ) (hz : ∀ t, zOfAge t ≤ z ↔ tz ≤ t)
    (hlast : ∀ t ∈ tab, t < tz) : tab[targetRedshiftIndex zOfAge tab z]? = none := by
  unfold targetRedshiftIndex
  obtain ⟨h1, h2, h3⟩ := digitize_spec (tab.map zOfAge) z
  simp only
  set i := digitizeDecreasing (tab.map zOfAge) z
  by_contra hc
  obtain ⟨t, ht⟩ := Option.ne_none_iff_exists'.1 hc
  have := h3 (zOfAge t) (by rw [List.getElem?_map, ht]; rfl)
  rw [hz] at this
  exact absurd this (not_le.2 (hlast t (List.mem_of_getElem? ht)))

example : ∃ (zOfAge : ℝ → ℝ) (z tz lgt0 : ℝ), (∀ t, zOfAge t ≤ z ↔ tz ≤ t) ∧ 0.01 ≤ tz ∧ tz ≤ (10 : ℝ) ^ lgt0 :=
  ⟨fun t => 13 - t, 5, 8, 1, fun t => by constructor <;> intro h <;> linarith, by norm_num, by norm_num⟩

/-! ### C76 -/

theorem calcSfhSinglegalSmh_length (logMah : MahParams ℝ → ℝ → ℝ → ℝ) (sfh : DiffstarParams ℝ) (mah : MahParams ℝ)
    (tarr : List ℝ) (lgt0 fb : ℝ) : (calcSfhSinglegalSmh logMah sfh mah tarr lgt0 fb).sfh.length = tarr.length ∧
      (calcSfhSinglegalSmh logMah sfh mah tarr lgt0 fb).smh.length = tarr.length := by
  have h : (calcSfhSinglegalSmh logMah sfh mah tarr lgt0 fb).sfh.length = tarr.length := by
    simp [calcSfhSinglegalSmh, sfhSinglegalKern]
  exact ⟨h, cmf_length _ _ h⟩

/-- C76 fails for SMDPL and Galacticus: `calc_sfh_galpop` is called without its required keyword `fb`, which raises
`TypeError` for every catalogue. -/
theorem C76_missing_fb_violated (logMah : MahParams ℝ → ℝ → ℝ → ℝ) (lgt0 : ℝ) (n : ℕ) (cat : List CatRow) :
    loadTables .smdpl logMah lgt0 n cat = none ∧ loadTables .galacticus logMah lgt0 n cat = none := by
  constructor <;>
    simp [loadTables, pyCall, calcSfhGalpopRequired, keywordsGiven]

/-- C76 (partial: TNG only): the rows of the tables are the catalogue rows with both fits, in the order of the
catalogue; parameters and `upid` of a row belong to the same galaxy. -/
theorem C76_rows_partial (logMah : MahParams ℝ → ℝ → ℝ → ℝ) (lgt0 : ℝ) (n : ℕ) (cat : List CatRow)
    [∀ r : CatRow, Decidable (r.diffmahLoss > 0 ∧ r.diffstarLoss > 0 ∧ r.success = 1)] :
    ∃ pop, loadTables .tng logMah lgt0 n cat = some pop ∧
      pop.map (fun h => (h.mah, h.sfh, h.upid)) =
        (cat.filter fun r => r.diffmahLoss > 0 ∧ r.diffstarLoss > 0 ∧ r.success = 1).map
          fun r => (r.mah, r.sfh, r.upid) := by
  classical
  refine ⟨(cat.filter fun r => hasFit .tng r).map (tableRow logMah lgt0 n), ?_, ?_⟩
  · simp [loadTables, tableRows, pyCall, calcSfhGalpopRequired, keywordsGiven]
  · have : (cat.filter fun r => decide (hasFit .tng r)) =
        cat.filter fun r => decide (r.diffmahLoss > 0 ∧ r.diffstarLoss > 0 ∧ r.success = 1) :=
      List.filter_congr fun r _ => decide_eq_decide.2 Iff.rfl
    rw [this, List.map_map]
    rfl

/-- C76 (partial: as if the call of `calc_sfh_galpop` were given `fb`): the rows kept by SMDPL have a positive diffmah
loss and `success == 1`; Galacticus, as TNG, also asks for a positive Diffstar loss. -/
theorem C76_selection_partial (logMah : MahParams ℝ → ℝ → ℝ → ℝ) (lgt0 : ℝ) (n : ℕ) (cat : List CatRow)
    [∀ r : CatRow, Decidable (r.diffmahLoss > 0 ∧ r.diffstarLoss > 0 ∧ r.success = 1)]
    [∀ r : CatRow, Decidable (r.diffmahLoss > 0 ∧ r.success = 1)] :
    (tableRows .smdpl logMah lgt0 n cat).map (fun h => (h.mah, h.sfh, h.upid)) =
      (cat.filter fun r => r.diffmahLoss > 0 ∧ r.success = 1).map (fun r => (r.mah, r.sfh, r.upid)) ∧
    (tableRows .galacticus logMah lgt0 n cat).map (fun h => (h.mah, h.sfh, h.upid)) =
      (cat.filter fun r => r.diffmahLoss > 0 ∧ r.diffstarLoss > 0 ∧ r.success = 1).map
        (fun r => (r.mah, r.sfh, r.upid)) := by
  classical
  constructor
  · have : (cat.filter fun r => decide (hasFit .smdpl r)) = cat.filter fun r => decide (r.diffmahLoss > 0 ∧ r.success = 1) :=
      List.filter_congr fun r _ => decide_eq_decide.2 Iff.rfl
    unfold tableRows
    rw [this, List.map_map]
    rfl
  · have : (cat.filter fun r => decide (hasFit .galacticus r)) =
        cat.filter fun r => decide (r.diffmahLoss > 0 ∧ r.diffstarLoss > 0 ∧ r.success = 1) :=
      List.filter_congr fun r _ => decide_eq_decide.2 Iff.rfl
    unfold tableRows
    rw [this, List.map_map]
    rfl

/-- C76 (partial: TNG; the others as if the call of `calc_sfh_galpop` were given `fb`): the tabulated histories of a row
are those of a direct evaluation for that galaxy at the table times `linspace(0.01, 10**lgt0, n)` with the age
`log10(13.8)`, whatever `lgt0`. -/
theorem C76_any_lgt0_partial (sim : Sim) (logMah : MahParams ℝ → ℝ → ℝ → ℝ) (lgt0 : ℝ) (n : ℕ) (cat : List CatRow)
    (h : Halo) (hh : h ∈ tableRows sim logMah lgt0 n cat) (i : ℕ) (hi : i < n) :
    ∃ t, (linspace 0.01 ((10 : ℝ) ^ lgt0) n)[i]? = some t ∧ h.logMah i = logMah h.mah t (Real.logb 10 13.8) ∧
      ∃ m s, (calcSfhSinglegalSmh logMah h.sfh h.mah (linspace 0.01 ((10 : ℝ) ^ lgt0) n) (Real.logb 10 13.8)
          0.156).smh[i]? = some m ∧
        (calcSfhSinglegalSmh logMah h.sfh h.mah (linspace 0.01 ((10 : ℝ) ^ lgt0) n) (Real.logb 10 13.8)
          0.156).sfh[i]? = some s ∧
        h.logSmh i = Real.logb 10 m ∧ h.logSsfr i = Real.logb 10 s - Real.logb 10 m := by
  classical
  unfold tableRows at hh
  obtain ⟨r, _, rfl⟩ := List.mem_map.1 hh
  set T := (10 : ℝ) ^ lgt0 with hTdef
  have hlen : (linspace (0.01 : ℝ) T n).length = n := by simp [linspace]
  have hT : linspace T_TABLE_MIN T n = linspace 0.01 T n := rfl
  obtain ⟨t, ht⟩ : ∃ t, (linspace (0.01 : ℝ) T n)[i]? = some t := ⟨_, linspace_getElem? hi⟩
  have hg := calcSfhSinglegalSmh_length logMah r.sfh r.mah (linspace 0.01 T n) (Real.logb 10 13.8) 0.156
  rw [hlen] at hg
  obtain ⟨m, hm⟩ : ∃ m, (calcSfhSinglegalSmh logMah r.sfh r.mah (linspace 0.01 T n) (Real.logb 10 13.8)
      0.156).smh[i]? = some m := ⟨_, List.getElem?_eq_getElem (by rw [hg.2]; exact hi)⟩
  obtain ⟨s, hs⟩ : ∃ m, (calcSfhSinglegalSmh logMah r.sfh r.mah (linspace 0.01 T n) (Real.logb 10 13.8)
      0.156).sfh[i]? = some m := ⟨_, List.getElem?_eq_getElem (by rw [hg.1]; exact hi)⟩
  refine ⟨t, ht, ?_, m, s, hm, hs, ?_, ?_⟩
  · simp only [tableRow]
    rw [← hTdef, hT, List.getD_eq_getElem?_getD, ht]
    rfl
  · simp only [tableRow]
    rw [← hTdef, hT, List.getD_eq_getElem?_getD]
    change Real.logb 10 ((calcSfhSinglegalSmh logMah r.sfh r.mah (linspace 0.01 T n) (Real.logb 10 13.8)
      0.156).smh[i]?.getD 0) = _
    rw [hm]; rfl
  · simp only [tableRow]
    rw [← hTdef, hT, List.getD_eq_getElem?_getD, List.getD_eq_getElem?_getD]
    change Real.logb 10 ((calcSfhSinglegalSmh logMah r.sfh r.mah (linspace 0.01 T n) (Real.logb 10 13.8)
      0.156).sfh[i]?.getD 0) - Real.logb 10 ((calcSfhSinglegalSmh logMah r.sfh r.mah (linspace 0.01 T n)
      (Real.logb 10 13.8) 0.156).smh[i]?.getD 0) = _
    rw [hm, hs]; rfl

/-- C76 (partial: TNG only, default `lgt0 = log10(13.8)`): the tabulated histories of a row are those of a direct
evaluation for that galaxy at the table times `linspace(0.01, 13.8, n)`. -/
theorem C76_histories_partial (logMah : MahParams ℝ → ℝ → ℝ → ℝ) (n : ℕ) (cat : List CatRow) (pop : List Halo)
    (hpop : loadTables .tng logMah (Real.logb 10 13.8) n cat = some pop) (h : Halo) (hh : h ∈ pop)
    (i : ℕ) (hi : i < n) :
    ∃ t, (linspace 0.01 13.8 n)[i]? = some t ∧ h.logMah i = logMah h.mah t (Real.logb 10 13.8) ∧
      ∃ m s, (calcSfhSinglegalSmh logMah h.sfh h.mah (linspace 0.01 13.8 n) (Real.logb 10 13.8) 0.156).smh[i]? = some m ∧
        (calcSfhSinglegalSmh logMah h.sfh h.mah (linspace 0.01 13.8 n) (Real.logb 10 13.8) 0.156).sfh[i]? = some s ∧
        h.logSmh i = Real.logb 10 m ∧ h.logSsfr i = Real.logb 10 s - Real.logb 10 m := by
  have h138 : (10 : ℝ) ^ Real.logb 10 13.8 = 13.8 := Real.rpow_logb (by norm_num) (by norm_num) (by norm_num)
  have hp : pop = tableRows .tng logMah (Real.logb 10 13.8) n cat := by
    simpa [loadTables, pyCall, calcSfhGalpopRequired, keywordsGiven, eq_comm] using hpop
  have := C76_any_lgt0_partial .tng logMah (Real.logb 10 13.8) n cat h (hp ▸ hh) i hi
  rwa [h138] at this

/-- C76 fails for another `lgt0`: the argument ends the time table, but the halo masses are those of
`lgt0 = log10(13.8)`. -/
theorem C76_lgt0_violated (r : CatRow) (hr : r.diffmahLoss > 0 ∧ r.diffstarLoss > 0 ∧ r.success = 1) :
    ∃ (logMah : MahParams ℝ → ℝ → ℝ → ℝ) (lgt0 : ℝ) (h : Halo), loadTables .tng logMah lgt0 2 [r] = some [h] ∧
      ∃ t, (linspace 0.01 ((10 : ℝ) ^ lgt0) 2)[1]? = some t ∧ h.logMah 1 ≠ logMah h.mah t lgt0 := by
  classical
  refine ⟨fun _ _ lgt0 => lgt0, 0, tableRow (fun _ _ lgt0 => lgt0) 0 2 r, ?_, _, linspace_getElem? (by norm_num), ?_⟩
  · simp [loadTables, tableRows, pyCall, calcSfhGalpopRequired, keywordsGiven, hasFit, hr]
  · change Real.logb 10 13.8 ≠ 0
    exact (Real.logb_pos (by norm_num) (by norm_num)).ne'

example : ∃ r : CatRow, r.diffmahLoss > 0 ∧ r.diffstarLoss > 0 ∧ r.success = 1 :=
  ⟨⟨(flatHalo 0 0 0 0).mah, (flatHalo 0 0 0 0).sfh, 1, 1, 1, -1⟩, by norm_num, by norm_num, rfl⟩

/-! ### C77 -/

/-- `LOGSSFR_BINS_PDF = linspace(-13, -8, 30)`. -/
noncomputable def ssfrEdges : Fin 30 → ℝ := fun k => -13 + (k.val : ℝ) * (5 / 29)

theorem meanDiff_ssfrEdges : PopLoss.meanDiff (nb := 29) ssfrEdges = 5 / 29 := by
  unfold PopLoss.meanDiff ssfrEdges
  have : ∀ j : Fin 29, (-13 + ((j.succ).val : ℝ) * (5 / 29)) - (-13 + ((j.castSucc).val : ℝ) * (5 / 29)) = 5 / 29 := by
    intro j
    simp only [Fin.val_succ, Fin.val_castSucc]
    push_cast
    ring
  rw [sum_congr rfl fun j _ => this j]
  simp

theorem sum_split_central {α : Type*} (l : List α) (p q : α → Prop) [DecidablePred p] [DecidablePred q] (f : α → ℝ) :
    ((l.filter fun a => p a ∧ q a).map f).sum + ((l.filter fun a => p a ∧ ¬ q a).map f).sum =
      ((l.filter fun a => p a).map f).sum := by
  induction l with
  | nil => simp
  | cons a l ih =>
    by_cases hp : p a <;> by_cases hq : q a <;> simp [hp, hq] <;>
      simp only [← ih, Bool.decide_and, decide_not] <;> ring

/-- Sum over sSFR bins of the central and satellite targets: weights times the fraction of the sSFR kernel in the
grid. -/
theorem marginal_eq {nm na nb : ℕ} (mh : Fin (nm + 1) → ℝ) (ms : Fin (na + 1) → ℝ) (sf : Fin (nb + 1) → ℝ)
    (pop : List Halo) (tid : ℕ) (j : Fin nm) (a : Fin na) [DecidablePred fun h : Halo => inPdfBin mh j (h.logMah tid)] :
    ∑ b, ((measureAtz mh ms sf pop tid).mstarSsfrCen j a b + (measureAtz mh ms sf pop tid).mstarSsfrSat j a b) =
      ((pop.filter fun h => inPdfBin mh j (h.logMah tid)).map fun h =>
        NdHist.twBinWeightLaxKern (h.logSmh tid) (PopLoss.meanDiff ms) (ms a.castSucc) (ms a.succ) *
        ∑ b : Fin nb, NdHist.twBinWeightLaxKern (max (h.logSsfr tid) (-12)) (PopLoss.meanDiff sf) (sf b.castSucc)
          (sf b.succ)).sum := by
  classical
  have h1 : ∀ b, (measureAtz mh ms sf pop tid).mstarSsfrCen j a b + (measureAtz mh ms sf pop tid).mstarSsfrSat j a b =
      ((pop.filter fun h => inPdfBin mh j (h.logMah tid)).map fun h =>
        NdHist.twBinWeightLaxKern (h.logSmh tid) (PopLoss.meanDiff ms) (ms a.castSucc) (ms a.succ) *
        NdHist.twBinWeightLaxKern (max (h.logSsfr tid) (-12)) (PopLoss.meanDiff sf) (sf b.castSucc)
          (sf b.succ)).sum := by
    intro b
    have := sum_split_central pop (fun h => inPdfBin mh j (h.logMah tid)) (fun h => h.upid = -1) fun h =>
        NdHist.twBinWeightLaxKern (h.logSmh tid) (PopLoss.meanDiff ms) (ms a.castSucc) (ms a.succ) *
        NdHist.twBinWeightLaxKern (max (h.logSsfr tid) (-12)) (PopLoss.meanDiff sf) (sf b.castSucc)
          (sf b.succ)
    simp only [measureAtz, diffHistMstarSsfrAtz_eq, List.map_map, Function.comp_def]
    convert this
  simp only [h1]
  generalize pop.filter (fun h => decide (inPdfBin mh j (h.logMah tid))) = l
  induction l with
  | nil => simp
  | cons x l ih =>
    simp only [List.map_cons, List.sum_cons, sum_add_distrib, ih, mul_sum]

/-- C77 (partial: no galaxy above `log10 sSFR = -8.52`): over the grid of specific rates, centrals plus satellites add
up to the stellar mass target of the same halo bin. -/
theorem C77_marginal_partial {nm na : ℕ} (mh : Fin (nm + 1) → ℝ) (ms : Fin (na + 1) → ℝ) (pop : List Halo) (tid : ℕ)
    (hs : ∀ h ∈ pop, h.logSsfr tid ≤ -8 - 15 / 29) (j : Fin nm) (a : Fin na) :
    ∑ b, ((measureAtz (nb := 29) mh ms ssfrEdges pop tid).mstarSsfrCen j a b +
      (measureAtz (nb := 29) mh ms ssfrEdges pop tid).mstarSsfrSat j a b) =
      (measureAtz (nb := 29) mh ms ssfrEdges pop tid).mstarWcounts j a := by
  classical
  rw [marginal_eq]
  simp only [measureAtz, diffHistMstarAtz_fst, List.map_map, Function.comp_def]
  have key : ∀ h ∈ pop, ∑ b : Fin 29, NdHist.twBinWeightLaxKern (max (h.logSsfr tid) (-12)) (5 / 29)
      (ssfrEdges b.castSucc) (ssfrEdges b.succ) = 1 := by
    intro h hh
    apply ndBin_sum_eq_one (by norm_num) 29 ssfrEdges
    · have : ssfrEdges 0 = -13 := by simp [ssfrEdges]
      rw [this]
      have := le_max_right (h.logSsfr tid) (-12)
      linarith
    · have e : ssfrEdges (Fin.last 29) = -8 := by norm_num [ssfrEdges, Fin.last]
      rw [e]
      have := max_le (hs h hh) (show (-12 : ℝ) ≤ -8 - 15 / 29 by norm_num)
      linarith
  congr 1
  rw [meanDiff_ssfrEdges]
  refine List.map_congr_left fun h hh => ?_
  rw [key h (List.mem_filter.1 hh).1, mul_one]

/-- C77: the marginal never exceeds the stellar mass target, for any population and increasing edges. -/
theorem C77_marginal_le {nm na nb : ℕ} (mh : Fin (nm + 1) → ℝ) (ms : Fin (na + 1) → ℝ) (sf : Fin (nb + 1) → ℝ)
    (hms : StrictMono ms) (pop : List Halo) (tid : ℕ) (j : Fin nm) (a : Fin na) :
    ∑ b, ((measureAtz mh ms sf pop tid).mstarSsfrCen j a b + (measureAtz mh ms sf pop tid).mstarSsfrSat j a b) ≤
      (measureAtz mh ms sf pop tid).mstarWcounts j a := by
  classical
  rw [marginal_eq]
  simp only [measureAtz, diffHistMstarAtz_fst, List.map_map, Function.comp_def]
  have hσ : 0 < PopLoss.meanDiff ms := meanDiff_pos hms (lt_of_le_of_lt (Nat.zero_le _) a.isLt)
  refine List.sum_le_sum fun h _ => ?_
  exact mul_le_of_le_one_right (ndBin_nonneg hσ (hms Fin.castSucc_lt_succ).le) (ndBin_sum_le_one nb sf)

/-- C77 fails for strongly star-forming galaxies: with `log10 sSFR = -7` the galaxy counts in the stellar mass target
but nowhere in the joint targets. -/
theorem C77_high_ssfr_violated :
    ∑ b, ((measureAtz (nb := 29) (unitEdges 1) (unitEdges 1) ssfrEdges [flatHalo 0.5 0.5 (-7) (-1)] 0).mstarSsfrCen 0 0 b +
      (measureAtz (nb := 29) (unitEdges 1) (unitEdges 1) ssfrEdges [flatHalo 0.5 0.5 (-7) (-1)] 0).mstarSsfrSat 0 0 b) = 0 ∧
    0 < (measureAtz (nb := 29) (unitEdges 1) (unitEdges 1) ssfrEdges [flatHalo 0.5 0.5 (-7) (-1)] 0).mstarWcounts 0 0 := by
  classical
  have hin : inPdfBin (unitEdges 1) 0 0.5 := by
    constructor <;> norm_num [unitEdges]
  have hσ : PopLoss.meanDiff (nb := 1) (unitEdges 1) = 1 := by simp [PopLoss.meanDiff, unitEdges]
  constructor
  · rw [marginal_eq]
    have : ∀ b : Fin 29, NdHist.twBinWeightLaxKern (max (-7) (-12)) (5 / 29) (ssfrEdges b.castSucc) (ssfrEdges b.succ)
        = 0 := by
      intro b
      apply le_antisymm _ (ndBin_nonneg (by norm_num) _)
      · rw [← not_lt, ndBin_pos_iff (by norm_num)]
        · rintro ⟨_, h2⟩
          have hb : (b.val : ℝ) ≤ 28 := by exact_mod_cast Nat.le_of_lt_succ b.isLt
          rw [max_eq_left (by norm_num)] at h2
          simp only [ssfrEdges, Fin.val_succ] at h2
          push_cast at h2
          linarith
        · simp [ssfrEdges]
      · simp [ssfrEdges]
    have hf : ([flatHalo 0.5 0.5 (-7) (-1)].filter fun h : Halo => decide (inPdfBin (unitEdges 1) 0 (h.logMah 0))) =
        [flatHalo 0.5 0.5 (-7) (-1)] := by simp [flatHalo, hin]
    rw [hf, meanDiff_ssfrEdges]
    simp only [List.map_cons, List.map_nil, List.sum_cons, List.sum_nil, add_zero]
    have hz := sum_congr (rfl : (univ : Finset (Fin 29)) = univ) fun b _ => this b
    change _ * ∑ b : Fin 29, NdHist.twBinWeightLaxKern (max (-7) (-12)) (5 / 29) (ssfrEdges b.castSucc)
      (ssfrEdges b.succ) = 0
    rw [hz]
    simp
  · simp only [measureAtz, diffHistMstarAtz_fst, List.map_map, Function.comp_def]
    have hf : ([flatHalo 0.5 0.5 (-7) (-1)].filter fun h : Halo => decide (inPdfBin (unitEdges 1) 0 (h.logMah 0))) =
        [flatHalo 0.5 0.5 (-7) (-1)] := by simp [flatHalo, hin]
    rw [hf, hσ]
    simp only [List.map_cons, List.map_nil, List.sum_cons, List.sum_nil, add_zero]
    rw [ndBin_pos_iff (by norm_num) (by norm_num [unitEdges])]
    constructor <;> norm_num [unitEdges, flatHalo]

example : ∀ h ∈ [flatHalo 12 10 (-9) (-1), flatHalo 12 10 (-30) 5], h.logSsfr 0 ≤ -8 - 15 / 29 := by
  intro h hh
  simp only [List.mem_cons, List.not_mem_nil, or_false] at hh
  rcases hh with rfl | rfl <;> norm_num [flatHalo]

end Diffstar.Props
