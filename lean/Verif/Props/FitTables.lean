import Verif.Model.FitTables
import Verif.Props.FitScripts
import Verif.Props.Sfh

/-!
C111: the galaxies and parameters read back from the catalogues of the fitting scripts.
-/

namespace Diffstar.Spec

open Diffstar.Fit Diffstar.Output Diffstar.Load Diffstar.Scripts Diffstar.Targets

/-- Galaxy `k` has usable fits: positive diffmah loss and a Diffstar fit that reported success (with positive loss, for
TNG and Galacticus). -/
def Selected (sim : Sim) (mahRows : List MahRow) (halos : List HaloOut) (k : ℕ) : Prop :=
  ∃ row h p loss, mahRows[k]? = some row ∧ halos[k]? = some h ∧ 0 < row.loss ∧ h.fit = some (p, loss, 1) ∧
    (sim ≠ .smdpl → ∃ x : EReal, loss = some x ∧ 0 < x)

/-- Entry `j` of every column belongs to the galaxy with diffmah fit `row` and Diffstar parameters `p`. -/
def RowOf (f4 : F → F) (out : FitColumns) (j : ℕ) (row : MahRow) (p : DiffstarParams F) : Prop :=
  out.mah.logmp[j]? = some row.par.logmp ∧ out.mah.logtc[j]? = some row.par.logtc ∧
  out.mah.earlyIndex[j]? = some row.par.earlyIndex ∧ out.mah.lateIndex[j]? = some row.par.lateIndex ∧
  out.mah.tPeak[j]? = some row.par.tPeak ∧
  (∃ x, out.sfh.lgmcrit[j]? = some x ∧ Close x (f4 p.lgmcrit)) ∧
  (∃ x, out.sfh.lgyAtMcrit[j]? = some x ∧ Close x (f4 p.lgyAtMcrit)) ∧
  (∃ x, out.sfh.indxLo[j]? = some x ∧ Close x (f4 p.indxLo)) ∧
  (∃ x, out.sfh.indxHi[j]? = some x ∧ Close x (f4 p.indxHi)) ∧
  (∃ x, out.sfh.lgQt[j]? = some x ∧ Close x (f4 p.lgQt)) ∧
  (∃ x, out.sfh.qlglgdt[j]? = some x ∧ Close x (f4 p.qlglgdt)) ∧
  (∃ x, out.sfh.lgDrop[j]? = some x ∧ Close x (f4 p.lgDrop)) ∧
  (∃ x, out.sfh.lgRejuv[j]? = some x ∧ Close x (f4 p.lgRejuv))

/-- All columns have `n` entries. -/
def ColumnsOfLength (out : FitColumns) (n : ℕ) : Prop :=
  (out.mah.logmp.length = n ∧ out.mah.logtc.length = n ∧ out.mah.earlyIndex.length = n ∧ out.mah.lateIndex.length = n ∧
    out.mah.tPeak.length = n) ∧
  (out.sfh.lgmcrit.length = n ∧ out.sfh.lgyAtMcrit.length = n ∧ out.sfh.indxLo.length = n ∧ out.sfh.indxHi.length = n ∧
    out.sfh.lgQt.length = n ∧ out.sfh.qlglgdt.length = n ∧ out.sfh.lgDrop.length = n ∧ out.sfh.lgRejuv.length = n)

end Diffstar.Spec

namespace Diffstar.Props

open Diffstar.Text Diffstar.Fit Diffstar.Output Diffstar.Load Diffstar.Galcus Diffstar.Scripts Diffstar.Targets

open Classical

theorem gtTol_zero_iff (a : F) : gtTol a (0 : EReal) ↔ ∃ x : EReal, a = some x ∧ 0 < x := by
  cases a with
  | none => simp [gtTol]
  | some x => simp [gtTol]

theorem gtTol_of_close {a b : F} (h : Spec.Close a b) : gtTol a (0 : EReal) ↔ gtTol b (0 : EReal) := by
  rcases h with ⟨rfl, rfl⟩ | ⟨rfl, rfl⟩ | ⟨rfl, rfl⟩ | ⟨x, y, rfl, rfl, hxy⟩
  · rfl
  · rfl
  · rfl
  · simp only [gtTol, EReal.coe_pos]
    have h := abs_le.1 hxy
    constructor
    · intro hx
      by_contra hy
      rw [abs_of_nonpos (not_lt.1 hy)] at h
      linarith [h.2, not_lt.1 hy]
    · intro hy
      rw [abs_of_pos hy] at h
      linarith [h.1]

theorem pick_some {α : Type} (indx : Option (List ℕ)) (l : List α) (d : α) (n : ℕ) (hl : l.length = n)
    (hix : ∀ i ∈ indx.getD (List.range n), i < n) :
    pick indx l = some ((indx.getD (List.range n)).map fun i => l.getD i d) := by
  cases indx with
  | none =>
    simp only [pick, Option.getD_none]
    congr 1
    apply List.ext_getElem
    · simp [hl]
    · intro i a b
      simp [a]
  | some ix =>
    simp only [pick]
    exact takeIdx_some l ix d fun i hi => by rw [hl]; exact hix i hi

theorem maskBy_map {α : Type} (rows : List ℕ) (P : ℕ → Bool) (g : ℕ → α) :
    maskBy (rows.map P) (rows.map g) = some ((rows.filter P).map g) := by
  unfold maskBy
  rw [if_neg (by simp)]
  congr 1
  induction rows with
  | nil => rfl
  | cons a l ih =>
    simp only [List.map_cons, List.zip_cons_cons, List.filterMap_cons, List.filter_cons]
    cases h : P a
    · simpa using ih
    · simpa using ih

/-- A float column read for the selected rows. -/
theorem read_column {file : H5} {halos : List HaloOut} {name : String} {v : HaloOut → F}
    (h : Spec.HoldsFloats file name halos v) (indx : Option (List ℕ))
    (hix : ∀ i ∈ indx.getD (List.range halos.length), i < halos.length) :
    ∃ c : ℕ → F, (fltColumn file name.toList).bind (pick indx) = some ((indx.getD (List.range halos.length)).map c) ∧
      ∀ k hk, halos[k]? = some hk → Spec.Close (c k) (v hk) := by
  obtain ⟨col, h1, h2⟩ := h
  have hlen : col.length = halos.length := by simpa using h2.length_eq
  refine ⟨fun k => col.getD k none, ?_, ?_⟩
  · have : fltColumn file name.toList = some col := by simp [fltColumn, h1]
    rw [this, Option.bind_some]
    exact pick_some indx col none halos.length hlen hix
  · intro k hk hh
    have hk' := (List.getElem?_eq_some_iff.1 hh)
    obtain ⟨hlt, he⟩ := hk'
    have hc : k < col.length := by omega
    have := List.forall₂_iff_get.1 h2
    have := this.2 k hc (by simpa using hlt)
    simp only [List.get_eq_getElem, List.getElem_map, he] at this
    show Spec.Close (col.getD k none) (v hk)
    rwa [List.getD_eq_getElem _ _ hc]

theorem fitValues_selected (f4 : F → F) (h : HaloOut) :
    ((Spec.fitValues f4 h).2.2 = 1 ↔ ∃ p loss, h.fit = some (p, loss, 1)) := by
  unfold Spec.fitValues
  cases hf : h.fit with
  | none => simp
  | some x =>
    obtain ⟨p, loss, s⟩ := x
    simp

/-- C111: of a catalogue of fits and the matching file of diffmah fits, exactly the galaxies with usable fits are read, in
order, and every entry of every column belongs to the same galaxy. Galaxies without fit never enter. -/
theorem C111_rows_read (sim : Sim) (indx : Option (List ℕ)) (mahRows : List MahRow) (f4 : F → F) (file : H5)
    (halos : List HaloOut) (hd : Spec.Describes f4 file halos) (hlen : mahRows.length = halos.length)
    (hix : ∀ i ∈ indx.getD (List.range halos.length), i < halos.length) :
    ∃ out, readCatalogue sim indx mahRows file = some out ∧
      let sel := (indx.getD (List.range halos.length)).filter fun k => Spec.Selected sim mahRows halos k
      out.hasFit = (indx.getD (List.range halos.length)).map (fun k => decide (Spec.Selected sim mahRows halos k)) ∧
      Spec.ColumnsOfLength out sel.length ∧
      ∀ (j k : ℕ) (row : MahRow) (h : HaloOut) (p : DiffstarParams F) (loss : F) (s : ℤ), sel[j]? = some k →
        mahRows[k]? = some row → halos[k]? = some h → h.fit = some (p, loss, s) → Spec.RowOf f4 out j row p := by
  obtain ⟨_, c1, c2, c3, c4, c5, c6, c7, c8, cl, cs⟩ := hd
  set rows := indx.getD (List.range halos.length) with hrows
  have hmah : ∀ f : MahRow → ℝ, pick indx (mahRows.map f) = some (rows.map fun k => (mahRows.map f).getD k 0) := fun f =>
    pick_some indx _ 0 halos.length (by simp [hlen]) hix
  obtain ⟨l, hl1, hl2⟩ := read_column cl indx hix
  obtain ⟨v1, r1, q1⟩ := read_column c1 indx hix
  obtain ⟨v2, r2, q2⟩ := read_column c2 indx hix
  obtain ⟨v3, r3, q3⟩ := read_column c3 indx hix
  obtain ⟨v4, r4, q4⟩ := read_column c4 indx hix
  obtain ⟨v5, r5, q5⟩ := read_column c5 indx hix
  obtain ⟨v6, r6, q6⟩ := read_column c6 indx hix
  obtain ⟨v7, r7, q7⟩ := read_column c7 indx hix
  obtain ⟨v8, r8, q8⟩ := read_column c8 indx hix
  have hs : (intColumn file "success".toList).bind (pick indx) =
      some (rows.map fun k => (halos.map fun h => (Spec.fitValues f4 h).2.2).getD k 0) := by
    have : intColumn file "success".toList = some (halos.map fun h => (Spec.fitValues f4 h).2.2) := by
      have cs' : file.get "success".toList = some (Col.int (halos.map fun h => (Spec.fitValues f4 h).2.2)) := cs
      rw [intColumn, cs']
    rw [this, Option.bind_some]
    exact pick_some indx _ 0 halos.length (by simp) hix
  have hfit : hasFitMask sim (rows.map fun k => (mahRows.map MahRow.loss).getD k 0) (rows.map l)
      (rows.map fun k => (halos.map fun h => (Spec.fitValues f4 h).2.2).getD k 0) =
      some (rows.map fun k => decide (Spec.Selected sim mahRows halos k)) := by
    have key : ∀ k ∈ rows, ∃ row h, mahRows[k]? = some row ∧ halos[k]? = some h ∧
        (mahRows.map MahRow.loss).getD k 0 = row.loss ∧
        (halos.map fun h => (Spec.fitValues f4 h).2.2).getD k 0 = (Spec.fitValues f4 h).2.2 ∧
        (Spec.Selected sim mahRows halos k ↔ 0 < row.loss ∧ (Spec.fitValues f4 h).2.2 = 1 ∧
          (sim ≠ .smdpl → gtTol (l k) (0 : EReal))) := by
      intro k hk
      have a : k < halos.length := hix k hk
      have b : k < mahRows.length := by omega
      have ha := List.getElem?_eq_getElem a
      have hb := List.getElem?_eq_getElem b
      refine ⟨mahRows[k], halos[k], hb, ha, by simp [b], by simp [a], ?_⟩
      have hclose := hl2 k _ ha
      rw [fitValues_selected, gtTol_of_close hclose]
      constructor
      · rintro ⟨row, h, p, loss, e1, e2, e3, e4, e5⟩
        rw [hb, Option.some.injEq] at e1
        rw [ha, Option.some.injEq] at e2
        subst e1 e2
        refine ⟨e3, ⟨p, loss, e4⟩, fun hsim => ?_⟩
        rw [gtTol_zero_iff]
        obtain ⟨x, hx, hx0⟩ := e5 hsim
        exact ⟨x, by simp [Spec.fitValues, e4, hx], hx0⟩
      · rintro ⟨e3, ⟨p, loss, e4⟩, e5⟩
        refine ⟨_, _, p, loss, hb, ha, e3, e4, fun hsim => ?_⟩
        have := (gtTol_zero_iff _).1 (e5 hsim)
        simpa [Spec.fitValues, e4] using this
    have hz2 : ∀ {α β γ : Type} (f : α → β → γ) (a : ℕ → α) (b : ℕ → β),
        List.zipWith f (rows.map a) (rows.map b) = rows.map fun k => f (a k) (b k) := by
      intro α β γ f a b
      apply List.ext_getElem
      · simp
      · intro i _ _
        simp
    have fin1 : ∀ g : ℕ → Bool, (∀ k ∈ rows, g k = decide (Spec.Selected sim mahRows halos k)) →
        some (rows.map g) = some (rows.map fun k => decide (Spec.Selected sim mahRows halos k)) := fun g hg =>
      congrArg some (List.map_congr_left hg)
    cases sim
    · simp only [hasFitMask]
      rw [if_neg (by simp), hz2]
      apply fin1
      intro k hk
      obtain ⟨row, h, _, _, e1, e2, e3⟩ := key k hk
      rw [e1, e2, Bool.eq_iff_iff, decide_eq_true_iff, e3]
      simp
    all_goals
      simp only [hasFitMask]
      rw [if_neg (by simp), hz2, hz2]
      apply fin1
      intro k hk
      obtain ⟨row, h, _, _, e1, e2, e3⟩ := key k hk
      rw [e1, e2, Bool.eq_iff_iff, decide_eq_true_iff, e3]
      simp
      tauto
  have hmask : ∀ {α : Type} (g : ℕ → α), maskBy (rows.map fun k => decide (Spec.Selected sim mahRows halos k)) (rows.map g) =
      some ((rows.filter fun k => decide (Spec.Selected sim mahRows halos k)).map g) := fun g =>
    maskBy_map rows _ g
  have bo : ∀ {α β : Type} {a : Option α} {x : α} {f : α → Option β} {y : β}, a = some x → f x = some y →
      a.bind f = some y := by
    intro α β a x f y h1 h2
    rw [h1, Option.bind_some, h2]
  let mc : (MahRow → ℝ) → List ℝ := fun f =>
    (rows.filter fun k => decide (Spec.Selected sim mahRows halos k)).map fun k => (mahRows.map f).getD k 0
  let sc : (ℕ → F) → List F := fun v => (rows.filter fun k => decide (Spec.Selected sim mahRows halos k)).map v
  have hread : readCatalogue sim indx mahRows file = some ⟨⟨mc fun r => r.par.logmp, mc fun r => r.par.logtc,
      mc fun r => r.par.earlyIndex, mc fun r => r.par.lateIndex, mc fun r => r.par.tPeak⟩,
      ⟨sc v1, sc v2, sc v3, sc v4, sc v5, sc v6, sc v7, sc v8⟩,
      rows.map fun k => decide (Spec.Selected sim mahRows halos k)⟩ := by
    unfold readCatalogue
    refine bo (hmah MahRow.loss) ?_
    refine bo hl1 ?_
    refine bo hs ?_
    refine bo hfit ?_
    refine bo (bo (hmah fun r => r.par.logmp) (hmask _)) ?_
    refine bo (bo (hmah fun r => r.par.logtc) (hmask _)) ?_
    refine bo (bo (hmah fun r => r.par.earlyIndex) (hmask _)) ?_
    refine bo (bo (hmah fun r => r.par.lateIndex) (hmask _)) ?_
    refine bo (bo (hmah fun r => r.par.tPeak) (hmask _)) ?_
    refine bo (bo r1 (hmask _)) ?_
    refine bo (bo r2 (hmask _)) ?_
    refine bo (bo r3 (hmask _)) ?_
    refine bo (bo r4 (hmask _)) ?_
    refine bo (bo r5 (hmask _)) ?_
    refine bo (bo r6 (hmask _)) ?_
    refine bo (bo r7 (hmask _)) ?_
    refine bo (bo r8 (hmask _)) ?_
    rfl
  refine ⟨_, hread, rfl, ?_, ?_⟩
  · simp [Spec.ColumnsOfLength, mc, sc]
  · intro j k row h p loss s hj hrow hh hf
    have hm : ∀ f : MahRow → ℝ, (mahRows.map f).getD k 0 = f row := by
      intro f
      simp [List.getD_eq_getElem?_getD, hrow]
    have hv : (Spec.fitValues f4 h).1 = ⟨f4 p.lgmcrit, f4 p.lgyAtMcrit, f4 p.indxLo, f4 p.indxHi, f4 p.lgQt, f4 p.qlglgdt,
      f4 p.lgDrop, f4 p.lgRejuv⟩ := by simp [Spec.fitValues, hf]
    have b1 := q1 k h hh
    have b2 := q2 k h hh
    have b3 := q3 k h hh
    have b4 := q4 k h hh
    have b5 := q5 k h hh
    have b6 := q6 k h hh
    have b7 := q7 k h hh
    have b8 := q8 k h hh
    rw [hv] at b1 b2 b3 b4 b5 b6 b7 b8
    have hj' : ∀ {α : Type} (g : ℕ → α), ((rows.filter fun k => decide (Spec.Selected sim mahRows halos k)).map g)[j]? =
        some (g k) := by
      intro α g
      rw [List.getElem?_map, hj]
      rfl
    refine ⟨by rw [hj', hm], by rw [hj', hm], by rw [hj', hm], by rw [hj', hm], by rw [hj', hm], ⟨_, hj' _, b1⟩,
      ⟨_, hj' _, b2⟩, ⟨_, hj' _, b3⟩, ⟨_, hj' _, b4⟩, ⟨_, hj' _, b5⟩, ⟨_, hj' _, b6⟩, ⟨_, hj' _, b7⟩, ⟨_, hj' _, b8⟩⟩

/-- A small catalogue: the first galaxy is read, the second has no fit. -/
example : ∃ file, Spec.Describes id file [exampleHalo, ⟨1, none⟩] ∧
    Spec.Selected .galacticus [⟨⟨12, 0.3, 2, 1, 14⟩, 0.1, 40⟩, ⟨⟨11, 0.3, 2, 1, 14⟩, 0.2, 30⟩] [exampleHalo, ⟨1, none⟩] 0 ∧
    ¬ Spec.Selected .galacticus [⟨⟨12, 0.3, 2, 1, 14⟩, 0.1, 40⟩, ⟨⟨11, 0.3, 2, 1, 14⟩, 0.2, 30⟩]
      [exampleHalo, ⟨1, none⟩] 1 := by
  obtain ⟨file, _, h⟩ := C53_collation_partial id [exampleHalo, ⟨1, none⟩] 1 le_rfl (by simp)
  refine ⟨file, h, ⟨_, _, _, _, rfl, rfl, by norm_num, rfl, fun _ => ⟨_, rfl, ?_⟩⟩, ?_⟩
  · rw [EReal.coe_pos]
    norm_num
  · rintro ⟨row, h, p, loss, _, e, _, e', _⟩
    simp at e
    subst e
    simp at e'

theorem fittedWith_unique {L : Libs} {t sfh : List ℝ} {mah : MahParams ℝ} {lgt0 fb : ℝ} {a b : DiffstarParams F × F × ℤ}
    (ha : Spec.FittedWith L t sfh mah lgt0 fb a) (hb : Spec.FittedWith L t sfh mah lgt0 fb b) : a = b := by
  obtain ⟨p, h1, h2, h3⟩ := ha
  obtain ⟨p', h1', h2', h3'⟩ := hb
  rw [h1] at h1'
  simp only [Option.some.injEq, Prod.mk.injEq] at h1'
  obtain ⟨rfl, e⟩ := h1'
  refine Prod.ext ?_ e
  cases p with
  | none => rw [h3 rfl, h3' rfl]
  | some q => rw [h2 q rfl, h2' q rfl]

/-- C111, end to end for Galacticus (partial: at least two galaxies per rank; diffmah fits with at least five points). The
tables read from the catalogue written by the fitting script hold, in order, the galaxies whose fit succeeded: entry `j` of
every column and of `is_cen` belongs to one galaxy `k`, with the halo parameters that were used in its fit and the
parameters found by that fit up to the rounding of the file. A galaxy is read exactly if it was to be fitted and
the fit reported success with positive loss. -/
theorem C111_galacticus_end_to_end_partial (L : Libs) (o : Opts) (ty : SfhType) (tgt : Target) (mahRows : List MahRow)
    (r n : ℕ) (t0 : ℝ) (hr : 1 ≤ r) (hn : 2 * r ≤ n) (ht0 : tgt.tarr.getLast? = some t0)
    (hins : tgt.sfhInSitu.length = n) (htot : tgt.sfhTot.length = n) (hcen : tgt.isCen.length = n)
    (hmah : mahRows.length = n) (hpts : ∀ row ∈ mahRows, 5 ≤ row.nPoints)
    (hrow : ∀ x ∈ tgt.sfhInSitu ++ tgt.sfhTot, x.length = tgt.tarr.length) :
    ∃ (file : H5) (out : FitColumns) (cen : List ℤ) (sel : List ℕ),
      galScript L o ty (writeBlock tgt) mahRows r = some file ∧ galOutName ty = galReadName ty ∧
      readCatalogue .galacticus none mahRows file = some out ∧ maskBy out.hasFit tgt.isCen = some cen ∧
      Spec.ColumnsOfLength out sel.length ∧ cen.length = sel.length ∧ sel.Pairwise (· < ·) ∧
      (∀ (j k : ℕ), sel[j]? = some k → ∃ sfh row p loss,
        (match ty with | .inSitu => tgt.sfhInSitu | .inPlusExSitu => tgt.sfhTot)[k]? = some sfh ∧
        mahRows[k]? = some row ∧ cen[j]? = tgt.isCen[k]? ∧
        Spec.FittedWith L tgt.tarr sfh row.par (Real.logb 10 t0) (0.0493 / 0.3153) (p, loss, 1) ∧
        Spec.RowOf L.f4 out j row p) ∧
      ∀ (k : ℕ) (sfh : List ℝ) (row : MahRow),
        (match ty with | .inSitu => tgt.sfhInSitu | .inPlusExSitu => tgt.sfhTot)[k]? = some sfh →
        mahRows[k]? = some row →
        (k ∈ sel ↔ 0 < row.loss ∧ o.logmp0Min < L.logMah row.par t0 (Real.logb 10 t0) ∧
          10 ^ 8 < (cumulativeMstarFormed tgt.tarr sfh).getLastD 0 ∧
          ∃ (p : DiffstarParams F) (x : EReal), 0 < x ∧
            Spec.FittedWith L tgt.tarr sfh row.par (Real.logb 10 t0) (0.0493 / 0.3153) (p, some x, 1)) := by
  obtain ⟨file, halos, hf, hd, hlen, hk⟩ := C110_galacticus_catalogue_partial L o ty tgt mahRows r n t0 hr hn ht0 hins htot
    hmah hrow
  obtain ⟨out, h1, h2, h3, h4⟩ := C111_rows_read .galacticus none mahRows L.f4 file halos hd (by omega)
    (fun i hi => List.mem_range.1 hi)
  simp only [Option.getD_none] at h2 h3 h4
  set sel := (List.range halos.length).filter fun k => decide (Spec.Selected .galacticus mahRows halos k) with hsel
  have hcol : (match ty with | .inSitu => tgt.sfhInSitu | .inPlusExSitu => tgt.sfhTot).length = n := by
    cases ty <;> assumption
  have hcenmask : maskBy out.hasFit tgt.isCen = some (sel.map fun k => tgt.isCen.getD k 0) := by
    have e : tgt.isCen = (List.range halos.length).map fun k => tgt.isCen.getD k 0 := by
      apply List.ext_getElem
      · simp [hcen, hlen]
      · intro i a b
        simp [a]
    rw [h2]
    conv_lhs => rw [e]
    exact maskBy_map _ _ _
  have hmem : ∀ (k : ℕ) (sfh : List ℝ) (row : MahRow),
      (match ty with | .inSitu => tgt.sfhInSitu | .inPlusExSitu => tgt.sfhTot)[k]? = some sfh →
      mahRows[k]? = some row →
      (k ∈ sel ↔ 0 < row.loss ∧ o.logmp0Min < L.logMah row.par t0 (Real.logb 10 t0) ∧
        10 ^ 8 < (cumulativeMstarFormed tgt.tarr sfh).getLastD 0 ∧
        ∃ (p : DiffstarParams F) (x : EReal), 0 < x ∧
          Spec.FittedWith L tgt.tarr sfh row.par (Real.logb 10 t0) (0.0493 / 0.3153) (p, some x, 1)) := by
    intro k sfh row hs hrw
    obtain ⟨h, hh, hid, hyes, hno⟩ := hk k sfh row hs hrw
    have hp5 : 5 ≤ row.nPoints := hpts row (List.mem_of_getElem? hrw)
    have hkn : k < halos.length := (List.getElem?_eq_some_iff.1 hh).1
    rw [hsel, List.mem_filter, List.mem_range, decide_eq_true_iff]
    constructor
    · rintro ⟨_, row', h', p, loss, e1, e2, e3, e4, e5⟩
      rw [hrw] at e1
      rw [hh] at e2
      cases e1
      cases e2
      have hnot : ¬ (¬ (10 ^ 8 < (cumulativeMstarFormed tgt.tarr sfh).getLastD 0) ∨ row.loss ≤ 0 ∨
          (5 ≤ row.nPoints ∧ L.logMah row.par t0 (Real.logb 10 t0) ≤ o.logmp0Min)) := by
        intro hc
        rw [hno hc] at e4
        cases e4
      push Not at hnot
      obtain ⟨g1, g2, g3⟩ := hnot
      obtain ⟨fit, f1, f2⟩ := hyes g1 g2 hp5 (g3 hp5)
      rw [e4] at f1
      cases f1
      obtain ⟨x, rfl, hx⟩ := e5 (by decide)
      exact ⟨g2, g3 hp5, g1, p, x, hx, f2⟩
    · rintro ⟨g2, g3, g1, p, x, hx, f2⟩
      obtain ⟨fit, f1, f2'⟩ := hyes g1 g2 hp5 g3
      rw [fittedWith_unique f2' f2] at f1
      exact ⟨hkn, row, h, p, some x, hrw, hh, g2, f1, fun _ => ⟨x, rfl, hx⟩⟩
  refine ⟨file, out, _, sel, hf, by cases ty <;> decide +kernel, h1, hcenmask, h3, by simp, ?_, ?_, hmem⟩
  · exact List.Pairwise.filter _ List.pairwise_lt_range
  · intro j k hj
    have hks : k ∈ sel := List.mem_of_getElem? hj
    have hkn : k < halos.length := by
      rw [hsel, List.mem_filter, List.mem_range] at hks
      exact hks.1
    have a : k < (match ty with | .inSitu => tgt.sfhInSitu | .inPlusExSitu => tgt.sfhTot).length := by omega
    have b : k < mahRows.length := by omega
    have hs := List.getElem?_eq_getElem a
    have hrw := List.getElem?_eq_getElem b
    obtain ⟨h, hh, hid, hyes, hno⟩ := hk k _ _ hs hrw
    have hks' := hks
    rw [hsel, List.mem_filter, decide_eq_true_iff] at hks'
    obtain ⟨_, row', h', p, loss, e1, e2, e3, e4, e5⟩ := hks'
    rw [hrw] at e1
    rw [hh] at e2
    cases e1
    cases e2
    obtain ⟨g2, g3, g1, p', x, hx, f2⟩ := (hmem k _ _ hs hrw).1 hks
    obtain ⟨fit, f1, f2'⟩ := hyes g1 g2 (hpts _ (List.getElem_mem b)) g3
    rw [e4] at f1
    cases f1
    refine ⟨_, _, p, loss, hs, hrw, ?_, f2', h4 j k _ h p loss 1 hj hrw hh e4⟩
    have hc : k < tgt.isCen.length := by omega
    rw [List.getElem?_map, hj, Option.map_some, List.getD_eq_getElem _ _ hc, List.getElem?_eq_getElem hc]

/-- Hypotheses of the end-to-end statement. -/
example : ∃ (tgt : Target) (mahRows : List MahRow) (t0 : ℝ), 1 ≤ 1 ∧ 2 * 1 ≤ 2 ∧ tgt.tarr.getLast? = some t0 ∧
    tgt.sfhInSitu.length = 2 ∧ tgt.sfhTot.length = 2 ∧ tgt.isCen.length = 2 ∧ mahRows.length = 2 ∧
    (∀ x ∈ tgt.sfhInSitu ++ tgt.sfhTot, x.length = tgt.tarr.length) ∧ ∀ x ∈ mahRows, 5 ≤ x.nPoints := by
  refine ⟨⟨[1, 10], [[1, 2], [3, 4]], [[2, 2], [3, 5]], [1, 0]⟩,
    [⟨⟨12, 0.3, 2, 1, 14⟩, 0.1, 40⟩, ⟨⟨11, 0.3, 2, 1, 14⟩, 0.2, 30⟩], 10, by simp, by simp, rfl, rfl, rfl, rfl, rfl, ?_, ?_⟩
  · intro x hx
    simp at hx
    rcases hx with rfl | rfl | rfl | rfl <;> rfl
  · intro x hx
    simp at hx
    rcases hx with rfl | rfl <;> norm_num

/-- C111, end to end for TNG (partial as above): the rows of chunk `c` (of 20) read from the catalogue written by the
fitting script are the galaxies of that chunk whose fits succeeded, each with the halo parameters used in its fit. -/
theorem C111_tng_end_to_end_partial (L : Libs) (o : Opts) (haloIds : List ℤ) (sfhs : List (List ℝ)) (t : List ℝ) (t0 : ℝ)
    (mahRows : List MahRow) (r c : ℕ) (hr : 1 ≤ r) (hn : 2 * r ≤ haloIds.length) (ht0 : t.getLast? = some t0)
    (hs : sfhs.length = haloIds.length) (hrow : ∀ x ∈ sfhs, x.length = t.length)
    (hmah : mahRows.length = haloIds.length) (hpts : ∀ row ∈ mahRows, 5 ≤ row.nPoints) (hc : c < 20) :
    ∃ (file : H5) (ix : List ℕ) (out : FitColumns) (sel : List ℕ),
      tngFitScript L o haloIds sfhs t mahRows r = some file ∧ tngChunkIndx mahRows c = some ix ∧
      readCatalogue .tng (some ix) mahRows file = some out ∧ Spec.ColumnsOfLength out sel.length ∧
      sel.Sublist ix ∧
      (∀ (j k : ℕ), sel[j]? = some k → ∃ sfh row p loss, sfhs[k]? = some sfh ∧ mahRows[k]? = some row ∧
        Spec.FittedWith L t sfh row.par (Real.logb 10 t0) (0.0486 / 0.3089) (p, loss, 1) ∧
        Spec.RowOf L.f4 out j row p) ∧
      ∀ (k : ℕ) (sfh : List ℝ) (row : MahRow), k ∈ ix → sfhs[k]? = some sfh → mahRows[k]? = some row →
        (k ∈ sel ↔ 0 < row.loss ∧ ∃ (p : DiffstarParams F) (x : EReal), 0 < x ∧
            Spec.FittedWith L t sfh row.par (Real.logb 10 t0) (0.0486 / 0.3089) (p, some x, 1)) := by
  obtain ⟨file, halos, hf, hd, hlen, hk⟩ := C110_tng_catalogue_partial L o haloIds sfhs t t0 mahRows r hr hn ht0 hs hrow hmah
  have hchunk : ∃ ix, tngChunkIndx mahRows c = some ix ∧ ∀ i ∈ ix, i < halos.length := by
    have hl : c < (arraySplit (List.range mahRows.length) NCHUNKS).length := by
      rw [arraySplit_length]; exact hc
    refine ⟨_, List.getElem?_eq_getElem hl, fun i hi => ?_⟩
    have hi' : i ∈ (arraySplit (List.range mahRows.length) NCHUNKS).flatten :=
      List.mem_flatten.2 ⟨_, List.getElem_mem hl, hi⟩
    rw [arraySplit_flatten _ _ (by decide), List.mem_range] at hi'
    omega
  obtain ⟨ix, hix1, hix2⟩ := hchunk
  obtain ⟨out, h1, h2, h3, h4⟩ := C111_rows_read .tng (some ix) mahRows L.f4 file halos hd (by omega) hix2
  simp only [Option.getD_some] at h2 h3 h4
  set sel := ix.filter fun k => decide (Spec.Selected .tng mahRows halos k) with hsel
  have hgal : ∀ k ∈ ix, ∃ id sfh row h p loss s, haloIds[k]? = some id ∧ sfhs[k]? = some sfh ∧ mahRows[k]? = some row ∧
      halos[k]? = some h ∧ h.fit = some (p, loss, s) ∧
      (0 ≤ row.loss → Spec.FittedWith L t sfh row.par (Real.logb 10 t0) (0.0486 / 0.3089) (p, loss, s)) := by
    intro k hkix
    have hkn := hix2 k hkix
    have a1 : k < haloIds.length := by omega
    have a2 : k < sfhs.length := by omega
    have a3 : k < mahRows.length := by omega
    obtain ⟨h, ⟨p, loss, s⟩, g1, _, g3, g4⟩ := hk k _ _ _ (List.getElem?_eq_getElem a1) (List.getElem?_eq_getElem a2)
      (List.getElem?_eq_getElem a3)
    refine ⟨_, _, _, h, p, loss, s, List.getElem?_eq_getElem a1, List.getElem?_eq_getElem a2,
      List.getElem?_eq_getElem a3, g1, g3, fun hl => ?_⟩
    have h5 := hpts _ (List.getElem_mem a3)
    rwa [if_neg (by rintro (h | h) <;> [linarith; omega])] at g4
  refine ⟨file, ix, out, sel, hf, hix1, h1, h3, List.filter_sublist, ?_, ?_⟩
  · intro j k hj
    have hks : k ∈ sel := List.mem_of_getElem? hj
    rw [hsel, List.mem_filter, decide_eq_true_iff] at hks
    obtain ⟨hkix, row', h', p', loss', e1, e2, e3, e4, _⟩ := hks
    obtain ⟨id, sfh, row, h, p, loss, s, g1, g2, g3, g4, g5, g6⟩ := hgal k hkix
    rw [g3] at e1
    rw [g4] at e2
    cases e1
    cases e2
    rw [g5] at e4
    cases e4
    exact ⟨sfh, row', p', loss', g2, g3, g6 e3.le, h4 j k row' h' p' loss' 1 hj g3 g4 g5⟩
  · intro k sfh row hkix hs' hrw
    obtain ⟨id, sfh', row', h, p, loss, s, g1, g2, g3, g4, g5, g6⟩ := hgal k hkix
    rw [hs'] at g2
    rw [hrw] at g3
    cases g2
    cases g3
    rw [hsel, List.mem_filter, decide_eq_true_iff]
    constructor
    · rintro ⟨_, row', h', p', loss', e1, e2, e3, e4, e5⟩
      rw [hrw] at e1
      rw [g4] at e2
      cases e1
      cases e2
      rw [g5] at e4
      cases e4
      obtain ⟨x, rfl, hx⟩ := e5 (by decide)
      exact ⟨e3, p, x, hx, g6 e3.le⟩
    · rintro ⟨e3, p', x, hx, e4⟩
      have := fittedWith_unique (g6 e3.le) e4
      cases this
      exact ⟨hkix, row, h, p, some x, hrw, g4, e3, g5, fun _ => ⟨x, rfl, hx⟩⟩

/-- Hypotheses of the end-to-end statements for TNG and SMDPL. -/
example : ∃ (haloIds : List ℤ) (sfhs : List (List ℝ)) (t : List ℝ) (mahRows : List MahRow), 1 ≤ 1 ∧
    2 * 1 ≤ haloIds.length ∧ t.getLast? = some 10 ∧ sfhs.length = haloIds.length ∧ (∀ x ∈ sfhs, x.length = t.length) ∧
    mahRows.length = haloIds.length ∧ ∀ row ∈ mahRows, 5 ≤ row.nPoints := by
  refine ⟨[7, 9], [[1, 2], [3, 4]], [1, 10], [⟨⟨12, 0.3, 2, 1, 14⟩, 0.1, 40⟩, ⟨⟨11, 0.3, 2, 1, 14⟩, 0.2, 30⟩], by simp,
    by simp, rfl, rfl, ?_, rfl, ?_⟩
  · intro x hx
    simp at hx
    rcases hx with rfl | rfl <;> rfl
  · intro x hx
    simp at hx
    rcases hx with rfl | rfl <;> norm_num

/-- C111, end to end for SMDPL (partial as above; the positive loss is not asked for). -/
theorem C111_smdpl_end_to_end_partial (L : Libs) (o : Opts) (haloIds : List ℤ) (sfhs : List (List ℝ)) (t : List ℝ)
    (mahRows : List MahRow) (r : ℕ) (hr : 1 ≤ r) (hn : 2 * r ≤ haloIds.length) (ht : t ≠ [])
    (hs : sfhs.length = haloIds.length) (hrow : ∀ x ∈ sfhs, x.length = t.length)
    (hmah : mahRows.length = haloIds.length) (hpts : ∀ row ∈ mahRows, 5 ≤ row.nPoints) :
    ∃ (file : H5) (out : FitColumns) (sel : List ℕ), umScript L o haloIds sfhs t mahRows r = some file ∧
      readCatalogue .smdpl none mahRows file = some out ∧ Spec.ColumnsOfLength out sel.length ∧
      out.hasFit.length = haloIds.length ∧ sel.Pairwise (· < ·) ∧
      (∀ (j k : ℕ), sel[j]? = some k → ∃ sfh row p loss, sfhs[k]? = some sfh ∧ mahRows[k]? = some row ∧
        Spec.FittedWith L t sfh row.par (Real.logb 10 13.820002) (0.048206 / 0.307115) (p, loss, 1) ∧
        Spec.RowOf L.f4 out j row p) ∧
      ∀ (k : ℕ) (sfh : List ℝ) (row : MahRow), sfhs[k]? = some sfh → mahRows[k]? = some row →
        (k ∈ sel ↔ 0 < row.loss ∧ o.logmp0Min < L.logMah row.par 13.820002 (Real.logb 10 13.820002) ∧
          ∃ (p : DiffstarParams F) (loss : F),
            Spec.FittedWith L t sfh row.par (Real.logb 10 13.820002) (0.048206 / 0.307115) (p, loss, 1)) := by
  obtain ⟨file, halos, hf, hd, hlen, hk⟩ := (C110_smdpl_catalogue_partial L o haloIds sfhs t mahRows r hr hn ht hs hrow).2
    hmah
  obtain ⟨out, h1, h2, h3, h4⟩ := C111_rows_read .smdpl none mahRows L.f4 file halos hd (by omega)
    (fun i hi => List.mem_range.1 hi)
  simp only [Option.getD_none] at h2 h3 h4
  set sel := (List.range halos.length).filter fun k => decide (Spec.Selected .smdpl mahRows halos k) with hsel
  have hmem : ∀ (k : ℕ) (sfh : List ℝ) (row : MahRow), sfhs[k]? = some sfh → mahRows[k]? = some row →
      ((k ∈ sel → ∃ h p loss, halos[k]? = some h ∧ h.fit = some (p, loss, 1) ∧
        Spec.FittedWith L t sfh row.par (Real.logb 10 13.820002) (0.048206 / 0.307115) (p, loss, 1)) ∧
      (k ∈ sel ↔ 0 < row.loss ∧ o.logmp0Min < L.logMah row.par 13.820002 (Real.logb 10 13.820002) ∧
        ∃ (p : DiffstarParams F) (loss : F),
          Spec.FittedWith L t sfh row.par (Real.logb 10 13.820002) (0.048206 / 0.307115) (p, loss, 1))) := by
    intro k sfh row hs' hrw
    have hkh : k < haloIds.length := by rw [← hmah]; exact (List.getElem?_eq_some_iff.1 hrw).1
    obtain ⟨h, hh, hid, hyes, hno⟩ := hk k _ sfh row (List.getElem?_eq_getElem hkh) hs' hrw
    have hp5 : 5 ≤ row.nPoints := hpts row (List.mem_of_getElem? hrw)
    have hfwd : k ∈ sel → 0 < row.loss ∧ o.logmp0Min < L.logMah row.par 13.820002 (Real.logb 10 13.820002) ∧
        ∃ p loss, halos[k]? = some h ∧ h.fit = some (p, loss, 1) ∧
          Spec.FittedWith L t sfh row.par (Real.logb 10 13.820002) (0.048206 / 0.307115) (p, loss, 1) := by
      intro hks
      rw [hsel, List.mem_filter, decide_eq_true_iff] at hks
      obtain ⟨_, row', h', p, loss, e1, e2, e3, e4, _⟩ := hks
      rw [hrw] at e1
      rw [hh] at e2
      cases e1
      cases e2
      have hnot : ¬ (¬ True ∨ row.loss ≤ 0 ∨
          (5 ≤ row.nPoints ∧ L.logMah row.par 13.820002 (Real.logb 10 13.820002) ≤ o.logmp0Min)) := by
        intro hc
        rw [hno hc] at e4
        cases e4
      push Not at hnot
      obtain ⟨_, g2, g3⟩ := hnot
      obtain ⟨fit, f1, f2⟩ := hyes trivial g2 hp5 (g3 hp5)
      rw [e4] at f1
      cases f1
      exact ⟨g2, g3 hp5, p, loss, hh, e4, f2⟩
    refine ⟨fun hks => ?_, fun hks => ?_, ?_⟩
    · obtain ⟨_, _, p, loss, a, b, c⟩ := hfwd hks
      exact ⟨h, p, loss, a, b, c⟩
    · obtain ⟨a, b, p, loss, _, _, c⟩ := hfwd hks
      exact ⟨a, b, p, loss, c⟩
    · rintro ⟨g2, g3, p, loss, f2⟩
      obtain ⟨fit, f1, f2'⟩ := hyes trivial g2 hp5 g3
      rw [fittedWith_unique f2' f2] at f1
      rw [hsel, List.mem_filter, decide_eq_true_iff, List.mem_range]
      exact ⟨by omega, row, h, p, loss, hrw, hh, g2, f1, fun hc => absurd rfl hc⟩
  refine ⟨file, out, sel, hf, h1, h3, by rw [h2]; simp [hlen], List.Pairwise.filter _ List.pairwise_lt_range, ?_,
    fun k sfh row a b => (hmem k sfh row a b).2⟩
  intro j k hj
  have hks : k ∈ sel := List.mem_of_getElem? hj
  have hkn : k < halos.length := by
    rw [hsel, List.mem_filter, List.mem_range] at hks
    exact hks.1
  have a : k < sfhs.length := by omega
  have b : k < mahRows.length := by omega
  obtain ⟨h, p, loss, e1, e2, e3⟩ := (hmem k _ _ (List.getElem?_eq_getElem a) (List.getElem?_eq_getElem b)).1 hks
  exact ⟨_, _, p, loss, List.getElem?_eq_getElem a, List.getElem?_eq_getElem b, e3,
    h4 j k _ h p loss 1 hj (List.getElem?_eq_getElem b) e1 e2⟩

/-- C111, violated for the tabulated histories of TNG: the fits use the baryon fraction 0.0486/0.3089 and the tables
0.156, so for the very same parameters, halo and times (and a halo history that does not depend on `lgt0`) a tabulated SFR
above the floor is smaller than the fitted one by the factor 0.99154. -/
theorem C111_tng_baryon_fraction_violated (logMah : MahParams ℝ → ℝ → ℝ → ℝ) (p : DiffstarParams ℝ) (mah : MahParams ℝ)
    (t : List ℝ) (i : ℕ) (hi : i < t.length) (ht : 0 < t[i]) (t0 : ℝ)
    (hlgt0 : ∀ x, logMah mah x (Real.logb 10 t0) = logMah mah x (Real.logb 10 13.8)) (s s' : ℝ)
    (hfit : (calcSfhSinglegal logMah p mah t (Real.logb 10 t0) (0.0486 / 0.3089))[i]? = some s)
    (htab : (calcSfhSinglegal logMah p mah t (Real.logb 10 13.8) 0.156)[i]? = some s') (hfloor : 1 / 10 ^ 14 < s') :
    s' = 0.156 * 0.3089 / 0.0486 * s ∧ s' < s ∧ 0.9915 * s < s' ∧ s' < 0.9916 * s := by
  obtain ⟨S, hS, h⟩ := C10_fb_scaling logMah p mah t (Real.logb 10 t0) i hi ht
  have heq : calcSfhSinglegal logMah p mah t (Real.logb 10 13.8) 0.156 =
      calcSfhSinglegal logMah p mah t (Real.logb 10 t0) 0.156 := by
    rw [calcSfhSinglegal_eq, calcSfhSinglegal_eq]
    apply List.map_congr_left
    intro x _
    rw [hlgt0 x]
  rw [heq] at htab
  rw [h, Option.some.injEq] at hfit htab
  have e1 : s' = 0.156 * S := by
    rw [← htab] at hfloor ⊢
    rcases lt_max_iff.1 hfloor with g | g
    · exact absurd g (lt_irrefl _)
    · rw [max_eq_right g.le]
  have e2 : s = 0.0486 / 0.3089 * S := by
    rw [← hfit]
    have : 1 / 10 ^ 14 ≤ 0.0486 / 0.3089 * S := by
      have a : 0.156 * S ≤ 0.0486 / 0.3089 * S := mul_le_mul_of_nonneg_right (by norm_num) hS.le
      rw [e1] at hfloor
      linarith
    rw [max_eq_right this]
  rw [e1, e2]
  refine ⟨by ring, ?_, ?_, ?_⟩ <;> nlinarith

/-- The two baryon fractions and times are the ones of the script and of `load_diffstar_sfh_tables`; and the floor is
exceeded by a galaxy before its quenching event. -/
example : (FB_TNG = 0.0486 / 0.3089 ∧ FB = 0.156 ∧ LGT0 = Real.logb 10 13.8) ∧
    ∃ s' : ℝ, (calcSfhSinglegal (fun (_ : MahParams ℝ) _ _ => 12) ⟨12, -10, 1, -1, 1, -0.5, -1, -0.5⟩ ⟨12, 0.3, 2, 1, 14⟩ [1]
      (Real.logb 10 13.8) 0.156)[0]? = some s' ∧ 1 / 10 ^ 14 < s' := by
  refine ⟨⟨rfl, rfl, rfl⟩, ?_⟩
  rw [calcSfhSinglegal_eq]
  refine ⟨_, rfl, ?_⟩
  rw [lt_max_iff]
  right
  rw [qExp_before (by positivity)]
  · norm_num [Spec.msSfr, Spec.msLogEfficiency]
  · simp only [Real.logb_one]
    have : (10 : ℝ) ^ (-0.5 : ℝ) ≤ 1 := Real.rpow_le_one_of_one_le_of_nonpos (by norm_num) (by norm_num)
    linarith

end Diffstar.Props
