import Verif.Model.FitScripts
import Verif.Props.Loaders
import Verif.Props.FitLoss
import Verif.Props.SampleArrays
import Verif.Props.TngRanks

/-!
C110: the catalogues written by the fitting scripts.
-/

namespace Diffstar.Spec

open Diffstar.Fit Diffstar.Output Diffstar.Load Diffstar.Scripts

/-- `fit` is the result of `diffstar_fitter(t, sfh, mah)` with the cuts of the module: 3.5 dex, 1 Gyr, `10**7` Msun, delay
1 Gyr, sSFR floor `1e-12`. -/
def FittedWith (L : Libs) (t sfh : List ℝ) (mah : MahParams ℝ) (lgt0 fb : ℝ) (fit : DiffstarParams F × F × ℤ) : Prop :=
  ∃ p, diffstarFitter L.logMah L.normal L.gradNan L.minimize t sfh mah 3.5 1 7 1 (1 / 10 ^ 12) lgt0 fb = some (p, fit.2) ∧
    (∀ q, p = some q → fit.1 = ⟨some (q.lgmcrit : EReal), some (q.lgyAtMcrit : EReal), some (q.indxLo : EReal),
      some (q.indxHi : EReal), some (q.lgQt : EReal), some (q.qlglgdt : EReal), some (q.lgDrop : EReal),
      some (q.lgRejuv : EReal)⟩) ∧
    (p = none → fit.1 = ⟨none, none, none, none, none, none, none, none⟩)

/-- What a script has to say about the galaxy with history `sfh` and diffmah fit `row`: it is fitted with its own history
and its own halo if `cut` holds and the diffmah fit is usable and massive enough today, and gets the no-fit row if not.
(Nothing is said about diffmah fits with positive loss and fewer than five points: see C54.) -/
def CatalogueRow (L : Libs) (logmp0Min : ℝ) (t : List ℝ) (t0 fb : ℝ) (cut : Prop) (haloId : ℤ) (sfh : List ℝ) (row : MahRow)
    (h : HaloOut) : Prop :=
  h.haloId = haloId ∧
  (cut → 0 < row.loss → 5 ≤ row.nPoints → logmp0Min < L.logMah row.par t0 (Real.logb 10 t0) →
    ∃ fit, h.fit = some fit ∧ FittedWith L t sfh row.par (Real.logb 10 t0) fb fit) ∧
  (¬ cut ∨ row.loss ≤ 0 ∨ (5 ≤ row.nPoints ∧ L.logMah row.par t0 (Real.logb 10 t0) ≤ logmp0Min) → h.fit = none)

end Diffstar.Spec

namespace Diffstar.Props

open Diffstar.Text Diffstar.Fit Diffstar.Output Diffstar.Load Diffstar.Galcus Diffstar.Scripts

/-! ### Helpers -/

theorem callFitter_some (L : Libs) (o : Opts) (t sfh : List ℝ) (mah : MahParams ℝ) (lgt0 fb : ℝ)
    (hl : sfh.length = t.length) (hn : t ≠ []) :
    ∃ fit, callFitter L o t sfh mah lgt0 fb = some fit ∧ Spec.FittedWith L t sfh mah lgt0 fb fit := by
  have hlm := cmf_length t sfh hl
  have hn0 : t.length ≠ 0 := fun e => hn (List.length_eq_zero_iff.1 e)
  have hfl : (fstarTarget t (cumulativeMstarFormed t sfh) FSTAR_TIME_DELAY SSFRH_FLOOR).length = t.length := by
    simp [fstarTarget, hlm, computeFstar_length]
  have hw := (C46_weights t ((cumulativeMstarFormed t sfh).map (Real.logb 10))
    ((fstarTarget t (cumulativeMstarFormed t sfh) FSTAR_TIME_DELAY SSFRH_FLOOR).map (Real.logb 10)) FSTAR_TIME_DELAY
    DLOGM_CUT T_FIT_MIN MIN_MASS_CUT).1.2 ⟨hn0, by simp [hlm], by simp [hfl]⟩
  obtain ⟨w, hw⟩ := Option.isSome_iff_exists.1 hw
  have hd : ∃ x, getLossDataDefault L.logMah t sfh mah DLOGM_CUT T_FIT_MIN MIN_MASS_CUT FSTAR_TIME_DELAY
      SSFRH_FLOOR lgt0 fb = some x := by
    rw [getLossDataDefault, if_neg (by simpa using hl)]
    simp only [hw]
    exact ⟨_, rfl⟩
  obtain ⟨x, hx⟩ := hd
  have hf : ∃ r, diffstarFitter L.logMah L.normal L.gradNan L.minimize t sfh mah DLOGM_CUT T_FIT_MIN MIN_MASS_CUT
      FSTAR_TIME_DELAY SSFRH_FLOOR lgt0 fb = some r := by
    rw [diffstarFitter, hx]; exact ⟨_, rfl⟩
  obtain ⟨⟨p, ls⟩, hr⟩ := hf
  refine ⟨(floats p, ls), by rw [callFitter, hr]; rfl, p, ?_, ?_, ?_⟩
  · simpa only [DLOGM_CUT, T_FIT_MIN, MIN_MASS_CUT, FSTAR_TIME_DELAY, SSFRH_FLOOR] using hr
  · rintro q rfl; rfl
  · rintro rfl; rfl

theorem ranks_split {α : Type} (n r : ℕ) (E : ℕ → α) (rank : ℕ → Option (List α))
    (h : ∀ k < r, rank k = some (((arraySplit (List.range n) r).getD k []).map E)) :
    (List.range r).mapM rank = some (arraySplit ((List.range n).map E) r) := by
  rw [mapM_pure_some rank (fun k => ((arraySplit (List.range n) r).getD k []).map E) _
    (fun k hk => h k (List.mem_range.1 hk)), arraySplit_map]
  congr 1
  apply List.ext_getElem
  · simp [arraySplit_length]
  · intro i h1 h2
    simp only [List.getElem_map, List.getElem_range]
    rw [List.getD_eq_getElem]

/-- The catalogue written when rank `k` writes the rows `E i` of its part of the galaxies. -/
theorem collate_split (f4 : F → F) (n r : ℕ) (hr : 1 ≤ r) (hn : 2 * r ≤ n) (E : ℕ → HaloOut)
    (rank : ℕ → Option (List HaloOut))
    (h : ∀ k < r, rank k = some (((arraySplit (List.range n) r).getD k []).map E)) :
    ∃ file, ((List.range r).mapM rank).bind (collate f4) = some file ∧
      Spec.Describes f4 file ((List.range n).map E) := by
  rw [ranks_split n r E rank h]
  exact C53_collation_partial f4 ((List.range n).map E) r hr (by simpa using hn)

theorem gtTol_npLog10 (m : ℝ) : gtTol (npLog10 m) ((8 : ℝ) : EReal) ↔ 10 ^ 8 < m := by
  unfold npLog10
  split_ifs with h1 h2
  · simp only [gtTol, false_iff, not_lt]
    linarith [show (0 : ℝ) ≤ 10 ^ 8 by norm_num]
  · rw [h2]
    simp [gtTol]
  · have hm : 0 < m := lt_of_le_of_ne (not_lt.1 h1) (Ne.symm h2)
    simp only [gtTol, EReal.coe_lt_coe_iff]
    rw [Real.lt_logb_iff_rpow_lt (by norm_num) hm]
    norm_num

theorem loadRow_usable {logMah : MahParams ℝ → ℝ → ℝ → ℝ} {dflt : MahParams ℝ} {t0 : ℝ} {row : MahRow}
    (h1 : 0 ≤ row.loss) (h2 : 5 ≤ row.nPoints) :
    loadRow logMah dflt t0 NPTS_FIT_MIN row =
      (row.par, logMah row.par t0 (Real.logb 10 t0), row.loss, row.nPoints) := by
  have hn : ¬ (row.loss < 0 ∨ row.nPoints < NPTS_FIT_MIN) := by
    rintro (h | h)
    · linarith
    · unfold NPTS_FIT_MIN at h; omega
  unfold loadRow
  simp [hn]

theorem loadRow_loss {logMah : MahParams ℝ → ℝ → ℝ → ℝ} {dflt : MahParams ℝ} {t0 : ℝ} {k : ℤ} {row : MahRow} :
    (loadRow logMah dflt t0 k row).2.2.1 = row.loss := rfl

/-- The row of a galaxy in the Galacticus script. -/
theorem galHalo_row (L : Libs) (o : Opts) (t : List ℝ) (t0 : ℝ) (k : ℕ) (sfh : List ℝ) (row : MahRow)
    (hl : sfh.length = t.length) (hn : t ≠ []) :
    ∃ h, galHalo L o t t0 k sfh (loadRow L.logMah L.defaultMah t0 NPTS_FIT_MIN row) = some h ∧
      Spec.CatalogueRow L o.logmp0Min t t0 (0.0493 / 0.3153) (10 ^ 8 < (cumulativeMstarFormed t sfh).getLastD 0) k sfh row h := by
  set m := loadRow L.logMah L.defaultMah t0 NPTS_FIT_MIN row with hm
  obtain ⟨fit, hfit, hF⟩ := callFitter_some L o t sfh m.1 (Real.logb 10 t0) FB_GALACTICUS hl hn
  have hfb : FB_GALACTICUS = 0.0493 / 0.3153 := by norm_num [FB_GALACTICUS]
  rw [galHalo, if_neg (by simpa using hl)]
  simp only
  by_cases hrun : runFitterGalacticus o.logmp0Min m.2.1 m.2.2.1 (npLog10 ((cumulativeMstarFormed t sfh).getLastD 0)) = true
  · rw [if_pos hrun, hfit]
    refine ⟨_, rfl, rfl, ?_, ?_⟩
    · intro _ h1 h2 _
      refine ⟨fit, rfl, ?_⟩
      have : m.1 = row.par := by rw [hm, loadRow_usable h1.le h2]
      rw [this, hfb] at hF
      exact hF
    · intro hno
      exfalso
      simp only [runFitterGalacticus, Bool.and_eq_true, decide_eq_true_eq, MIN_LOGSM_Z0, gtTol_npLog10] at hrun
      obtain ⟨⟨r1, r2, _⟩, r3⟩ := hrun
      rcases hno with h | h | ⟨h1, h2⟩
      · exact h r3
      · rw [hm, loadRow_loss] at r2; linarith
      · rw [hm, loadRow_loss] at r2
        rw [hm, loadRow_usable (le_of_lt r2) h1] at r1
        linarith
  · rw [if_neg hrun]
    refine ⟨_, rfl, rfl, ?_, fun _ => rfl⟩
    intro c h1 h2 h3
    exfalso
    apply hrun
    simp only [runFitterGalacticus, Bool.and_eq_true, decide_eq_true_eq, MIN_LOGSM_Z0, gtTol_npLog10]
    rw [hm, loadRow_usable h1.le h2]
    exact ⟨⟨h3, h1, h3⟩, c⟩

theorem numCol_map (t : List ℝ) : numCol (t.map Cell.num) = some t := by
  unfold numCol
  rw [List.mapM_map]
  exact (mapM_pure_some _ (fun x : ℝ => x) t (fun _ _ => rfl)).trans (by rw [List.map_id'])

theorem rowCol_map (a : List (List ℝ)) : rowCol (a.map Cell.row) = some a := by
  unfold rowCol
  rw [List.mapM_map]
  exact (mapM_pure_some _ (fun x : List ℝ => x) a (fun _ _ => rfl)).trans (by rw [List.map_id'])

theorem slice_map {α β : Type} (f : α → β) (l : List α) (i e : ℕ) :
    slice (l.map f) i (some e) = (slice l i (some e)).map f := by
  simp [slice, List.map_take, List.map_drop]

/-- The column of the block file that is fitted. -/
def fitColumn (ty : SfhType) (tgt : Target) : List (List ℝ) :=
  match ty with
  | .inSitu => tgt.sfhInSitu
  | .inPlusExSitu => tgt.sfhTot

theorem galRank_eq (L : Libs) (o : Opts) (ty : SfhType) (tgt : Target) (mahRows : List MahRow) (r k : ℕ) (t0 : ℝ)
    (E : ℕ → HaloOut) (n : ℕ) (hins : tgt.sfhInSitu.length = n) (ht0 : tgt.tarr.getLast? = some t0) (hr : 1 ≤ r)
    (hn : r ≤ n) (hk : k < r)
    (hE : ∀ i < n, ∃ sfh row, (fitColumn ty tgt)[i]? = some sfh ∧ mahRows[i]? = some row ∧
      galHalo L o tgt.tarr t0 i sfh (loadRow L.logMah L.defaultMah t0 NPTS_FIT_MIN row) = some (E i)) :
    galRank L o ty (writeBlock tgt) mahRows r k = some (((arraySplit (List.range n) r).getD k []).map E) := by
  obtain ⟨istart, iend, h1, h2, h3, h4, h5⟩ := C70_rank_block_contiguous n r k hr hn hk
  have hnd : ((writeBlock tgt).map Prod.fst).Nodup := by
    show (["sfh_in_situ".toList, "sfh_tot".toList, "is_cen".toList, "tarr".toList] : List Str).Nodup
    decide +kernel
  have hblock := C58_galacticus_block (writeBlock tgt) istart iend hnd (tgt.tarr.map Cell.num)
    (tgt.sfhInSitu.map Cell.row) (tgt.sfhTot.map Cell.row) (tgt.isCen.map Cell.flag)
    (by simp [writeBlock]) (by simp [writeBlock]) (by simp [writeBlock]) (by simp [writeBlock])
  have hlook : (writeBlock tgt).lookup "sfh_in_situ".toList = some (tgt.sfhInSitu.map Cell.row) := by
    simp [writeBlock, List.lookup]
  have e1 : iend - 1 + 1 = iend := by omega
  have htarr : ∀ a b c : List Cell, List.lookup "tarr".toList [("sfh_in_situ".toList, a), ("sfh_tot".toList, b),
      ("is_cen".toList, c), ("tarr".toList, tgt.tarr.map Cell.num)] = some (tgt.tarr.map Cell.num) := by
    intro a b c
    have n1 : ("tarr".toList == "sfh_in_situ".toList) = false := by decide +kernel
    have n2 : ("tarr".toList == "sfh_tot".toList) = false := by decide +kernel
    have n3 : ("tarr".toList == "is_cen".toList) = false := by decide +kernel
    simp only [List.lookup, n1, n2, n3, beq_self_eq_true]
  have hcol : ∀ c d : List Cell, (List.lookup (sfhColname ty) [("sfh_in_situ".toList, slice (tgt.sfhInSitu.map Cell.row) istart (some iend)),
      ("sfh_tot".toList, slice (tgt.sfhTot.map Cell.row) istart (some iend)),
      ("is_cen".toList, c), ("tarr".toList, d)]).bind rowCol =
      some (slice (fitColumn ty tgt) istart (some iend)) := by
    intro c d
    have n1 : ("sfh_tot".toList == "sfh_in_situ".toList) = false := by decide +kernel
    cases ty
    · have e : sfhColname .inSitu = "sfh_in_situ".toList := rfl
      rw [e, List.lookup_cons_self, Option.bind_some, slice_map, rowCol_map]
      rfl
    · have e : sfhColname .inPlusExSitu = "sfh_tot".toList := rfl
      rw [e, List.lookup_cons, n1]
      simp only []
      rw [List.lookup_cons_self, Option.bind_some, slice_map, rowCol_map]
      rfl
  unfold galRank
  simp only [hlook, Option.bind_eq_bind, Option.bind_some, List.length_map, hins, h1, h2, e1, hblock, htarr, numCol_map,
    ht0, hcol]
  have hids : slice (List.range n) istart (some iend) = List.range' istart (iend - istart) := by
    apply List.ext_getElem?
    intro i
    rw [(C58_block_rows _ istart iend i).1]
    by_cases hi : istart + i < iend
    · rw [if_pos hi, List.getElem?_range (by omega), List.getElem?_range' (by omega)]
      simp
    · rw [if_neg hi, List.getElem?_eq_none (by rw [List.length_range']; omega)]
  rw [hids, List.length_range', mapM_pure_some _ (fun i => E (istart + i)), h5]
  · congr 1
    apply List.ext_getElem
    · simp
    · intro i a b
      simp
  · intro i hi
    have hi' : istart + i < iend := by have := List.mem_range.1 hi; omega
    obtain ⟨sfh, row, g1, g2, g3⟩ := hE (istart + i) (by omega)
    rw [List.getElem?_range' (by omega), (C58_block_rows (fitColumn ty tgt) istart iend i).1, if_pos hi', g1, loadDiffmahFits,
      List.getElem?_map, (C58_block_rows mahRows istart iend i).1, if_pos hi', g2]
    simpa using g3

/-- C110 (partial: at least two galaxies per rank, see C53; the options for the fit have no effect, next theorem). The
file written by the Galacticus script lists the galaxies of the block file in order, whatever the number of ranks: row
`k` carries the id `k` and the fit of row `k` of the histories of the fitColumn type, with halo parameters from row `k` of
the file of diffmah fits; or the no-fit values if that diffmah fit failed or is not massive enough or the galaxy formed at
most `10**8` Msun. -/
theorem C110_galacticus_catalogue_partial (L : Libs) (o : Opts) (ty : SfhType) (tgt : Target) (mahRows : List MahRow)
    (r n : ℕ) (t0 : ℝ) (hr : 1 ≤ r) (hn : 2 * r ≤ n) (ht0 : tgt.tarr.getLast? = some t0)
    (hins : tgt.sfhInSitu.length = n) (htot : tgt.sfhTot.length = n) (hmah : mahRows.length = n)
    (hrow : ∀ x ∈ tgt.sfhInSitu ++ tgt.sfhTot, x.length = tgt.tarr.length) :
    ∃ file halos, galScript L o ty (writeBlock tgt) mahRows r = some file ∧ Spec.Describes L.f4 file halos ∧
      halos.length = n ∧
      ∀ (k : ℕ) (sfh : List ℝ) (row : MahRow),
        (match ty with | .inSitu => tgt.sfhInSitu | .inPlusExSitu => tgt.sfhTot)[k]? = some sfh →
        mahRows[k]? = some row →
        ∃ h, halos[k]? = some h ∧ Spec.CatalogueRow L o.logmp0Min tgt.tarr t0 (0.0493 / 0.3153)
          (10 ^ 8 < (cumulativeMstarFormed tgt.tarr sfh).getLastD 0) k sfh row h := by
  have htn : tgt.tarr ≠ [] := by rintro h; rw [h] at ht0; simp at ht0
  have hlen : (fitColumn ty tgt).length = n := by cases ty <;> assumption
  have hrow' : ∀ x ∈ fitColumn ty tgt, x.length = tgt.tarr.length := by
    intro x hx
    apply hrow
    cases ty
    · exact List.mem_append_left _ hx
    · exact List.mem_append_right _ hx
  have hex : ∀ i, ∃ h, i < n → ∃ sfh row, (fitColumn ty tgt)[i]? = some sfh ∧ mahRows[i]? = some row ∧
      galHalo L o tgt.tarr t0 i sfh (loadRow L.logMah L.defaultMah t0 NPTS_FIT_MIN row) = some h ∧
      Spec.CatalogueRow L o.logmp0Min tgt.tarr t0 (0.0493 / 0.3153)
        (10 ^ 8 < (cumulativeMstarFormed tgt.tarr sfh).getLastD 0) i sfh row h := by
    intro i
    by_cases hi : i < n
    · have a : i < (fitColumn ty tgt).length := by omega
      have b : i < mahRows.length := by omega
      obtain ⟨h, h1, h2⟩ := galHalo_row L o tgt.tarr t0 i (fitColumn ty tgt)[i] mahRows[i]
        (hrow' _ (List.getElem_mem a)) htn
      exact ⟨h, fun _ => ⟨_, _, List.getElem?_eq_getElem a, List.getElem?_eq_getElem b, h1, h2⟩⟩
    · exact ⟨⟨0, none⟩, fun h => absurd h hi⟩
  choose E hE using hex
  obtain ⟨file, hf, hd⟩ := collate_split L.f4 n r hr hn E (galRank L o ty (writeBlock tgt) mahRows r) (fun k hk =>
    galRank_eq L o ty tgt mahRows r k t0 E n hins ht0 hr (by omega) hk fun i hi => by
      obtain ⟨sfh, row, a, b, c, _⟩ := hE i hi
      exact ⟨sfh, row, a, b, c⟩)
  refine ⟨file, _, hf, hd, by simp, ?_⟩
  intro k sfh row hs hrw
  have hs' : (fitColumn ty tgt)[k]? = some sfh := hs
  have hk : k < n := by
    have := (List.getElem?_eq_some_iff.1 hrw).1
    omega
  obtain ⟨sfh', row', a, b, _, d⟩ := hE k hk
  rw [hs'] at a
  rw [hrw] at b
  cases a
  cases b
  exact ⟨E k, by rw [List.getElem?_map, List.getElem?_range hk]; rfl, d⟩

/-- Two galaxies at two times, one rank. -/
example : ∃ (tgt : Target) (mahRows : List MahRow) (t0 : ℝ), 1 ≤ 1 ∧ 2 * 1 ≤ 2 ∧ tgt.tarr.getLast? = some t0 ∧
    tgt.sfhInSitu.length = 2 ∧ tgt.sfhTot.length = 2 ∧ mahRows.length = 2 ∧
    (∀ x ∈ tgt.sfhInSitu ++ tgt.sfhTot, x.length = tgt.tarr.length) ∧
    ∀ x ∈ mahRows, 0 < x.loss ∧ 5 ≤ x.nPoints := by
  refine ⟨⟨[1, 10], [[1, 2], [3, 4]], [[2, 2], [3, 5]], [1, 0]⟩,
    [⟨⟨12, 0.3, 2, 1, 14⟩, 0.1, 40⟩, ⟨⟨11, 0.3, 2, 1, 14⟩, 0.2, 30⟩], 10, by simp, by simp, rfl, rfl, rfl, rfl, ?_, ?_⟩
  · intro x hx
    simp at hx
    rcases hx with rfl | rfl | rfl | rfl <;> rfl
  · intro x hx
    simp at hx
    rcases hx with rfl | rfl <;> norm_num

theorem takeIdx_some {α : Type} (l : List α) (indx : List ℕ) (d : α) (h : ∀ i ∈ indx, i < l.length) :
    takeIdx l indx = some (indx.map fun i => l.getD i d) := by
  unfold takeIdx
  exact mapM_pure_some _ _ _ fun i hi => by
    rw [List.getD_eq_getElem _ _ (h i hi)]
    exact List.getElem?_eq_getElem (h i hi)

/-- The rows of the galaxies with indices `indx`. -/
theorem rank_rows {α β γ δ : Type} (xs : List α) (ys : List β) (zs : List γ) (indx : List ℕ) (f : α → β → γ → Option δ)
    (E : ℕ → δ) (m : ℕ) (hm : m = indx.length)
    (h : ∀ i (hi : i < indx.length), ∃ x y z, xs[i]? = some x ∧ ys[i]? = some y ∧ zs[i]? = some z ∧
      f x y z = some (E indx[i])) :
    ((List.range m).mapM fun i => do
      let x ← xs[i]?
      let y ← ys[i]?
      let z ← zs[i]?
      f x y z) = some (indx.map E) := by
  subst hm
  have e : indx.map E = (List.range indx.length).map fun i => if h : i < indx.length then E indx[i] else E 0 := by
    apply List.ext_getElem
    · simp
    · intro i a b
      have : i < indx.length := by simpa using a
      simp [this]
  rw [e]
  refine mapM_pure_some _ _ _ fun i hi => ?_
  have hi' := List.mem_range.1 hi
  obtain ⟨x, y, z, h1, h2, h3, h4⟩ := h i hi'
  simp only [h1, h2, h3, Option.bind_eq_bind, Option.bind_some, h4, dif_pos hi']

theorem umHalo_row (L : Libs) (o : Opts) (t : List ℝ) (id : ℤ) (sfh : List ℝ) (row : MahRow)
    (hl : sfh.length = t.length) (hn : t ≠ []) :
    ∃ h, umHalo L o t id sfh (loadRow L.logMah L.defaultMah T0_SMDPL NPTS_FIT_MIN row) = some h ∧
      Spec.CatalogueRow L o.logmp0Min t 13.820002 (0.048206 / 0.307115) True id sfh row h := by
  set m := loadRow L.logMah L.defaultMah T0_SMDPL NPTS_FIT_MIN row with hm
  obtain ⟨fit, hfit, hF⟩ := callFitter_some L o t sfh m.1 (Real.logb 10 T0_SMDPL) FB_SMDPL hl hn
  rw [umHalo]
  by_cases hrun : runFitterUm o.logmp0Min m.2.1 m.2.2.1 = true
  · rw [if_pos hrun, hfit]
    refine ⟨_, rfl, rfl, ?_, ?_⟩
    · intro _ h1 h2 _
      refine ⟨fit, rfl, ?_⟩
      have : m.1 = row.par := by rw [hm, loadRow_usable h1.le h2]
      rw [this] at hF
      exact hF
    · intro hno
      exfalso
      simp only [runFitterUm, Bool.and_eq_true, decide_eq_true_eq] at hrun
      obtain ⟨r1, r2, _⟩ := hrun
      rcases hno with h | h | ⟨h1, h2⟩
      · exact h trivial
      · rw [hm, loadRow_loss] at r2; linarith
      · rw [hm, loadRow_loss] at r2
        rw [hm, loadRow_usable (le_of_lt r2) h1] at r1
        simp only [T0_SMDPL] at r1
        linarith
  · rw [if_neg hrun]
    refine ⟨_, rfl, rfl, ?_, fun _ => rfl⟩
    intro c h1 h2 h3
    exfalso
    apply hrun
    simp only [runFitterUm, Bool.and_eq_true, decide_eq_true_eq]
    rw [hm, loadRow_usable h1.le h2]
    exact ⟨h3, h1, h3⟩

/-- C110 (partial as above). The file written by the SMDPL script for a subvolume lists its galaxies in the order of the
loaded histories, whatever the number of ranks, each with its own id, history and diffmah fit. A subvolume whose file of
diffmah fits has another number of rows is refused. -/
theorem C110_smdpl_catalogue_partial (L : Libs) (o : Opts) (haloIds : List ℤ) (sfhs : List (List ℝ)) (t : List ℝ)
    (mahRows : List MahRow) (r : ℕ) (hr : 1 ≤ r) (hn : 2 * r ≤ haloIds.length) (ht : t ≠ [])
    (hs : sfhs.length = haloIds.length) (hrow : ∀ x ∈ sfhs, x.length = t.length) :
    (mahRows.length ≠ haloIds.length → umScript L o haloIds sfhs t mahRows r = none) ∧
    (mahRows.length = haloIds.length →
      ∃ file halos, umScript L o haloIds sfhs t mahRows r = some file ∧ Spec.Describes L.f4 file halos ∧
        halos.length = haloIds.length ∧
        ∀ (k : ℕ) (id : ℤ) (sfh : List ℝ) (row : MahRow), haloIds[k]? = some id → sfhs[k]? = some sfh →
          mahRows[k]? = some row →
          ∃ h, halos[k]? = some h ∧
            Spec.CatalogueRow L o.logmp0Min t 13.820002 (0.048206 / 0.307115) True id sfh row h) := by
  have hlen : (loadDiffmahFits L.logMah L.defaultMah T0_SMDPL NPTS_FIT_MIN mahRows 0 none).length = mahRows.length := by
    simp [loadDiffmahFits, slice]
  constructor
  · intro hne
    unfold umScript
    obtain ⟨r', rfl⟩ : ∃ r', r = r' + 1 := ⟨r - 1, by omega⟩
    have : umRank L o haloIds sfhs t mahRows (r' + 1) 0 = none := by
      unfold umRank
      rw [if_pos (by rw [hlen]; exact fun e => hne e.symm)]
    rw [List.range_succ_eq_map, List.mapM_cons, this]
    rfl
  · intro hmah
    have hex : ∀ i, ∃ h, i < haloIds.length → ∃ id sfh row, haloIds[i]? = some id ∧ sfhs[i]? = some sfh ∧
        mahRows[i]? = some row ∧
        umHalo L o t id sfh (loadRow L.logMah L.defaultMah T0_SMDPL NPTS_FIT_MIN row) = some h ∧
        Spec.CatalogueRow L o.logmp0Min t 13.820002 (0.048206 / 0.307115) True id sfh row h := by
      intro i
      by_cases hi : i < haloIds.length
      · have a : i < sfhs.length := by omega
        have b : i < mahRows.length := by omega
        obtain ⟨h, h1, h2⟩ := umHalo_row L o t haloIds[i] sfhs[i] mahRows[i] (hrow _ (List.getElem_mem a)) ht
        exact ⟨h, fun _ => ⟨_, _, _, List.getElem?_eq_getElem hi, List.getElem?_eq_getElem a,
          List.getElem?_eq_getElem b, h1, h2⟩⟩
      · exact ⟨⟨0, none⟩, fun h => absurd h hi⟩
    choose E hE using hex
    obtain ⟨file, hf, hd⟩ := collate_split L.f4 haloIds.length r hr hn E (umRank L o haloIds sfhs t mahRows r)
      (fun k hk => by
        obtain ⟨istart, iend, h1, h2, h3, h4, h5⟩ := C70_rank_block_contiguous haloIds.length r k hr (by omega) hk
        set indx := (arraySplit (List.range haloIds.length) r).getD k [] with hindx
        have hmem : ∀ i ∈ indx, i < haloIds.length := by
          intro i hi
          rw [h5, List.mem_range'_1] at hi
          omega
        unfold umRank
        rw [if_neg (by rw [hlen]; exact fun e => e hmah.symm), ← hindx]
        have k1 := takeIdx_some haloIds indx 0 hmem
        have k2 := takeIdx_some sfhs indx [] (fun i hi => by rw [hs]; exact hmem i hi)
        have k3 := takeIdx_some _ indx (L.defaultMah, (0 : ℝ), (0 : ℝ), (0 : ℤ))
          (fun i hi => by rw [hlen, hmah]; exact hmem i hi)
        simp only [Option.bind_eq_bind, Option.bind_some, k1, k2, k3]
        refine rank_rows _ _ _ indx _ E _ (by simp) fun i hi => ?_
        obtain ⟨id, sfh, row, e1, e2, e3, e4, _⟩ := hE indx[i] (hmem _ (List.getElem_mem hi))
        refine ⟨id, sfh, loadRow L.logMah L.defaultMah T0_SMDPL NPTS_FIT_MIN row, ?_, ?_, ?_, e4⟩
        · simp only [List.getElem?_map, List.getElem?_eq_getElem hi, Option.map_some, List.getD_eq_getElem?_getD, e1]
          rfl
        · simp only [List.getElem?_map, List.getElem?_eq_getElem hi, Option.map_some, List.getD_eq_getElem?_getD, e2]
          rfl
        · simp only [List.getElem?_map, List.getElem?_eq_getElem hi, Option.map_some, List.getD_eq_getElem?_getD,
            loadDiffmahFits, (C58_block_rows mahRows 0 0 _).2, Nat.zero_add, e3]
          rfl)
    refine ⟨file, _, hf, hd, by simp, ?_⟩
    intro k id sfh row h1 h2 h3
    have hk := (List.getElem?_eq_some_iff.1 h1).1
    obtain ⟨id', sfh', row', a, b, c, _, d⟩ := hE k hk
    rw [h1] at a
    rw [h2] at b
    rw [h3] at c
    cases a
    cases b
    cases c
    exact ⟨E k, by rw [List.getElem?_map, List.getElem?_range hk]; rfl, d⟩

/-- C110 (partial as above). The file written by the TNG script lists the galaxies in the order of the loaded histories,
each with its own id, and every galaxy is fitted: with its own diffmah fit if that is usable, and with the placeholder
halo (all parameters -1) if it failed or has fewer than five points. -/
theorem C110_tng_catalogue_partial (L : Libs) (o : Opts) (haloIds : List ℤ) (sfhs : List (List ℝ)) (t : List ℝ) (t0 : ℝ)
    (mahRows : List MahRow) (r : ℕ) (hr : 1 ≤ r) (hn : 2 * r ≤ haloIds.length) (ht0 : t.getLast? = some t0)
    (hs : sfhs.length = haloIds.length) (hrow : ∀ x ∈ sfhs, x.length = t.length)
    (hmah : mahRows.length = haloIds.length) :
    ∃ file halos, tngFitScript L o haloIds sfhs t mahRows r = some file ∧ Spec.Describes L.f4 file halos ∧
      halos.length = haloIds.length ∧
      ∀ (k : ℕ) (id : ℤ) (sfh : List ℝ) (row : MahRow), haloIds[k]? = some id → sfhs[k]? = some sfh →
        mahRows[k]? = some row →
        ∃ h fit, halos[k]? = some h ∧ h.haloId = id ∧ h.fit = some fit ∧
          Spec.FittedWith L t sfh (if row.loss < 0 ∨ row.nPoints < 5 then ⟨-1, -1, -1, -1, -1⟩ else row.par) (Real.logb 10 t0)
            (0.0486 / 0.3089) fit := by
  have ht : t ≠ [] := by rintro h; rw [h] at ht0; simp at ht0
  have hex : ∀ i, ∃ h : HaloOut, i < haloIds.length → ∃ id sfh row fit, haloIds[i]? = some id ∧ sfhs[i]? = some sfh ∧
      mahRows[i]? = some row ∧ tngHalo L o t t0 id sfh (loadRow L.logMah L.defaultMah t0 NPTS_FIT_MIN row) = some h ∧
      h.haloId = id ∧ h.fit = some fit ∧
      Spec.FittedWith L t sfh (if row.loss < 0 ∨ row.nPoints < 5 then ⟨-1, -1, -1, -1, -1⟩ else row.par) (Real.logb 10 t0)
            (0.0486 / 0.3089) fit := by
    intro i
    by_cases hi : i < haloIds.length
    · have a : i < sfhs.length := by omega
      have b : i < mahRows.length := by omega
      obtain ⟨fit, h1, h2⟩ := callFitter_some L o t sfhs[i]
        (loadRow L.logMah L.defaultMah t0 NPTS_FIT_MIN mahRows[i]).1 (Real.logb 10 t0) FB_TNG
        (hrow _ (List.getElem_mem a)) ht
      have e : (loadRow L.logMah L.defaultMah t0 NPTS_FIT_MIN mahRows[i]).1 =
          if mahRows[i].loss < 0 ∨ mahRows[i].nPoints < 5 then ⟨-1, -1, -1, -1, -1⟩ else mahRows[i].par := by
        by_cases hc : mahRows[i].loss < 0 ∨ mahRows[i].nPoints < 5
        · rw [if_pos hc]
          have hc' : mahRows[i].loss < 0 ∨ mahRows[i].nPoints < NPTS_FIT_MIN := hc
          simp [loadRow, hc']
        · rw [if_neg hc]
          push Not at hc
          rw [loadRow_usable hc.1 hc.2]
      rw [e] at h2
      exact ⟨⟨haloIds[i], some fit⟩, fun _ => ⟨_, _, _, fit, List.getElem?_eq_getElem hi, List.getElem?_eq_getElem a,
          List.getElem?_eq_getElem b, by rw [tngHalo, h1]; rfl, rfl, rfl, h2⟩⟩
    · exact ⟨⟨0, none⟩, fun h => absurd h hi⟩
  choose E hE using hex
  obtain ⟨file, hf, hd⟩ := collate_split L.f4 haloIds.length r hr hn E (tngFitRank L o haloIds sfhs t mahRows r)
    (fun k hk => by
      obtain ⟨istart, iend, h1, h2, h3, h4, h5⟩ := C70_rank_block_contiguous haloIds.length r k hr (by omega) hk
      set indx := (arraySplit (List.range haloIds.length) r).getD k [] with hindx
      have hmem : ∀ i ∈ indx, i < haloIds.length := by
        intro i hi
        rw [h5, List.mem_range'_1] at hi
        omega
      have e1 : iend - 1 + 1 = iend := by omega
      unfold tngFitRank
      have k1 := takeIdx_some haloIds indx 0 hmem
      have k2 := takeIdx_some sfhs indx [] (fun i hi => by rw [hs]; exact hmem i hi)
      simp only [← hindx, ht0, h1, h2, e1, Option.bind_eq_bind, Option.bind_some, k1, k2]
      refine rank_rows _ _ _ indx _ E _ (by simp) fun i hi => ?_
      have hii : indx[i] = istart + i := by simp [h5]
      have hilt : istart + i < iend := by
        have := hi
        rw [h5, List.length_range'] at this
        omega
      obtain ⟨id, sfh, row, fit, e1, e2, e3, e4, _⟩ := hE indx[i] (hmem _ (List.getElem_mem hi))
      refine ⟨id, sfh, loadRow L.logMah L.defaultMah t0 NPTS_FIT_MIN row, ?_, ?_, ?_, e4⟩
      · simp only [List.getElem?_map, List.getElem?_eq_getElem hi, Option.map_some, List.getD_eq_getElem?_getD, e1]
        rfl
      · simp only [List.getElem?_map, List.getElem?_eq_getElem hi, Option.map_some, List.getD_eq_getElem?_getD, e2]
        rfl
      · rw [hii] at e3
        simp only [loadDiffmahFits, List.getElem?_map, (C58_block_rows mahRows istart iend i).1, if_pos hilt, e3]
        rfl)
  refine ⟨file, _, hf, hd, by simp, ?_⟩
  intro k id sfh row h1 h2 h3
  have hk := (List.getElem?_eq_some_iff.1 h1).1
  obtain ⟨id', sfh', row', fit, a, b, c, _, d, e, g⟩ := hE k hk
  rw [h1] at a
  rw [h2] at b
  rw [h3] at c
  cases a
  cases b
  cases c
  exact ⟨E k, fit, by rw [List.getElem?_map, List.getElem?_range hk]; rfl, d, e, g⟩

/-- Two galaxies at two times, one rank. -/
example : ∃ (haloIds : List ℤ) (sfhs : List (List ℝ)) (t : List ℝ) (mahRows : List MahRow), 1 ≤ 1 ∧
    2 * 1 ≤ haloIds.length ∧ t.getLast? = some 10 ∧ sfhs.length = haloIds.length ∧ (∀ x ∈ sfhs, x.length = t.length) ∧
    mahRows.length = haloIds.length := by
  refine ⟨[7, 9], [[1, 2], [3, 4]], [1, 10], [⟨⟨12, 0.3, 2, 1, 14⟩, 0.1, 40⟩, ⟨⟨11, 0.3, 2, 1, 14⟩, 0.2, 30⟩], by simp,
    by simp, rfl, rfl, ?_, rfl⟩
  intro x hx
  simp at hx
  rcases hx with rfl | rfl <;> rfl

/-- C110, violated for the options: `-fstar_tdelay`, `-mass_fit_min` and `-ssfrh_floor` have no effect on any of the three
catalogues. They ought to: a galaxy with a time step after 1 Gyr whose mass is above `10**7` Msun, within 3.5 dex and at
least 0.5 dex below the last one, and at most the requested `10**mass_fit_min`, has that step in its fit with full weight,
while the requested cut gives it the weight of an excluded step. -/
theorem C110_options_ignored_violated (L : Libs) (o o' : Opts) (h : o.logmp0Min = o'.logmp0Min) :
    (galScript L o = galScript L o' ∧ umScript L o = umScript L o' ∧ tngFitScript L o = tngFitScript L o') ∧
    ∀ (t sfh : List ℝ) (mah : MahParams ℝ) (lgt0 fb : ℝ) (i : ℕ) (hi : i < t.length) (m last : ℝ),
      sfh.length = t.length → (cumulativeMstarFormed t sfh)[i]? = some m →
      (cumulativeMstarFormed t sfh).getLast? = some last → 1 ≤ t[i] → 7 < Real.logb 10 m →
      Real.logb 10 last - 3.5 < Real.logb 10 m → Real.logb 10 m ≤ Real.logb 10 last - 0.5 →
      Real.logb 10 m ≤ o.massFitMin →
      ∃ init d init' d',
        getLossDataDefault L.logMah t sfh mah 3.5 1 7 1 (1 / 10 ^ 12) lgt0 fb = some (init, d) ∧ d.weight[i]? = some 1 ∧
        getLossDataDefault L.logMah t sfh mah 3.5 1 o.massFitMin o.fstarTdelay o.ssfrhFloor lgt0 fb = some (init', d') ∧
        d'.weight[i]? = some (10 ^ 10) := by
  have hc : callFitter L o = callFitter L o' := rfl
  refine ⟨⟨?_, ?_, ?_⟩, ?_⟩
  · funext ty block mahRows nranks
    have : galHalo L o = galHalo L o' := by
      funext tarr t0 id sfh m
      simp only [galHalo, h, hc]
    unfold galScript galRank
    rw [this]
  · funext ids sfhs t mahRows nranks
    have : umHalo L o = umHalo L o' := by
      funext t id sfh m
      simp only [umHalo, h, hc]
    unfold umScript umRank
    rw [this]
  · rfl
  · intro t sfh mah lgt0 fb i hi m last hl hm hlast h1 h2 h3 h4 h5
    have hlm := cmf_length t sfh hl
    have hn0 : t.length ≠ 0 := by omega
    have key : ∀ mmin τ floor, ∃ init d, getLossDataDefault L.logMah t sfh mah 3.5 1 mmin τ floor lgt0 fb = some (init, d) ∧
        d.weight[i]? = some (if mmin < Real.logb 10 m then 1 else 10 ^ 10) := by
      intro mmin τ floor
      have hfl : (fstarTarget t (cumulativeMstarFormed t sfh) τ floor).length = t.length := by
        simp [fstarTarget, hlm, computeFstar_length]
      have hw := (C46_weights t ((cumulativeMstarFormed t sfh).map (Real.logb 10))
        ((fstarTarget t (cumulativeMstarFormed t sfh) τ floor).map (Real.logb 10)) τ 3.5 1 mmin).1.2
        ⟨hn0, by simp [hlm], by simp [hfl]⟩
      obtain ⟨⟨w, wf⟩, hw⟩ := Option.isSome_iff_exists.1 hw
      obtain ⟨_, _, last', top, g1, _, _, g2⟩ := (C46_weights _ _ _ _ _ _ _).2 w wf hw
      refine ⟨_, _, by
        rw [getLossDataDefault, if_neg (by simpa using hl)]
        simp only [hw]
        rfl, ?_⟩
      have g := (g2 i hi (by simp [hlm, hi]) (by simp [hfl, hi])).1
      have e1 : last' = Real.logb 10 last := by
        rw [List.getLast?_map, hlast] at g1
        simpa using g1.symm
      have hi' : i < (cumulativeMstarFormed t sfh).length := by rw [hlm]; exact hi
      have e2 : ((cumulativeMstarFormed t sfh).map (Real.logb 10))[i]'(by simpa using hi') = Real.logb 10 m := by
        rw [List.getElem_map]
        rw [List.getElem?_eq_getElem hi'] at hm
        rw [Option.some.inj hm]
      rw [e1] at g
      simp only [e2] at g
      show w[i]? = _
      rw [g, if_neg (by linarith)]
      congr 1
      refine if_congr ?_ rfl rfl
      constructor
      · rintro ⟨_, b | b, _⟩
        · linarith
        · exact b
      · intro b
        exact ⟨h3, Or.inr b, h1⟩
    obtain ⟨init, d, a, b⟩ := key 7 1 (1 / 10 ^ 12)
    obtain ⟨init', d', a', b'⟩ := key o.massFitMin o.fstarTdelay o.ssfrhFloor
    rw [if_pos h2] at b
    rw [if_neg (not_lt.2 h5)] at b'
    exact ⟨init, d, init', d', a, b, a', b'⟩

/-- One and ten Msun/yr at 1 and 10 Gyr with `-mass_fit_min 9`: the first step has between `10**8` and `10**9` Msun, the
last more than `10**10`. -/
example : ∃ m last : ℝ, (cumulativeMstarFormed [1, 10] [1, 10])[0]? = some m ∧
    (cumulativeMstarFormed [1, 10] [1, 10]).getLast? = some last ∧ 7 < Real.logb 10 m ∧
    Real.logb 10 last - 3.5 < Real.logb 10 m ∧ Real.logb 10 m ≤ Real.logb 10 last - 0.5 ∧ Real.logb 10 m ≤ 9 := by
  have e : cumulativeMstarFormed [1, 10] [1, 10] =
      [0.999 * (1 + 1 / 10 ^ 14) / 2 * 10 ^ 9, (0.999 * (1 + 1 / 10 ^ 14) / 2 + 49.5) * 10 ^ 9] := by
    rw [cmf_eq]
    norm_num [trapFrom]
  refine ⟨0.999 * (1 + 1 / 10 ^ 14) / 2 * 10 ^ 9, (0.999 * (1 + 1 / 10 ^ 14) / 2 + 49.5) * 10 ^ 9, by rw [e]; rfl,
    by rw [e]; rfl, ?_⟩
  set m : ℝ := 0.999 * (1 + 1 / 10 ^ 14) / 2 * 10 ^ 9 with hm
  set last : ℝ := (0.999 * (1 + 1 / 10 ^ 14) / 2 + 49.5) * 10 ^ 9 with hlast
  have a1 : 8 < Real.logb 10 m := by
    rw [Real.lt_logb_iff_rpow_lt (by norm_num) (by rw [hm]; norm_num), hm]; norm_num
  have a2 : Real.logb 10 m < 9 := by
    rw [Real.logb_lt_iff_lt_rpow (by norm_num) (by rw [hm]; norm_num), hm]; norm_num
  have a3 : 10 < Real.logb 10 last := by
    rw [Real.lt_logb_iff_rpow_lt (by norm_num) (by rw [hlast]; norm_num), hlast]; norm_num
  have a4 : Real.logb 10 last < 11 := by
    rw [Real.logb_lt_iff_lt_rpow (by norm_num) (by rw [hlast]; norm_num), hlast]; norm_num
  clear_value m last
  refine ⟨by linarith, by linarith, by linarith, by linarith⟩

/-- C110: the subvolumes fitted by the SMDPL script are `istart`, …, `iend - 1`; with the default options (`0` and `-1`)
there are none. -/
theorem C110_smdpl_subvolumes (istart iend s : ℤ) :
    (s ∈ umSubvolumes istart iend ↔ istart ≤ s ∧ s < iend) ∧ (umSubvolumes istart iend).Nodup ∧
      umSubvolumes 0 (-1) = [] := by
  refine ⟨?_, ?_, rfl⟩
  · simp only [umSubvolumes, List.mem_map, List.mem_range]
    constructor
    · rintro ⟨a, h, rfl⟩
      omega
    · rintro ⟨h1, h2⟩
      exact ⟨(s - istart).toNat, by omega, by omega⟩
  · refine List.Nodup.map ?_ List.nodup_range
    intro a b h
    simpa using h

end Diffstar.Props
