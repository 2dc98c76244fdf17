import Verif.Model.QualityRows
import Verif.Props.Quality
import Verif.Props.TngRanks
import Verif.Props.FitTables
import Verif.Lemmas.Targets

/-!
C117: which galaxies the quality script compares with which fits. C118: the stellar-to-halo mass relation from the
histograms of the chunks.
-/

namespace Diffstar.Spec

open Diffstar.Targets Diffstar.Quality

/-- A row of the TNG catalogue with usable fits. -/
def Usable (r : CatRow) : Prop := 0 < r.diffmahLoss ∧ 0 < r.diffstarLoss ∧ r.success = 1

/-- The history of a row of the catalogue at the table times `linspace(0.01, 13.8, 200)`. -/
noncomputable def tabulated (logMah : MahParams ℝ → ℝ → ℝ → ℝ) (r : CatRow) :
    GalHistory (List ℝ) :=
  calcSfhSinglegalSmh logMah r.sfh r.mah (linspace 0.01 13.8 200) (Real.logb 10 13.8) 0.156

/-- Linear interpolation at `x` of the logarithm of a table of values at `linspace(0.01, 13.8, 200)`. -/
noncomputable def interpLog (x : ℝ) (values : List ℝ) : ℝ :=
  npInterp x (linspace 0.01 13.8 200) (values.map (Real.logb 10))

open Classical in
/-- Galaxies of the simulation with their own fits: row `k` of the data with row `k` of the catalogue, for the rows with
usable fits and with final halo mass in the bin. -/
noncomputable def compared (lo hi : ℝ) (data : List SimGal) (cat : List CatRow) : List (SimGal × CatRow) :=
  (data.zip cat).filter fun x => decide (Usable x.2 ∧ lo < x.1.logmp0 ∧ x.1.logmp0 < hi)

end Diffstar.Spec

namespace Diffstar.Props

open Diffstar Diffstar.Targets Diffstar.Output Diffstar.Quality

open Classical

theorem ten_rpow_LGT0 : (10 : ℝ) ^ LGT0 = 13.8 :=
  Real.rpow_logb (by norm_num) (by norm_num) (by norm_num [TODAY])

theorem tTable_eq : tTable = linspace 0.01 13.8 200 := by
  unfold tTable
  rw [ten_rpow_LGT0]
  rfl

theorem tTable_length : tTable.length = 200 := by simp [tTable, linspace]

theorem loadTables_tng (logMah : MahParams ℝ → ℝ → ℝ → ℝ) (lgt0 : ℝ) (n : ℕ) (cat : List CatRow) :
    loadTables .tng logMah lgt0 n cat =
      some ((cat.filter fun r => decide (hasFit .tng r)).map (tableRow logMah lgt0 n)) := by
  simp [loadTables, tableRows, pyCall, calcSfhGalpopRequired, keywordsGiven]

theorem tableArray_map (row : ℕ → ℝ) (l : List ℝ) (hl : l.length = 200) (f : ℝ → ℝ)
    (h : ∀ i (hi : i < 200), row i = f l[i]) : tableArray row = l.map f := by
  apply List.ext_getElem
  · simp [tableArray, tTable_length, hl]
  · intro i a b
    simp only [tableArray, List.length_map, List.length_range, tTable_length] at a
    simp only [tableArray, List.getElem_map, List.getElem_range]
    exact h i a

theorem tabulated_length (logMah : MahParams ℝ → ℝ → ℝ → ℝ) (r : CatRow) :
    (Spec.tabulated logMah r).sfh.length = 200 ∧ (Spec.tabulated logMah r).smh.length = 200 := by
  have := calcSfhSinglegalSmh_length logMah r.sfh r.mah (linspace 0.01 13.8 200) (Real.logb 10 13.8) 0.156
  have hl : (linspace 0.01 13.8 200).length = 200 := by simp [linspace]
  rwa [hl] at this

theorem tableRow_eq (logMah : MahParams ℝ → ℝ → ℝ → ℝ) (r : CatRow) (i : ℕ) :
    (tableRow logMah LGT0 200 r).logSmh i = Real.logb 10 ((Spec.tabulated logMah r).smh.getD i 0) ∧
    (tableRow logMah LGT0 200 r).logSsfr i = Real.logb 10 ((Spec.tabulated logMah r).sfh.getD i 0) -
      Real.logb 10 ((Spec.tabulated logMah r).smh.getD i 0) := by
  have e : linspace T_TABLE_MIN ((10 : ℝ) ^ LGT0) 200 = linspace 0.01 13.8 200 := tTable_eq
  unfold tableRow
  simp only [e]
  exact ⟨rfl, rfl⟩

theorem compareRow_eq (logMah : MahParams ℝ → ℝ → ℝ → ℝ) (t : List ℝ) (it : ℕ) (x : ℝ) (hx : t[it]? = some x)
    (g : SimGal) (r : CatRow) :
    compareRow t it g (tableRow logMah LGT0 200 r) =
      ⟨g.logSmah.getD it 0, g.sfr.getD it 0, Spec.interpLog x (Spec.tabulated logMah r).smh,
       Spec.interpLog x (Spec.tabulated logMah r).sfh, g.logmp0⟩ := by
  obtain ⟨l1, l2⟩ := tabulated_length logMah r
  have e1 : (tableArray fun i => (tableRow logMah LGT0 200 r).logSmh i) =
      (Spec.tabulated logMah r).smh.map (Real.logb 10) := by
    refine tableArray_map _ _ l2 _ fun i hi => ?_
    rw [(tableRow_eq logMah r i).1, List.getD_eq_getElem _ _ (by omega)]
  have e2 : (tableArray fun i => (tableRow logMah LGT0 200 r).logSsfr i + (tableRow logMah LGT0 200 r).logSmh i) =
      (Spec.tabulated logMah r).sfh.map (Real.logb 10) := by
    refine tableArray_map _ _ l1 _ fun i hi => ?_
    rw [(tableRow_eq logMah r i).1, (tableRow_eq logMah r i).2, sub_add_cancel, List.getD_eq_getElem _ _ (by omega)]
  unfold compareRow
  simp only [e1, e2, tTable_eq]
  simp [hx, Spec.interpLog]

theorem maskRows_zip {α β : Type*} (z : List (α × β)) (P : β → Prop) :
    maskRows ((z.map Prod.snd).map fun r => decide (P r)) (z.map Prod.fst) =
      some ((z.filter fun q => decide (P q.2)).map Prod.fst) := by
  unfold maskRows
  rw [if_neg (by simp)]
  congr 1
  induction z with
  | nil => rfl
  | cons a z ih =>
    by_cases h : P a.2 <;> simpa [h] using ih

theorem tngRows_zip (logMah : MahParams ℝ → ℝ → ℝ → ℝ) (t : List ℝ) (it : ℕ) (z : List (SimGal × CatRow)) (c : ℕ)
    (hc : c < 20) :
    tngRows logMah t it (z.map Prod.fst) (z.map Prod.snd) c = ((arraySplit z 20)[c]?).map fun p =>
      (p.filter fun q => decide (hasFit .tng q.2)).map fun q => compareRow t it q.1 (tableRow logMah LGT0 200 q.2) := by
  obtain ⟨p, hp, -⟩ := arraySplit_getElem? z 20 c hc
  have e : (List.filter (fun r => decide (hasFit .tng r)) (List.map Prod.snd p)) =
      (p.filter fun q => decide (hasFit .tng q.2)).map Prod.snd := by
    rw [List.filter_map]; rfl
  simp only [tngRows, chunk, NCHUNKS, arraySplit_map, List.getElem?_map, hp, Option.map_some, Option.bind_eq_bind,
    Option.bind_some, loadTables_tng, maskRows_zip, e]
  simp [List.zipWith_map, List.zipWith_self]

theorem plotTng_eq (logMah : MahParams ℝ → ℝ → ℝ → ℝ) (t : List ℝ) (it : ℕ) (z : List (SimGal × CatRow)) (lo hi : ℝ) :
    ∃ subvols, calculatePlotTng logMah t it (z.map Prod.fst) (z.map Prod.snd) lo hi = some (means lo hi subvols) ∧
      subvols.flatten = (z.filter fun q => decide (hasFit .tng q.2)).map fun q =>
        compareRow t it q.1 (tableRow logMah LGT0 200 q.2) := by
  set F : List (SimGal × CatRow) → List Gal := fun p => (p.filter fun q => decide (hasFit .tng q.2)).map fun q =>
    compareRow t it q.1 (tableRow logMah LGT0 200 q.2) with hF
  have hl : (arraySplit z 20).length = 20 := arraySplit_length z 20
  refine ⟨(arraySplit z 20).map F, ?_, ?_⟩
  · have : (List.range 20).mapM (tngRows logMah t it (z.map Prod.fst) (z.map Prod.snd)) =
        some ((arraySplit z 20).map F) := by
      rw [mapM_congr_mem _ (fun c => ((arraySplit z 20)[c]?).bind fun p => some (F p)) _ fun c hc => by
        rw [tngRows_zip logMah t it z c (List.mem_range.1 hc), Option.map_eq_bind]; rfl]
      have h := mapM_range_bind (fun p => some (F p)) (arraySplit z 20)
      rw [hl] at h
      rw [h]
      exact mapM_pure_some _ _ _ fun _ _ => rfl
    simp [calculatePlotTng, this]
  · conv_rhs => rw [← arraySplit_flatten z 20 (by norm_num)]
    rw [hF, List.filter_flatten, List.map_flatten, List.map_map]
    rfl

theorem galsIn_compared (logMah : MahParams ℝ → ℝ → ℝ → ℝ) (t : List ℝ) (it : ℕ) (data : List SimGal)
    (cat : List CatRow) (lo hi : ℝ) (subvols : List (List Gal))
    (h : subvols.flatten = ((data.zip cat).filter fun q => decide (hasFit .tng q.2)).map fun q =>
      compareRow t it q.1 (tableRow logMah LGT0 200 q.2)) :
    Spec.galsIn lo hi subvols = (Spec.compared lo hi data cat).map fun q =>
      compareRow t it q.1 (tableRow logMah LGT0 200 q.2) := by
  unfold Spec.galsIn Spec.compared
  rw [h, List.filter_map, List.filter_filter]
  congr 1
  apply List.filter_congr
  intro q _
  rw [Bool.eq_iff_iff, Bool.and_eq_true]
  constructor
  · rintro ⟨a, b⟩
    exact decide_eq_true ⟨of_decide_eq_true b, of_decide_eq_true a⟩
  · intro c
    have c := of_decide_eq_true c
    exact ⟨decide_eq_true c.2, decide_eq_true c.1⟩

/-! ### C117 -/

/-- C117 (partial: TNG; no SFR of the data exactly 0 or 1 and no logarithm exactly 0, see C85): for catalogues with as many
rows as the simulation, each saved value is the average over the galaxies of the mass bin with usable fits, of the
simulated history of the galaxy and of the history of the fit of the same galaxy. Every such galaxy enters once. The
history of the fit is the interpolation in time of the logarithms of the history with its parameters. -/
theorem C117_tng_partial (logMah : MahParams ℝ → ℝ → ℝ → ℝ) (t : List ℝ) (it : ℕ) (x : ℝ) (hx : t[it]? = some x)
    (data : List SimGal) (cat : List CatRow) (hlen : data.length = cat.length) (lo hi : ℝ)
    (hne : Spec.compared lo hi data cat ≠ [])
    (h : ∀ q ∈ Spec.compared lo hi data cat, 0 < q.1.sfr.getD it 0 ∧ q.1.sfr.getD it 0 ≠ 1 ∧ q.1.logSmah.getD it 0 ≠ 0 ∧
      Spec.interpLog x (Spec.tabulated logMah q.2).smh ≠ 0 ∧ Spec.interpLog x (Spec.tabulated logMah q.2).sfh ≠ 0) :
    calculatePlotTng logMah t it data cat lo hi = some (some
      (Spec.average (fun q => (10 : ℝ) ^ q.1.logSmah.getD it 0) (Spec.compared lo hi data cat),
       Spec.average (fun q => (10 : ℝ) ^ Spec.interpLog x (Spec.tabulated logMah q.2).smh) (Spec.compared lo hi data cat),
       Spec.average (fun q => max (q.1.sfr.getD it 0) (1e-12 * (10 : ℝ) ^ q.1.logSmah.getD it 0))
        (Spec.compared lo hi data cat),
       Spec.average (fun q => max ((10 : ℝ) ^ Spec.interpLog x (Spec.tabulated logMah q.2).sfh)
          (1e-12 * (10 : ℝ) ^ Spec.interpLog x (Spec.tabulated logMah q.2).smh)) (Spec.compared lo hi data cat))) := by
  have hz1 : (data.zip cat).map Prod.fst = data := List.map_fst_zip hlen.le
  have hz2 : (data.zip cat).map Prod.snd = cat := List.map_snd_zip hlen.ge
  obtain ⟨subvols, h1, h2⟩ := plotTng_eq logMah t it (data.zip cat) lo hi
  rw [hz1, hz2] at h1
  have hg := galsIn_compared logMah t it data cat lo hi subvols h2
  have hrow : ∀ q : SimGal × CatRow, compareRow t it q.1 (tableRow logMah LGT0 200 q.2) = _ := fun q =>
    compareRow_eq logMah t it x hx q.1 q.2
  have hm := C85_means_partial lo hi subvols (by rw [hg]; simpa using hne) (by
    rw [hg]
    intro g hgm
    obtain ⟨q, hq, rfl⟩ := List.mem_map.1 hgm
    rw [hrow q]
    exact h q hq)
  rw [h1, hm, hg]
  simp only [Spec.average, List.map_map, List.length_map, Function.comp_def, hrow]

/-- C117: with catalogues of different lengths no galaxy is compared with the fit of another one: the script raises. -/
theorem C117_length_mismatch_raises (logMah : MahParams ℝ → ℝ → ℝ → ℝ) (t : List ℝ) (it : ℕ)
    (data : List SimGal) (cat : List CatRow) (hlen : data.length ≠ cat.length) (lo hi : ℝ) :
    calculatePlotTng logMah t it data cat lo hi = none := by
  have key : ∃ r < 20, data.length / 20 + (if r < data.length % 20 then 1 else 0) ≠
      cat.length / 20 + (if r < cat.length % 20 then 1 else 0) := by
    by_contra hn
    push Not at hn
    have h0 := hn 0 (by norm_num)
    apply hlen
    have hm1 : data.length % 20 < 20 := Nat.mod_lt _ (by norm_num)
    have hm2 : cat.length % 20 < 20 := Nat.mod_lt _ (by norm_num)
    have h19 := hn 19 (by norm_num)
    rw [if_neg (by omega), if_neg (by omega)] at h19
    have : data.length % 20 = cat.length % 20 := by
      rcases lt_trichotomy (data.length % 20) (cat.length % 20) with g | g | g
      · have := hn (data.length % 20) hm1
        rw [if_neg (lt_irrefl _), if_pos g] at this
        omega
      · exact g
      · have := hn (cat.length % 20) hm2
        rw [if_neg (lt_irrefl _), if_pos g] at this
        omega
    omega
  obtain ⟨r, hr, hne⟩ := key
  obtain ⟨d, hd, hdl⟩ := arraySplit_getElem? data 20 r hr
  obtain ⟨c, hc, hcl⟩ := arraySplit_getElem? cat 20 r hr
  have : tngRows logMah t it data cat r = none := by
    have hdc : c.length ≠ d.length := by rw [hdl, hcl]; exact hne.symm
    simp [tngRows, chunk, NCHUNKS, hd, hc, loadTables_tng, maskRows, hdc]
  unfold calculatePlotTng
  rw [mapM_none_of_mem _ _ (List.mem_range.2 hr) this]
  rfl

/-- C117 fails for SMDPL and Galacticus: nothing is compared, the loader of the tables raises (C76). -/
theorem C117_smdpl_galacticus_violated (logMah : MahParams ℝ → ℝ → ℝ → ℝ) (t : List ℝ) (it : ℕ) (lo hi : ℝ) :
    (∀ files, files ≠ [] → calculatePlotSmdpl logMah t it files lo hi = none) ∧
    ∀ data cat, calculatePlotGalcus logMah t it data cat lo hi = none := by
  constructor
  · intro files hne
    obtain ⟨f, fs, rfl⟩ := List.exists_cons_of_ne_nil hne
    simp [calculatePlotSmdpl, loadTables, pyCall, calcSfhGalpopRequired, keywordsGiven]
  · intro data cat
    simp [calculatePlotGalcus, loadTables, pyCall, calcSfhGalpopRequired, keywordsGiven]

/-- A galaxy with a star formation rate of 0.156 at all times. -/
noncomputable def Spec.constGal (success : ℤ) : CatRow :=
  ⟨⟨12, 0.3, 2, 1, 14⟩, ⟨11.5, -11.5, 1, -1, 1, -0.5, 0, 0⟩, 1, 1, success, -1⟩

theorem constGal_sfh (s : ℤ) : (Spec.tabulated (fun _ _ _ => 11.5) (Spec.constGal s)).sfh =
    (linspace 0.01 13.8 200).map fun _ => 0.156 := by
  have := calcSfhSinglegal_eq (fun (_ : MahParams ℝ) (_ _ : ℝ) => (11.5 : ℝ)) (Spec.constGal s).sfh (Spec.constGal s).mah
    (linspace 0.01 13.8 200) (Real.logb 10 13.8) 0.156
  refine Eq.trans this (List.map_congr_left fun t _ => ?_)
  have hq : qExp (Real.logb 10 t) 1 ((10 : ℝ) ^ (-0.5 : ℝ)) 0 0 = 0 :=
    le_antisymm (qExp_le_zero le_rfl le_rfl) (qExp_ge_drop le_rfl le_rfl)
  have he : (10 : ℝ) ^ (11.5 : ℝ) * (10 : ℝ) ^ (-11.5 : ℝ) = 1 := by
    rw [← Real.rpow_add (by norm_num)]; norm_num
  simp only [Spec.constGal, Spec.msSfr, Spec.msLogEfficiency, hq, sub_self, mul_zero, add_zero, Real.rpow_zero, one_mul]
  rw [mul_assoc, he]
  norm_num

/-- The hypotheses of `C117_tng_partial` hold for explicit galaxies, of which one is without fit. -/
example : ∃ (data : List SimGal) (cat : List CatRow), data.length = cat.length ∧
    Spec.compared 11.75 12.25 data cat = [(⟨[9], [3], 12⟩, Spec.constGal 1)] ∧
    ∀ q ∈ Spec.compared 11.75 12.25 data cat, 0 < q.1.sfr.getD 0 0 ∧ q.1.sfr.getD 0 0 ≠ 1 ∧ q.1.logSmah.getD 0 0 ≠ 0 ∧
      Spec.interpLog 0.01 (Spec.tabulated (fun _ _ _ => 11.5) q.2).smh ≠ 0 ∧
      Spec.interpLog 0.01 (Spec.tabulated (fun _ _ _ => 11.5) q.2).sfh ≠ 0 := by
  have hc : Spec.compared 11.75 12.25 [⟨[9], [2], 12⟩, ⟨[9], [3], 12⟩] [Spec.constGal 0, Spec.constGal 1] =
      [(⟨[9], [3], 12⟩, Spec.constGal 1)] := by
    norm_num [Spec.compared, Spec.Usable, Spec.constGal, List.filter_cons]
  refine ⟨_, _, rfl, hc, ?_⟩
  rw [hc]
  intro q hq
  rw [List.mem_singleton] at hq
  subst hq
  have hcons : ∃ ts, linspace 0.01 13.8 200 = 0.01 :: ts := by
    refine ⟨(linspace 0.01 13.8 200).tail, ?_⟩
    rw [linspace, List.range_succ_eq_map]
    simp
  obtain ⟨ts, hts⟩ := hcons
  refine ⟨by norm_num, by norm_num, by norm_num, ?_, ?_⟩
  · have hsm : (Spec.tabulated (fun _ _ _ => 11.5) (Spec.constGal 1)).smh =
        cumulativeMstarFormed (linspace 0.01 13.8 200) ((linspace 0.01 13.8 200).map fun _ => 0.156) := by
      rw [← constGal_sfh 1]; rfl
    unfold Spec.interpLog
    rw [hsm, cmf_eq, hts, List.map_cons, List.zip_cons_cons, trapFrom_cons, List.map_cons, List.map_cons,
      npInterp_lower _ _ _ _ _ le_rfl (by simp)]
    exact (Real.logb_pos (by norm_num) (by norm_num)).ne'
  · unfold Spec.interpLog
    rw [constGal_sfh, hts, List.map_cons, List.map_cons, npInterp_lower _ _ _ _ _ le_rfl (by simp)]
    exact (Real.logb_neg (by norm_num) (by norm_num) (by norm_num)).ne

/-! ### C118 -/

theorem zeroHist_eq {nb : ℕ} (logMah : MahParams ℝ → ℝ → ℝ → ℝ) (lgt0 : ℝ) (bins : Fin (nb + 1) → ℝ) (cat : List CatRow)
    (c : ℕ) (p : List CatRow) (hp : (arraySplit cat 20)[c]? = some p) :
    computeWeightedHistogramsZ0 logMah lgt0 bins cat c = some (computeDiffHistogramsAtz bins
      (((p.filter fun r => decide (hasFit .tng r)).map (tableRow logMah lgt0 200)).map fun h => (h.logMah 199, h.logSmh 199))) := by
  set l := (p.filter fun r => decide (hasFit .tng r)).map (tableRow logMah lgt0 200) with hl
  have hc : chunk cat c = some p := hp
  simp only [computeWeightedHistogramsZ0, hc, Option.bind_eq_bind, Option.bind_some, loadTables_tng, ← hl]
  congr 1
  refine Prod.ext (funext fun j => ?_) (funext fun j => ?_)
  · rw [diffHist_fst, List.map_map]
    have := twNdhistWeighted_list (B := Fin nb) l (fun a (_ : Fin 1) => a.logMah 199) (fun _ => PopLoss.meanDiff bins + 0)
      (fun _ => 1) (fun j _ => bins j.castSucc) (fun j _ => bins j.succ) j
    simp only [Finset.univ_unique, Finset.prod_singleton, mul_one, add_zero] at this
    simp only [add_zero]
    exact this
  · rw [diffHist_snd, List.map_map]
    have := twNdhistWeighted_list (B := Fin nb) l (fun a (_ : Fin 1) => a.logMah 199) (fun _ => PopLoss.meanDiff bins + 0)
      (fun a => a.logSmh 199) (fun j _ => bins j.castSucc) (fun j _ => bins j.succ) j
    simp only [Finset.univ_unique, Finset.prod_singleton, add_zero] at this
    simp only [add_zero]
    exact this

theorem meanDiff_telescope {nb : ℕ} (bins : Fin (nb + 1) → ℝ) :
    PopLoss.meanDiff bins = (bins (Fin.last nb) - bins 0) / nb := by
  unfold PopLoss.meanDiff
  rw [Finset.sum_sub_distrib]
  have h1 := Fin.sum_univ_succ bins
  have h2 := Fin.sum_univ_castSucc bins
  congr 1
  linarith

theorem sum_map_flatten_chunks {α : Type*} (parts : List (List α)) (f : α → ℝ) :
    (parts.map fun p => (p.map f).sum).sum = (parts.flatten.map f).sum := by
  induction parts with
  | nil => rfl
  | cons p ps ih => simp [ih]

/-- C118: the sums over the 20 chunks of the weighted counts and of the weighted stellar masses are those of all galaxies
with usable fits, at redshift zero, and their quotient is `compute_smhm` of these galaxies with the mean bin width as
scatter. -/
theorem C118_chunks {nb : ℕ} (logMah : MahParams ℝ → ℝ → ℝ → ℝ) (bins : Fin (nb + 1) → ℝ) (cat : List CatRow) :
    ∃ hists : List ((Fin nb → ℝ) × (Fin nb → ℝ)),
      (List.range 20).mapM (computeWeightedHistogramsZ0 logMah (Real.logb 10 13.8) bins cat) = some hists ∧
      let pop := cat.filter fun r => decide (Spec.Usable r)
      let logmh := fun i : Fin pop.length => logMah pop[i].mah 13.8 (Real.logb 10 13.8)
      let logsm := fun i : Fin pop.length => Real.logb 10 ((Spec.tabulated logMah pop[i]).smh.getLastD 0)
      let width := (bins (Fin.last nb) - bins 0) / nb
      ∀ j, (hists.map fun h => h.1 j).sum =
          ∑ i, NdHist.twBinWeightLaxKern (logmh i) width (bins j.castSucc) (bins j.succ) ∧
        (hists.map fun h => h.2 j).sum =
          ∑ i, NdHist.twBinWeightLaxKern (logmh i) width (bins j.castSucc) (bins j.succ) * logsm i ∧
        NdHist.computeSmhm logmh logsm (fun _ => width) bins j =
          if (hists.map fun h => h.1 j).sum = 0 then none
          else some ((hists.map fun h => h.2 j).sum / (hists.map fun h => h.1 j).sum) := by
  have hlg : Real.logb 10 13.8 = LGT0 := rfl
  set P : CatRow → Bool := fun r => decide (hasFit .tng r) with hP
  set G : List CatRow → (Fin nb → ℝ) × (Fin nb → ℝ) := fun p => computeDiffHistogramsAtz bins
    (((p.filter P).map (tableRow logMah LGT0 200)).map fun h => (h.logMah 199, h.logSmh 199)) with hG
  have hl : (arraySplit cat 20).length = 20 := arraySplit_length cat 20
  refine ⟨(arraySplit cat 20).map G, ?_, ?_⟩
  · rw [mapM_congr_mem _ (fun c => ((arraySplit cat 20)[c]?).bind fun p => some (G p)) _ fun c hc => by
      obtain ⟨p, hp, -⟩ := arraySplit_getElem? cat 20 c (List.mem_range.1 hc)
      rw [hp, hlg, zeroHist_eq logMah LGT0 bins cat c p hp]
      rfl]
    have h := mapM_range_bind (fun p => some (G p)) (arraySplit cat 20)
    rw [hl] at h
    rw [h]
    exact mapM_pure_some _ _ _ fun _ _ => rfl
  · intro pop logmh logsm width j
    have hw : PopLoss.meanDiff bins = width := meanDiff_telescope bins
    have hm : ∀ r, (tableRow logMah LGT0 200 r).logMah 199 = logMah r.mah 13.8 (Real.logb 10 13.8) := by
      intro r
      have e : linspace T_TABLE_MIN ((10 : ℝ) ^ LGT0) 200 = linspace 0.01 13.8 200 := tTable_eq
      simp only [tableRow, e]
      rw [List.getD_eq_getElem?_getD, linspace_getElem? (by norm_num), hlg]
      norm_num
    have hs : ∀ r, (tableRow logMah LGT0 200 r).logSmh 199 = Real.logb 10 ((Spec.tabulated logMah r).smh.getLastD 0) := by
      intro r
      rw [(tableRow_eq logMah r 199).1, List.getLastD_eq_getLast?, List.getLast?_eq_getElem?, (tabulated_length logMah r).2,
        List.getD_eq_getElem?_getD]
    have hflat : ∀ f : CatRow → ℝ, ((arraySplit cat 20).map fun p => ((p.filter P).map f).sum).sum =
        ∑ i : Fin pop.length, f pop[i] := by
      intro f
      have := sum_map_flatten_chunks ((arraySplit cat 20).map fun p => p.filter P) f
      rw [List.map_map] at this
      refine Eq.trans this ?_
      rw [← List.filter_flatten, arraySplit_flatten cat 20 (by norm_num)]
      exact (Fin.sum_univ_fun_getElem pop f).symm
    have s1 : (((arraySplit cat 20).map G).map fun h => h.1 j).sum =
        ∑ i, NdHist.twBinWeightLaxKern (logmh i) width (bins j.castSucc) (bins j.succ) := by
      rw [← hflat fun r => NdHist.twBinWeightLaxKern (logMah r.mah 13.8 (Real.logb 10 13.8)) width (bins j.castSucc) (bins j.succ),
        List.map_map]
      congr 1
      refine List.map_congr_left fun p _ => ?_
      simp only [Function.comp, hG, diffHist_fst, List.map_map, hw]
      congr 1
      refine List.map_congr_left fun r _ => ?_
      simp only [Function.comp, hm]
    have s2 : (((arraySplit cat 20).map G).map fun h => h.2 j).sum =
        ∑ i, NdHist.twBinWeightLaxKern (logmh i) width (bins j.castSucc) (bins j.succ) * logsm i := by
      rw [← hflat fun r => NdHist.twBinWeightLaxKern (logMah r.mah 13.8 (Real.logb 10 13.8)) width (bins j.castSucc) (bins j.succ) *
        Real.logb 10 ((Spec.tabulated logMah r).smh.getLastD 0), List.map_map]
      congr 1
      refine List.map_congr_left fun p _ => ?_
      simp only [Function.comp, hG, diffHist_snd, List.map_map, hw]
      congr 1
      refine List.map_congr_left fun r _ => ?_
      simp only [Function.comp, hm, hs]
    refine ⟨s1, s2, ?_⟩
    rw [s1, s2]
    simp only [NdHist.computeSmhm, NdHist.twNdhistWeighted, NdHist.twNdhistWeightedKern, NdHist.twNdhistWeightedSumKern,
      Finset.univ_unique, Finset.prod_singleton, mul_one]

/-- A catalogue with galaxies in two chunks, and one without fit. -/
example : ([Spec.constGal 1, Spec.constGal 0, Spec.constGal 1].filter fun r => decide (Spec.Usable r)) =
    [Spec.constGal 1, Spec.constGal 1] := by
  norm_num [Spec.Usable, Spec.constGal, List.filter_cons]

end Diffstar.Props
