import Verif.Lemmas.Smooth
import Mathlib.Analysis.Calculus.Deriv.MeanValue
import Mathlib.Topology.Order.IntermediateValue

/-! C88: shape of the main-sequence efficiency. C89: histories are monotone in their parameters. -/

namespace Diffstar.Props

open Diffstar Diffstar.Spec Set

theorem nnSigmoid_hasDerivAt (x : ℝ) : HasDerivAt nnSigmoid (nnSigmoid x * (1 - nnSigmoid x)) x := by
  have h : HasDerivAt (fun x : ℝ => 1 + Real.exp (-x)) (-Real.exp (-x)) x := by
    simpa using ((hasDerivAt_neg x).exp).const_add 1
  have h2 := (hasDerivAt_const x (1 : ℝ)).div h (one_add_exp_pos _).ne'
  refine h2.congr_deriv ?_
  have := (one_add_exp_pos (-x)).ne'
  unfold nnSigmoid
  field_simp
  ring

/-- `d/dz (z σ(z))`. -/
noncomputable def effG (z : ℝ) : ℝ := nnSigmoid z + z * (nnSigmoid z * (1 - nnSigmoid z))

theorem effG_hasDerivAt (z : ℝ) :
    HasDerivAt effG (nnSigmoid z * (1 - nnSigmoid z) * (2 + z * (1 - 2 * nnSigmoid z))) z := by
  have h := nnSigmoid_hasDerivAt z
  have h2 := h.add ((hasDerivAt_id z).mul (h.mul (h.const_sub 1)))
  refine h2.congr_deriv ?_
  simp only [id, Pi.mul_apply]
  ring

theorem effG_strictMonoOn : StrictMonoOn effG (Icc (-2) 2) := by
  refine strictMonoOn_of_deriv_pos (convex_Icc _ _) (fun z _ => (effG_hasDerivAt z).continuousAt.continuousWithinAt)
    fun z hz => ?_
  rw [interior_Icc] at hz
  rw [(effG_hasDerivAt z).deriv]
  have h0 := nnSigmoid_pos z
  have h1 := nnSigmoid_lt_one z
  refine mul_pos (mul_pos h0 (by linarith)) ?_
  have : |z * (1 - 2 * nnSigmoid z)| < 2 := by
    rw [abs_mul]
    have ha : |z| < 2 := abs_lt.2 hz
    have hb : |1 - 2 * nnSigmoid z| ≤ 1 := abs_le.2 ⟨by linarith, by linarith⟩
    nlinarith [abs_nonneg z, abs_nonneg (1 - 2 * nnSigmoid z)]
  linarith [(abs_lt.1 this).1]

theorem effG_neg (z : ℝ) : effG (-z) = 1 - effG z := by
  unfold effG
  rw [nnSigmoid_neg]; ring

theorem effG_ge {z : ℝ} (hz : 2 ≤ z) : 1 ≤ effG z := by
  unfold effG
  have h0 : 1 / 2 ≤ nnSigmoid z := by
    rw [← nnSigmoid_zero]; exact nnSigmoid_strictMono.monotone (by linarith)
  have h1 := nnSigmoid_lt_one z
  nlinarith [mul_nonneg (show 0 ≤ z * nnSigmoid z - 1 by nlinarith) (show 0 ≤ 1 - nnSigmoid z by linarith)]

theorem effG_le {z : ℝ} (hz : z ≤ -2) : effG z ≤ 0 := by
  have := effG_ge (z := -z) (by linarith)
  rw [effG_neg] at this; linarith

theorem sfrEffPlaw_hasDerivAt (m mc lgy lo hi : ℝ) :
    HasDerivAt (fun m => sfrEffPlaw m mc lgy lo hi) (lo + (hi - lo) * effG (9 * (m - mc))) m := by
  have h : HasDerivAt (fun m : ℝ => 9 * (m - mc)) 9 m := by
    simpa using ((hasDerivAt_id m).sub_const mc).const_mul 9
  have h2 := (nnSigmoid_hasDerivAt (9 * (m - mc))).comp m h
  have h3 := (((h2.const_mul (hi - lo)).const_add lo).mul ((hasDerivAt_id m).sub_const mc)).const_add lgy
  simp only [sfrEffPlaw, sigmoid, INDX_K]
  refine h3.congr_deriv ?_
  simp only [effG, Function.comp, id]
  ring

/-- C88: for a rising low-mass and a falling high-mass index the efficiency has exactly one peak, within 2/9 dex of
the critical mass: it strictly increases with halo mass below the peak and strictly decreases above. -/
theorem C88_single_peak (mc lgy lo hi : ℝ) (hlo : 0 < lo) (hhi : hi < 0) :
    ∃! m : ℝ, |m - mc| < 2 / 9 ∧ StrictMonoOn (fun x => sfrEffPlaw x mc lgy lo hi) (Iic m) ∧
      StrictAntiOn (fun x => sfrEffPlaw x mc lgy lo hi) (Ici m) := by
  set r := lo / (lo - hi) with hr
  have hd : 0 < lo - hi := by linarith
  have hr0 : 0 < r := div_pos hlo hd
  have hr1 : r < 1 := by rw [hr, div_lt_one hd]; linarith
  have hcont : ContinuousOn effG (Icc (-2) 2) := fun z _ => (effG_hasDerivAt z).continuousAt.continuousWithinAt
  obtain ⟨z, hz, hgz⟩ := intermediate_value_Ioo (show (-2 : ℝ) ≤ 2 by norm_num) hcont
    ⟨(effG_le le_rfl).trans_lt hr0, hr1.trans_le (effG_ge le_rfl)⟩
  have hlt : ∀ x, x < z → effG x < r := by
    intro x hx
    rcases le_or_gt x (-2) with h | h
    · exact (effG_le h).trans_lt hr0
    · rw [← hgz]
      exact effG_strictMonoOn ⟨h.le, (hx.trans hz.2).le⟩ ⟨hz.1.le, hz.2.le⟩ hx
  have hgt : ∀ x, z < x → r < effG x := by
    intro x hx
    rcases le_or_gt 2 x with h | h
    · exact hr1.trans_le (effG_ge h)
    · rw [← hgz]
      exact effG_strictMonoOn ⟨hz.1.le, hz.2.le⟩ ⟨(hz.1.trans hx).le, h.le⟩ hx
  have hcontf : ∀ s, ContinuousOn (fun x => sfrEffPlaw x mc lgy lo hi) s := fun s x _ =>
    (sfrEffPlaw_hasDerivAt x mc lgy lo hi).continuousAt.continuousWithinAt
  have hmono : StrictMonoOn (fun x => sfrEffPlaw x mc lgy lo hi) (Iic (mc + z / 9)) := by
    refine strictMonoOn_of_deriv_pos (convex_Iic _) (hcontf _) fun x hx => ?_
    rw [interior_Iic, mem_Iio] at hx
    rw [(sfrEffPlaw_hasDerivAt x mc lgy lo hi).deriv]
    have h := hlt (9 * (x - mc)) (by linarith)
    have e : (lo - hi) * r = lo := by rw [hr]; field_simp
    nlinarith [mul_pos hd (sub_pos.2 h)]
  have hanti : StrictAntiOn (fun x => sfrEffPlaw x mc lgy lo hi) (Ici (mc + z / 9)) := by
    refine strictAntiOn_of_deriv_neg (convex_Ici _) (hcontf _) fun x hx => ?_
    rw [interior_Ici, mem_Ioi] at hx
    rw [(sfrEffPlaw_hasDerivAt x mc lgy lo hi).deriv]
    have h := hgt (9 * (x - mc)) (by linarith)
    have e : (lo - hi) * r = lo := by rw [hr]; field_simp
    nlinarith [mul_pos hd (sub_pos.2 h)]
  refine ⟨mc + z / 9, ⟨?_, hmono, hanti⟩, ?_⟩
  · rw [abs_lt]; constructor <;> linarith [hz.1, hz.2]
  · rintro m ⟨-, h1, h2⟩
    rcases lt_trichotomy m (mc + z / 9) with h | h | h
    · exact absurd (hmono (mem_Iic.2 h.le) (mem_Iic.2 le_rfl) h) (not_lt.2 (h2 (mem_Ici.2 le_rfl) (mem_Ici.2 h.le) h).le)
    · exact h
    · exact absurd (h1 (mem_Iic.2 h.le) (mem_Iic.2 le_rfl) h) (not_lt.2 (hanti (mem_Ici.2 le_rfl) (mem_Ici.2 h.le) h).le)

example : (0 : ℝ) < 1 ∧ (-1 : ℝ) < 0 := by norm_num

theorem nnSigmoid_le_exp (z : ℝ) : nnSigmoid z ≤ Real.exp z := by
  unfold nnSigmoid
  rw [div_le_iff₀ (one_add_exp_pos _), mul_add, mul_one, ← Real.exp_add]
  simp [Real.exp_nonneg]

/-- C88: far from the critical mass the efficiency is a power law, with index `indx_lo` below and `indx_hi` above; the
difference in the logarithm at distance `d` dex is at most `|indx_hi - indx_lo| d exp(-9 d)`. -/
theorem C88_power_laws (m mc lgy lo hi : ℝ) :
    (m ≤ mc → |sfrEffPlaw m mc lgy lo hi - (lgy + lo * (m - mc))| ≤ |hi - lo| * (mc - m) * Real.exp (-9 * (mc - m))) ∧
    (mc ≤ m → |sfrEffPlaw m mc lgy lo hi - (lgy + hi * (m - mc))| ≤ |hi - lo| * (m - mc) * Real.exp (-9 * (m - mc))) := by
  constructor
  · intro h
    have e : sfrEffPlaw m mc lgy lo hi - (lgy + lo * (m - mc)) = (hi - lo) * (m - mc) * nnSigmoid (9 * (m - mc)) := by
      simp only [sfrEffPlaw, sigmoid, INDX_K]; ring
    rw [e, abs_mul, abs_mul, abs_of_nonpos (show m - mc ≤ 0 by linarith), abs_of_pos (nnSigmoid_pos _), neg_sub]
    refine mul_le_mul_of_nonneg_left ?_ (mul_nonneg (abs_nonneg _) (by linarith))
    calc nnSigmoid (9 * (m - mc)) ≤ Real.exp (9 * (m - mc)) := nnSigmoid_le_exp _
      _ = _ := by congr 1; ring
  · intro h
    have e : sfrEffPlaw m mc lgy lo hi - (lgy + hi * (m - mc)) = -((hi - lo) * (m - mc) * nnSigmoid (-(9 * (m - mc)))) := by
      simp only [sfrEffPlaw, sigmoid, INDX_K, nnSigmoid_neg]; ring
    rw [e, abs_neg, abs_mul, abs_mul, abs_of_nonneg (show 0 ≤ m - mc by linarith), abs_of_pos (nnSigmoid_pos _)]
    refine mul_le_mul_of_nonneg_left ?_ (mul_nonneg (abs_nonneg _) (by linarith))
    calc nnSigmoid (-(9 * (m - mc))) ≤ Real.exp (-(9 * (m - mc))) := nnSigmoid_le_exp _
      _ = _ := by congr 1; ring

/-- C88: the normalisation enters the star formation rate as the factor `10 ** lgy_at_mcrit`, up to the floor. -/
theorem C88_normalisation {M : Type*} (logMah : M → ℝ → ℝ → ℝ) (p : DiffstarParams ℝ) (mah : M) (tarr : List ℝ)
    (lgt0 fb : ℝ) (hfb : 0 < fb) (i : ℕ) (hi : i < tarr.length) (_ht : 0 < tarr[i]) :
    ∃ S : ℝ, 0 < S ∧ ∀ lgy : ℝ, (calcSfhSinglegal logMah { p with lgyAtMcrit := lgy } mah tarr lgt0 fb)[i]? =
      some (max (1 / 10 ^ 14) (S * (10 : ℝ) ^ lgy)) := by
  refine ⟨(10 : ℝ) ^ qExp (Real.logb 10 tarr[i]) p.lgQt ((10 : ℝ) ^ p.qlglgdt) p.lgDrop p.lgRejuv *
    msSfr { p with lgyAtMcrit := 0 } fb (logMah mah tarr[i] lgt0), ?_, fun lgy => ?_⟩
  · unfold msSfr; positivity
  · rw [calcSfhSinglegal_eq, List.getElem?_map, List.getElem?_eq_getElem hi, Option.map_some]
    congr 2
    simp only [msSfr, msLogEfficiency, zero_add]
    rw [Real.rpow_add (by norm_num)]
    ring

example : (0 : ℝ) < 0.156 ∧ (1 : ℕ) < [(1 : ℝ), 13.8].length ∧ (0 : ℝ) < 13.8 := by norm_num

/-! ### C89 -/

theorem trapFrom_le {a fa fa' c c' : ℝ} (hf : fa ≤ fa') (hc : c ≤ c') (ts : List ℝ) (hts : (a :: ts).Pairwise (· < ·))
    (s s' : List ℝ) (h : List.Forall₂ (· ≤ ·) s s') :
    List.Forall₂ (· ≤ ·) (trapFrom a fa c (ts.zip s)) (trapFrom a fa' c' (ts.zip s')) := by
  induction ts generalizing a fa fa' c c' s s' with
  | nil => simp
  | cons t ts ih =>
    cases h with
    | nil => simp
    | cons h1 h2 =>
      simp only [List.zip_cons_cons, trapFrom_cons]
      rw [List.pairwise_cons] at hts
      have hat : a < t := hts.1 t List.mem_cons_self
      have hc2 : ∀ x x', x ≤ x' → c + (t - a) * (x + fa) / 2 ≤ c' + (t - a) * (x' + fa') / 2 := by
        intro x x' hx
        have := mul_le_mul_of_nonneg_left (add_le_add hx hf) (show 0 ≤ t - a by linarith)
        linarith
      exact List.Forall₂.cons (hc2 _ _ h1) (ih h1 (hc2 _ _ h1) hts.2 _ _ h2)

/-- C89: a higher normalisation, a shallower drop, a higher rejuvenation level or a larger baryon fraction never lowers
the star formation rate nor the stellar mass, at any time of the table. -/
theorem C89_histories_monotone {M : Type*} (logMah : M → ℝ → ℝ → ℝ) (p p' : DiffstarParams ℝ) (mah : M)
    (tarr : List ℝ) (ht : Increasing (0.001 :: tarr)) (lgt0 fb fb' : ℝ) (hfb : 0 ≤ fb) (hfb' : fb ≤ fb')
    (h1 : p.lgmcrit = p'.lgmcrit) (h2 : p.indxLo = p'.indxLo) (h3 : p.indxHi = p'.indxHi) (h4 : p.lgQt = p'.lgQt)
    (h5 : p.qlglgdt = p'.qlglgdt) (h6 : p.lgyAtMcrit ≤ p'.lgyAtMcrit) (h7 : p.lgDrop ≤ p'.lgDrop)
    (h8 : p.lgRejuv ≤ p'.lgRejuv) :
    List.Forall₂ (· ≤ ·) (calcSfhSinglegalSmh logMah p mah tarr lgt0 fb).sfh
      (calcSfhSinglegalSmh logMah p' mah tarr lgt0 fb').sfh ∧
    List.Forall₂ (· ≤ ·) (calcSfhSinglegalSmh logMah p mah tarr lgt0 fb).smh
      (calcSfhSinglegalSmh logMah p' mah tarr lgt0 fb').smh := by
  have hs : List.Forall₂ (· ≤ ·) (calcSfhSinglegal logMah p mah tarr lgt0 fb)
      (calcSfhSinglegal logMah p' mah tarr lgt0 fb') := by
    rw [calcSfhSinglegal_eq, calcSfhSinglegal_eq, List.forall₂_map_left_iff, List.forall₂_map_right_iff,
      List.forall₂_same]
    intro t _
    refine max_le_max le_rfl (mul_le_mul ?_ ?_ (msSfr_nonneg p hfb _) (by positivity))
    · refine Real.rpow_le_rpow_of_exponent_le (by norm_num) ?_
      rw [← h4, ← h5]
      unfold qExp
      set y := (Real.logb 10 t - p.lgQt) / ((10 : ℝ) ^ p.qlglgdt / 12)
      have a := jaxTw_nonneg (y - 3)
      have m : jaxTw (y - 3) ≤ jaxTw (y + 3) := jaxTw_mono (by linarith)
      nlinarith [mul_nonneg (sub_nonneg.2 h7) (sub_nonneg.2 m), mul_nonneg (sub_nonneg.2 h8) a]
    · unfold msSfr msLogEfficiency
      rw [← h1, ← h2, ← h3]
      refine mul_le_mul (mul_le_mul_of_nonneg_right hfb' (by positivity)) ?_ (by positivity)
        (mul_nonneg (hfb.trans hfb') (by positivity))
      exact Real.rpow_le_rpow_of_exponent_le (by norm_num) (by linarith)
  refine ⟨hs, ?_⟩
  change List.Forall₂ _ (cumulativeMstarFormed tarr (calcSfhSinglegal logMah p mah tarr lgt0 fb))
    (cumulativeMstarFormed tarr (calcSfhSinglegal logMah p' mah tarr lgt0 fb'))
  rw [cmf_eq, cmf_eq, List.forall₂_map_left_iff, List.forall₂_map_right_iff]
  exact (trapFrom_le le_rfl le_rfl tarr ht _ _ hs).imp fun a b hab => by
    have := mul_le_mul_of_nonneg_right hab (show (0 : ℝ) ≤ 10 ^ 9 by positivity); exact this

example : Increasing (0.001 :: [1, 5, 13.8]) ∧ (0 : ℝ) ≤ 0.1 ∧ (0.1 : ℝ) ≤ 0.156 := by
  unfold Increasing; norm_num

end Diffstar.Props
