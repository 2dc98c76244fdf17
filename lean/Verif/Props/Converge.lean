import Verif.Props.Smh
import Mathlib.MeasureTheory.Integral.IntervalIntegral.FundThmCalculus
import Mathlib.Topology.UniformSpace.HeineCantor

/-! C104: stellar and gas masses converge to the integrals of the rates as the time table is refined. -/

namespace Diffstar.Props

open Diffstar Diffstar.Spec Set

/-- One trapezoid: if the rate stays within `e` of the mean of its two end values, the trapezoid differs from the
integral by at most `e` times the width. -/
theorem trapezoid_cell {f : ℝ → ℝ} {a b e : ℝ} (hab : a ≤ b) (hf : ContinuousOn f (Icc a b))
    (h : ∀ x ∈ Icc a b, |f x - (f b + f a) / 2| ≤ e) :
    |(b - a) * (f b + f a) / 2 - ∫ x in a..b, f x| ≤ e * (b - a) := by
  have hi : IntervalIntegrable f MeasureTheory.volume a b :=
    (hf.mono (by rw [uIcc_of_le hab])).intervalIntegrable
  have h1 : (∫ x in a..b, (f x - (f b + f a) / 2)) = (∫ x in a..b, f x) - (b - a) * (f b + f a) / 2 := by
    rw [intervalIntegral.integral_sub hi intervalIntegrable_const, intervalIntegral.integral_const]
    simp only [smul_eq_mul]
    ring
  have h2 : ‖∫ x in a..b, (f x - (f b + f a) / 2)‖ ≤ e * |b - a| := by
    apply intervalIntegral.norm_integral_le_of_norm_le_const
    intro x hx
    rw [uIoc_of_le hab] at hx
    exact h x ⟨hx.1.le, hx.2⟩
  rw [h1, Real.norm_eq_abs, abs_sub_comm, abs_of_nonneg (sub_nonneg.2 hab)] at h2
  exact h2

theorem increasing_le {t : List ℝ} (hinc : Increasing t) {i j : ℕ} (hij : i ≤ j) (hj : j < t.length) :
    t[i] ≤ t[j] := by
  rcases hij.eq_or_lt with rfl | h
  · exact le_rfl
  · exact ((List.pairwise_iff_getElem.1 hinc) i j (by omega) hj h).le

/-- The trapezoid masses of a table of values of `f`. -/
theorem cumulative_error (t s : List ℝ) (hs : s.length = t.length) (hinc : Increasing t) (f : ℝ → ℝ) {T : ℝ}
    (hT : ∀ x ∈ t, x ≤ T) (h0 : 0 < t.length) (hf : ContinuousOn f (Icc t[0] T))
    (hv : ∀ i (hi : i < t.length), s[i] = f t[i]) {e : ℝ}
    (hcell : ∀ i (hi : i + 1 < t.length), ∀ x ∈ Icc t[i] t[i + 1], |f x - (f t[i + 1] + f t[i]) / 2| ≤ e)
    (i : ℕ) (hi : i < t.length) :
    ∃ m0 m : ℝ, (cumulativeMstarFormed t s)[0]? = some m0 ∧ (cumulativeMstarFormed t s)[i]? = some m ∧
      |(m - m0) - (10 : ℝ) ^ 9 * ∫ x in t[0]..t[i], f x| ≤ (10 : ℝ) ^ 9 * (e * (t[i] - t[0])) := by
  induction i with
  | zero =>
    have hl := cmf_length t s hs
    refine ⟨_, _, List.getElem?_eq_getElem (by omega), List.getElem?_eq_getElem (by omega), ?_⟩
    simp
  | succ i ih =>
    obtain ⟨m0, m, e0, e1, he⟩ := ih (by omega)
    obtain ⟨m', m'', e2, e3, he'⟩ := C13_increment_local t s hs i hi
    rw [e1] at e2
    obtain rfl := Option.some.inj e2
    refine ⟨m0, m'', e0, e3, ?_⟩
    have ha : t[0] ≤ t[i] := increasing_le hinc (by omega) (by omega)
    have hb : t[i] ≤ t[i + 1] := increasing_le hinc (by omega) hi
    have hTi : t[i + 1] ≤ T := hT _ (List.getElem_mem hi)
    have hc1 : ContinuousOn f (Icc t[i] t[i + 1]) := hf.mono (Icc_subset_Icc ha hTi)
    have hc0 : ContinuousOn f (Icc t[0] t[i]) := hf.mono (Icc_subset_Icc le_rfl (hb.trans hTi))
    have hadd := intervalIntegral.integral_add_adjacent_intervals (μ := MeasureTheory.volume)
      (hc0.mono (by rw [uIcc_of_le ha])).intervalIntegrable
      (hc1.mono (by rw [uIcc_of_le hb])).intervalIntegrable
    have hcl := trapezoid_cell hb hc1 (hcell i hi)
    rw [hv (i + 1) hi, hv i (by omega)] at he'
    rw [← hadd]
    rw [abs_le] at he hcl ⊢
    constructor <;> linarith [he.1, he.2, hcl.1, hcl.2]

theorem smh_table {M : Type*} (logMah : M → ℝ → ℝ → ℝ) (p : DiffstarParams ℝ) (mah : M) (lgt0 fb : ℝ)
    (sfr : ℝ → ℝ) (hsfr : ∀ x, calcSfhSinglegal logMah p mah [x] lgt0 fb = [sfr x]) (t : List ℝ) :
    (calcSfhSinglegalSmh logMah p mah t lgt0 fb).smh = cumulativeMstarFormed t (t.map sfr) := by
  have h : ∀ x, max (1 / 10 ^ 14) ((10 : ℝ) ^ qExp (Real.logb 10 x) p.lgQt ((10 : ℝ) ^ p.qlglgdt) p.lgDrop
      p.lgRejuv * msSfr p fb (logMah mah x lgt0)) = sfr x := fun x => by
    have := hsfr x
    rw [calcSfhSinglegal_eq] at this
    exact (List.cons.inj this).1
  have : calcSfhSinglegal logMah p mah t lgt0 fb = t.map sfr := by
    rw [calcSfhSinglegal_eq]
    exact List.map_congr_left fun x _ => h x
  rw [← this]
  rfl

/-- **C104** (error bound): if the star formation rate of a galaxy changes by at most `L` per Gyr between the first
table time and `T`, then on any increasing table inside `[t[0], T]` with steps of at most `h` Gyr the stellar mass
formed between the first and the `i`-th table time differs from `1e9` times the integral of the SFR by at most
`1e9 L h (t[i] - t[0]) / 2`. -/
theorem C104_error_bound {M : Type*} (logMah : M → ℝ → ℝ → ℝ) (p : DiffstarParams ℝ) (mah : M) (lgt0 fb : ℝ)
    (sfr : ℝ → ℝ) (hsfr : ∀ x, calcSfhSinglegal logMah p mah [x] lgt0 fb = [sfr x]) {L h T : ℝ} (t : List ℝ)
    (hinc : Increasing t) (h0 : 0 < t.length) (hT : ∀ x ∈ t, x ≤ T)
    (hL : ∀ x ∈ Icc t[0] T, ∀ y ∈ Icc t[0] T, |sfr x - sfr y| ≤ L * |x - y|) (hL0 : 0 ≤ L)
    (hh : ∀ i (hi : i + 1 < t.length), t[i + 1] - t[i] ≤ h) (i : ℕ) (hi : i < t.length) :
    ∃ m0 m : ℝ, (calcSfhSinglegalSmh logMah p mah t lgt0 fb).smh[0]? = some m0 ∧
      (calcSfhSinglegalSmh logMah p mah t lgt0 fb).smh[i]? = some m ∧
      |(m - m0) - (10 : ℝ) ^ 9 * ∫ x in t[0]..t[i], sfr x| ≤ (10 : ℝ) ^ 9 * (L * h / 2 * (t[i] - t[0])) := by
  rw [smh_table logMah p mah lgt0 fb sfr hsfr]
  have hc : ContinuousOn sfr (Icc t[0] T) := by
    have : LipschitzOnWith (Real.toNNReal L) sfr (Icc t[0] T) := by
      apply LipschitzOnWith.of_dist_le_mul
      intro x hx y hy
      rw [Real.coe_toNNReal L hL0]
      exact hL x hx y hy
    exact this.continuousOn
  refine cumulative_error t _ (by simp) hinc sfr hT h0 hc (fun i hi => by simp) ?_ i hi
  intro j hj x hx
  have hm : ∀ k (hk : k < t.length), t[k] ∈ Icc t[0] T := fun k hk =>
    ⟨increasing_le hinc (by omega) hk, hT _ (List.getElem_mem hk)⟩
  have hxm : x ∈ Icc t[0] T := ⟨(hm j (by omega)).1.trans hx.1, hx.2.trans (hm (j + 1) hj).2⟩
  have a1 := hL x hxm t[j] (hm j (by omega))
  have a2 := hL x hxm t[j + 1] (hm (j + 1) hj)
  rw [abs_of_nonneg (sub_nonneg.2 hx.1)] at a1
  rw [abs_sub_comm x, abs_of_nonneg (sub_nonneg.2 hx.2)] at a2
  have hb : L * (t[j + 1] - t[j]) ≤ L * h := mul_le_mul_of_nonneg_left (hh j hj) hL0
  rw [abs_le] at a1 a2 ⊢
  constructor <;> linarith [a1.1, a1.2, a2.1, a2.2]

/-- **C104** (independence of the table): with such a rate, two tables that share the first time and the time
`t[i] = t'[j]` give masses formed between those two times that differ by at most
`1e9 L (h + h') (t[i] - t[0]) / 2`. -/
theorem C104_two_tables {M : Type*} (logMah : M → ℝ → ℝ → ℝ) (p : DiffstarParams ℝ) (mah : M) (lgt0 fb : ℝ)
    (sfr : ℝ → ℝ) (hsfr : ∀ x, calcSfhSinglegal logMah p mah [x] lgt0 fb = [sfr x]) {L h h' T : ℝ} (t t' : List ℝ)
    (hinc : Increasing t) (hinc' : Increasing t') (h0 : 0 < t.length) (h0' : 0 < t'.length) (hst : t'[0] = t[0])
    (hT : ∀ x ∈ t, x ≤ T) (hT' : ∀ x ∈ t', x ≤ T)
    (hL : ∀ x ∈ Icc t[0] T, ∀ y ∈ Icc t[0] T, |sfr x - sfr y| ≤ L * |x - y|) (hL0 : 0 ≤ L)
    (hh : ∀ i (hi : i + 1 < t.length), t[i + 1] - t[i] ≤ h)
    (hh' : ∀ i (hi : i + 1 < t'.length), t'[i + 1] - t'[i] ≤ h')
    (i j : ℕ) (hi : i < t.length) (hj : j < t'.length) (hij : t'[j] = t[i]) :
    ∃ m0 m m0' m' : ℝ, (calcSfhSinglegalSmh logMah p mah t lgt0 fb).smh[0]? = some m0 ∧
      (calcSfhSinglegalSmh logMah p mah t lgt0 fb).smh[i]? = some m ∧
      (calcSfhSinglegalSmh logMah p mah t' lgt0 fb).smh[0]? = some m0' ∧
      (calcSfhSinglegalSmh logMah p mah t' lgt0 fb).smh[j]? = some m' ∧
      |(m - m0) - (m' - m0')| ≤ (10 : ℝ) ^ 9 * (L * (h + h') / 2 * (t[i] - t[0])) := by
  obtain ⟨m0, m, a0, a1, ha⟩ := C104_error_bound logMah p mah lgt0 fb sfr hsfr t hinc h0 hT hL hL0 hh i hi
  obtain ⟨m0', m', b0, b1, hb⟩ := C104_error_bound logMah p mah lgt0 fb sfr hsfr t' hinc' h0' hT'
    (by rw [hst]; exact hL) hL0 hh' j hj
  refine ⟨m0, m, m0', m', a0, a1, b0, b1, ?_⟩
  rw [hst, hij] at hb
  rw [abs_le] at ha hb ⊢
  constructor <;> linarith [ha.1, ha.2, hb.1, hb.2]

/-- A galaxy whose SFR is `x` Msun/yr at `x` Gyr (halo mass `1e12 x`, constant efficiency, no quenching). -/
theorem linear_galaxy : ∃ sfr : ℝ → ℝ, (∀ x, calcSfhSinglegal (fun (_ : Unit) x _ => 12 + Real.logb 10 x)
    ⟨12, -12, 0, 0, 1, 0, 0, 0⟩ () [x] 1 1 = [sfr x]) ∧ ∀ x, 1 / 10 ^ 14 ≤ x → sfr x = x := by
  refine ⟨_, fun x => by rw [calcSfhSinglegal_eq]; rfl, fun x hx => ?_⟩
  have hx0 : 0 < x := lt_of_lt_of_le (by positivity) hx
  simp only [qExp, msSfr, msLogEfficiency]
  rw [Real.rpow_add (by norm_num), Real.rpow_logb (by norm_num) (by norm_num) hx0, mul_comm]
  norm_num at hx ⊢
  have e : (1000000000000 * x * (1 / 1000000000000) : ℝ) = x := by ring
  rw [e]
  exact max_eq_right hx

/-- The hypotheses of the error bound are met by that galaxy on an irregular table with steps of at most 1.5 Gyr. -/
example : ∃ sfr : ℝ → ℝ, (∀ x, calcSfhSinglegal (fun (_ : Unit) x _ => 12 + Real.logb 10 x)
      ⟨12, -12, 0, 0, 1, 0, 0, 0⟩ () [x] 1 1 = [sfr x]) ∧ Increasing ([1, 2, 3.5, 4] : List ℝ) ∧
    (∀ x ∈ ([1, 2, 3.5, 4] : List ℝ), x ≤ 4) ∧
    (∀ x ∈ Icc (1 : ℝ) 4, ∀ y ∈ Icc (1 : ℝ) 4, |sfr x - sfr y| ≤ 1 * |x - y|) ∧
    ∀ i (hi : i + 1 < ([1, 2, 3.5, 4] : List ℝ).length),
      ([1, 2, 3.5, 4] : List ℝ)[i + 1] - ([1, 2, 3.5, 4] : List ℝ)[i] ≤ 1.5 := by
  obtain ⟨sfr, h1, h2⟩ := linear_galaxy
  refine ⟨sfr, h1, by unfold Increasing; norm_num, by norm_num, fun x hx y hy => ?_, fun i hi => ?_⟩
  · rw [h2 x (le_trans (by norm_num) hx.1), h2 y (le_trans (by norm_num) hy.1), one_mul]
  · simp only [List.length_cons, List.length_nil] at hi
    have hi' : i < 3 := by omega
    interval_cases i <;> norm_num

/-- The star formation rate is a continuous function of time where the halo history is. -/
theorem sfr_continuousOn {M : Type*} (logMah : M → ℝ → ℝ → ℝ) (p : DiffstarParams ℝ) (mah : M) (lgt0 fb : ℝ)
    (sfr : ℝ → ℝ) (hsfr : ∀ x, calcSfhSinglegal logMah p mah [x] lgt0 fb = [sfr x]) {a T : ℝ} (ha : 0 < a)
    (hmah : ContinuousOn (fun x => logMah mah x lgt0) (Icc a T)) : ContinuousOn sfr (Icc a T) := by
  have e : sfr = fun t => max (1 / 10 ^ 14) ((10 : ℝ) ^ qExp (Real.logb 10 t) p.lgQt ((10 : ℝ) ^ p.qlglgdt) p.lgDrop
      p.lgRejuv * msSfr p fb (logMah mah t lgt0)) := by
    funext x
    have := hsfr x
    rw [calcSfhSinglegal_eq] at this
    exact (List.cons.inj this).1.symm
  have hlog : ContinuousOn (fun x => Real.logb 10 x) (Icc a T) := by
    unfold Real.logb
    exact (Real.continuousOn_log.mono fun x hx => by
      simpa using (ha.trans_le hx.1).ne').div_const _
  have hrp : Continuous fun x : ℝ => (10 : ℝ) ^ x := Real.continuous_const_rpow (by norm_num)
  rw [e]
  refine ContinuousOn.sup continuousOn_const (ContinuousOn.mul ?_ ?_)
  · have hq : Continuous fun lgt => (10 : ℝ) ^ qExp lgt p.lgQt ((10 : ℝ) ^ p.qlglgdt) p.lgDrop p.lgRejuv := by
      refine hrp.comp ?_
      unfold qExp
      have := jaxTw_continuous
      fun_prop
    exact hq.comp_continuousOn hlog
  · have hm : Continuous fun lgm => msSfr p fb lgm := by
      unfold msSfr
      refine (continuous_const.mul hrp).mul (hrp.comp ?_)
      unfold msLogEfficiency
      refine continuous_const.add ((continuous_const.add (continuous_const.div ?_ fun x => ?_)).mul ?_)
      · fun_prop
      · positivity
      · fun_prop
    exact hm.comp_continuousOn hmah

theorem uniform_cells {f : ℝ → ℝ} {a T : ℝ} (hf : ContinuousOn f (Icc a T)) {e : ℝ} (he : 0 < e) :
    ∃ δ > 0, ∀ t : List ℝ, Increasing t → (∀ x ∈ t, x ≤ T) → ∀ h0 : 0 < t.length, t[0] = a →
      (∀ i (hi : i + 1 < t.length), t[i + 1] - t[i] < δ) →
      ∀ i (hi : i + 1 < t.length), ∀ x ∈ Icc t[i] t[i + 1], |f x - (f t[i + 1] + f t[i]) / 2| ≤ e := by
  have hu := isCompact_Icc.uniformContinuousOn_of_continuous hf
  rw [Metric.uniformContinuousOn_iff] at hu
  obtain ⟨δ, hδ, hu⟩ := hu e he
  refine ⟨δ, hδ, fun t hinc hT h0 hta hst i hi x hx => ?_⟩
  have hm : ∀ k (hk : k < t.length), t[k] ∈ Icc a T := fun k hk =>
    ⟨hta ▸ increasing_le hinc (by omega) hk, hT _ (List.getElem_mem hk)⟩
  have hxm : x ∈ Icc a T := ⟨(hm i (by omega)).1.trans hx.1, hx.2.trans (hm (i + 1) hi).2⟩
  have hs := hst i hi
  have a1 := (hu x hxm t[i] (hm i (by omega)) (by rw [Real.dist_eq, abs_of_nonneg (sub_nonneg.2 hx.1)]; linarith [hx.2])).le
  have a2 := (hu x hxm t[i + 1] (hm (i + 1) hi)
    (by rw [Real.dist_eq, abs_sub_comm, abs_of_nonneg (sub_nonneg.2 hx.2)]; linarith [hx.1])).le
  rw [Real.dist_eq, abs_le] at a1 a2
  rw [abs_le]
  constructor <;> linarith [a1.1, a1.2, a2.1, a2.2]

/-- **C104** (convergence): for a halo history that is continuous in time on `[a, T]`, `0 < a`, the stellar mass formed
since the first table time `a` comes within any `ε` of `1e9` times the integral of the SFR, at every time of every
increasing table inside `[a, T]` whose steps are short enough. -/
theorem C104_mass_converges {M : Type*} (logMah : M → ℝ → ℝ → ℝ) (p : DiffstarParams ℝ) (mah : M) (lgt0 fb : ℝ)
    (sfr : ℝ → ℝ) (hsfr : ∀ x, calcSfhSinglegal logMah p mah [x] lgt0 fb = [sfr x]) {a T : ℝ} (ha : 0 < a)
    (hmah : ContinuousOn (fun x => logMah mah x lgt0) (Icc a T)) {ε : ℝ} (hε : 0 < ε) :
    ∃ δ > 0, ∀ t : List ℝ, Increasing t → (∀ x ∈ t, x ≤ T) → ∀ h0 : 0 < t.length, t[0] = a →
      (∀ i (hi : i + 1 < t.length), t[i + 1] - t[i] < δ) → ∀ i (hi : i < t.length),
      ∃ m0 m : ℝ, (calcSfhSinglegalSmh logMah p mah t lgt0 fb).smh[0]? = some m0 ∧
        (calcSfhSinglegalSmh logMah p mah t lgt0 fb).smh[i]? = some m ∧
        |(m - m0) - (10 : ℝ) ^ 9 * ∫ x in a..t[i], sfr x| ≤ ε := by
  have hc := sfr_continuousOn logMah p mah lgt0 fb sfr hsfr ha hmah
  have hk : 0 < (10 : ℝ) ^ 9 * (|T - a| + 1) := by positivity
  obtain ⟨δ, hδ, hcell⟩ := uniform_cells hc (div_pos hε hk)
  refine ⟨δ, hδ, fun t hinc hT h0 hta hst i hi => ?_⟩
  rw [smh_table logMah p mah lgt0 fb sfr hsfr]
  obtain ⟨m0, m, e0, e1, hb⟩ := cumulative_error t (t.map sfr) (by simp) hinc sfr hT h0 (by rw [hta]; exact hc)
    (fun i hi => by simp) (hcell t hinc hT h0 hta hst) i hi
  refine ⟨m0, m, e0, e1, ?_⟩
  rw [hta] at hb
  refine hb.trans ?_
  have h1 : t[i] - a ≤ |T - a| + 1 := by
    have := hT _ (List.getElem_mem hi)
    have := le_abs_self (T - a)
    linarith
  calc (10 : ℝ) ^ 9 * (ε / ((10 : ℝ) ^ 9 * (|T - a| + 1)) * (t[i] - a))
      ≤ (10 : ℝ) ^ 9 * (ε / ((10 : ℝ) ^ 9 * (|T - a| + 1)) * (|T - a| + 1)) := by gcongr
    _ = ε := by field_simp

/-- The halo history of that galaxy is continuous on `[1, 4]`, with accretion rate 1000 Msun/yr (also what the gas
statement below assumes). -/
example : ContinuousOn (fun x => 12 + Real.logb 10 x) (Icc (1 : ℝ) 4) ∧
    ∀ x ∈ Icc (1 : ℝ) 4, HasDerivAt (fun y => (10 : ℝ) ^ (12 + Real.logb 10 y)) (10 ^ 9 * 1000) x := by
  have h : ∀ x : ℝ, 0 < x → (10 : ℝ) ^ (12 + Real.logb 10 x) = 10 ^ 12 * x := fun x hx => by
    rw [Real.rpow_add (by norm_num), Real.rpow_logb (by norm_num) (by norm_num) hx]
    norm_num
  constructor
  · unfold Real.logb
    exact continuousOn_const.add ((Real.continuousOn_log.mono fun x hx => by
      simpa using (zero_lt_one.trans_le hx.1).ne').div_const _)
  · intro x hx
    have hx0 : 0 < x := zero_lt_one.trans_le hx.1
    have h1 : HasDerivAt (fun y : ℝ => (10 : ℝ) ^ 12 * y) (10 ^ 9 * 1000) x := by
      refine ((hasDerivAt_id x).const_mul ((10 : ℝ) ^ 12)).congr_deriv ?_
      norm_num
    refine h1.congr_of_eventuallyEq ?_
    filter_upwards [lt_mem_nhds hx0] with y hy using h y hy

/-- **C104** (gas closure): let `dMhDt` be the accretion rate in Msun/yr that belongs to `logMah`, i.e. `1e9 dMhDt` is the
time derivative (per Gyr) of `10^logMah`, and let it be continuous on `[a, T]`. Then the gas mass acquired since the
first table time `a` comes within any `ε` of `fb` times the halo mass growth minus `1e9` times the integral of the SFR,
on every increasing table inside `[a, T]` whose steps are short enough. -/
theorem C104_gas_converges {M : Type*} (logMah dMhDt : M → ℝ → ℝ → ℝ) (p : DiffstarParams ℝ) (mah : M) (lgt0 fb : ℝ)
    (sfr : ℝ → ℝ) (hsfr : ∀ x, calcSfhSinglegal logMah p mah [x] lgt0 fb = [sfr x]) {a T : ℝ} (ha : 0 < a)
    (hder : ∀ x ∈ Icc a T, HasDerivAt (fun y => (10 : ℝ) ^ logMah mah y lgt0) ((10 : ℝ) ^ 9 * dMhDt mah x lgt0) x)
    (hcont : ContinuousOn (fun x => dMhDt mah x lgt0) (Icc a T)) {ε : ℝ} (hε : 0 < ε) :
    ∃ δ > 0, ∀ t : List ℝ, Increasing t → (∀ x ∈ t, x ≤ T) → ∀ h0 : 0 < t.length, t[0] = a →
      (∀ i (hi : i + 1 < t.length), t[i + 1] - t[i] < δ) → ∀ i (hi : i < t.length),
      ∃ g0 g : ℝ, (calcMgasSinglegal logMah dMhDt p mah t lgt0 fb).mgash[0]? = some g0 ∧
        (calcMgasSinglegal logMah dMhDt p mah t lgt0 fb).mgash[i]? = some g ∧
        |(g - g0) - (fb * ((10 : ℝ) ^ logMah mah t[i] lgt0 - (10 : ℝ) ^ logMah mah a lgt0) -
          (10 : ℝ) ^ 9 * ∫ x in a..t[i], sfr x)| ≤ ε := by
  have hmah : ContinuousOn (fun x => logMah mah x lgt0) (Icc a T) := by
    have h1 : ContinuousOn (fun y => (10 : ℝ) ^ logMah mah y lgt0) (Icc a T) := fun x hx =>
      (hder x hx).continuousAt.continuousWithinAt
    have h2 : ContinuousOn (fun y => Real.logb 10 ((10 : ℝ) ^ logMah mah y lgt0)) (Icc a T) := by
      unfold Real.logb
      exact (h1.log fun x _ => (Real.rpow_pos_of_pos (by norm_num) _).ne').div_const _
    refine h2.congr fun x _ => ?_
    exact (Real.logb_rpow (by norm_num) (by norm_num)).symm
  obtain ⟨δ1, hδ1, H1⟩ := C104_mass_converges logMah p mah lgt0 fb sfr hsfr ha hmah (half_pos hε)
  have hcf : ContinuousOn (fun x => fb * dMhDt mah x lgt0) (Icc a T) := continuousOn_const.mul hcont
  have hk : 0 < (10 : ℝ) ^ 9 * (|T - a| + 1) := by positivity
  obtain ⟨δ2, hδ2, H2⟩ := uniform_cells hcf (div_pos (half_pos hε) hk)
  refine ⟨min δ1 δ2, lt_min hδ1 hδ2, fun t hinc hT h0 hta hst i hi => ?_⟩
  obtain ⟨m0, m, e0, e1, hb⟩ := H1 t hinc hT h0 hta (fun i hi => (hst i hi).trans_le (min_le_left _ _)) i hi
  obtain ⟨c0, c, f0, f1, hb'⟩ := cumulative_error t (t.map fun x => fb * dMhDt mah x lgt0) (by simp) hinc _ hT h0
    (by rw [hta]; exact hcf) (fun i hi => by simp)
    (H2 t hinc hT h0 hta fun i hi => (hst i hi).trans_le (min_le_right _ _)) i hi
  obtain ⟨_, hsm, hgl, hsum⟩ := C17_gas_budget logMah dMhDt p mah t lgt0 fb
  have key : ∀ k (hk : k < t.length) (mk ck : ℝ),
      (calcSfhSinglegalSmh logMah p mah t lgt0 fb).smh[k]? = some mk →
      (cumulativeMstarFormed t (t.map fun x => fb * dMhDt mah x lgt0))[k]? = some ck →
      (calcMgasSinglegal logMah dMhDt p mah t lgt0 fb).mgash[k]? = some (ck - mk) := by
    intro k hk mk ck h1 h2
    have h3 : (calcMgasSinglegal logMah dMhDt p mah t lgt0 fb).smh[k]? = some mk := h1
    rw [← hsum, List.getElem?_zipWith, h3] at h2
    rw [List.getElem?_eq_getElem (by omega)] at h2 ⊢
    simp only [Option.some.injEq] at h2 ⊢
    linarith
  refine ⟨c0 - m0, c - m, key 0 h0 m0 c0 e0 f0, key i hi m c e1 f1, ?_⟩
  have hai : a ≤ t[i] := hta ▸ increasing_le hinc (by omega) hi
  have hTi : t[i] ≤ T := hT _ (List.getElem_mem hi)
  have hint : (10 : ℝ) ^ 9 * ∫ x in a..t[i], fb * dMhDt mah x lgt0 =
      fb * ((10 : ℝ) ^ logMah mah t[i] lgt0 - (10 : ℝ) ^ logMah mah a lgt0) := by
    have h := intervalIntegral.integral_eq_sub_of_hasDerivAt (a := a) (b := t[i])
      (f := fun y => (10 : ℝ) ^ logMah mah y lgt0) (f' := fun x => (10 : ℝ) ^ 9 * dMhDt mah x lgt0)
      (fun x hx => hder x (by rw [uIcc_of_le hai] at hx; exact ⟨hx.1, hx.2.trans hTi⟩))
      ((continuousOn_const.mul (hcont.mono (by rw [uIcc_of_le hai]; exact Icc_subset_Icc le_rfl hTi))).intervalIntegrable)
    rw [← h, intervalIntegral.integral_const_mul, intervalIntegral.integral_const_mul]
    ring
  have hlast : (10 : ℝ) ^ 9 * (ε / 2 / ((10 : ℝ) ^ 9 * (|T - a| + 1)) * (t[i] - a)) ≤ ε / 2 := by
    have h1 : t[i] - a ≤ |T - a| + 1 := by
      have := le_abs_self (T - a)
      linarith
    calc (10 : ℝ) ^ 9 * (ε / 2 / ((10 : ℝ) ^ 9 * (|T - a| + 1)) * (t[i] - a))
        ≤ (10 : ℝ) ^ 9 * (ε / 2 / ((10 : ℝ) ^ 9 * (|T - a| + 1)) * (|T - a| + 1)) := by gcongr
      _ = ε / 2 := by field_simp
  rw [hta, hint] at hb'
  have hb'' := hb'.trans hlast
  rw [abs_le] at hb hb'' ⊢
  constructor <;> linarith [hb.1, hb.2, hb''.1, hb''.2]

end Diffstar.Props
