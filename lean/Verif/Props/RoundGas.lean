import Verif.Model.RoundGas
import Verif.Props.RoundFstar

/-!
C142: gas masses in single precision.
-/

namespace Diffstar.Props

open Diffstar Diffstar.Spec

/-- Larger rates give larger masses, also with rounding. -/
theorem trapFl_le (R : Rounding) (t s s' : List ℝ) (a fa fa' c c' : ℝ) (hfa : fa ≤ fa') (hc : c ≤ c')
    (hinc : (a :: t).Pairwise (· ≤ ·)) (h : List.Forall₂ (· ≤ ·) s s') :
    List.Forall₂ (· ≤ ·) (trapFl R a fa c (t.zip s)) (trapFl R a fa' c' (t.zip s')) := by
  induction h generalizing t a fa fa' c c' with
  | nil => simp [trapFl, scanOut]
  | @cons x y l l' hxy _ ih =>
    cases t with
    | nil => simp [trapFl, scanOut]
    | cons b t =>
      rw [List.zip_cons_cons, List.zip_cons_cons, trapFl_cons, trapFl_cons]
      rw [List.pairwise_cons] at hinc
      have hab : 0 ≤ R.fl (b - a) := R.fl_nonneg (by linarith [hinc.1 b List.mem_cons_self])
      have h1 : R.fl (x + fa) ≤ R.fl (y + fa') := R.mono (add_le_add hxy hfa)
      have h2 : R.fl (c + R.fl (R.fl (R.fl (b - a) * R.fl (x + fa)) / 2)) ≤ R.fl (c' + R.fl (R.fl (R.fl (b - a) * R.fl (y + fa')) / 2)) :=
        R.mono (add_le_add hc (R.mono (div_le_div_of_nonneg_right (R.mono (mul_le_mul_of_nonneg_left h1 hab)) (by norm_num))))
      exact List.Forall₂.cons h2 (ih t b x y _ _ hxy h2 hinc.2)

/-- **C142**: with rounding to any precision the gas mass is not negative as long as the (rounded) star formation rates do not exceed
the (rounded) accretion rates. -/
theorem C142_gas_nonneg (R : Rounding) {M : Type*} (L : Rounding.MathLib) (logMah dMhDt : M → ℝ → ℝ → ℝ)
    (p : DiffstarParams ℝ) (mah : M) (tarr : List ℝ) (lgt0 fb : ℝ) (hinc : (R.fl 0.001 :: tarr).Pairwise (· < ·))
    (hle : List.Forall₂ (fun s t => s ≤ R.fl (fb * dMhDt mah t lgt0)) (R.calcSfhSinglegalSmh L logMah p mah tarr lgt0 fb).sfh tarr) :
    ∀ m ∈ (R.calcMgasSinglegal L logMah dMhDt p mah tarr lgt0 fb).mgash, 0 ≤ m := by
  have h9 : 0 ≤ R.fl (10 ^ 9) := R.fl_nonneg (by norm_num)
  have key : List.Forall₂ (· ≤ ·) (R.cumulativeMstarFormed tarr (R.calcSfhSinglegalSmh L logMah p mah tarr lgt0 fb).sfh)
      (R.cumulativeMstarFormed tarr ((tarr.map fun t => dMhDt mah t lgt0).map fun d => R.fl (fb * d))) := by
    rw [cmfFl_eq, cmfFl_eq, List.forall₂_map_left_iff, List.forall₂_map_right_iff]
    refine (trapFl_le R tarr _ _ (R.fl 0.001) _ _ 0 0 le_rfl le_rfl (hinc.imp fun h => h.le) ?_).imp
      fun a b h => R.mono (mul_le_mul_of_nonneg_right h h9)
    rw [List.map_map, List.forall₂_map_right_iff]
    exact hle
  intro m hm
  change m ∈ List.zipWith _ _ _ at hm
  obtain ⟨k, hk, rfl⟩ := List.getElem_of_mem hm
  rw [List.getElem_zipWith]
  rw [List.length_zipWith] at hk
  have := (List.forall₂_iff_get.1 key).2 k (by exact lt_of_lt_of_le hk (min_le_right _ _)) (by exact lt_of_lt_of_le hk (min_le_left _ _))
  exact R.fl_nonneg (sub_nonneg.2 this)

section

variable (R : Rounding) {M : Type*} (L : Rounding.MathLib) (logMah dMhDt : M → ℝ → ℝ → ℝ) (p : DiffstarParams ℝ) (mah : M)
  (tarr : List ℝ) (lgt0 fb : ℝ)

theorem gasFl_getD (hu : R.u ≤ 2 ^ (-24 : ℤ)) (hinc : Increasing (0.002 :: tarr)) (hs0 : ∀ y ∈ (R.calcSfhSinglegalSmh L logMah p mah tarr lgt0 fb).sfh, 0 ≤ y)
    (ha0 : ∀ t ∈ tarr, 0 ≤ fb * dMhDt mah t lgt0) {i : ℕ} (hi : i < tarr.length) :
    (R.calcMgasSinglegal L logMah dMhDt p mah tarr lgt0 fb).mgash.getD i 0 =
      R.fl ((R.cumulativeMstarFormed tarr (tarr.map fun t => R.fl (fb * dMhDt mah t lgt0))).getD i 0 -
        (R.calcSfhSinglegalSmh L logMah p mah tarr lgt0 fb).smh.getD i 0) := by
  have e : ((tarr.map fun t => dMhDt mah t lgt0).map fun d => R.fl (fb * d)) = tarr.map fun t => R.fl (fb * dMhDt mah t lgt0) := by
    rw [List.map_map]; rfl
  obtain ⟨l1, -, -⟩ := cmfFl_mono R hu (t := tarr) (s := tarr.map fun t => R.fl (fb * dMhDt mah t lgt0)) (List.length_map ..) hinc (by
    intro y hy
    obtain ⟨t, ht, rfl⟩ := List.mem_map.1 hy
    exact R.fl_nonneg (ha0 t ht))
  obtain ⟨l2, -, -⟩ := cmfFl_mono R hu (t := tarr) (s := (R.calcSfhSinglegalSmh L logMah p mah tarr lgt0 fb).sfh) (List.length_map ..) hinc hs0
  show (List.zipWith _ (R.cumulativeMstarFormed tarr ((tarr.map fun t => dMhDt mah t lgt0).map fun d => R.fl (fb * d)))
    (R.cumulativeMstarFormed tarr (R.calcSfhSinglegalSmh L logMah p mah tarr lgt0 fb).sfh)).getD i 0 = _
  rw [e, List.getD_eq_getElem _ _ (by rw [List.length_zipWith, l1, l2, min_self]; exact hi), List.getElem_zipWith,
    List.getD_eq_getElem _ _ (by omega)]
  show _ = R.fl (_ - (R.cumulativeMstarFormed tarr (R.calcSfhSinglegalSmh L logMah p mah tarr lgt0 fb).sfh).getD i 0)
  rw [List.getD_eq_getElem _ _ (by omega)]

/-- The accreted baryons in floating point, for accretion rates with a relative error. -/
theorem accreted_err (hu : R.u ≤ 2 ^ (-24 : ℤ)) (dMhDt' : M → ℝ → ℝ → ℝ) (hinc : Increasing (0.002 :: tarr))
    (ha0 : ∀ t ∈ tarr, 0 ≤ fb * dMhDt mah t lgt0) {δ : ℝ} (hδ0 : 0 ≤ δ) (hδ1 : δ ≤ 0.1)
    (hd : ∀ t ∈ tarr, |fb * dMhDt' mah t lgt0 - fb * dMhDt mah t lgt0| ≤ δ * (fb * dMhDt mah t lgt0)) {i : ℕ}
    (hi : i < tarr.length) (hn : i ≤ 1000) :
    |(R.cumulativeMstarFormed tarr (tarr.map fun t => R.fl (fb * dMhDt' mah t lgt0))).getD i 0 -
      (cumulativeMstarFormed tarr (tarr.map fun t => fb * dMhDt mah t lgt0)).getD i 0| ≤
      (δ + 7 / 10 ^ 8 * (i + 11)) * (cumulativeMstarFormed tarr (tarr.map fun t => fb * dMhDt mah t lgt0)).getD i 0 := by
  have hu0 := R.u_nonneg
  have hu1 : R.u ≤ 5.97 / 10 ^ 8 := hu.trans (by norm_num)
  have hcons := List.pairwise_cons.1 hinc
  have hinc1 : Increasing (0.001 :: tarr) := List.pairwise_cons.2 ⟨fun x hx => lt_trans (by norm_num) (hcons.1 x hx), hcons.2⟩
  have ha0' : ∀ t ∈ tarr, 0 ≤ fb * dMhDt' mah t lgt0 := by
    intro t ht
    have h1 := (abs_le.1 (hd t ht)).1
    have h2 := ha0 t ht
    have h3 : δ * (fb * dMhDt mah t lgt0) ≤ 0.1 * (fb * dMhDt mah t lgt0) := mul_le_mul_of_nonneg_right hδ1 h2
    norm_num at h3
    linarith
  have hrel : ∀ k, k < tarr.length → |(tarr.map fun t => R.fl (fb * dMhDt' mah t lgt0)).getD k 0 -
      (tarr.map fun t => fb * dMhDt mah t lgt0).getD k 0| ≤ (δ + 1.1 * R.u) * (tarr.map fun t => fb * dMhDt mah t lgt0).getD k 0 := by
    intro k hk
    rw [List.getD_eq_getElem _ _ (by rw [List.length_map]; exact hk), List.getD_eq_getElem _ _ (by rw [List.length_map]; exact hk),
      List.getElem_map, List.getElem_map]
    have h1 := hd _ (List.getElem_mem hk)
    have h2 := ha0 _ (List.getElem_mem hk)
    have h4 := R.err (fb * dMhDt' mah tarr[k] lgt0)
    rw [abs_of_nonneg (ha0' _ (List.getElem_mem hk))] at h4
    have h3 : δ * (fb * dMhDt mah tarr[k] lgt0) ≤ 0.1 * (fb * dMhDt mah tarr[k] lgt0) := mul_le_mul_of_nonneg_right hδ1 h2
    generalize fb * dMhDt mah tarr[k] lgt0 = x at *
    generalize fb * dMhDt' mah tarr[k] lgt0 = x' at *
    have h5 : R.u * x' ≤ R.u * (1.1 * x) := mul_le_mul_of_nonneg_left (by norm_num at h3 ⊢; linarith [(abs_le.1 h1).2]) hu0
    refine (abs_sub_le _ x' _).trans ?_
    rw [add_mul]
    norm_num at h5 ⊢
    linarith
  have hp := cmf_nonneg (t := tarr) (s := tarr.map fun t => fb * dMhDt mah t lgt0) (List.length_map ..) hinc1 (by
    intro y hy
    obtain ⟨t, ht, rfl⟩ := List.mem_map.1 hy
    exact ha0 t ht) i
  have h1 := cmf_rel (t := tarr) (List.length_map ..) (List.length_map ..) hinc1 (by positivity) hrel hi
  have h2 := cmfFl_err R hu (t := tarr) (s := tarr.map fun t => R.fl (fb * dMhDt' mah t lgt0)) (List.length_map ..) hinc (by
    intro y hy
    obtain ⟨t, ht, rfl⟩ := List.mem_map.1 hy
    exact R.fl_nonneg (ha0' t ht)) hi hn
  generalize (cumulativeMstarFormed tarr (tarr.map fun t => fb * dMhDt mah t lgt0)).getD i 0 = A at *
  generalize (cumulativeMstarFormed tarr (tarr.map fun t => R.fl (fb * dMhDt' mah t lgt0))).getD i 0 = B at *
  generalize (R.cumulativeMstarFormed tarr (tarr.map fun t => R.fl (fb * dMhDt' mah t lgt0))).getD i 0 = C at *
  have hi0 : (0 : ℝ) ≤ i := Nat.cast_nonneg i
  generalize (i : ℝ) = k at *
  have h3 : (δ + 1.1 * R.u) * A ≤ 0.101 * A := mul_le_mul_of_nonneg_right (by norm_num at hδ1 hu1 ⊢; linarith) hp
  have hB : B ≤ 1.101 * A := by
    have := (abs_le.1 h1).2
    norm_num at h3 ⊢
    linarith
  have h4 : 1.001 * ((k + 9) * R.u) * B ≤ 1.001 * ((k + 9) * R.u) * (1.101 * A) := mul_le_mul_of_nonneg_left hB (by positivity)
  have h5 : (k + 9) * (R.u * A) ≤ (k + 9) * (5.97 / 10 ^ 8 * A) :=
    mul_le_mul_of_nonneg_left (mul_le_mul_of_nonneg_right hu1 hp) (by linarith)
  have h6 : R.u * A ≤ 5.97 / 10 ^ 8 * A := mul_le_mul_of_nonneg_right hu1 hp
  have hkA : 0 ≤ k * A := mul_nonneg hi0 hp
  refine (abs_sub_le _ B _).trans ((add_le_add (h2.trans h4) h1).trans ?_)
  norm_num at h5 h6 ⊢
  linarith

/-- **C142**: the gas budget in floating point: gas plus stars add up to the accreted baryons (of the accretion rates that the code
has) up to a few roundings. -/
theorem C142_budget (hu : R.u ≤ 2 ^ (-24 : ℤ)) (hinc : Increasing (0.002 :: tarr))
    (hs0 : ∀ y ∈ (R.calcSfhSinglegalSmh L logMah p mah tarr lgt0 fb).sfh, 0 ≤ y)
    (ha0 : ∀ t ∈ tarr, 0 ≤ fb * dMhDt mah t lgt0) (i : ℕ) (hi : i < tarr.length) (hn : i ≤ 1000) :
    let h := R.calcMgasSinglegal L logMah dMhDt p mah tarr lgt0 fb
    let A := (cumulativeMstarFormed tarr (tarr.map fun t => fb * dMhDt mah t lgt0)).getD i 0
    0 ≤ h.smh.getD i 0 ∧ |h.mgash.getD i 0 + h.smh.getD i 0 - A| ≤ 7 / 10 ^ 8 * (i + 12) * A + 6 / 10 ^ 8 * h.smh.getD i 0 := by
  intro h A
  have hu0 := R.u_nonneg
  have hu1 : R.u ≤ 5.97 / 10 ^ 8 := hu.trans (by norm_num)
  have hcons := List.pairwise_cons.1 hinc
  have hinc1 : Increasing (0.001 :: tarr) := List.pairwise_cons.2 ⟨fun x hx => lt_trans (by norm_num) (hcons.1 x hx), hcons.2⟩
  have h1 := gasFl_getD R L logMah dMhDt p mah tarr lgt0 fb hu hinc hs0 ha0 hi
  have h2 := accreted_err R dMhDt mah tarr lgt0 fb hu dMhDt hinc ha0 le_rfl (by norm_num) (fun t _ => by simp) hi hn
  change h.mgash.getD i 0 = R.fl (_ - h.smh.getD i 0) at h1
  obtain ⟨l2, -, -⟩ := cmfFl_mono R hu (t := tarr) (s := (R.calcSfhSinglegalSmh L logMah p mah tarr lgt0 fb).sfh) (List.length_map ..) hinc hs0
  have hm : 0 ≤ h.smh.getD i 0 := by
    refine getD_nonneg (fun m hm => ?_) i
    have h001 : R.fl 0.001 ≤ 0.002 := by
      have := (abs_le.1 (R.err 0.001)).2
      rw [abs_of_pos (by norm_num)] at this
      norm_num at this hu1 ⊢
      linarith
    exact ((C124_masses_never_decrease R (lt_of_le_of_lt hu (by norm_num)) tarr _ (List.length_map ..)
      (List.pairwise_cons.2 ⟨fun x hx => lt_of_le_of_lt h001 (hcons.1 x hx), hcons.2⟩) hs0).2.1 m hm).le
  refine ⟨hm, ?_⟩
  have hp : 0 ≤ A := cmf_nonneg (t := tarr) (s := tarr.map fun t => fb * dMhDt mah t lgt0) (List.length_map ..) hinc1 (by
    intro y hy
    obtain ⟨t, ht, rfl⟩ := List.mem_map.1 hy
    exact ha0 t ht) i
  rw [h1]
  change |_ - A| ≤ _ * A at h2
  have hi0 : (0 : ℝ) ≤ i := Nat.cast_nonneg i
  have hi1 : (i : ℝ) ≤ 1000 := by exact_mod_cast hn
  generalize (R.cumulativeMstarFormed tarr (tarr.map fun t => R.fl (fb * dMhDt mah t lgt0))).getD i 0 = a at *
  generalize h.smh.getD i 0 = m at *
  generalize A = A at *
  generalize (i : ℝ) = k at *
  have h3 := R.err (a - m)
  have hkA : k * A ≤ 1000 * A := mul_le_mul_of_nonneg_right hi1 hp
  have ha : |a - m| ≤ 1.001 * A + m := by
    have := abs_le.1 h2
    rw [abs_le]
    constructor <;> norm_num at this hkA ⊢ <;> linarith
  have h4 : R.u * |a - m| ≤ 5.97 / 10 ^ 8 * (1.001 * A + m) := mul_le_mul hu1 ha (abs_nonneg _) (by norm_num)
  rw [show R.fl (a - m) + m - A = (R.fl (a - m) - (a - m)) + (a - A) by ring]
  refine (abs_add_le _ _).trans ((add_le_add (h3.trans h4) h2).trans ?_)
  norm_num
  linarith

end

/-- **C142**: the gas mass in single precision, for accretion rates and halo masses that are only approximately those of the exact
model. `dt` is the duration of the quenching event in dex. -/
theorem C142_gas_error {L : Rounding.MathLib} (hL : Accurate L) {M : Type*}
    (logMah logMah' dMhDt dMhDt' : M → ℝ → ℝ → ℝ) (p : DiffstarParams ℝ) (hp : InFloatBounds p) (mah : M) (tarr : List ℝ) (lgt0 fb : ℝ)
    (hfb : 0 < fb) (ht : ∀ t ∈ tarr, 0.01 ≤ t ∧ t ≤ 100) (hinc : Increasing tarr) (hn : tarr.length ≤ 1000)
    (hm : ∀ t ∈ tarr, 0 ≤ logMah mah t lgt0 ∧ logMah mah t lgt0 ≤ 20)
    (hm' : ∀ t ∈ tarr, |logMah' mah t lgt0 - logMah mah t lgt0| ≤ 1 / 10 ^ 5)
    (ha0 : ∀ t ∈ tarr, 0 ≤ dMhDt mah t lgt0) (δ : ℝ) (hδ0 : 0 ≤ δ) (hδ1 : δ ≤ 0.1)
    (hd : ∀ t ∈ tarr, |dMhDt' mah t lgt0 - dMhDt mah t lgt0| ≤ δ * dMhDt mah t lgt0) (i : ℕ) (hi : i < tarr.length) :
    let h := calcMgasSinglegal logMah dMhDt p mah tarr lgt0 fb
    let h' := float32.calcMgasSinglegal L logMah' dMhDt' p mah tarr lgt0 fb
    |h'.mgash.getD i 0 - h.mgash.getD i 0| ≤ (δ + 1 / 10 ^ 4) * (h.mgash.getD i 0 + h.smh.getD i 0) +
      (0.0031 + 1.1 / 10 ^ 5 / (10 : ℝ) ^ p.qlglgdt) * h.smh.getD i 0 := by
  intro h h'
  have hu : float32.u ≤ 2 ^ (-24 : ℤ) := le_rfl
  have hu0 := float32.u_nonneg
  have hu1 : float32.u ≤ 5.97 / 10 ^ 8 := hu.trans (by norm_num)
  have hinc2 : Increasing (0.002 :: tarr) :=
    List.pairwise_cons.2 ⟨fun t h => lt_of_lt_of_le (by norm_num) (ht t h).1, hinc⟩
  have hinc1 : Increasing (0.001 :: tarr) :=
    List.pairwise_cons.2 ⟨fun t h => lt_of_lt_of_le (by norm_num) (ht t h).1, hinc⟩
  have hmass := C127_mass_error hL logMah logMah' p hp mah tarr lgt0 fb hfb ht hinc hn hm hm'
  have hA0 : ∀ t ∈ tarr, 0 ≤ fb * dMhDt mah t lgt0 := fun t h => mul_nonneg hfb.le (ha0 t h)
  have hA0' : ∀ t ∈ tarr, 0 ≤ fb * dMhDt' mah t lgt0 := by
    intro t h
    have h1 := (abs_le.1 (hd t h)).1
    have h2 := ha0 t h
    have h3 : δ * dMhDt mah t lgt0 ≤ 0.1 * dMhDt mah t lgt0 := mul_le_mul_of_nonneg_right hδ1 h2
    exact mul_nonneg hfb.le (by norm_num at h3; linarith)
  have hD : ∀ t ∈ tarr, |fb * dMhDt' mah t lgt0 - fb * dMhDt mah t lgt0| ≤ δ * (fb * dMhDt mah t lgt0) := by
    intro t h
    rw [← mul_sub, abs_mul, abs_of_pos hfb]
    exact (mul_le_mul_of_nonneg_left (hd t h) hfb.le).trans (le_of_eq (by ring))
  have hpos : ∀ x ∈ calcSfhSinglegal logMah p mah tarr lgt0 fb, 0 ≤ x := by
    rw [calcSfhSinglegal_eq]
    intro x hx
    obtain ⟨t, -, rfl⟩ := List.mem_map.1 hx
    exact le_trans (by norm_num) (le_max_left _ _)
  have hpos' : ∀ x ∈ (float32.calcSfhSinglegalSmh L logMah' p mah tarr lgt0 fb).sfh, 0 ≤ x := by
    intro x hx
    change x ∈ List.map _ _ at hx
    obtain ⟨t, -, rfl⟩ := List.mem_map.1 hx
    have h14 : 0 ≤ float32.fl SFR_MIN := float32.fl_nonneg (by norm_num [SFR_MIN])
    unfold Rounding.sfhSinglegalScalar
    dsimp only
    split_ifs with hlt
    · exact h14
    · exact h14.trans (not_lt.1 hlt)
  have g1 := gasFl_getD float32 L logMah' dMhDt' p mah tarr lgt0 fb hu hinc2 hpos' hA0' hi
  have g2 := accreted_err float32 dMhDt mah tarr lgt0 fb hu dMhDt' hinc2 hA0 hδ0 hδ1 hD hi (by omega)
  obtain ⟨e1, e2, e3, e4⟩ := C17_gas_budget logMah dMhDt p mah tarr lgt0 fb
  change h.smh = cumulativeMstarFormed tarr h.sfh at e2
  change h.mgash.length = _ at e3
  change List.zipWith (fun g s => g + s) h.mgash h.smh = _ at e4
  have ls : h.smh.length = tarr.length := by rw [e2]; exact cmf_length _ _ (List.length_map ..)
  have g3 : h.mgash.getD i 0 + h.smh.getD i 0 = (cumulativeMstarFormed tarr (tarr.map fun t => fb * dMhDt mah t lgt0)).getD i 0 := by
    rw [← e4, List.getD_eq_getElem _ _ (by omega), List.getD_eq_getElem _ _ (by omega),
      List.getD_eq_getElem _ _ (by rw [List.length_zipWith]; omega), List.getElem_zipWith]
  have l1 : (calcSfhSinglegalSmh logMah p mah tarr lgt0 fb).smh.length = tarr.length := ls
  have g4 : |(float32.calcSfhSinglegalSmh L logMah' p mah tarr lgt0 fb).smh.getD i 0 - h.smh.getD i 0| ≤
      (0.003 + 1.1 / 10 ^ 5 / (10 : ℝ) ^ p.qlglgdt) * h.smh.getD i 0 := by
    have := (List.forall₂_iff_get.1 hmass).2 i (by rw [hmass.length_eq]; omega) (by omega)
    rw [List.getD_eq_getElem _ _ (by rw [hmass.length_eq]; omega), List.getD_eq_getElem _ _ (by omega)]
    exact this
  have hX0 : 0 ≤ 1.1 / 10 ^ 5 / (10 : ℝ) ^ p.qlglgdt := by positivity
  have hX1 : 1.1 / 10 ^ 5 / (10 : ℝ) ^ p.qlglgdt ≤ 0.0111 := by
    have h1 := Real.rpow_le_rpow_of_exponent_le (show (1 : ℝ) ≤ 10 by norm_num) hp.qlglgdt.1
    rw [show (-3 : ℝ) = ((-3 : ℤ) : ℝ) by norm_num, Real.rpow_intCast] at h1
    rw [div_le_iff₀ (by positivity)]
    norm_num at h1 ⊢
    linarith
  have hmp : 0 ≤ h.smh.getD i 0 := by
    rw [e2]
    exact cmf_nonneg (List.length_map ..) hinc1 hpos i
  have hAp : 0 ≤ (cumulativeMstarFormed tarr (tarr.map fun t => fb * dMhDt mah t lgt0)).getD i 0 :=
    cmf_nonneg (t := tarr) (s := tarr.map fun t => fb * dMhDt mah t lgt0) (List.length_map ..) hinc1 (by
    intro y hy
    obtain ⟨t, ht, rfl⟩ := List.mem_map.1 hy
    exact hA0 t ht) i
  change h'.mgash.getD i 0 = _ at g1
  have hi0 : (0 : ℝ) ≤ i := Nat.cast_nonneg i
  have hi1 : (i : ℝ) ≤ 1000 := by exact_mod_cast (by omega : i ≤ 1000)
  rw [g1, g3]
  have g5 : h.mgash.getD i 0 = (cumulativeMstarFormed tarr (tarr.map fun t => fb * dMhDt mah t lgt0)).getD i 0 - h.smh.getD i 0 := by
    linarith
  rw [g5]
  generalize 1.1 / 10 ^ 5 / (10 : ℝ) ^ p.qlglgdt = X at *
  generalize (cumulativeMstarFormed tarr (tarr.map fun t => fb * dMhDt mah t lgt0)).getD i 0 = A at *
  generalize (float32.cumulativeMstarFormed tarr (tarr.map fun t => float32.fl (fb * dMhDt' mah t lgt0))).getD i 0 = a at *
  generalize (float32.calcSfhSinglegalSmh L logMah' p mah tarr lgt0 fb).smh.getD i 0 = m' at *
  generalize h.smh.getD i 0 = m at *
  generalize (i : ℝ) = k at *
  have h3 : |float32.fl (a - m') - (a - m')| ≤ 5.97 / 10 ^ 8 * |a - m'| :=
    (float32.err (a - m')).trans (mul_le_mul_of_nonneg_right (by assumption) (abs_nonneg _))
  have hkA : k * A ≤ 1000 * A := mul_le_mul_of_nonneg_right hi1 hAp
  have hδA : δ * A ≤ 0.1 * A := mul_le_mul_of_nonneg_right hδ1 hAp
  have hXm : X * m ≤ 0.0111 * m := mul_le_mul_of_nonneg_right hX1 hmp
  have ha : |a - m'| ≤ 1.2 * A + 1.1 * m := by
    have b1 := abs_le.1 g2
    have b2 := abs_le.1 g4
    rw [abs_le]
    constructor <;> norm_num at b1 b2 hkA hδA hXm ⊢ <;> linarith
  rw [show float32.fl (a - m') - (A - m) = (float32.fl (a - m') - (a - m')) + (a - A) - (m' - m) by ring]
  refine (abs_sub _ _).trans ((add_le_add ((abs_add_le _ _).trans (add_le_add (h3.trans (mul_le_mul_of_nonneg_left ha (by norm_num))) g2)) g4).trans ?_)
  norm_num at hkA ⊢
  linarith

/-! ### The net rate -/

theorem approx_abs_le {R : Rounding} {x A : ℝ} (h : |x| ≤ A) : R.Approx 0 A x x := (Rounding.Approx.exact x).mono le_rfl h

theorem getD_range_map {n : ℕ} (f : ℕ → ℝ) {i : ℕ} (hi : i < n) : ((List.range n).map f).getD i 0 = f i := by
  rw [List.getD_eq_getElem _ _ (by simpa using hi), List.getElem_map, List.getElem_range]

/-- The widths of the steps, for numbers bounded by `G`. -/
theorem dtFl_err (R : Rounding) (hu : R.u ≤ 2 ^ (-24 : ℤ)) (g : List ℝ) (h3 : 3 ≤ g.length) {G : ℝ} (hG : ∀ x ∈ g, |x| ≤ G) :
    ∃ d d', jaxGetDtArray g = some d ∧ R.jaxGetDtArray g = some d' ∧ d.length = g.length ∧ d'.length = g.length ∧
      ∀ i, i < g.length → |d'.getD i 0 - d.getD i 0| ≤ 1.5 / 10 ^ 6 * G := by
  unfold Rounding.jaxGetDtArray jaxGetDtArray
  rw [dif_pos h3, if_pos h3]
  refine ⟨_, _, rfl, rfl, by simp, by simp, fun i hi => ?_⟩
  rw [getD_range_map _ hi, getD_range_map _ hi]
  dsimp only
  have hG0 : 0 ≤ G := (abs_nonneg _).trans (hG _ (List.getElem_mem (by omega : 0 < g.length)))
  have ap : ∀ j, j < g.length → R.Approx 0 G (g.getD j 0) (g.getD j 0) := by
    intro j hj
    refine approx_abs_le ?_
    rw [List.getD_eq_getElem _ _ hj]
    exact hG _ (List.getElem_mem hj)
  have mid : ∀ j, j + 1 < g.length → R.Approx 2 G (R.fl (0.5 * R.fl (g.getD j 0 + g.getD (j + 1) 0)))
      (0.5 * (g.getD j 0 + g.getD (j + 1) 0)) := by
    intro j hj
    have h1 := ((ap j (by omega)).add (ap (j + 1) hj)).round
    have h2 := ((Rounding.Approx.exact (R := R) 0.5).mul h1).round
    refine h2.mono (by norm_num) (le_of_eq ?_)
    rw [abs_of_pos (by norm_num)]
    ring
  have fin : ∀ {a x : ℝ}, R.Approx 8 (3 * G) a x → |a - x| ≤ 1.5 / 10 ^ 6 * G := by
    intro a x h
    refine h.2.trans ?_
    have := pow_u_small R.u_nonneg hu (k := 8) (by norm_num)
    have h2 : (1 + R.u) ^ 8 - 1 ≤ 5 / 10 ^ 7 := this.trans (by
      have : R.u ≤ 5.97 / 10 ^ 8 := hu.trans (by norm_num)
      norm_num at this ⊢
      linarith)
    refine (mul_le_mul_of_nonneg_right h2 (by positivity)).trans (le_of_eq ?_)
    ring
  have e0 : g[0] = g.getD 0 0 := (List.getD_eq_getElem _ _ _).symm
  have e1 : g[1] = g.getD 1 0 := (List.getD_eq_getElem _ _ _).symm
  have en : g[g.length - 1] = g.getD (g.length - 1) 0 := (List.getD_eq_getElem _ _ _).symm
  rw [e0, e1, en]
  split_ifs with hl h0
  · have a1 := ((((mid (g.length - 2) (by omega)).sub (mid (g.length - 3) (by omega))).round).div_const 2).round
    have a2 := ((((ap (g.length - 1) (by omega)).add a1).round).sub (mid (g.length - 2) (by omega))).round
    refine fin (a2.mono (by norm_num) (le_of_eq ?_))
    rw [abs_of_pos (by norm_num)]
    ring
  · have a1 := ((((ap 1 (by omega)).sub (ap 0 (by omega))).round).div_const 2).round
    have a2 := ((mid 0 (by omega)).sub ((ap 0 (by omega)).sub a1).round).round
    refine fin (a2.mono (by norm_num) (le_of_eq ?_))
    rw [abs_of_pos (by norm_num)]
    ring
  · exact fin ((((mid i (by omega)).sub (mid (i - 1) (by omega))).round).mono (by norm_num) (by linarith))

/-- A quotient of computed numbers, divided by a constant, each operation rounded. -/
theorem rate_err (R : Rounding) (hu : R.u ≤ 2 ^ (-24 : ℤ)) {a a' W W' G : ℝ} (hG : 0 ≤ G) (hW : 0 < W)
    (h1 : |a' - a| ≤ 1.5 / 10 ^ 6 * G) (h2 : |W' - W| ≤ 7.5 / 10 ^ 4 * W) :
    |R.fl (R.fl (a' / W') / R.fl (10 ^ 9)) - a / W / 10 ^ 9| ≤ 1 / 10 ^ 3 * |a / W / 10 ^ 9| + 2 / 10 ^ 6 * (G / W / 10 ^ 9) := by
  have hu0 := R.u_nonneg
  have hu1 : R.u ≤ 6 / 10 ^ 8 := hu.trans (by norm_num)
  have b2 := abs_le.1 h2
  have hW' : 0.999 * W ≤ W' := by norm_num at b2 ⊢; linarith
  have hW0 : 0 < W' := lt_of_lt_of_le (by positivity) hW'
  -- the quotient
  have q1 : |a' / W' - a / W| ≤ 7.6 / 10 ^ 4 * |a / W| + 1.51 / 10 ^ 6 * (G / W) := by
    rw [show a' / W' - a / W = ((a' - a) - a / W * (W' - W)) / W' by field_simp; ring, abs_div, abs_of_pos hW0, div_le_iff₀ hW0]
    refine (abs_sub _ _).trans ?_
    rw [abs_mul]
    have c1 := mul_le_mul_of_nonneg_left h2 (abs_nonneg (a / W))
    have c2 : (7.6 / 10 ^ 4 * |a / W| + 1.51 / 10 ^ 6 * (G / W)) * (0.999 * W) ≤
        (7.6 / 10 ^ 4 * |a / W| + 1.51 / 10 ^ 6 * (G / W)) * W' := mul_le_mul_of_nonneg_left hW' (by positivity)
    refine le_trans ?_ c2
    have c3 : G / W * W = G := by field_simp
    have c4 : 0 ≤ |a / W| * W := by positivity
    generalize |a / W| * W = z at *
    rw [show (7.6 / 10 ^ 4 * |a / W| + 1.51 / 10 ^ 6 * (G / W)) * (0.999 * W) =
      7.6 / 10 ^ 4 * 0.999 * (|a / W| * W) + 1.51 / 10 ^ 6 * 0.999 * (G / W * W) by ring, c3]
    rw [show |a / W| * (7.5 / 10 ^ 4 * W) = 7.5 / 10 ^ 4 * (|a / W| * W) by ring] at c1
    have c5 : 0 ≤ |a / W| * W := by positivity
    norm_num at c1 h1 ⊢
    linarith
  generalize a' / W' = q' at *
  have hGW : 0 ≤ G / W := by positivity
  rw [abs_div (a / W) (10 ^ 9), abs_of_pos (by norm_num : (0 : ℝ) < 10 ^ 9)]
  generalize a / W = q at *
  generalize G / W = H at *
  have d9 := R.err (10 ^ 9)
  rw [abs_of_pos (by norm_num : (0 : ℝ) < 10 ^ 9)] at d9
  have d9' := abs_le.1 d9
  have e1 := R.err q'
  have e2 := R.err (R.fl q' / R.fl (10 ^ 9))
  generalize R.fl (10 ^ 9) = N at *
  have hu9 : R.u * 10 ^ 9 ≤ 60 := by norm_num at hu1 ⊢; linarith
  have hN : 10 ^ 9 - 60 ≤ N := by norm_num at d9' hu9 ⊢; linarith
  have hN' : |N - 10 ^ 9| ≤ 60 := d9.trans hu9
  have hN0 : 0 < N := lt_of_lt_of_le (by norm_num) hN
  have hq' : |q'| ≤ 1.001 * |q| + 1.51 / 10 ^ 6 * H := by
    have := abs_add_le (q' - q) q
    rw [sub_add_cancel] at this
    have := abs_nonneg q
    norm_num at q1 ⊢
    linarith
  have e3 : |R.fl q' - q| ≤ 7.61 / 10 ^ 4 * |q| + 1.52 / 10 ^ 6 * H := by
    have h4 : R.u * |q'| ≤ 6 / 10 ^ 8 * (1.001 * |q| + 1.51 / 10 ^ 6 * H) := mul_le_mul hu1 hq' (abs_nonneg _) (by norm_num)
    refine (abs_sub_le _ q' _).trans ((add_le_add (e1.trans h4) q1).trans ?_)
    have := abs_nonneg q
    norm_num
    linarith
  generalize R.fl q' = r at *
  have hr : |r| ≤ 1.001 * |q| + 1.52 / 10 ^ 6 * H := by
    have := abs_add_le (r - q) q
    rw [sub_add_cancel] at this
    have := abs_nonneg q
    norm_num at e3 ⊢
    linarith
  have e4 : |r / N - q / 10 ^ 9| ≤ (7.62 / 10 ^ 4 * |q| + 1.53 / 10 ^ 6 * H) / 10 ^ 9 := by
    rw [show r / N - q / 10 ^ 9 = (r - q) / 10 ^ 9 - r / N * ((N - 10 ^ 9) / 10 ^ 9) by field_simp; ring]
    refine (abs_sub _ _).trans ?_
    rw [abs_mul, abs_div, abs_div, abs_div, abs_of_pos hN0, abs_of_pos (by norm_num : (0 : ℝ) < 10 ^ 9), add_div, ← add_div,
      mul_div_assoc', ← add_div]
    refine div_le_div_of_nonneg_right ?_ (by norm_num)
    have h5 : |r| / N ≤ |r| / (5 * 10 ^ 8) := div_le_div_of_nonneg_left (abs_nonneg _) (by norm_num) (by norm_num at hN ⊢; linarith)
    have h6 := mul_le_mul h5 hN' (abs_nonneg _) (by positivity)
    have := abs_nonneg q
    norm_num at e3 h6 hr ⊢
    linarith
  have e5 : |r / N| ≤ (1.01 * |q| + 1.6 / 10 ^ 6 * H) / 10 ^ 9 := by
    have h7 := abs_add_le (r / N - q / 10 ^ 9) (q / 10 ^ 9)
    rw [sub_add_cancel, abs_div q, abs_of_pos (by norm_num : (0 : ℝ) < 10 ^ 9)] at h7
    have := abs_nonneg q
    norm_num at e4 h7 ⊢
    linarith
  have h8 : R.u * |r / N| ≤ 6 / 10 ^ 8 * ((1.01 * |q| + 1.6 / 10 ^ 6 * H) / 10 ^ 9) := mul_le_mul hu1 e5 (abs_nonneg _) (by norm_num)
  refine (abs_sub_le _ (r / N) _).trans ((add_le_add (e2.trans h8) e4).trans ?_)
  have := abs_nonneg q
  norm_num
  linarith

/-- **C142**: the net gas rate in floating point is the difference quotient of C19 of the returned gas masses (all at most `G`), up
to a thousandth and `2e-6` of the largest gas mass per step, if no time is beyond 500 steps. -/
theorem C142_net_rate (R : Rounding) (hu : R.u ≤ 2 ^ (-24 : ℤ)) {M : Type*} (L : Rounding.MathLib) (logMah dMhDt : M → ℝ → ℝ → ℝ)
    (p : DiffstarParams ℝ) (mah : M) (tarr : List ℝ) (lgt0 fb : ℝ) (h3 : 3 ≤ tarr.length) (T : ℝ) (hT : ∀ t ∈ tarr, |t| ≤ T) (G : ℝ)
    (hG : ∀ g ∈ (R.calcMgasSinglegal L logMah dMhDt p mah tarr lgt0 fb).mgash, |g| ≤ G) :
    let h := R.calcMgasSinglegal L logMah dMhDt p mah tarr lgt0 fb
    ∃ dm dt rate, jaxGetDtArray h.mgash = some dm ∧ jaxGetDtArray tarr = some dt ∧ h.dmgash = some rate ∧
      rate.length = tarr.length ∧ ∀ i, i < tarr.length → 0 < dt.getD i 0 → T ≤ 500 * dt.getD i 0 →
        |rate.getD i 0 - dm.getD i 0 / dt.getD i 0 / 10 ^ 9| ≤
          1 / 10 ^ 3 * |dm.getD i 0 / dt.getD i 0 / 10 ^ 9| + 2 / 10 ^ 6 * (G / dt.getD i 0 / 10 ^ 9) := by
  intro h
  have hl : h.mgash.length = tarr.length := by
    show (List.zipWith _ (R.cumulativeMstarFormed _ _) (R.cumulativeMstarFormed _ _)).length = _
    rw [cmfFl_eq, cmfFl_eq]
    simp [trapFl_length]
  obtain ⟨dm, dm', a1, a2, a3, a4, a5⟩ := dtFl_err R hu h.mgash (by omega) hG
  obtain ⟨dt, dt', b1, b2, b3, b4, b5⟩ := dtFl_err R hu tarr h3 hT
  have hG0 : 0 ≤ G := (abs_nonneg _).trans (hG _ (List.getElem_mem (by omega : 0 < h.mgash.length)))
  refine ⟨dm, dt, _, a1, b1, (show h.dmgash = some (List.zipWith (fun a b => R.fl (R.fl (a / b) / R.fl (10 ^ 9))) dm' dt') from ?_),
    by rw [List.length_zipWith]; omega, fun i hi hW hTW => ?_⟩
  · show R.gasRate tarr h.mgash = _
    unfold Rounding.gasRate
    rw [a2, b2]
  · rw [List.getD_eq_getElem (List.zipWith _ _ _) _ (by rw [List.length_zipWith]; omega), List.getElem_zipWith]
    have c1 := a5 i (by omega)
    have c2 := b5 i hi
    rw [List.getD_eq_getElem dm' _ (by omega)] at c1
    rw [List.getD_eq_getElem dt' _ (by omega)] at c2
    exact rate_err R hu hG0 hW c1 (c2.trans (by norm_num at hTW ⊢; linarith))

/-- A halo of constant mass with a constant accretion rate, and a galaxy of any single precision parameters. -/
example (u : DiffstarParams ℝ) : ∃ (L : Rounding.MathLib) (p : DiffstarParams ℝ) (logMah dMhDt dMhDt' : Unit → ℝ → ℝ → ℝ) (tarr : List ℝ)
    (δ : ℝ), Accurate L ∧ InFloatBounds p ∧ p = float32.getBoundedDiffstarParams L.exp u ∧ (∀ t ∈ tarr, 0.01 ≤ t ∧ t ≤ 100) ∧
      Increasing tarr ∧ 3 ≤ tarr.length ∧ (∀ t ∈ tarr, 0 ≤ logMah () t 1.1 ∧ logMah () t 1.1 ≤ 20) ∧ (∀ t ∈ tarr, 0 ≤ dMhDt () t 1.1) ∧
      0 ≤ δ ∧ δ ≤ 0.1 ∧ ∀ t ∈ tarr, |dMhDt' () t 1.1 - dMhDt () t 1.1| ≤ δ * dMhDt () t 1.1 :=
  ⟨_, _, fun _ _ _ => 12, fun _ _ _ => 100, fun _ _ _ => 100.001, [1, 5, 13.8], 1 / 10 ^ 4, accurate_rounded,
    inFloatBounds_bounded _ (fun x => float32.fl_nonneg (Real.exp_pos x).le) u, rfl, by
      intro t ht
      simp only [List.mem_cons, List.not_mem_nil, or_false] at ht
      rcases ht with rfl | rfl | rfl <;> norm_num, by norm_num [Increasing], by norm_num, fun _ _ => by norm_num,
      fun _ _ => by norm_num, by norm_num, by norm_num, fun _ _ => by norm_num [abs_of_pos]⟩

/-- Accretion rates not below the star formation rates of a galaxy, for any parameters. -/
example (L : Rounding.MathLib) (logMah : Unit → ℝ → ℝ → ℝ) (p : DiffstarParams ℝ) : ∃ dMhDt : Unit → ℝ → ℝ → ℝ,
    (float32.fl 0.001 :: [1, 2, 5]).Pairwise (· < ·) ∧
    List.Forall₂ (fun s t => s ≤ float32.fl (0.16 * dMhDt () t 1.1)) (float32.calcSfhSinglegalSmh L logMah p () [1, 2, 5] 1.1 0.16).sfh [1, 2, 5] := by
  have h001 : float32.fl 0.001 < 1 := by
    have := (abs_le.1 (float32.err 0.001)).2
    have hu : float32.u ≤ 1 := by show (2 : ℝ) ^ (-24 : ℤ) ≤ _; norm_num
    rw [abs_of_pos (by norm_num)] at this
    norm_num at this hu ⊢
    linarith
  refine ⟨fun _ t _ => float32.sfhSinglegalScalar L logMah t () p.ms p.q 1.1 0.16 / 0.16, List.pairwise_cons.2 ⟨?_, by norm_num⟩, ?_⟩
  · intro x hx
    simp only [List.mem_cons, List.not_mem_nil, or_false] at hx
    rcases hx with rfl | rfl | rfl <;> linarith
  · show List.Forall₂ _ (List.map _ _) _
    rw [List.forall₂_map_left_iff, List.forall₂_same]
    intro t _
    rw [mul_div_cancel₀ _ (by norm_num : (0.16 : ℝ) ≠ 0)]
    unfold Rounding.sfhSinglegalScalar
    dsimp only
    split_ifs
    · rw [float32.idem]
    · rw [float32.idem]

end Diffstar.Props
