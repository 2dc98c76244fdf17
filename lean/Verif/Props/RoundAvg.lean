import Verif.Props.RoundFstar

/-!
C141: time-averaged star formation rates in single precision.
-/

namespace Diffstar.Props

open Diffstar Diffstar.Spec

theorem err_step {X X' D A δ u k c : ℝ} (hD : 0 ≤ D) (hA : 0 ≤ A) (hδ0 : 0 ≤ δ) (hδ1 : δ ≤ 0.1) (hu : 0 ≤ u)
    (hk : k * u ≤ 1 / 100) (hc : 0 ≤ c) (h : |X - D| ≤ δ * D + A + k * u * (1.2 * D + 1.1 * A)) (h' : |X' - X| ≤ c * u * |X|) :
    |X' - D| ≤ δ * D + A + (k + c) * u * (1.2 * D + 1.1 * A) := by
  have h1 : δ * D ≤ 0.1 * D := mul_le_mul_of_nonneg_right hδ1 hD
  have h2 : k * u * (1.2 * D + 1.1 * A) ≤ 1 / 100 * (1.2 * D + 1.1 * A) := mul_le_mul_of_nonneg_right hk (by positivity)
  have h0 : 0 ≤ δ * D := mul_nonneg hδ0 hD
  have hX : |X| ≤ 1.2 * D + 1.1 * A := by
    have := abs_le.1 h
    rw [abs_le]; constructor <;> norm_num at h1 h2 this ⊢ <;> linarith
  have h3 := mul_le_mul_of_nonneg_left hX (mul_nonneg hc hu)
  refine (abs_sub_le _ X _).trans ((add_le_add (h'.trans h3) h).trans (le_of_eq ?_))
  ring

theorem err_scale {X D A δ u k τ : ℝ} (hτ : 0 < τ) (h : |X - D| ≤ δ * D + A + k * u * (1.2 * D + 1.1 * A)) :
    |X / τ - D / τ| ≤ δ * (D / τ) + A / τ + k * u * (1.2 * (D / τ) + 1.1 * (A / τ)) := by
  rw [← sub_div, abs_div, abs_of_pos hτ, show δ * (D / τ) + A / τ + k * u * (1.2 * (D / τ) + 1.1 * (A / τ)) =
    (δ * D + A + k * u * (1.2 * D + 1.1 * A)) / τ by ring]
  gcongr

/-- The divisions and the cut at zero. -/
theorem fstar_scale_err (R : Rounding) (hu : R.u ≤ 2 ^ (-24 : ℤ)) {X D A δ τ : ℝ} (hτ : 0 < τ) (hD : 0 ≤ D) (hA : 0 ≤ A)
    (hδ0 : 0 ≤ δ) (hδ1 : δ ≤ 0.1) (h : |X - D| ≤ δ * D + A) :
    |(if R.fl (R.fl (R.fl X / τ) / R.fl (10 ^ 9)) > 0 then R.fl (R.fl (R.fl X / τ) / R.fl (10 ^ 9)) else 0) - D / τ / 10 ^ 9| ≤
      (δ + 4 / 10 ^ 7) * (D / τ / 10 ^ 9) + 1.000001 * (A / τ / 10 ^ 9) := by
  have hu0 := R.u_nonneg
  have hu1 : R.u ≤ 6 / 10 ^ 8 := hu.trans (by norm_num)
  have hF : 0 ≤ D / τ / 10 ^ 9 := by positivity
  have hB : 0 ≤ A / τ / 10 ^ 9 := by positivity
  have small : ∀ c : ℝ, 0 ≤ c → c ≤ 5 → c * R.u ≤ 1 / 100 := fun c _ hc5 =>
    (mul_le_mul hc5 hu1 hu0 (by norm_num)).trans (by norm_num)
  have err1 : ∀ x, |R.fl x - x| ≤ 1 * R.u * |x| := fun x => by rw [one_mul]; exact R.err x
  have k1 := err_step hD hA hδ0 hδ1 hu0 (small 0 le_rfl (by norm_num)) zero_le_one (by simpa using h) (err1 X)
  have k2 := err_step (by positivity) (by positivity) hδ0 hδ1 hu0 (small _ (by norm_num) (by norm_num)) zero_le_one
    (err_scale hτ k1) (err1 _)
  have hN : ∀ x : ℝ, |x / R.fl (10 ^ 9) - x / 10 ^ 9| ≤ 1.001 * R.u * |x / 10 ^ 9| := by
    intro x
    have a4 := R.err (10 ^ 9)
    rw [abs_of_pos (show (0 : ℝ) < 10 ^ 9 by positivity)] at a4
    generalize R.fl (10 ^ 9) = N at *
    have hN1 : (1 - R.u) * 10 ^ 9 ≤ N := by linarith [(abs_le.1 a4).1]
    have hN0 : 0 < N := by nlinarith
    have e : x / N - x / 10 ^ 9 = (10 ^ 9 - N) / N * (x / 10 ^ 9) := by field_simp
    rw [e, abs_mul]
    refine mul_le_mul_of_nonneg_right ?_ (abs_nonneg _)
    rw [abs_div, abs_of_pos hN0, div_le_iff₀ hN0, abs_sub_comm]
    have hN2 : 0.9999 * 10 ^ 9 ≤ N := by norm_num at hu1 hN1 ⊢; linarith
    have := mul_le_mul_of_nonneg_left hN2 hu0
    norm_num at this a4 ⊢
    linarith
  have k3 := err_step (by positivity) (by positivity) hδ0 hδ1 hu0 (small _ (by norm_num) (by norm_num)) (by norm_num)
    (err_scale (show (0 : ℝ) < 10 ^ 9 by positivity) k2) (hN _)
  have k4 := err_step (by positivity) (by positivity) hδ0 hδ1 hu0 (small _ (by norm_num) (by norm_num)) zero_le_one k3 (err1 _)
  have key : |R.fl (R.fl (R.fl X / τ) / R.fl (10 ^ 9)) - D / τ / 10 ^ 9| ≤
      (δ + 4 / 10 ^ 7) * (D / τ / 10 ^ 9) + 1.000001 * (A / τ / 10 ^ 9) := by
    refine k4.trans ?_
    generalize D / τ / 10 ^ 9 = G at *
    generalize A / τ / 10 ^ 9 = B at *
    have h1 := mul_le_mul_of_nonneg_right hu1 hF
    have h2 := mul_le_mul_of_nonneg_right hu1 hB
    norm_num at h1 h2 ⊢
    linarith
  split_ifs with hp
  · exact key
  · refine le_trans ?_ key
    have hle := not_lt.1 hp
    rw [abs_sub_comm, abs_sub_comm (R.fl _), abs_of_nonneg (by linarith), abs_of_nonneg (by linarith)]
    linarith

theorem computeFstar_getD {t m : List ℝ} (hl : m.length = t.length) (τ : ℝ) {i : ℕ} (hi : i < t.length) :
    (computeFstar t m τ).getD i 0 =
      if (m.getD i 0 - npInterp (t.getD i 0 - τ) t m) / τ / 10 ^ 9 > 0 then
        (m.getD i 0 - npInterp (t.getD i 0 - τ) t m) / τ / 10 ^ 9 else 0 := by
  have hlen := computeFstar_length t m hl τ
  rw [List.getD_eq_getElem _ _ (by omega), computeFstar_getElem t m τ i (by omega) hi (by omega), List.getD_eq_getElem _ _ hi,
    List.getD_eq_getElem _ _ (by omega)]

theorem computeFstarFl_getD (R : Rounding) {t m : List ℝ} (hl : m.length = t.length) (τ : ℝ) {i : ℕ} (hi : i < t.length) :
    (R.computeFstar t m τ).getD i 0 =
      let f := R.fl (R.fl (R.fl (m.getD i 0 - R.interp (R.fl (t.getD i 0 - τ)) t m) / τ) / R.fl (10 ^ 9))
      if f > 0 then f else 0 := by
  rw [List.getD_eq_getElem _ _ (by simp [Rounding.computeFstar]; omega), List.getD_eq_getElem _ _ hi,
    List.getD_eq_getElem m _ (by omega)]
  simp [Rounding.computeFstar]

/-- **C141**: the averaged rate `compute_fstar` at the `i`-th time in floating-point arithmetic, from rates `s'` with relative
error `δ`. The error is a relative one, plus one in proportion to the stellar mass `m` (cancellation), plus one in proportion to
the largest rate `S` so far (rounding of the time `t - τ`). -/
theorem C141_average_error (R : Rounding) (hu : R.u ≤ 2 ^ (-24 : ℤ)) (t s s' : List ℝ) (hs : s.length = t.length)
    (hs' : s'.length = t.length) (hinc : Increasing (0.002 :: t)) (hfl : ∀ x ∈ t, R.fl x = x)
    (hgap : ∀ k, k + 1 < t.length → 1 / 10 ^ 13 ≤ t.getD (k + 1) 0 - t.getD k 0) (h0 : ∀ y ∈ s, 0 ≤ y) (δ : ℝ) (hδ0 : 0 ≤ δ)
    (hδ1 : δ ≤ 0.1) (hrel : ∀ k, k < t.length → |s'.getD k 0 - s.getD k 0| ≤ δ * s.getD k 0) (τ : ℝ) (hτ : 0 < τ) (i : ℕ)
    (hi : i < t.length) (hn : i ≤ 1000) (S : ℝ) (hS : ∀ k, k ≤ i → s.getD k 0 ≤ S) :
    let m := (cumulativeMstarFormed t s).getD i 0
    let f := (computeFstar t (cumulativeMstarFormed t s) τ).getD i 0
    |(R.computeFstar t (R.cumulativeMstarFormed t s') τ).getD i 0 - f| ≤
      (δ + 4 / 10 ^ 7) * f + (1.4 / 10 ^ 7 * (i + 13) * (m / 10 ^ 9) + 7 / 10 ^ 8 * t.getD i 0 * S) / τ := by
  intro m f
  have hu0 := R.u_nonneg
  have hu1 : R.u ≤ 6 / 10 ^ 8 := hu.trans (by norm_num)
  have hcons := List.pairwise_cons.1 hinc
  have hinc1 : Increasing (0.001 :: t) := List.pairwise_cons.2 ⟨fun x hx => lt_trans (by norm_num) (hcons.1 x hx), hcons.2⟩
  have h0' : ∀ y ∈ s', 0 ≤ y := by
    intro y hy
    obtain ⟨k, hk, rfl⟩ := List.getElem_of_mem hy
    have h1 := hrel k (by omega)
    have h2 := getD_nonneg h0 k
    rw [List.getD_eq_getElem _ _ hk] at h1
    have := (abs_le.1 h1).1
    norm_num at hδ1
    nlinarith
  obtain ⟨hD, herr⟩ := fstar_diff_err R hu hs hs' hinc hfl hgap h0 hδ0 hδ1 hrel hτ hi hn hS
  have hl1 := cmf_length t s hs
  obtain ⟨hl2, -, -⟩ := cmfFl_mono R hu hs' hinc h0'
  have hm : 0 ≤ m := cmf_nonneg hs hinc1 h0 i
  have hS0 : 0 ≤ S := (getD_nonneg h0 0).trans (hS 0 (Nat.zero_le _))
  have hti : 0 < t.getD i 0 := by
    refine lt_trans (by norm_num) (hcons.1 (t.getD i 0) ?_)
    rw [List.getD_eq_getElem _ _ hi]; exact List.getElem_mem hi
  have hf : f = ((cumulativeMstarFormed t s).getD i 0 - npInterp (t.getD i 0 - τ) t (cumulativeMstarFormed t s)) / τ / 10 ^ 9 := by
    show (computeFstar _ _ _).getD i 0 = _
    rw [computeFstar_getD hl1 τ hi]
    split_ifs with h
    · rfl
    · exact le_antisymm (by positivity) (not_lt.1 h)
  have hA : 0 ≤ 2.21 * ((i : ℝ) + 13) * R.u * m + 1.1 * 10 ^ 9 * R.u * t.getD i 0 * S := by positivity
  have hsc := fstar_scale_err R hu hτ hD hA hδ0 hδ1 herr
  rw [computeFstarFl_getD R hl2 τ hi, hf]
  refine hsc.trans (add_le_add le_rfl ?_)
  rw [show (1.000001 : ℝ) * ((2.21 * ((i : ℝ) + 13) * R.u * m + 1.1 * 10 ^ 9 * R.u * t.getD i 0 * S) / τ / 10 ^ 9) =
    (1.000001 * (2.21 * R.u) * ((i : ℝ) + 13) * (m / 10 ^ 9) + 1.000001 * (1.1 * R.u) * t.getD i 0 * S) / τ by field_simp]
  gcongr
  · norm_num at hu1 ⊢; linarith
  · norm_num at hu1 ⊢; linarith

/-- Error of the larger of two numbers. -/
theorem max_err {a b a' b' e : ℝ} (h1 : |a' - a| ≤ e) (h2 : |b' - b| ≤ e) : |max a' b' - max a b| ≤ e := by
  have h1 := abs_le.1 h1
  have h2 := abs_le.1 h2
  rw [abs_le]
  constructor
  · rcases max_choice a b with h | h <;> rw [h]
    · linarith [le_max_left a' b']
    · linarith [le_max_right a' b']
  · rcases max_choice a' b' with h | h <;> rw [h]
    · linarith [le_max_left a b]
    · linarith [le_max_right a b]

/-- Relative errors as factors. -/
theorem log_of_rel {a b : ℝ} (hb : 0 < b) (h : |a - b| ≤ 0.34 * b) : 0 < a ∧ |Real.logb 10 a - Real.logb 10 b| ≤ 0.19 := by
  have h := abs_le.1 h
  have ha : 0 < a := by norm_num at h; linarith
  refine ⟨ha, ?_⟩
  rw [← Real.logb_div ha.ne' hb.ne']
  have r1 : 0.66 ≤ a / b := by rw [le_div_iff₀ hb]; norm_num at h ⊢; linarith
  have r2 : a / b ≤ 1.34 := by rw [div_le_iff₀ hb]; norm_num at h ⊢; linarith
  have hp : (10 : ℝ) ^ (-0.19 : ℝ) ≤ 0.66 := by
    have : (10 : ℝ) ^ (-0.19 : ℝ) = ((10 : ℝ) ^ (-19 : ℤ)) ^ ((1 : ℝ) / 100) := by
      rw [← Real.rpow_intCast, ← Real.rpow_mul (by norm_num)]; norm_num
    rw [this]
    refine (Real.rpow_le_rpow (by positivity) (show (10 : ℝ) ^ (-19 : ℤ) ≤ 0.66 ^ 100 by norm_num) (by norm_num)).trans (le_of_eq ?_)
    rw [← Real.rpow_natCast, ← Real.rpow_mul (by norm_num)]; norm_num
  have hq : (1.34 : ℝ) ≤ (10 : ℝ) ^ (0.19 : ℝ) := by
    have : (10 : ℝ) ^ (0.19 : ℝ) = ((10 : ℝ) ^ (19 : ℕ)) ^ ((1 : ℝ) / 100) := by
      rw [← Real.rpow_natCast, ← Real.rpow_mul (by norm_num)]; norm_num
    rw [this]
    refine le_trans (le_of_eq ?_) (Real.rpow_le_rpow (by positivity) (show (1.34 : ℝ) ^ 100 ≤ (10 : ℝ) ^ (19 : ℕ) by norm_num) (by norm_num))
    rw [← Real.rpow_natCast, ← Real.rpow_mul (by norm_num)]; norm_num
  rw [abs_le]
  constructor
  · rw [Real.le_logb_iff_rpow_le (by norm_num) (by positivity)]
    exact hp.trans r1
  · rw [Real.logb_le_iff_le_rpow (by norm_num) (by positivity)]
    exact r2.trans hq

theorem clip_final {f c f' c' X : ℝ} (hf0 : 0 ≤ f) (hc0 : 0 < c) (hX0 : 0 ≤ X) (hX1 : X ≤ 0.01)
    (h1 : |f' - f| ≤ (0.002 + X + 4 / 10 ^ 7) * f + 0.325 * c) (h2 : |c' - c| ≤ 0.015 * c) :
    0 < max f c ∧ |max f' c' - max f c| ≤ 0.34 * max f c ∧ (100 * c ≤ f → |max f' c' - max f c| ≤ (0.006 + X) * max f c) := by
  have hf : f ≤ max f c := le_max_left _ _
  have hc : c ≤ max f c := le_max_right _ _
  have hXf := mul_le_mul_of_nonneg_right hX1 hf0
  have hXg := mul_le_mul_of_nonneg_left hf hX0
  have hX : 0 ≤ X * max f c := mul_nonneg hX0 (hf0.trans hf)
  have key : ∀ e, (0.002 + X + 4 / 10 ^ 7) * f + 0.325 * c ≤ e → 0.015 * c ≤ e → |max f' c' - max f c| ≤ e :=
    fun e a b => max_err (h1.trans a) (h2.trans b)
  generalize max f c = g at *
  refine ⟨by linarith, key _ ?_ ?_, fun hq => key _ ?_ ?_⟩
  · norm_num at hXf ⊢; linarith
  · norm_num; linarith
  · norm_num; linarith
  · norm_num; linarith

/-- **C141**: the averaged rates in the fitting loss (over 1 Gyr, not below `1e-13` times the mass) for a table of up to 120 times,
in single precision: within 34 per cent, and within `0.006 + 1e-5 / dt` as long as the averaged rate is above `1e-11` times the mass.
`dt` is the duration of the quenching event in dex. The largest rate so far is at most 200 times the mean rate so far. -/
theorem C141_fitted_average {L : Rounding.MathLib} (hL : Accurate L) {M : Type*}
    (logMah logMah' : M → ℝ → ℝ → ℝ) (p : DiffstarParams ℝ) (hp : InFloatBounds p) (mah : M) (tarr : List ℝ) (lgt0 fb : ℝ)
    (hfb : 0 < fb) (ht : ∀ t ∈ tarr, 0.01 ≤ t ∧ t ≤ 100) (hinc : Increasing tarr) (hn : tarr.length ≤ 120)
    (hfl : ∀ x ∈ tarr, float32.fl x = x)
    (hgap : ∀ k, k + 1 < tarr.length → 1 / 10 ^ 13 ≤ tarr.getD (k + 1) 0 - tarr.getD k 0)
    (hm : ∀ t ∈ tarr, 0 ≤ logMah mah t lgt0 ∧ logMah mah t lgt0 ≤ 20)
    (hm' : ∀ t ∈ tarr, |logMah' mah t lgt0 - logMah mah t lgt0| ≤ 1 / 10 ^ 5) (i : ℕ) (hi : i < tarr.length)
    (hS : ∀ k, k ≤ i → (calcSfhSinglegal logMah p mah tarr lgt0 fb).getD k 0 * tarr.getD i 0 ≤
      200 * ((calcSfhSinglegalSmh logMah p mah tarr lgt0 fb).smh.getD i 0 / 10 ^ 9)) :
    let m := (calcSfhSinglegalSmh logMah p mah tarr lgt0 fb).smh
    let f := (computeFstar tarr m 1).getD i 0
    let g := max f (m.getD i 0 * (1 / 10 ^ 12 / 10))
    let m' := (float32.calcSfhSinglegalSmh L logMah' p mah tarr lgt0 fb).smh
    let g' := (float32.clipFstar (float32.computeFstar tarr m' 1) m' (1 / 10 ^ 12)).getD i 0
    0 < g ∧ |g' - g| ≤ 0.34 * g ∧ (m.getD i 0 / 10 ^ 11 ≤ f → |g' - g| ≤ (0.006 + 1 / 10 ^ 5 / (10 : ℝ) ^ p.qlglgdt) * g) := by
  intro m f g m' g'
  have hs := C127_sfr_error float32 le_rfl hL logMah logMah' p hp mah tarr lgt0 fb hfb ht hm hm'
  have hmass := C127_mass_error hL logMah logMah' p hp mah tarr lgt0 fb hfb ht hinc (by omega) hm hm'
  change List.Forall₂ _ m' m at hmass
  have hX0 : 0 ≤ 1 / 10 ^ 5 / (10 : ℝ) ^ p.qlglgdt := by positivity
  have hXe : 1.1 / 10 ^ 5 / (10 : ℝ) ^ p.qlglgdt = 1.1 * (1 / 10 ^ 5 / (10 : ℝ) ^ p.qlglgdt) := by ring
  rw [hXe] at hmass
  have hX1 : 1 / 10 ^ 5 / (10 : ℝ) ^ p.qlglgdt ≤ 0.01 := by
    have h1 := Real.rpow_le_rpow_of_exponent_le (show (1 : ℝ) ≤ 10 by norm_num) hp.qlglgdt.1
    rw [show (-3 : ℝ) = ((-3 : ℤ) : ℝ) by norm_num, Real.rpow_intCast] at h1
    rw [div_le_iff₀ (by positivity)]
    norm_num at h1 ⊢
    linarith
  generalize 1 / 10 ^ 5 / (10 : ℝ) ^ p.qlglgdt = X at *
  have hl' : (float32.calcSfhSinglegalSmh L logMah' p mah tarr lgt0 fb).sfh.length = tarr.length := List.length_map ..
  have hl : (calcSfhSinglegal logMah p mah tarr lgt0 fb).length = tarr.length := List.length_map ..
  have hpos : ∀ x ∈ calcSfhSinglegal logMah p mah tarr lgt0 fb, 0 < x := by
    rw [calcSfhSinglegal_eq]
    intro x hx
    obtain ⟨t, -, rfl⟩ := List.mem_map.1 hx
    exact lt_of_lt_of_le (by norm_num) (le_max_left _ _)
  have hmm : m = cumulativeMstarFormed tarr (calcSfhSinglegal logMah p mah tarr lgt0 fb) := rfl
  have hmm' : m' = float32.cumulativeMstarFormed tarr (float32.calcSfhSinglegalSmh L logMah' p mah tarr lgt0 fb).sfh := rfl
  change ∀ k, k ≤ i → _ ≤ 200 * (m.getD i 0 / 10 ^ 9) at hS
  generalize (float32.calcSfhSinglegalSmh L logMah' p mah tarr lgt0 fb).sfh = s' at *
  generalize calcSfhSinglegal logMah p mah tarr lgt0 fb = s at *
  have hinc2 : Increasing (0.002 :: tarr) :=
    List.pairwise_cons.2 ⟨fun t h => lt_of_lt_of_le (by norm_num) (ht t h).1, hinc⟩
  have hinc1 : Increasing (0.001 :: tarr) :=
    List.pairwise_cons.2 ⟨fun t h => lt_of_lt_of_le (by norm_num) (ht t h).1, hinc⟩
  have hti : tarr.getD i 0 ∈ tarr := by rw [List.getD_eq_getElem _ _ hi]; exact List.getElem_mem hi
  have ht0 : 0 < tarr.getD i 0 := lt_of_lt_of_le (by norm_num) (ht _ hti).1
  have hlm : m.length = tarr.length := by rw [hmm]; exact cmf_length tarr s hl
  have hlm' : m'.length = tarr.length := by rw [hmass.length_eq, hlm]
  have hmi : 0 < m.getD i 0 := by
    rw [List.getD_eq_getElem _ _ (by omega)]
    refine ((C12_smh_increasing tarr s hl hinc1).1 hpos).2.1 _ ?_
    rw [← hmm]
    exact List.getElem_mem _
  have hrel : ∀ k, k < tarr.length → |s'.getD k 0 - s.getD k 0| ≤ (0.002 + X) * s.getD k 0 := by
    intro k hk
    have := (List.forall₂_iff_get.1 hs).2 k (by omega) (by omega)
    rw [List.getD_eq_getElem _ _ (by omega), List.getD_eq_getElem _ _ (by omega)]
    exact this
  have key := C141_average_error float32 le_rfl tarr s s' hl hl' hinc2 hfl hgap (fun y hy => (hpos y hy).le) (0.002 + X)
    (by positivity) (by norm_num at hX1 ⊢; linarith) hrel 1 one_pos i hi (by omega) (200 * (m.getD i 0 / 10 ^ 9) / tarr.getD i 0)
    (fun k hk => by rw [le_div_iff₀ ht0]; exact hS k hk)
  simp only [← hmm, ← hmm'] at key
  change |(float32.computeFstar tarr m' 1).getD i 0 - f| ≤ _ at key
  have hmr : |m'.getD i 0 - m.getD i 0| ≤ (0.003 + 1.1 * X) * m.getD i 0 := by
    have := (List.forall₂_iff_get.1 hmass).2 i (by omega) (by omega)
    rw [List.getD_eq_getElem _ _ (by omega), List.getD_eq_getElem _ _ (by omega)]
    exact this
  have hf0 : 0 ≤ f := by
    show 0 ≤ (computeFstar tarr m 1).getD i 0
    rw [computeFstar_getD hlm 1 hi]
    split_ifs with h
    · exact h.le
    · exact le_rfl
  have hg' : g' = max ((float32.computeFstar tarr m' 1).getD i 0) (float32.fl (m'.getD i 0 * float32.fl (1 / 10 ^ 12 / 10))) := by
    have hlf : (float32.computeFstar tarr m' 1).length = tarr.length := by simp [Rounding.computeFstar, hlm']
    show (float32.clipFstar _ _ _).getD i 0 = _
    unfold Rounding.clipFstar
    rw [List.getD_eq_getElem _ _ (by simp; omega), List.getElem_zipWith, List.getD_eq_getElem _ _ (by omega),
      List.getD_eq_getElem _ _ (by omega)]
  -- the floor
  have hc : |float32.fl (m'.getD i 0 * float32.fl (1 / 10 ^ 12 / 10)) - m.getD i 0 * (1 / 10 ^ 12 / 10)| ≤
      0.015 * (m.getD i 0 * (1 / 10 ^ 12 / 10)) := by
    have hu : float32.u ≤ 1 / 10 ^ 7 := by show (2 : ℝ) ^ (-24 : ℤ) ≤ _; norm_num
    have hu0 := float32.u_nonneg
    have a1 := float32.err (1 / 10 ^ 12 / 10)
    rw [abs_of_pos (show (0 : ℝ) < 1 / 10 ^ 12 / 10 by positivity)] at a1
    have a2 := float32.err (m'.getD i 0 * float32.fl (1 / 10 ^ 12 / 10))
    have hq : (0 : ℝ) < 1 / 10 ^ 12 / 10 := by positivity
    generalize (1 / 10 ^ 12 / 10 : ℝ) = q at *
    generalize float32.fl q = q' at *
    generalize m'.getD i 0 = b at *
    generalize m.getD i 0 = a at *
    have hXa : X * a ≤ 0.01 * a := mul_le_mul_of_nonneg_right hX1 hmi.le
    have b1 : |b - a| ≤ 0.0141 * a := by
      refine hmr.trans ?_
      norm_num at hXa ⊢; linarith
    have uq : float32.u * q ≤ 1 / 10 ^ 7 * q := mul_le_mul_of_nonneg_right hu hq.le
    have b2 : |q' - q| ≤ 1 / 10 ^ 7 * q := a1.trans uq
    have b3 : |b| ≤ 1.02 * a := by
      have := abs_le.1 b1
      rw [abs_le]; constructor <;> norm_num at this ⊢ <;> linarith
    have haq : 0 < a * q := by positivity
    have b4 : |b * q' - a * q| ≤ 0.0142 * (a * q) := by
      rw [show b * q' - a * q = b * (q' - q) + (b - a) * q by ring]
      refine (abs_add_le _ _).trans ?_
      rw [abs_mul, abs_mul, abs_of_pos hq]
      have c1 := mul_le_mul b3 b2 (abs_nonneg _) (by positivity)
      have c2 := mul_le_mul_of_nonneg_right b1 hq.le
      norm_num at c1 c2 ⊢
      linarith
    have b5 : |b * q'| ≤ 1.1 * (a * q) := by
      have := abs_le.1 b4
      rw [abs_le]; constructor <;> norm_num at this ⊢ <;> linarith
    refine (abs_sub_le _ (b * q') _).trans ?_
    have c3 := mul_le_mul hu b5 (abs_nonneg _) (by norm_num)
    norm_num at c3 b4 a2 ⊢
    linarith
  have hgm : m.getD i 0 * (1 / 10 ^ 12 / 10) ≤ g := le_max_right _ _
  have hgf : f ≤ g := le_max_left _ _
  have hg0 : 0 < g := lt_of_lt_of_le (by positivity) hgm
  have hi1 : (i : ℝ) ≤ 119 := by
    have : i ≤ 119 := by omega
    exact_mod_cast this
  have hB : (1.4 / 10 ^ 7 * ((i : ℝ) + 13) * (m.getD i 0 / 10 ^ 9) +
      7 / 10 ^ 8 * tarr.getD i 0 * (200 * (m.getD i 0 / 10 ^ 9) / tarr.getD i 0)) / 1 ≤ 0.325 * (m.getD i 0 * (1 / 10 ^ 12 / 10)) := by
    rw [div_one, show 7 / 10 ^ 8 * tarr.getD i 0 * (200 * (m.getD i 0 / 10 ^ 9) / tarr.getD i 0) = 1.4 / 10 ^ 5 * (m.getD i 0 / 10 ^ 9) by
      field_simp; norm_num]
    have := mul_le_mul_of_nonneg_right (show 1.4 / 10 ^ 7 * ((i : ℝ) + 13) ≤ 1.4 / 10 ^ 7 * 132 by gcongr; linarith)
      (show 0 ≤ m.getD i 0 / 10 ^ 9 by positivity)
    generalize m.getD i 0 = a at *
    norm_num at this ⊢
    linarith
  have hFerr := key.trans (add_le_add le_rfl hB)
  have h11 : m.getD i 0 / 10 ^ 11 = 100 * (m.getD i 0 * (1 / 10 ^ 12 / 10)) := by ring
  rw [hg', h11]
  exact clip_final hf0 (by positivity) hX0 hX1 hFerr hc

/-- **C141**: the logarithms of the averaged rates that enter the fitting loss, with a single precision logarithm that is off by at
most `ε`. -/
theorem C141_log_average {L : Rounding.MathLib} (hL : Accurate L) (ε : ℝ)
    (hlog : ∀ x, 0 < x → |L.log10 x - Real.logb 10 x| ≤ ε) {M : Type*}
    (logMah logMah' : M → ℝ → ℝ → ℝ) (p : DiffstarParams ℝ) (hp : InFloatBounds p) (mah : M) (tarr : List ℝ) (lgt0 fb : ℝ)
    (hfb : 0 < fb) (ht : ∀ t ∈ tarr, 0.01 ≤ t ∧ t ≤ 100) (hinc : Increasing tarr) (hn : tarr.length ≤ 120)
    (hfl : ∀ x ∈ tarr, float32.fl x = x)
    (hgap : ∀ k, k + 1 < tarr.length → 1 / 10 ^ 13 ≤ tarr.getD (k + 1) 0 - tarr.getD k 0)
    (hm : ∀ t ∈ tarr, 0 ≤ logMah mah t lgt0 ∧ logMah mah t lgt0 ≤ 20)
    (hm' : ∀ t ∈ tarr, |logMah' mah t lgt0 - logMah mah t lgt0| ≤ 1 / 10 ^ 5) (i : ℕ) (hi : i < tarr.length)
    (hS : ∀ k, k ≤ i → (calcSfhSinglegal logMah p mah tarr lgt0 fb).getD k 0 * tarr.getD i 0 ≤
      200 * ((calcSfhSinglegalSmh logMah p mah tarr lgt0 fb).smh.getD i 0 / 10 ^ 9)) :
    let m := (calcSfhSinglegalSmh logMah p mah tarr lgt0 fb).smh
    let m' := (float32.calcSfhSinglegalSmh L logMah' p mah tarr lgt0 fb).smh
    |(float32.logFstar L (float32.computeFstar tarr m' 1) m' (1 / 10 ^ 12)).getD i 0 -
      Real.logb 10 (max ((computeFstar tarr m 1).getD i 0) (m.getD i 0 / 10 ^ 13))| ≤ 0.19 + ε := by
  intro m m'
  obtain ⟨h1, h2, -⟩ := C141_fitted_average hL logMah logMah' p hp mah tarr lgt0 fb hfb ht hinc hn hfl hgap hm hm' i hi hS
  change 0 < max ((computeFstar tarr m 1).getD i 0) (m.getD i 0 * (1 / 10 ^ 12 / 10)) at h1
  change |(float32.clipFstar (float32.computeFstar tarr m' 1) m' (1 / 10 ^ 12)).getD i 0 - 
    max ((computeFstar tarr m 1).getD i 0) (m.getD i 0 * (1 / 10 ^ 12 / 10))| ≤ _ at h2
  obtain ⟨h3, h4⟩ := log_of_rel h1 h2
  have hlen : i < (float32.clipFstar (float32.computeFstar tarr m' 1) m' (1 / 10 ^ 12)).length := by
    by_contra hc
    rw [List.getD_eq_default _ _ (not_lt.1 hc)] at h3
    exact lt_irrefl _ h3
  have he : (float32.logFstar L (float32.computeFstar tarr m' 1) m' (1 / 10 ^ 12)).getD i 0 =
      L.log10 ((float32.clipFstar (float32.computeFstar tarr m' 1) m' (1 / 10 ^ 12)).getD i 0) := by
    unfold Rounding.logFstar
    rw [List.getD_eq_getElem _ _ (by rw [List.length_map]; exact hlen), List.getElem_map, List.getD_eq_getElem _ _ hlen]
  rw [he, show m.getD i 0 / 10 ^ 13 = m.getD i 0 * (1 / 10 ^ 12 / 10) by ring]
  refine (abs_sub_le _ _ _).trans ((add_le_add (hlog _ h3) h4).trans (le_of_eq (add_comm _ _)))

/-- The masses of the table of `C124_growth_can_stall`. -/
theorem stall_masses : ∃ a b : ℝ, float32.cumulativeMstarFormed [1, 2, 3] [64, 2 ^ (-46 : ℤ), 2 ^ (-46 : ℤ)] = [a, b, b] ∧
    float32.fl b = b := by
  have ex : ∀ (m : ℕ) (k : ℤ) (x : ℝ), x = m * 2 ^ k → m < 2 ^ 24 → float32.fl x = x := by
    intro m k x hx hm
    rw [hx]
    exact float32_exact m hm k
  have f1 : float32.fl 1 = 1 := float32.one
  have f64 : float32.fl 64 = 64 := ex 1 6 _ (by norm_num) (by norm_num)
  have f32 : float32.fl 32 = 32 := ex 1 5 _ (by norm_num) (by norm_num)
  have f16 : float32.fl 16 = 16 := ex 1 4 _ (by norm_num) (by norm_num)
  have f2 : float32.fl 2 = 2 := ex 1 1 _ (by norm_num) (by norm_num)
  have f3 : float32.fl 3 = 3 := ex 3 0 _ (by norm_num) (by norm_num)
  have fh : float32.fl (1 / 2) = 1 / 2 := ex 1 (-1) _ (by norm_num) (by norm_num)
  have fs : float32.fl (2 ^ (-46 : ℤ)) = 2 ^ (-46 : ℤ) := ex 1 (-46) _ (by norm_num) (by norm_num)
  have ft : float32.fl (2 ^ (-45 : ℤ)) = 2 ^ (-45 : ℤ) := ex 1 (-45) _ (by norm_num) (by norm_num)
  rw [cmfFl_eq]
  simp only [List.zip_cons_cons, List.zip_nil_right, trapFl_cons]
  -- the first mass
  have h1 : (1 : ℝ) / 2 ≤ float32.fl (1 - float32.fl 0.001) := by
    have : float32.fl 0.001 ≤ 1 / 2 := by
      have := float32.mono (show (0.001 : ℝ) ≤ 1 / 2 by norm_num)
      rwa [fh] at this
    have := float32.mono (show (1 : ℝ) / 2 ≤ 1 - float32.fl 0.001 by linarith)
    rwa [fh] at this
  have h2 : (64 : ℝ) ≤ float32.fl (64 + float32.fl (1 / 10 ^ 14)) := by
    have := float32.mono (show (64 : ℝ) ≤ 64 + float32.fl (1 / 10 ^ 14) by
      linarith [float32.fl_nonneg (show (0 : ℝ) ≤ 1 / 10 ^ 14 by norm_num)])
    rwa [f64] at this
  have h3 : (32 : ℝ) ≤ float32.fl (float32.fl (1 - float32.fl 0.001) * float32.fl (64 + float32.fl (1 / 10 ^ 14))) := by
    have := float32.mono (show (32 : ℝ) ≤ float32.fl (1 - float32.fl 0.001) * float32.fl (64 + float32.fl (1 / 10 ^ 14)) by
      nlinarith)
    rwa [f32] at this
  have h4 : (16 : ℝ) ≤ float32.fl (0 + float32.fl (float32.fl (float32.fl (1 - float32.fl 0.001) *
      float32.fl (64 + float32.fl (1 / 10 ^ 14))) / 2)) := by
    rw [zero_add, float32.idem]
    have := float32.mono (show (16 : ℝ) ≤ float32.fl (float32.fl (1 - float32.fl 0.001) *
      float32.fl (64 + float32.fl (1 / 10 ^ 14))) / 2 by linarith)
    rwa [f16] at this
  generalize float32.fl (0 + float32.fl (float32.fl (float32.fl (1 - float32.fl 0.001) *
      float32.fl (64 + float32.fl (1 / 10 ^ 14))) / 2)) = c1 at h4
  -- the second mass
  have h5 : (1 : ℝ) ≤ float32.fl (c1 + float32.fl (float32.fl (float32.fl (2 - 1) * float32.fl (2 ^ (-46 : ℤ) + 64)) / 2)) := by
    have h0 : (0 : ℝ) ≤ float32.fl (float32.fl (float32.fl (2 - 1) * float32.fl (2 ^ (-46 : ℤ) + 64)) / 2) :=
      float32.fl_nonneg (div_nonneg (float32.fl_nonneg (mul_nonneg (float32.fl_nonneg (by norm_num))
        (float32.fl_nonneg (by positivity)))) (by norm_num))
    have := float32.mono (show (1 : ℝ) ≤ c1 + float32.fl (float32.fl (float32.fl (2 - 1) * float32.fl (2 ^ (-46 : ℤ) + 64)) / 2) by
      linarith)
    rwa [f1] at this
  have h6 := float32.idem (c1 + float32.fl (float32.fl (float32.fl (2 - 1) * float32.fl (2 ^ (-46 : ℤ) + 64)) / 2))
  generalize float32.fl (c1 + float32.fl (float32.fl (float32.fl (2 - 1) * float32.fl (2 ^ (-46 : ℤ) + 64)) / 2)) = c2 at h5 h6
  -- the third mass
  have h7 : float32.fl (float32.fl (float32.fl (3 - 2) * float32.fl (2 ^ (-46 : ℤ) + 2 ^ (-46 : ℤ))) / 2) = 2 ^ (-46 : ℤ) := by
    have e1 : (3 : ℝ) - 2 = 1 := by norm_num
    have e2 : (2 : ℝ) ^ (-46 : ℤ) + 2 ^ (-46 : ℤ) = 2 ^ (-45 : ℤ) := by norm_num
    have e3 : (2 : ℝ) ^ (-45 : ℤ) / 2 = 2 ^ (-46 : ℤ) := by norm_num
    rw [e1, e2, f1, ft, one_mul, ft, e3, fs]
  rw [h7, float32_absorb h6 h5 (by positivity) (by norm_num)]
  exact ⟨_, _, rfl, float32.idem _⟩

/-- **C141**: single precision can lose an averaged rate altogether. All the numbers of this table are single precision numbers. -/
theorem C141_average_can_vanish : ∃ t s : List ℝ, s.length = t.length ∧ Increasing (0.002 :: t) ∧
    (∀ x ∈ t ++ s, float32.fl x = x) ∧ (∀ y ∈ s, 1 / 10 ^ 14 ≤ y) ∧
    (float32.computeFstar t (float32.cumulativeMstarFormed t s) 1).getD 2 0 = 0 ∧
    1 / 10 ^ 14 ≤ (computeFstar t (cumulativeMstarFormed t s) 1).getD 2 0 := by
  have ex : ∀ (m : ℕ) (k : ℤ) (x : ℝ), x = m * 2 ^ k → m < 2 ^ 24 → float32.fl x = x := by
    intro m k x hx hm
    rw [hx]
    exact float32_exact m hm k
  have f1 : float32.fl 1 = 1 := float32.one
  have f64 : float32.fl 64 = 64 := ex 1 6 _ (by norm_num) (by norm_num)
  have f32 : float32.fl 32 = 32 := ex 1 5 _ (by norm_num) (by norm_num)
  have f16 : float32.fl 16 = 16 := ex 1 4 _ (by norm_num) (by norm_num)
  have f2 : float32.fl 2 = 2 := ex 1 1 _ (by norm_num) (by norm_num)
  have f3 : float32.fl 3 = 3 := ex 3 0 _ (by norm_num) (by norm_num)
  have fh : float32.fl (1 / 2) = 1 / 2 := ex 1 (-1) _ (by norm_num) (by norm_num)
  have fs : float32.fl (2 ^ (-46 : ℤ)) = 2 ^ (-46 : ℤ) := ex 1 (-46) _ (by norm_num) (by norm_num)
  have ft : float32.fl (2 ^ (-45 : ℤ)) = 2 ^ (-45 : ℤ) := ex 1 (-45) _ (by norm_num) (by norm_num)
  have f0 : float32.fl 0 = 0 := float32.fl_zero
  refine ⟨[1, 2, 3], [64, 2 ^ (-46 : ℤ), 2 ^ (-46 : ℤ)], rfl, by unfold Increasing; norm_num, ?_, ?_, ?_, ?_⟩
  · intro x hx
    simp only [List.cons_append, List.nil_append, List.mem_cons, List.not_mem_nil, or_false] at hx
    rcases hx with rfl | rfl | rfl | rfl | rfl | rfl <;> assumption
  · intro y hy
    simp only [List.mem_cons, List.not_mem_nil, or_false] at hy
    rcases hy with rfl | rfl | rfl <;> norm_num
  · obtain ⟨a, b, h, hb⟩ := stall_masses
    rw [h]
    have e1 : (3 : ℝ) - 1 = 2 := by norm_num
    have hi : float32.interp 2 [1, 2, 3] [a, b, b] = b := by
      have e2 : (3 : ℝ) - 2 = 1 := by norm_num
      simp only [Rounding.interp, Rounding.interpChord, sub_self, f0, e2, f1]
      norm_num
      rw [f0, add_zero, hb]
    simp only [Rounding.computeFstar, List.map_cons, List.map_nil, List.zipWith_cons_cons, e1, f2, hi, sub_self, f0, zero_div]
    simp
  · rw [cmf_eq]
    simp only [List.zip_cons_cons, List.zip_nil_right, trapFrom_cons, trapFrom_nil, List.map_cons, List.map_nil, computeFstar, npInterp]
    norm_num

/-- A table without very short steps: the largest rate so far is at most 200 times the mean rate so far. -/
theorem C141_rates_of_steps (t s : List ℝ) (hs : s.length = t.length) (hinc : Increasing (0.001 :: t)) (h0 : ∀ y ∈ s, 0 ≤ y) (i : ℕ)
    (hi : i < t.length) (hstep : ∀ k, k ≤ i → t.getD i 0 ≤ 100 * (t.getD k 0 - (0.001 :: t).getD k 0)) (k : ℕ) (hk : k ≤ i) :
    s.getD k 0 * t.getD i 0 ≤ 200 * ((cumulativeMstarFormed t s).getD i 0 / 10 ^ 9) := by
  have hl := cmf_length t s hs
  have hmono : (cumulativeMstarFormed t s).getD k 0 ≤ (cumulativeMstarFormed t s).getD i 0 := by
    rw [List.getD_eq_getElem _ _ (by omega), List.getD_eq_getElem _ _ (by omega)]
    exact ((C12_smh_increasing t s hs hinc).2 h0).2.rel_get_of_le (a := ⟨k, by omega⟩) (b := ⟨i, by omega⟩) hk
  have hsk := getD_nonneg h0 k
  have h1 : (t.getD k 0 - (0.001 :: t).getD k 0) * s.getD k 0 ≤ 2 * ((cumulativeMstarFormed t s).getD k 0 / 10 ^ 9) := by
    cases k with
    | zero =>
      match t, s, hs, hi, hinc with
      | a :: t, b :: s, _, _, hinc =>
        have ha : (0.001 : ℝ) < a := (List.pairwise_cons.1 hinc).1 a (by simp)
        rw [cmf_eq]
        simp only [List.zip_cons_cons, trapFrom_cons, List.map_cons, List.getD_cons_zero]
        generalize (0.001 : ℝ) = z at *
        have : 0 ≤ (a - z) * (1 / 10 ^ 14) := mul_nonneg (by linarith) (by norm_num)
        linarith
    | succ k =>
      have h2 := cmf_step hs (show k + 1 < t.length by omega)
      have h3 := cmf_nonneg hs hinc h0 k
      have h4 := getD_nonneg h0 k
      rw [List.getD_cons_succ]
      have h5 : t.getD k 0 < t.getD (k + 1) 0 := by
        rw [List.getD_eq_getElem _ _ (by omega), List.getD_eq_getElem _ _ (by omega)]
        exact List.pairwise_iff_getElem.1 (List.pairwise_cons.1 hinc).2 k (k + 1) (by omega) (by omega) (by omega)
      have h6 := mul_nonneg (show 0 ≤ t.getD (k + 1) 0 - t.getD k 0 by linarith) h4
      linarith
  have h2 := mul_le_mul_of_nonneg_left (hstep k hk) hsk
  linarith

/-- Five times, two of them closer than the averaging time, for a galaxy of any single precision parameters in a halo of constant
mass. -/
example (u : DiffstarParams ℝ) : ∃ (L : Rounding.MathLib) (p : DiffstarParams ℝ) (logMah : Unit → ℝ → ℝ → ℝ) (tarr : List ℝ),
    Accurate L ∧ InFloatBounds p ∧ p = float32.getBoundedDiffstarParams L.exp u ∧ (∀ t ∈ tarr, 0.01 ≤ t ∧ t ≤ 100) ∧
      Increasing tarr ∧ (∀ x ∈ tarr, float32.fl x = x) ∧
      (∀ k, k + 1 < tarr.length → 1 / 10 ^ 13 ≤ tarr.getD (k + 1) 0 - tarr.getD k 0) ∧
      (∀ t ∈ tarr, 0 ≤ logMah () t 1.1 ∧ logMah () t 1.1 ≤ 20) ∧
      ∀ i, i < tarr.length → ∀ k, k ≤ i → (calcSfhSinglegal logMah p () tarr 1.1 0.16).getD k 0 * tarr.getD i 0 ≤
        200 * ((calcSfhSinglegalSmh logMah p () tarr 1.1 0.16).smh.getD i 0 / 10 ^ 9) := by
  have ex : ∀ (m : ℕ) (k : ℤ) (x : ℝ), x = m * 2 ^ k → m < 2 ^ 24 → float32.fl x = x := by
    intro m k x hx hm
    rw [hx]
    exact float32_exact m hm k
  have f1 : float32.fl 1 = 1 := float32.one
  have f4 : float32.fl 4 = 4 := ex 1 2 _ (by norm_num) (by norm_num)
  have f5 : float32.fl 4.5 = 4.5 := ex 9 (-1) _ (by norm_num) (by norm_num)
  have f9 : float32.fl 9 = 9 := ex 9 0 _ (by norm_num) (by norm_num)
  have f13 : float32.fl 13.75 = 13.75 := ex 55 (-2) _ (by norm_num) (by norm_num)
  refine ⟨_, _, fun _ _ _ => 12, [1, 4, 4.5, 9, 13.75], accurate_rounded,
    inFloatBounds_bounded _ (fun x => float32.fl_nonneg (Real.exp_pos x).le) u, rfl, ?_, by norm_num [Increasing], ?_, ?_,
    fun _ _ => by norm_num, fun i hi => ?_⟩
  · intro t ht
    simp only [List.mem_cons, List.not_mem_nil, or_false] at ht
    rcases ht with rfl | rfl | rfl | rfl | rfl <;> norm_num
  · intro t ht
    simp only [List.mem_cons, List.not_mem_nil, or_false] at ht
    rcases ht with rfl | rfl | rfl | rfl | rfl <;> assumption
  · intro k hk
    have : k + 1 < 5 := by simpa using hk
    have : k < 4 := by omega
    interval_cases k <;> norm_num
  · refine C141_rates_of_steps _ (calcSfhSinglegal _ _ _ _ _ _) (List.length_map ..) (by unfold Increasing; norm_num) ?_ i hi ?_
    · intro x hx
      rw [calcSfhSinglegal_eq] at hx
      obtain ⟨t, -, rfl⟩ := List.mem_map.1 hx
      exact le_trans (by norm_num) (le_max_left _ _)
    · intro k hk
      have : i < 5 := by simpa using hi
      interval_cases i <;> interval_cases k <;> norm_num

end Diffstar.Props
