import Verif.Props.EndToEnd

/-!
C162: how single precision star formation histories depend on the baryon fraction.
-/

namespace Diffstar.Props

open Diffstar Diffstar.Spec

theorem ieee_scale (p : ℕ) (k : ℤ) (x : ℝ) : ieee p (2 ^ k * x) = 2 ^ k * ieee p x := by
  have hk : (0 : ℝ) < 2 ^ k := by positivity
  have pos : ∀ y : ℝ, 0 < y → ieee p (2 ^ k * y) = 2 ^ k * ieee p y := fun y hy => by
    have h1 := Int.zpow_log_le_self (b := 2) (by norm_num) hy
    have h2 := Int.lt_zpow_succ_log_self (b := 2) (by norm_num) y
    have hl : Int.log 2 (2 ^ k * y) = k + Int.log 2 y := by
      refine log_two_eq ?_ ?_
      · rw [zpow_add₀ (by norm_num)]
        exact mul_le_mul_of_nonneg_left (by exact_mod_cast h1) hk.le
      · rw [add_assoc, zpow_add₀ (by norm_num)]
        exact mul_lt_mul_of_pos_left (by exact_mod_cast h2) hk
    have hu : ulp p (2 ^ k * y) = 2 ^ k * ulp p y := by
      unfold ulp
      rw [hl, ← zpow_add₀ (by norm_num)]
      congr 1
      ring
    rw [ieee_pos (mul_pos hk hy), ieee_pos hy]
    unfold posRound
    rw [hu, mul_div_mul_left _ _ hk.ne']
    ring
  rcases lt_trichotomy x 0 with h | h | h
  · obtain ⟨y, hy, rfl⟩ : ∃ y > 0, x = -y := ⟨-x, by linarith, by ring⟩
    rw [mul_neg, ieee_neg, pos y hy, ieee_neg, mul_neg]
  · rw [h, mul_zero, ieee_zero, mul_zero]
  · exact pos x h

theorem float32_scale (k : ℤ) (x : ℝ) : float32.fl (2 ^ k * x) = 2 ^ k * float32.fl x := ieee_scale 24 k x

theorem pow10_nonneg {L : Rounding.MathLib} (hL : Accurate L) (x : ℝ) : 0 ≤ L.pow10 x := by
  have h1 := (abs_le.mp (hL.pow10 x)).1
  have h2 : (0 : ℝ) < 10 ^ x := by positivity
  linarith

/-- Larger rates never give smaller integrals. -/
theorem scanFl_mono (R : Rounding) : ∀ (t s s' : List ℝ) (a fa fa' c c' : ℝ), List.Forall₂ (· ≤ ·) s s' → (a :: t).Pairwise (· ≤ ·) → fa ≤ fa' → c ≤ c' →
    List.Forall₂ (· ≤ ·) (scanOut R.cumtrapzScanFunc (a, fa, c) (List.zip t s)) (scanOut R.cumtrapzScanFunc (a, fa', c') (List.zip t s'))
  | [], s, s', a, fa, fa', c, c', _, _, _, _ => by simp [scanOut]
  | b :: t, [], _, a, fa, fa', c, c', .nil, _, _, _ => by simp [scanOut]
  | b :: t, _ :: _, _ :: _, a, fa, fa', c, c', .cons h hs, ht, hf, hc => by
    obtain ⟨h1, h2⟩ := List.pairwise_cons.1 ht
    have hw : 0 ≤ R.fl (b - a) := R.fl_nonneg (sub_nonneg.2 (h1 b (by simp)))
    have key := R.mono (add_le_add hc (R.mono (div_le_div_of_nonneg_right (R.mono (mul_le_mul_of_nonneg_left (R.mono (add_le_add h hf)) hw)) (zero_le_two (α := ℝ)))))
    exact .cons key (scanFl_mono R t _ _ b _ _ _ _ hs h2 h key)

theorem massFl_mono (R : Rounding) (t s s' : List ℝ) (hs : List.Forall₂ (· ≤ ·) s s') (ht : (R.fl T_BIRTH_MIN :: t).Pairwise (· ≤ ·)) :
    List.Forall₂ (· ≤ ·) (R.cumulativeMstarFormed t s) (R.cumulativeMstarFormed t s') := by
  have h := scanFl_mono R (R.fl T_BIRTH_MIN :: t) (R.fl SFR_MIN :: s) (R.fl SFR_MIN :: s') (R.fl T_BIRTH_MIN) (R.fl SFR_MIN) (R.fl SFR_MIN) 0 0
    (.cons le_rfl hs) (List.pairwise_cons.2 ⟨by
      intro x hx
      rcases List.mem_cons.1 hx with rfl | hx
      · exact le_rfl
      · exact (List.pairwise_cons.1 ht).1 x hx, ht⟩) le_rfl le_rfl
  have hy : 0 ≤ R.fl YEAR_PER_GYR := R.fl_nonneg (by norm_num [YEAR_PER_GYR])
  unfold Rounding.cumulativeMstarFormed Rounding.cumtrapz
  rw [List.forall₂_map_left_iff, List.forall₂_map_right_iff]
  exact (List.forall₂_drop 1 h).imp fun x y hxy => R.mono (mul_le_mul_of_nonneg_right hxy hy)

/-- **C162**: in single precision with a limited range of exponents, a larger baryon fraction never gives a smaller star formation rate or a
smaller stellar mass. -/
theorem C162_monotone {L : Rounding.MathLib} (A : Machine float32 L) (hL : Accurate L) (hlog : ∀ t, float32.fl (L.log10 t) = L.log10 t)
    (hpow : ∀ x, |x| ≤ 1 / 10 ^ 17 → L.pow10 x = 1) (u : DiffstarParams ℝ) (hu : FiniteFloats u)
    {M : Type*} (logMah : M → ℝ → ℝ → ℝ) (mah : M) (tarr : List ℝ) (lgt0 fb fb' : ℝ) (hfb : 1 / 10 ^ 10 ≤ fb) (hfb' : fb' ≤ 1) (hle : fb ≤ fb')
    (ht : ∀ t ∈ tarr, 0.01 ≤ t ∧ t ≤ 100) (hstep : tarr.Pairwise fun a b => a + 1 / 10 ^ 6 ≤ b) (hn : tarr.length ≤ 1000)
    (hm : ∀ t ∈ tarr, 0 ≤ logMah mah t lgt0 ∧ logMah mah t lgt0 ≤ 20) (hmf : ∀ t ∈ tarr, float32.fl (logMah mah t lgt0) = logMah mah t lgt0) :
    ∃ p gal gal', A.getBoundedDiffstarParams u = some p ∧ A.calcSfhSinglegalSmh logMah p mah tarr lgt0 fb = some gal ∧
      A.calcSfhSinglegalSmh logMah p mah tarr lgt0 fb' = some gal' ∧ List.Forall₂ (· ≤ ·) gal.sfh gal'.sfh ∧ List.Forall₂ (· ≤ ·) gal.smh gal'.smh := by
  obtain ⟨p, hp, -, -, -, -, -, -, -, -, h⟩ := C157_history A hL hlog hpow u hu
  have hm' : ∀ t ∈ tarr, -0.1 ≤ logMah mah t lgt0 ∧ logMah mah t lgt0 ≤ 20.1 := fun t h => by
    have h1 := hm t h
    constructor <;> norm_num <;> linarith [h1.1, h1.2]
  refine ⟨p, _, _, hp, h logMah mah tarr lgt0 fb ⟨hfb, hle.trans hfb'⟩ ht hstep hn hmf hm',
    h logMah mah tarr lgt0 fb' ⟨hfb.trans hle, hfb'⟩ ht hstep hn hmf hm', ?_⟩
  have rates : List.Forall₂ (· ≤ ·) (float32.calcSfhSinglegalSmh L logMah (float32.getBoundedDiffstarParams L.exp u) mah tarr lgt0 fb).sfh
      (float32.calcSfhSinglegalSmh L logMah (float32.getBoundedDiffstarParams L.exp u) mah tarr lgt0 fb').sfh := by
    unfold Rounding.calcSfhSinglegalSmh
    rw [List.forall₂_map_left_iff, List.forall₂_map_right_iff, List.forall₂_same]
    intro t _
    have raw := float32.mono (mul_le_mul_of_nonneg_left (float32.mono (mul_le_mul_of_nonneg_right (float32.mono
      (mul_le_mul_of_nonneg_right hle (pow10_nonneg hL (logMah mah t lgt0))))
      (pow10_nonneg hL (float32.sfrEffPlaw L.exp (logMah mah t lgt0) (float32.getBoundedDiffstarParams L.exp u).ms.lgmcrit
        (float32.getBoundedDiffstarParams L.exp u).ms.lgyAtMcrit (float32.getBoundedDiffstarParams L.exp u).ms.indxLo
        (float32.getBoundedDiffstarParams L.exp u).ms.indxHi))))
      (pow10_nonneg hL (float32.jaxPartialUTwKern (L.log10 t) (float32.getBoundedDiffstarParams L.exp u).q.lgQt
        (float32.fl (L.pow10 (float32.getBoundedDiffstarParams L.exp u).q.qlglgdt / 12)) (float32.getBoundedDiffstarParams L.exp u).q.lgDrop
        (float32.fl ((float32.getBoundedDiffstarParams L.exp u).q.lgDrop - (float32.getBoundedDiffstarParams L.exp u).q.lgRejuv)))))
    unfold Rounding.sfhSinglegalScalar Rounding.sfhMsKernel Rounding.quenchingKern
    dsimp only
    split_ifs with h1 h2 h2
    · exact le_rfl
    · exact not_lt.1 h2
    · exact absurd (raw.trans_lt h2) h1
    · exact raw
  refine ⟨rates, massFl_mono _ _ _ _ rates (List.pairwise_cons.2 ⟨fun t h => ?_, hstep.imp fun h => ?_⟩)⟩
  · have := (abs_le.1 (float32.err T_BIRTH_MIN)).2
    have hu := f32_u
    have := (ht t h).1
    norm_num [T_BIRTH_MIN, abs_of_pos] at *
    nlinarith
  · norm_num at h
    linarith

/-- **C162**: multiplying the baryon fraction by a power of two multiplies all star formation rates by it before they are
clipped at `SFR_MIN`, to the last bit. -/
theorem C162_doubling {L : Rounding.MathLib} (A : Machine float32 L) (hL : Accurate L) (hlog : ∀ t, float32.fl (L.log10 t) = L.log10 t)
    (hpow : ∀ x, |x| ≤ 1 / 10 ^ 17 → L.pow10 x = 1) (u : DiffstarParams ℝ) (hu : FiniteFloats u)
    {M : Type*} (logMah : M → ℝ → ℝ → ℝ) (mah : M) (tarr : List ℝ) (lgt0 fb : ℝ) (k : ℤ) (hfb : 1 / 10 ^ 10 ≤ fb ∧ fb ≤ 1)
    (hfb' : 1 / 10 ^ 10 ≤ 2 ^ k * fb ∧ 2 ^ k * fb ≤ 1)
    (ht : ∀ t ∈ tarr, 0.01 ≤ t ∧ t ≤ 100) (hstep : tarr.Pairwise fun a b => a + 1 / 10 ^ 6 ≤ b) (hn : tarr.length ≤ 1000)
    (hm : ∀ t ∈ tarr, 0 ≤ logMah mah t lgt0 ∧ logMah mah t lgt0 ≤ 20) (hmf : ∀ t ∈ tarr, float32.fl (logMah mah t lgt0) = logMah mah t lgt0) :
    ∃ p gal gal', A.getBoundedDiffstarParams u = some p ∧ A.calcSfhSinglegalSmh logMah p mah tarr lgt0 fb = some gal ∧
      A.calcSfhSinglegalSmh logMah p mah tarr lgt0 (2 ^ k * fb) = some gal' ∧
      List.Forall₂ (fun s s' => ∃ r, s = max (float32.fl (1 / 10 ^ 14)) r ∧ s' = max (float32.fl (1 / 10 ^ 14)) (2 ^ k * r)) gal.sfh gal'.sfh := by
  obtain ⟨p, hp, -, -, -, -, -, -, -, -, h⟩ := C157_history A hL hlog hpow u hu
  have hm' : ∀ t ∈ tarr, -0.1 ≤ logMah mah t lgt0 ∧ logMah mah t lgt0 ≤ 20.1 := fun t h => by
    have h1 := hm t h
    constructor <;> norm_num <;> linarith [h1.1, h1.2]
  refine ⟨p, _, _, hp, h logMah mah tarr lgt0 fb hfb ht hstep hn hmf hm', h logMah mah tarr lgt0 _ hfb' ht hstep hn hmf hm', ?_⟩
  unfold Rounding.calcSfhSinglegalSmh
  rw [List.forall₂_map_left_iff, List.forall₂_map_right_iff, List.forall₂_same]
  intro t _
  unfold Rounding.sfhSinglegalScalar Rounding.sfhMsKernel
  dsimp only
  have hc : SFR_MIN = 1 / 10 ^ 14 := by norm_num [SFR_MIN]
  rw [hc]
  generalize float32.fl (1 / 10 ^ 14) = c
  have scale : ∀ q m e : ℝ, float32.fl (q * float32.fl (float32.fl (2 ^ k * fb * m) * e)) =
      2 ^ k * float32.fl (q * float32.fl (float32.fl (fb * m) * e)) := fun q m e => by
    rw [mul_assoc (2 ^ k : ℝ), float32_scale, mul_assoc (2 ^ k : ℝ), float32_scale, mul_left_comm, float32_scale]
  rw [scale]
  have floor : ∀ x : ℝ, (if x < c then c else x) = max c x := fun x => by
    split_ifs with h
    · exact (max_eq_left h.le).symm
    · exact (max_eq_right (not_lt.1 h)).symm
  exact ⟨_, floor _, floor _⟩

/-- The hypotheses are met by extreme parameters on a device that flushes to zero, for baryon fractions 0.16 and 0.32. -/
example : ∃ (L : Rounding.MathLib) (p : DiffstarParams ℝ) (gal gal' : GalHistory (List ℝ)),
    (flushing float32 L).calcSfhSinglegalSmh (fun (_ : Unit) _ _ => 0) p () [1, 5, 13.8] 1 0.16 = some gal ∧
      (flushing float32 L).calcSfhSinglegalSmh (fun (_ : Unit) _ _ => 0) p () [1, 5, 13.8] 1 (2 ^ (1 : ℤ) * 0.16) = some gal' ∧
      List.Forall₂ (· ≤ ·) gal.smh gal'.smh := by
  have ht : ∀ t ∈ ([1, 5, 13.8] : List ℝ), 0.01 ≤ t ∧ t ≤ 100 := by
    intro t ht
    simp only [List.mem_cons, List.not_mem_nil, or_false] at ht
    rcases ht with rfl | rfl | rfl <;> norm_num
  obtain ⟨p, gal, gal', hp, h1, h2, -⟩ := C162_doubling (flushing float32 ⟨fun x => float32.fl (Real.exp x), fun x => float32.fl ((10 : ℝ) ^ x),
    fun x => float32.fl (Real.logb 10 x)⟩) accurate_rounded (fun t => float32.idem _) pow10_tiny_rounded extremeParams extremeParams_finite
    (fun (_ : Unit) _ _ => 0) () [1, 5, 13.8] 1 0.16 1 (by norm_num) (by norm_num) ht (by norm_num) (by norm_num) (fun _ _ => by norm_num)
    (fun _ _ => float32.fl_zero)
  obtain ⟨p', gal2, gal2', hp', h1', h2', -, h3⟩ := C162_monotone (flushing float32 ⟨fun x => float32.fl (Real.exp x), fun x => float32.fl ((10 : ℝ) ^ x),
    fun x => float32.fl (Real.logb 10 x)⟩) accurate_rounded (fun t => float32.idem _) pow10_tiny_rounded extremeParams extremeParams_finite
    (fun (_ : Unit) _ _ => 0) () [1, 5, 13.8] 1 0.16 (2 ^ (1 : ℤ) * 0.16) (by norm_num) (by norm_num) (by norm_num) ht (by norm_num) (by norm_num)
    (fun _ _ => by norm_num) (fun _ _ => float32.fl_zero)
  exact ⟨_, p', gal2, gal2', h1', h2', h3⟩

end Diffstar.Props
