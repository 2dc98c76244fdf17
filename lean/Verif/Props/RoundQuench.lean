import Verif.Props.EndToEnd

/-!
C163: in single precision, quenching changes nothing before it starts and nothing if there is no drop, and is constant after it ends, to the last bit.
-/

namespace Diffstar.Props

open Diffstar Diffstar.Spec

/-- Bounds of a rounded number. -/
theorem f32_below {x b : ℝ} (hb : b ≤ 0) (h : x ≤ b) : float32.fl x ≤ b * (1 - 1 / 10 ^ 6) := by
  have h1 := float32.mono h
  have h2 := (abs_le.1 (float32.err b)).2
  have hu := f32_u
  rw [abs_of_nonpos hb] at h2
  have h3 : float32.u ≤ 1 / 10 ^ 6 := hu.trans (by norm_num)
  nlinarith

/-- Width of the quenching kernel in single precision. -/
theorem width_bounds {L : Rounding.MathLib} (hL : Accurate L) (q : ℝ) :
    0 < float32.fl (L.pow10 q / 12) ∧ float32.fl (L.pow10 q / 12) ≤ (10 : ℝ) ^ q / 12 * (1 + 2 / 10 ^ 5) := by
  have hD : (0 : ℝ) < 10 ^ q := by positivity
  obtain ⟨h1, h2⟩ := abs_le.1 (hL.pow10 q)
  have hP : 0 < L.pow10 q / 12 := by
    apply div_pos _ (by norm_num)
    linarith
  have hu := f32_u
  have h3 : float32.u ≤ 1 / 10 ^ 6 := hu.trans (by norm_num)
  have he := (abs_le.1 (float32.err (L.pow10 q / 12))).2
  rw [abs_of_pos hP] at he
  refine ⟨float32.fl_pos (h3.trans_lt (by norm_num)) hP, ?_⟩
  nlinarith

/-- Position in the quenching kernel before quenching. -/
theorem position_early {L : Rounding.MathLib} (hL : Accurate L) {t m q : ℝ} (ht : 0.01 ≤ t ∧ t ≤ 100) (hq : -3 ≤ q)
    (h : Real.logb 10 t ≤ m - 0.51 * (10 : ℝ) ^ q) : float32.fl (float32.fl (L.log10 t - m) / float32.fl (L.pow10 q / 12)) ≤ -6.1 := by
  obtain ⟨w1, w2⟩ := width_bounds hL q
  have hD : (1 / 1000 : ℝ) ≤ 10 ^ q := by
    have := Real.rpow_le_rpow_of_exponent_le (by norm_num : (1 : ℝ) ≤ 10) hq
    rw [Real.rpow_neg (by norm_num), show (3 : ℝ) = ((3 : ℕ) : ℝ) by norm_num, Real.rpow_natCast] at this
    norm_num at this ⊢
    exact this
  have hl := (abs_le.1 (hL.log10 t ht.1 ht.2)).2
  have hd : L.log10 t - m ≤ -(0.5098 * (10 : ℝ) ^ q) := by
    norm_num at h hl ⊢
    linarith
  have hd' := f32_below (by norm_num at hd ⊢; linarith) hd
  have hy : float32.fl (L.log10 t - m) / float32.fl (L.pow10 q / 12) ≤ -6.11 := by
    rw [div_le_iff₀ w1]
    norm_num at hd' w2 ⊢
    linarith
  have := f32_below (by norm_num) hy
  norm_num at this ⊢
  linarith

/-- Position in the quenching kernel after quenching. -/
theorem position_late {L : Rounding.MathLib} (hL : Accurate L) {t m q : ℝ} (ht : 0.01 ≤ t ∧ t ≤ 100) (hq : -3 ≤ q)
    (h : m + 0.51 * (10 : ℝ) ^ q ≤ Real.logb 10 t) : 6.1 ≤ float32.fl (float32.fl (L.log10 t - m) / float32.fl (L.pow10 q / 12)) := by
  obtain ⟨w1, w2⟩ := width_bounds hL q
  have hD : (1 / 1000 : ℝ) ≤ 10 ^ q := by
    have := Real.rpow_le_rpow_of_exponent_le (by norm_num : (1 : ℝ) ≤ 10) hq
    rw [Real.rpow_neg (by norm_num), show (3 : ℝ) = ((3 : ℕ) : ℝ) by norm_num, Real.rpow_natCast] at this
    norm_num at this ⊢
    exact this
  have hl := (abs_le.1 (hL.log10 t ht.1 ht.2)).1
  have hd : -(L.log10 t - m) ≤ -(0.5098 * (10 : ℝ) ^ q) := by
    norm_num at h hl ⊢
    linarith
  have hd' := f32_below (by norm_num at hd ⊢; linarith) hd
  rw [float32.neg] at hd'
  have hy : -(float32.fl (L.log10 t - m) / float32.fl (L.pow10 q / 12)) ≤ -6.11 := by
    rw [← neg_div, div_le_iff₀ w1]
    norm_num at hd' w2 ⊢
    linarith
  have := f32_below (by norm_num) hy
  rw [float32.neg] at this
  norm_num at this ⊢
  linarith

/-- Before quenching the quenching factor is one. -/
theorem quench_early {L : Rounding.MathLib} (hL : Accurate L) (hpow : ∀ x, |x| ≤ 1 / 10 ^ 17 → L.pow10 x = 1) {t m q : ℝ} (ht : 0.01 ≤ t ∧ t ≤ 100)
    (hq : -3 ≤ q) (h : Real.logb 10 t ≤ m - 0.51 * (10 : ℝ) ^ q) (d r : ℝ) :
    float32.quenchingKern L.pow10 (L.log10 t) m (L.pow10 q) d r = 1 := by
  have hy := position_early hL ht hq h
  unfold Rounding.quenchingKern Rounding.jaxPartialUTwKern
  dsimp only
  generalize float32.fl (float32.fl (L.log10 t - m) / float32.fl (L.pow10 q / 12)) = y at hy
  have h1 := f32_below (x := y + 3) (b := -3.1) (by norm_num) (by norm_num at hy ⊢; linarith)
  have h0 : float32.jaxTw (float32.fl (y + 3)) = 0 := by
    unfold Rounding.jaxTw
    norm_num at h1
    rw [if_neg (by linarith), if_pos (by linarith)]
  rw [if_pos (by norm_num at hy; linarith), h0, mul_zero, float32.fl_zero]
  exact hpow 0 (by norm_num)

/-- After quenching the quenching factor does not depend on time. -/
theorem quench_late {L : Rounding.MathLib} (hL : Accurate L) {t m q : ℝ} (ht : 0.01 ≤ t ∧ t ≤ 100)
    (hq : -3 ≤ q) (h : m + 0.51 * (10 : ℝ) ^ q ≤ Real.logb 10 t) (d r : ℝ) :
    float32.quenchingKern L.pow10 (L.log10 t) m (L.pow10 q) d r = L.pow10 (float32.fl (d - float32.fl (d - r))) := by
  have hy := position_late hL ht hq h
  unfold Rounding.quenchingKern Rounding.jaxPartialUTwKern
  dsimp only
  generalize float32.fl (float32.fl (L.log10 t - m) / float32.fl (L.pow10 q / 12)) = y at hy
  have h1 := f32_below (x := -(y - 3)) (b := -3.1) (by norm_num) (by norm_num at hy ⊢; linarith)
  rw [float32.neg] at h1
  have h0 : float32.jaxTw (float32.fl (y - 3)) = 1 := by
    unfold Rounding.jaxTw
    norm_num at h1
    rw [if_pos (by linarith)]
  rw [if_neg (by norm_num at hy; linarith), h0, mul_one, float32.idem]

/-- Without a drop the quenching factor is one. -/
theorem quench_none {L : Rounding.MathLib} (hpow : ∀ x, |x| ≤ 1 / 10 ^ 17 → L.pow10 x = 1) (t m q : ℝ) :
    float32.quenchingKern L.pow10 t m q 0 0 = 1 := by
  unfold Rounding.quenchingKern Rounding.jaxPartialUTwKern
  dsimp only
  simp only [zero_mul, sub_zero, float32.fl_zero, ite_self]
  exact hpow 0 (by norm_num)

variable {L : Rounding.MathLib} (A : Machine float32 L) (hL : Accurate L) (hlog : ∀ t, float32.fl (L.log10 t) = L.log10 t)
  (hpow : ∀ x, |x| ≤ 1 / 10 ^ 17 → L.pow10 x = 1) (u v : DiffstarParams ℝ) (hu : FiniteFloats u) (hv : FiniteFloats v)
  {M : Type*} (logMah : M → ℝ → ℝ → ℝ) (mah : M) (tarr : List ℝ) (lgt0 fb : ℝ) (hfb : 1 / 10 ^ 10 ≤ fb ∧ fb ≤ 1)
  (ht : ∀ t ∈ tarr, 0.01 ≤ t ∧ t ≤ 100) (hstep : tarr.Pairwise fun a b => a + 1 / 10 ^ 6 ≤ b) (hn : tarr.length ≤ 1000)
  (hm : ∀ t ∈ tarr, 0 ≤ logMah mah t lgt0 ∧ logMah mah t lgt0 ≤ 20) (hmf : ∀ t ∈ tarr, float32.fl (logMah mah t lgt0) = logMah mah t lgt0)

/-- The time `t` is before quenching: more than 0.51 times the duration in `log10(t)` before the quenching time. -/
def Before (p : DiffstarParams ℝ) (t : ℝ) : Prop := Real.logb 10 t ≤ p.lgQt - 0.51 * (10 : ℝ) ^ p.qlglgdt

/-- The time `t` is after quenching and rejuvenation. -/
def After (p : DiffstarParams ℝ) (t : ℝ) : Prop := p.lgQt + 0.51 * (10 : ℝ) ^ p.qlglgdt ≤ Real.logb 10 t

include hL hlog hpow hu hv hfb ht hstep hn hm hmf in
/-- **C163**: galaxies with the same main sequence parameters have the same rates, to the last bit, at all times before either quenches and, if neither has
a drop, at all times; if that holds for all times of the table, then masses are the same, too. -/
theorem C163_before (huv : u.ms = v.ms) :
    ∃ p p' gal gal', A.getBoundedDiffstarParams u = some p ∧ A.getBoundedDiffstarParams v = some p' ∧
      A.calcSfhSinglegalSmh logMah p mah tarr lgt0 fb = some gal ∧ A.calcSfhSinglegalSmh logMah p' mah tarr lgt0 fb = some gal' ∧
      (∀ i (hi : i < tarr.length), (Before p tarr[i] ∨ p.lgDrop = 0) → (Before p' tarr[i] ∨ p'.lgDrop = 0) →
        gal.sfh[i]? = gal'.sfh[i]? ∧ gal.sfh[i]? ≠ none) ∧
      ((∀ t ∈ tarr, (Before p t ∨ p.lgDrop = 0) ∧ (Before p' t ∨ p'.lgDrop = 0)) → gal = gal') := by
  obtain ⟨p, hp, -, -, -, -, e1, e2, e3, e4, h⟩ := C157_history A hL hlog hpow u hu
  obtain ⟨p', hp', -, -, -, -, e1', e2', e3', e4', h'⟩ := C157_history A hL hlog hpow v hv
  have hm' : ∀ t ∈ tarr, -0.1 ≤ logMah mah t lgt0 ∧ logMah mah t lgt0 ≤ 20.1 := fun t h => by
    have h1 := hm t h
    constructor <;> norm_num <;> linarith [h1.1, h1.2]
  have he : ∀ x, 0 ≤ L.exp x := fun x => by
    have h1 := abs_le.mp (hL.exp x)
    have h2 := Real.exp_pos x
    linarith [h1.1]
  have factor : ∀ (w P : DiffstarParams ℝ), P.lgQt = (float32.getBoundedDiffstarParams L.exp w).lgQt → P.qlglgdt = (float32.getBoundedDiffstarParams L.exp w).qlglgdt →
      P.lgDrop = (float32.getBoundedDiffstarParams L.exp w).lgDrop → ∀ t ∈ tarr, (Before P t ∨ P.lgDrop = 0) →
      float32.quenchingKern L.pow10 (L.log10 t) (float32.getBoundedDiffstarParams L.exp w).q.lgQt (L.pow10 (float32.getBoundedDiffstarParams L.exp w).q.qlglgdt)
        (float32.getBoundedDiffstarParams L.exp w).q.lgDrop (float32.getBoundedDiffstarParams L.exp w).q.lgRejuv = 1 := by
    intro w P a b c t h1 h2
    have B := inFloatBounds_bounded L.exp he w
    rcases h2 with h2 | h2
    · unfold Before at h2
      rw [a, b] at h2
      exact quench_early hL hpow (ht t h1) B.qlglgdt.1 h2 _ _
    · rw [c] at h2
      have h3 := B.lgRejuv
      have h4 : (float32.getBoundedDiffstarParams L.exp w).lgRejuv = 0 := le_antisymm h3.2 (h2 ▸ h3.1)
      have := quench_none hpow (L.log10 t) (float32.getBoundedDiffstarParams L.exp w).q.lgQt (L.pow10 (float32.getBoundedDiffstarParams L.exp w).q.qlglgdt)
      rw [← h2] at this
      nth_rewrite 2 [h2] at this
      rw [← h4] at this
      exact this
  have hms : (float32.getBoundedDiffstarParams L.exp u).ms = (float32.getBoundedDiffstarParams L.exp v).ms := by
    show float32.getBoundedSfrParams L.exp u.ms = float32.getBoundedSfrParams L.exp v.ms
    rw [huv]
  have rate : ∀ t ∈ tarr, (Before p t ∨ p.lgDrop = 0) → (Before p' t ∨ p'.lgDrop = 0) →
      float32.sfhSinglegalScalar L logMah t mah (float32.getBoundedDiffstarParams L.exp u).ms (float32.getBoundedDiffstarParams L.exp u).q lgt0 fb =
      float32.sfhSinglegalScalar L logMah t mah (float32.getBoundedDiffstarParams L.exp v).ms (float32.getBoundedDiffstarParams L.exp v).q lgt0 fb := by
    intro t h1 h2 h3
    unfold Rounding.sfhSinglegalScalar
    dsimp only
    rw [factor u p e1 e2 e3 t h1 h2, factor v p' e1' e2' e3' t h1 h3, hms]
  refine ⟨p, p', _, _, hp, hp', h logMah mah tarr lgt0 fb hfb ht hstep hn hmf hm', h' logMah mah tarr lgt0 fb hfb ht hstep hn hmf hm', ?_, ?_⟩
  · intro i hi h1 h2
    unfold Rounding.calcSfhSinglegalSmh
    dsimp only
    rw [List.getElem?_map, List.getElem?_map, List.getElem?_eq_getElem hi, Option.map_some, Option.map_some, rate _ (List.getElem_mem hi) h1 h2]
    exact ⟨rfl, Option.some_ne_none _⟩
  · intro hall
    unfold Rounding.calcSfhSinglegalSmh
    dsimp only
    rw [List.map_congr_left fun t h1 => rate t h1 (hall t h1).1 (hall t h1).2]

include hL hlog hpow hu hfb ht hstep hn hm hmf in
/-- **C163**: after quenching and rejuvenation have ended the rate depends on time only through the halo mass, to the last bit. -/
theorem C163_after :
    ∃ p gal, A.getBoundedDiffstarParams u = some p ∧ A.calcSfhSinglegalSmh logMah p mah tarr lgt0 fb = some gal ∧
      ∀ i j (hi : i < tarr.length) (hj : j < tarr.length), After p tarr[i] → After p tarr[j] → logMah mah tarr[i] lgt0 = logMah mah tarr[j] lgt0 →
        gal.sfh[i]? = gal.sfh[j]? ∧ gal.sfh[i]? ≠ none := by
  obtain ⟨p, hp, -, -, -, -, e1, e2, -, -, h⟩ := C157_history A hL hlog hpow u hu
  have hm' : ∀ t ∈ tarr, -0.1 ≤ logMah mah t lgt0 ∧ logMah mah t lgt0 ≤ 20.1 := fun t h => by
    have h1 := hm t h
    constructor <;> norm_num <;> linarith [h1.1, h1.2]
  have he : ∀ x, 0 ≤ L.exp x := fun x => by
    have h1 := abs_le.mp (hL.exp x)
    have h2 := Real.exp_pos x
    linarith [h1.1]
  have B := inFloatBounds_bounded L.exp he u
  refine ⟨p, _, hp, h logMah mah tarr lgt0 fb hfb ht hstep hn hmf hm', ?_⟩
  intro i j hi hj h1 h2 hmass
  unfold After at h1 h2
  rw [e1, e2] at h1 h2
  have k1 := quench_late hL (ht _ (List.getElem_mem hi)) B.qlglgdt.1 h1
  have k2 := quench_late hL (ht _ (List.getElem_mem hj)) B.qlglgdt.1 h2
  unfold Rounding.calcSfhSinglegalSmh
  dsimp only
  rw [List.getElem?_map, List.getElem?_map, List.getElem?_eq_getElem hi, List.getElem?_eq_getElem hj, Option.map_some, Option.map_some]
  refine ⟨congrArg some ?_, Option.some_ne_none _⟩
  unfold Rounding.sfhSinglegalScalar Rounding.sfhMsKernel
  dsimp only
  rw [hmass]
  have k : float32.quenchingKern L.pow10 (L.log10 tarr[i]) (float32.getBoundedDiffstarParams L.exp u).q.lgQt
      (L.pow10 (float32.getBoundedDiffstarParams L.exp u).q.qlglgdt) (float32.getBoundedDiffstarParams L.exp u).q.lgDrop
      (float32.getBoundedDiffstarParams L.exp u).q.lgRejuv = float32.quenchingKern L.pow10 (L.log10 tarr[j]) (float32.getBoundedDiffstarParams L.exp u).q.lgQt
      (L.pow10 (float32.getBoundedDiffstarParams L.exp u).q.qlglgdt) (float32.getBoundedDiffstarParams L.exp u).q.lgDrop
      (float32.getBoundedDiffstarParams L.exp u).q.lgRejuv := (k1 _ _).trans (k2 _ _).symm
  rw [k]

/-- Unbounded parameters that are all zero. -/
noncomputable def zeroParams : DiffstarParams ℝ := ⟨0, 0, 0, 0, 0, 0, 0, 0⟩

theorem zeroParams_finite : FiniteFloats zeroParams := by
  intro f hf
  simp only [List.mem_cons, List.not_mem_nil, or_false] at hf
  rcases hf with rfl | rfl | rfl | rfl | rfl | rfl | rfl | rfl <;> exact ⟨float32.fl_zero, by norm_num [zeroParams]⟩

theorem oneParams_finite : FiniteFloats { zeroParams with lgQt := 1, lgDrop := -1 } := by
  intro f hf
  simp only [List.mem_cons, List.not_mem_nil, or_false] at hf
  rcases hf with rfl | rfl | rfl | rfl | rfl | rfl | rfl | rfl
  all_goals first
    | exact ⟨float32.fl_zero, by norm_num [zeroParams]⟩
    | exact ⟨float32.one, by norm_num [zeroParams]⟩
    | exact ⟨by rw [show DiffstarParams.lgDrop { zeroParams with lgQt := 1, lgDrop := -1 } = -1 from rfl, float32.neg, float32.one], by norm_num [zeroParams]⟩

/-- Two galaxies that quench at different times, at 0.02 and 0.1 Gyr, on a device that flushes to zero. -/
example : ∃ (L : Rounding.MathLib) (p p' : DiffstarParams ℝ) (gal : GalHistory (List ℝ)),
    (flushing float32 L).getBoundedDiffstarParams zeroParams = some p ∧
    (flushing float32 L).getBoundedDiffstarParams { zeroParams with lgQt := 1, lgDrop := -1 } = some p' ∧
    (flushing float32 L).calcSfhSinglegalSmh (fun (_ : Unit) _ _ => 0) p () [0.02, 0.1] 1 0.16 = some gal ∧
      (flushing float32 L).calcSfhSinglegalSmh (fun (_ : Unit) _ _ => 0) p' () [0.02, 0.1] 1 0.16 = some gal := by
  have ht : ∀ t ∈ ([0.02, 0.1] : List ℝ), 0.01 ≤ t ∧ t ≤ 100 := by
    intro t ht
    simp only [List.mem_cons, List.not_mem_nil, or_false] at ht
    rcases ht with rfl | rfl <;> norm_num
  have hL := accurate_rounded
  have he : ∀ x, 0 ≤ float32.fl (Real.exp x) := fun x => float32.fl_nonneg (Real.exp_pos x).le
  let L : Rounding.MathLib := ⟨fun x => float32.fl (Real.exp x), fun x => float32.fl ((10 : ℝ) ^ x), fun x => float32.fl (Real.logb 10 x)⟩
  obtain ⟨p, p', gal, gal', hp, hp', h1, h2, -, h3⟩ := C163_before (flushing float32 L) accurate_rounded (fun t => float32.idem _) pow10_tiny_rounded
    zeroParams { zeroParams with lgQt := 1, lgDrop := -1 } zeroParams_finite oneParams_finite
    (fun (_ : Unit) _ _ => 0) () [0.02, 0.1] 1 0.16 (by norm_num) ht (by norm_num) (by norm_num) (fun _ _ => by norm_num) (fun _ _ => float32.fl_zero) rfl
  have early : ∀ w P, FiniteFloats w → (flushing float32 L).getBoundedDiffstarParams w = some P → ∀ t ∈ ([0.02, 0.1] : List ℝ), Before P t := by
    intro w P hw hP t h
    obtain ⟨P', hP', -, -, -, -, e1, e2, -⟩ := C157_history.{0} (flushing float32 L) accurate_rounded (fun t => float32.idem _) pow10_tiny_rounded w hw
    obtain rfl := Option.some.inj (hP'.symm.trans hP)
    have B := inFloatBounds_bounded L.exp he w
    unfold Before
    rw [e1, e2]
    have hl : Real.logb 10 t ≤ -1 := by
      rw [Real.logb_le_iff_le_rpow (by norm_num) (by linarith [(ht t h).1]), Real.rpow_neg_one]
      simp only [List.mem_cons, List.not_mem_nil, or_false] at h
      rcases h with rfl | rfl <;> norm_num
    have hd : (10 : ℝ) ^ (float32.getBoundedDiffstarParams L.exp w).qlglgdt ≤ 1 :=
      Real.rpow_le_one_of_one_le_of_nonpos (by norm_num) (by have := B.qlglgdt.2; norm_num at this; linarith)
    have := B.lgQt.1
    norm_num at this ⊢
    linarith
  have e := h3 fun t h => ⟨.inl (early _ _ zeroParams_finite hp t h), .inl (early _ _ oneParams_finite hp' t h)⟩
  exact ⟨L, p, p', gal, hp, hp', h1, e ▸ h2⟩

/-- A galaxy after quenching, at 80 and 100 Gyr. -/
example : ∃ (L : Rounding.MathLib) (p : DiffstarParams ℝ) (gal : GalHistory (List ℝ)),
    (flushing float32 L).getBoundedDiffstarParams zeroParams = some p ∧
    (flushing float32 L).calcSfhSinglegalSmh (fun (_ : Unit) _ _ => 0) p () [80, 100] 1 0.16 = some gal ∧ After p 80 ∧ After p 100 ∧
      gal.sfh[0]? = gal.sfh[1]? ∧ gal.sfh[0]? ≠ none := by
  have ht : ∀ t ∈ ([80, 100] : List ℝ), 0.01 ≤ t ∧ t ≤ 100 := by
    intro t ht
    simp only [List.mem_cons, List.not_mem_nil, or_false] at ht
    rcases ht with rfl | rfl <;> norm_num
  have he : ∀ x, 0 ≤ float32.fl (Real.exp x) := fun x => float32.fl_nonneg (Real.exp_pos x).le
  let L : Rounding.MathLib := ⟨fun x => float32.fl (Real.exp x), fun x => float32.fl ((10 : ℝ) ^ x), fun x => float32.fl (Real.logb 10 x)⟩
  obtain ⟨p, gal, hp, h1, h2⟩ := C163_after (flushing float32 L) accurate_rounded (fun t => float32.idem _) pow10_tiny_rounded zeroParams zeroParams_finite
    (fun (_ : Unit) _ _ => 0) () [80, 100] 1 0.16 (by norm_num) ht (by norm_num) (by norm_num) (fun _ _ => by norm_num) (fun _ _ => float32.fl_zero)
  have late : ∀ t : ℝ, 80 ≤ t → After p t := by
    intro t h
    obtain ⟨P', hP', -, -, -, -, e1, e2, -⟩ := C157_history.{0} (flushing float32 L) accurate_rounded (fun t => float32.idem _) pow10_tiny_rounded _
      zeroParams_finite
    obtain rfl := Option.some.inj (hP'.symm.trans hp)
    have B := inFloatBounds_bounded L.exp he zeroParams
    unfold After
    rw [e1, e2]
    have hl : 1.6 ≤ Real.logb 10 t := by
      rw [Real.le_logb_iff_rpow_le (by norm_num) (by linarith)]
      refine le_trans ?_ h
      have : ((10 : ℝ) ^ (1.6 : ℝ)) ^ 5 ≤ 80 ^ 5 := by
        rw [← Real.rpow_natCast, ← Real.rpow_mul (by norm_num), show (1.6 * ((5 : ℕ) : ℝ)) = ((8 : ℕ) : ℝ) by norm_num, Real.rpow_natCast]
        norm_num
      exact le_of_pow_le_pow_left₀ (by norm_num) (by norm_num) this
    have hd : (10 : ℝ) ^ (float32.getBoundedDiffstarParams L.exp zeroParams).qlglgdt ≤ 1 :=
      Real.rpow_le_one_of_one_le_of_nonpos (by norm_num) (by have := B.qlglgdt.2; norm_num at this; linarith)
    have h3 := (abs_le.1 (boundedFl_sharp accurate_rounded.exp zeroParams).2.2.2.2.1).2
    have h4 : (getBoundedDiffstarParams zeroParams).lgQt ≤ 1.05 := by
      have e : (getBoundedDiffstarParams zeroParams).lgQt = 0.1 + (2 - 0.1) * (1 / (1 + Real.exp (-(|4 / (2 - 0.1)| * (0 - (0.1 + 2) / 2))))) := by
        norm_num [getBoundedDiffstarParams, getBoundedQParams, zeroParams, DiffstarParams.join, DiffstarParams.q, sigmoid, sigmoidB, nnSigmoid,
          Q_BOUNDING_SIGMOID, Q_PARAM_BOUNDS, calculateSigmoidBounds]
      rw [e]
      have h5 : 1 ≤ Real.exp (-(|4 / (2 - 0.1)| * (0 - (0.1 + 2) / 2))) := Real.one_le_exp (by norm_num [abs_of_pos])
      have h6 : 1 / (1 + Real.exp (-(|4 / (2 - 0.1)| * (0 - (0.1 + 2) / 2)))) ≤ 1 / 2 := one_div_le_one_div_of_le (by norm_num) (by linarith)
      generalize 1 / (1 + Real.exp (-(|4 / (2 - 0.1)| * (0 - (0.1 + 2) / 2)))) = z at h6
      norm_num
      linarith
    change (float32.getBoundedDiffstarParams L.exp zeroParams).lgQt - _ ≤ _ at h3
    norm_num at h3 h4 hl ⊢
    linarith
  exact ⟨L, p, gal, hp, h1, late 80 le_rfl, late 100 (by norm_num), h2 0 1 (by norm_num) (by norm_num) (late _ le_rfl) (late _ (by norm_num)) rfl⟩

end Diffstar.Props
