import Verif.Props.RoundRange

/-! C157: unbounded parameters of any size give bounded parameters and star formation histories in single precision. -/

namespace Diffstar.Spec

open Diffstar

/-- Unbounded parameters as an optimiser may propose them: single precision numbers up to `1e29`. -/
def FiniteFloats (u : DiffstarParams ℝ) : Prop :=
  ∀ f : DiffstarParams ℝ → ℝ, f ∈ [DiffstarParams.lgmcrit, DiffstarParams.lgyAtMcrit, DiffstarParams.indxLo, DiffstarParams.indxHi, DiffstarParams.lgQt,
    DiffstarParams.qlglgdt, DiffstarParams.lgDrop, DiffstarParams.lgRejuv] → float32.fl (f u) = f u ∧ |f u| ≤ 10 ^ 29

/-- Two results that agree, or are both too small to matter. -/
def SameOrTiny (a b : ℝ) : Prop := a = b ∨ |a| ≤ 1 / 10 ^ 34 ∧ |b| ≤ 1 / 10 ^ 34

end Diffstar.Spec

namespace Diffstar.Props

open Diffstar Diffstar.Spec

section

variable {R : Rounding} {L : Rounding.MathLib} (A : Machine R L) (hu : R.u ≤ 2 ^ (-24 : ℤ)) (hR : Absorbs R)

/-- A sum with a number that is not small: no difference at all. -/
theorem sim_absorb_small (hR : Absorbs R) {k B c y x : ℝ} (h : Sim k B y x) (hx : R.fl x = x) (hc : R.fl c = c) (hc1 : 1 / 10 ^ 8 ≤ |c|) (hc2 : |c| ≤ 100)
    (hk : k ≤ 10 ^ 6) (hB : B ≤ 10 ^ 30) : A.fl (c + y) = some (R.fl (c + x)) := by
  have K : k * (2 : ℝ) ^ (-126 : ℤ) ≤ 1 / 10 ^ 30 := by
    have := mul_le_mul_of_nonneg_right hk (show (0 : ℝ) ≤ 2 ^ (-126 : ℤ) by positivity)
    norm_num at this ⊢
    linarith
  have tri := abs_add_le c y
  rcases h.1 with e | ⟨e1, e2⟩
  · rw [e]
    rcases float_gap hR hc hx with g | g
    · have : R.fl 0 = 0 := R.fl_zero
      rw [g, A.fl_zero, this]
    · have := abs_add_le c x
      have := h.2
      exact A.fl_normal _ (by norm_num at *; linarith) (by norm_num at *; linarith)
  · have h1 : R.fl (c + y) = c := hR c y hc (by norm_num at *; linarith)
    have h2 : R.fl (c + x) = c := hR c x hc (by norm_num at *; linarith)
    have h3 : |c| - |y| ≤ |c + y| := by
      have := abs_sub_abs_le_abs_sub c (-y)
      rwa [abs_neg, sub_neg_eq_add] at this
    have h5 := A.fl_normal (c + y) (by norm_num at *; linarith) (by norm_num at *; linarith)
    rw [h5, h1, h2]

include hu hR in
/-- The bounding sigmoid up to its last sum. -/
theorem machine_sigmoid (he : ∀ x, 0 ≤ L.exp x) {x x0 k ymin ymax : ℝ} (hx : R.fl x = x) (hx1 : |x| ≤ 10 ^ 29) (hx0 : R.fl x0 = x0) (h0 : 0.1 ≤ |x0|)
    (h0' : |x0| ≤ 100) (hk1 : 0.1 ≤ |k|) (hk2 : |k| ≤ 10) (hy : |ymax - ymin| ≤ 20) :
    ∃ r, A.sigmoid x x0 k ymin ymax = A.fl (ymin + r) ∧
      Sim 200 200 r (R.fl (R.fl (ymax - ymin) * R.nnSigmoid L.exp (R.fl (k * R.fl (x - x0))))) ∧ (ymax = ymin → r = 0) := by
  obtain ⟨d1, s, s1, s2⟩ := machine_logistic A hu hR he (k := k) hx hx0 h0
    ((abs_sub _ _).trans (by norm_num at *; linarith)) hk1 hk2
  obtain ⟨hd, g1, g2⟩ := sim_fl A hu (Sim.refl (k := 1) hy) le_rfl (by norm_num) (by norm_num)
  obtain ⟨r, r1, r2⟩ := sim_fl A hu (g2.mul s2 (by norm_num) (by norm_num) (by norm_num) (by norm_num) (by norm_num) (by norm_num))
    (by norm_num) (by norm_num) (by norm_num)
  rw [Option.bind_eq_some_iff] at s1
  obtain ⟨arg, s3, s4⟩ := s1
  refine ⟨r, ?_, r2.mono (by norm_num) (by norm_num), fun e => ?_⟩
  swap
  · rw [e, sub_self, A.fl_zero, Option.some_inj] at g1
    rw [← g1, zero_mul, A.fl_zero, Option.some_inj] at r1
    exact r1.symm
  unfold Machine.sigmoid
  rw [g1, Option.bind_some, d1, Option.bind_some, s3, Option.bind_some, s4, Option.bind_some, r1, Option.bind_some]

include hu in
/-- Size of a rounded constant. -/
theorem fl_size {x a b : ℝ} (ha : a ≤ 0.999 * |x|) (hb : 1.001 * |x| ≤ b) : a ≤ |R.fl x| ∧ |R.fl x| ≤ b := by
  refine ⟨?_, (fl_abs_le R hu x).trans hb⟩
  have h := R.err x
  have h' := abs_sub_abs_le_abs_sub x (R.fl x)
  rw [abs_sub_comm] at h
  have : R.u ≤ 0.001 := hu.trans (by norm_num)
  nlinarith [abs_nonneg x]

include hu hR in
/-- If the lower bound is not zero, the range of exponents does not matter. -/
theorem machine_sigmoidB_eq (he : ∀ x, 0 ≤ L.exp x) {x : ℝ} (hx : R.fl x = x) (hx1 : |x| ≤ 10 ^ 29) (lo hi : ℝ) (h1 : 1 ≤ |(lo + hi) / 2|)
    (h2 : |(lo + hi) / 2| ≤ 20) (h3 : 1 / 2 ≤ |4 / (hi - lo)|) (h4 : |4 / (hi - lo)| ≤ 4) (h6 : 0.1 ≤ |lo|) (h7 : |lo| ≤ 20)
    (h8 : |hi| ≤ 20) (h9 : |hi - lo| ≤ 8) :
    A.sigmoidB x (calculateSigmoidBounds (lo, hi)) = some (R.sigmoidB L.exp x (calculateSigmoidBounds (lo, hi))) := by
  have a1 := fl_size (R := R) hu (x := (lo + hi) / 2) (a := 0.1) (b := 100) (by linarith) (by linarith)
  have a2 := fl_size (R := R) hu (x := |4 / (hi - lo)|) (a := 0.1) (b := 10) (by rw [abs_abs]; linarith) (by rw [abs_abs]; linarith)
  have a3 := fl_size (R := R) hu (x := lo) (a := 0.05) (b := 50) (by linarith) (by linarith)
  have b1 : |R.fl hi - R.fl lo| ≤ 20 := by
    have c1 := R.err hi
    have c2 := R.err lo
    have u0 : R.u ≤ 0.001 := hu.trans (by norm_num)
    have d1 := mul_le_mul_of_nonneg_right u0 (abs_nonneg hi)
    have d2 := mul_le_mul_of_nonneg_right u0 (abs_nonneg lo)
    have e := abs_add_three (R.fl hi - hi) (hi - lo) (lo - R.fl lo)
    rw [abs_sub_comm lo] at e
    rw [show R.fl hi - hi + (hi - lo) + (lo - R.fl lo) = R.fl hi - R.fl lo by ring] at e
    linarith
  obtain ⟨r, r1, r2, -⟩ := machine_sigmoid A hu hR he (x0 := R.fl ((lo + hi) / 2)) (k := R.fl |4 / (hi - lo)|) (ymin := R.fl lo) (ymax := R.fl hi)
    hx hx1 (R.idem _) a1.1 a1.2 a2.1 a2.2 b1
  have := sim_absorb_small A hR r2 (R.idem _) (R.idem lo) (by norm_num at *; linarith [a3.1]) (by linarith [a3.2]) (by norm_num) (by norm_num)
  show A.sigmoid _ _ _ _ _ = _
  exact r1.trans this

include hu hR in
/-- A drop of zero, or one that is not small. -/
theorem float_drop {r : ℝ} (hr : R.fl r = r) : R.fl (R.fl (-3) + r) = 0 ∨ 1 / 10 ^ 8 ≤ |R.fl (R.fl (-3) + r)| := by
  rcases float_gap hR (R.idem (-3)) hr with g | g
  · exact .inl (by rw [g, R.fl_zero])
  · have h1 := (fl_size (R := R) hu (x := -3) (a := 2.9) (b := 4) (by norm_num) (by norm_num)).1
    refine .inr (fl_size (R := R) hu (b := 2 * |R.fl (-3) + r|) ?_ (by linarith [abs_nonneg (R.fl (-3) + r)])).1
    norm_num at *
    linarith

include hu hR in
/-- The bounded rejuvenation. -/
theorem machine_rejuv (he : ∀ x, 0 ≤ L.exp x) {x drop : ℝ} (hx : R.fl x = x) (hx1 : |x| ≤ 10 ^ 29) (hd : R.fl drop = drop) (hd1 : |drop| ≤ 10)
    (hd2 : drop = 0 ∨ 1 / 10 ^ 8 ≤ |drop|) :
    A.sigmoid x (R.fl ((-3 + 0) / 2)) (R.fl |4 / (0 - -3)|) drop (R.fl 0) =
      some (R.sigmoid L.exp x (R.fl ((-3 + 0) / 2)) (R.fl |4 / (0 - -3)|) drop (R.fl 0)) := by
  have a1 := fl_size (R := R) hu (x := (-3 + 0) / 2) (a := 0.1) (b := 100) (by norm_num [abs_div]) (by norm_num [abs_div])
  have a2 := fl_size (R := R) hu (x := |4 / (0 - -3)|) (a := 0.1) (b := 10) (by norm_num [abs_div]) (by norm_num [abs_div])
  have b1 : |R.fl 0 - drop| ≤ 20 := by rw [R.fl_zero, zero_sub, abs_neg]; linarith
  obtain ⟨r, r1, r2, r3⟩ := machine_sigmoid A hu hR he hx hx1 (R.idem _) a1.1 a1.2 a2.1 a2.2 b1
  rcases hd2 with h | h
  · rw [r1, r3 (by rw [h, R.fl_zero]), h]
    unfold Rounding.sigmoid
    simp only [R.fl_zero, sub_self, zero_mul, add_zero, A.fl_zero]
  · exact r1.trans (sim_absorb_small A hR r2 (R.idem _) hd h (by linarith) (by norm_num) (by norm_num))

include hu hR in
/-- The bounded slope at low masses, whose lower bound is zero. -/
theorem machine_indxLo (he : ∀ x, 0 ≤ L.exp x) {x : ℝ} (hx : R.fl x = x) (hx1 : |x| ≤ 10 ^ 29) :
    ∃ lo, A.sigmoidB x (calculateSigmoidBounds (0, 5)) = some lo ∧ Sim 1000 1000 lo (R.sigmoidB L.exp x (calculateSigmoidBounds (0, 5))) := by
  have a1 := fl_size (R := R) hu (x := (0 + 5) / 2) (a := 0.1) (b := 100) (by norm_num [abs_div]) (by norm_num [abs_div])
  have a2 := fl_size (R := R) hu (x := |4 / (5 - 0)|) (a := 0.1) (b := 10) (by norm_num [abs_div]) (by norm_num [abs_div])
  have a3 := fl_size (R := R) hu (x := 5) (a := 0.1) (b := 10) (by norm_num) (by norm_num)
  have b1 : |R.fl 5 - R.fl 0| ≤ 20 := by rw [R.fl_zero, sub_zero]; linarith [a3.2]
  obtain ⟨r, r1, r2, -⟩ := machine_sigmoid A hu hR he hx hx1 (R.idem _) a1.1 a1.2 a2.1 a2.2 b1
  obtain ⟨lo, l1, l2⟩ := sim_fl A hu r2 (by norm_num) (by norm_num) (by norm_num)
  refine ⟨lo, ?_, ?_⟩
  · show A.sigmoid _ _ _ _ _ = _
    refine r1.trans ?_
    rw [R.fl_zero, zero_add]
    exact l1
  · have e : R.sigmoidB L.exp x (calculateSigmoidBounds (0, 5)) =
        R.fl (R.fl (R.fl (R.fl 5 - R.fl 0) * R.nnSigmoid L.exp (R.fl (R.fl |4 / (5 - 0)| * R.fl (x - R.fl ((0 + 5) / 2)))))) := by
      have z : ∀ y, R.fl (R.fl 0 + y) = R.fl y := fun y => by rw [R.fl_zero, zero_add]
      exact z _
    rw [e]
    exact l2.mono (by norm_num) (by norm_num)

end

/-- C157. For single precision unbounded parameters of any size up to 1e29, `get_bounded_diffstar_params` with the limited range of exponents gives eight
finite numbers, the same as with an unlimited range; only `indx_lo`, if it is below 1e-34, may differ (by underflow). Star formation rates and masses
of these parameters are equal to those of an unlimited range, whatever the unbounded parameters. -/
theorem C157_history {L : Rounding.MathLib} (A : Machine float32 L) (hL : Accurate L) (hlog : ∀ t, float32.fl (L.log10 t) = L.log10 t)
    (hpow : ∀ x, |x| ≤ 1 / 10 ^ 17 → L.pow10 x = 1) (u : DiffstarParams ℝ) (hu : FiniteFloats u) :
    ∃ p, A.getBoundedDiffstarParams u = some p ∧ p.lgmcrit = (float32.getBoundedDiffstarParams L.exp u).lgmcrit ∧
      p.lgyAtMcrit = (float32.getBoundedDiffstarParams L.exp u).lgyAtMcrit ∧ SameOrTiny p.indxLo (float32.getBoundedDiffstarParams L.exp u).indxLo ∧
      p.indxHi = (float32.getBoundedDiffstarParams L.exp u).indxHi ∧ p.lgQt = (float32.getBoundedDiffstarParams L.exp u).lgQt ∧
      p.qlglgdt = (float32.getBoundedDiffstarParams L.exp u).qlglgdt ∧ p.lgDrop = (float32.getBoundedDiffstarParams L.exp u).lgDrop ∧
      p.lgRejuv = (float32.getBoundedDiffstarParams L.exp u).lgRejuv ∧
      ∀ {M : Type*} (logMah : M → ℝ → ℝ → ℝ) (mah : M) (tarr : List ℝ) (lgt0 fb : ℝ), 1 / 10 ^ 10 ≤ fb ∧ fb ≤ 1 →
        (∀ t ∈ tarr, 0.01 ≤ t ∧ t ≤ 100) → (tarr.Pairwise fun a b => a + 1 / 10 ^ 6 ≤ b) → tarr.length ≤ 1000 →
        (∀ t ∈ tarr, float32.fl (logMah mah t lgt0) = logMah mah t lgt0) →
        (∀ t ∈ tarr, -0.1 ≤ logMah mah t lgt0 ∧ logMah mah t lgt0 ≤ 20.1) →
        A.calcSfhSinglegalSmh logMah p mah tarr lgt0 fb =
          some (float32.calcSfhSinglegalSmh L logMah (float32.getBoundedDiffstarParams L.exp u) mah tarr lgt0 fb) := by
  have he : ∀ x, 0 ≤ L.exp x := fun x => by
    have h1 := abs_le.mp (hL.exp x)
    have h2 := Real.exp_pos x
    linarith [h1.1]
  have U := fun f hf => (hu f hf).1
  have V := fun f hf => (hu f hf).2
  have s1 := machine_sigmoidB_eq A le_rfl float32_absorbs he (U _ (by simp)) (V DiffstarParams.lgmcrit (by simp)) 9 13.5 (by norm_num [abs_div])
    (by norm_num [abs_div]) (by norm_num [abs_div]) (by norm_num [abs_div]) (by norm_num) (by norm_num) (by norm_num) (by norm_num)
  have s2 := machine_sigmoidB_eq A le_rfl float32_absorbs he (U _ (by simp)) (V DiffstarParams.lgyAtMcrit (by simp)) (-12) (-8) (by norm_num [abs_div])
    (by norm_num [abs_div]) (by norm_num [abs_div]) (by norm_num [abs_div]) (by norm_num) (by norm_num) (by norm_num) (by norm_num)
  have s4 := machine_sigmoidB_eq A le_rfl float32_absorbs he (U _ (by simp)) (V DiffstarParams.indxHi (by simp)) (-5) 0 (by norm_num [abs_div])
    (by norm_num [abs_div]) (by norm_num [abs_div]) (by norm_num [abs_div]) (by norm_num) (by norm_num) (by norm_num) (by norm_num)
  have s5 := machine_sigmoidB_eq A le_rfl float32_absorbs he (U _ (by simp)) (V DiffstarParams.lgQt (by simp)) 0.1 2 (by norm_num [abs_div])
    (by norm_num [abs_div]) (by norm_num [abs_div]) (by norm_num [abs_div]) (by norm_num) (by norm_num) (by norm_num) (by norm_num)
  have s6 := machine_sigmoidB_eq A le_rfl float32_absorbs he (U _ (by simp)) (V DiffstarParams.qlglgdt (by simp)) (-3) (-0.01) (by norm_num [abs_div])
    (by norm_num [abs_div]) (by norm_num [abs_div]) (by norm_num [abs_div]) (by norm_num) (by norm_num) (by norm_num) (by norm_num)
  have s7 := machine_sigmoidB_eq A le_rfl float32_absorbs he (U _ (by simp)) (V DiffstarParams.lgDrop (by simp)) (-3) 0 (by norm_num [abs_div])
    (by norm_num [abs_div]) (by norm_num [abs_div]) (by norm_num [abs_div]) (by norm_num) (by norm_num) (by norm_num) (by norm_num)
  obtain ⟨lo, s3, l2⟩ := machine_indxLo A le_rfl float32_absorbs he (U _ (by simp)) (V DiffstarParams.indxLo (by simp))
  have hb := inFloatBounds_bounded L.exp he u
  have s8 := machine_rejuv A le_rfl float32_absorbs he (drop := (float32.getBoundedDiffstarParams L.exp u).lgDrop) (U _ (by simp))
    (V DiffstarParams.lgRejuv (by simp)) (float32.idem _) (abs_le.mpr ⟨by linarith [hb.lgDrop.1], by linarith [hb.lgDrop.2]⟩)
    (float_drop le_rfl float32_absorbs (float32.idem _))
  have hp : A.getBoundedDiffstarParams u = some { float32.getBoundedDiffstarParams L.exp u with indxLo := lo } := by
    show (A.sigmoidB u.lgmcrit (calculateSigmoidBounds (9, 13.5))).bind _ = _
    rw [s1, Option.bind_some]
    show (A.sigmoidB u.lgyAtMcrit (calculateSigmoidBounds (-12, -8))).bind _ = _
    rw [s2, Option.bind_some]
    show (A.sigmoidB u.indxLo (calculateSigmoidBounds (0, 5))).bind _ = _
    rw [s3, Option.bind_some]
    show (A.sigmoidB u.indxHi (calculateSigmoidBounds (-5, 0))).bind _ = _
    rw [s4, Option.bind_some]
    show (A.sigmoidB u.lgDrop (calculateSigmoidBounds (-3, 0))).bind _ = _
    rw [s7, Option.bind_some]
    show (A.sigmoidB u.lgQt (calculateSigmoidBounds (0.1, 2))).bind _ = _
    rw [s5, Option.bind_some]
    show (A.sigmoidB u.qlglgdt (calculateSigmoidBounds (-3, -0.01))).bind _ = _
    rw [s6, Option.bind_some]
    exact (congrArg (Option.map _) s8).trans rfl
  have hF : FloatInputs float32 L (float32.getBoundedDiffstarParams L.exp u) :=
    ⟨float32.idem _, float32.idem _, float32.idem _, float32.idem _, float32.idem _, float32.idem _, hlog, hpow⟩
  have hlo : Sim 1000 10 lo (float32.getBoundedDiffstarParams L.exp u).indxLo :=
    ⟨l2.1, by rw [abs_of_nonneg hb.indxLo.1]; linarith [hb.indxLo.2]⟩
  refine ⟨_, hp, rfl, rfl, ?_, rfl, rfl, rfl, rfl, rfl, fun logMah mah tarr lgt0 fb hfb ht hstep hn hmf hm =>
    machine_history A hL logMah _ hb hF lo hlo mah tarr lgt0 fb hfb ht hstep hn hmf hm⟩
  refine l2.1.imp_right fun ⟨a, b⟩ => ?_
  have : (1000 : ℝ) * 2 ^ (-126 : ℤ) ≤ 1 / 10 ^ 34 := by norm_num
  exact ⟨a.trans this, b.trans this⟩

/-- Unbounded parameters far outside the range in which a sigmoid varies. -/
noncomputable def extremeParams : DiffstarParams ℝ where
  lgmcrit := 2 ^ 90
  lgyAtMcrit := -2 ^ 90
  indxLo := -2 ^ 90
  indxHi := 2 ^ 90
  lgQt := 2 ^ 90
  qlglgdt := -2 ^ 90
  lgDrop := 2 ^ 90
  lgRejuv := -2 ^ 90

theorem extremeParams_finite : FiniteFloats extremeParams := by
  have h : float32.fl (2 ^ 90) = 2 ^ 90 := by
    have := float32_exact 1 (by norm_num) 90
    norm_num at this ⊢
    exact this
  have h' : float32.fl (-2 ^ 90) = -2 ^ 90 := by rw [float32.neg, h]
  have b : |(2 : ℝ) ^ 90| ≤ 10 ^ 29 := by norm_num
  have b' : |-(2 : ℝ) ^ 90| ≤ 10 ^ 29 := by rw [abs_neg]; exact b
  intro f hf
  simp only [List.mem_cons, List.not_mem_nil, or_false] at hf
  rcases hf with rfl | rfl | rfl | rfl | rfl | rfl | rfl | rfl
  exacts [⟨h, b⟩, ⟨h', b'⟩, ⟨h', b'⟩, ⟨h, b⟩, ⟨h, b⟩, ⟨h', b'⟩, ⟨h, b⟩, ⟨h', b'⟩]

/-- The hypotheses are met by extreme parameters on a device that flushes to zero. -/
example : ∃ (L : Rounding.MathLib) (p : DiffstarParams ℝ) (gal : GalHistory (List ℝ)), Accurate L ∧
    (flushing float32 L).getBoundedDiffstarParams extremeParams = some p ∧
      (flushing float32 L).calcSfhSinglegalSmh (fun (_ : Unit) _ _ => 0) p () [1, 5, 13.8] 1 0.16 = some gal := by
  obtain ⟨p, hp, -, -, -, -, -, -, -, -, h⟩ := C157_history (flushing float32 ⟨fun x => float32.fl (Real.exp x), fun x => float32.fl ((10 : ℝ) ^ x),
    fun x => float32.fl (Real.logb 10 x)⟩) accurate_rounded (fun t => float32.idem _) pow10_tiny_rounded extremeParams extremeParams_finite
  exact ⟨_, p, _, accurate_rounded, hp, h _ () [1, 5, 13.8] 1 0.16 (by norm_num)
    (by
      intro t ht
      simp only [List.mem_cons, List.not_mem_nil, or_false] at ht
      rcases ht with rfl | rfl | rfl <;> norm_num)
    (by norm_num) (by norm_num) (fun _ _ => float32.fl_zero) (fun _ _ => by norm_num)⟩

end Diffstar.Props
