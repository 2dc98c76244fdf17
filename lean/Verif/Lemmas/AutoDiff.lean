import Verif.Model.AutoDiff
import Verif.Lemmas.Triweight
import Verif.Lemmas.Sfh
import Mathlib.Data.List.GetD
import Mathlib.Analysis.SpecialFunctions.Pow.Deriv
import Mathlib.Analysis.SpecialFunctions.Log.Deriv
import Mathlib.Analysis.Calculus.LocalExtr.Basic

/-! Reverse-mode differentiation of traced expressions: values, cotangents and derivatives. -/

namespace Diffstar.Trace

open Diffstar Filter Topology

set_option linter.unusedSectionVars false

variable {ι : Type} [Fintype ι] [DecidableEq ι]

/-- The trace `e` computes `f` near `u`; at `u` its cotangents are finite multiples of one linear form, which is the
derivative of `f` if `S` holds. -/
structure Ad (e : Expr ι) (f : (ι → ℝ) → ℝ) (u : ι → ℝ) (S : Prop) : Prop where
  val : ∀ᶠ v in 𝓝 u, e.eval v = some (f v)
  cont : ContinuousAt f u
  grad : ∃ L : (ι → ℝ) →L[ℝ] ℝ, (∀ ct : ℝ, e.backward u (some ct) = fun k => some (ct * L (Pi.single k 1))) ∧
    (S → HasFDerivAt f L u)

variable {e a b x y : Expr ι} {f g fx fy : (ι → ℝ) → ℝ} {u : ι → ℝ} {S S' Sa Sb : Prop}

theorem Ad.at (h : Ad e f u S) : e.eval u = some (f u) := h.val.self_of_nhds

theorem Ad.imp (h : Ad e f u S) (hs : S' → S) : Ad e f u S' :=
  ⟨h.val, h.cont, let ⟨L, h1, h2⟩ := h.grad; ⟨L, h1, fun s => h2 (hs s)⟩⟩

theorem Ad.congr (h : Ad e f u S) (hf : ∀ v, f v = g v) : Ad e g u S := (funext hf : f = g) ▸ h

theorem Ad.congrNear (h : Ad e f u S) (hf : f =ᶠ[𝓝 u] g) : Ad e g u S := by
  refine ⟨?_, h.cont.congr hf, ?_⟩
  · filter_upwards [h.val, hf] with v h1 h2
    rw [h1, h2]
  · obtain ⟨L, h1, h2⟩ := h.grad
    exact ⟨L, h1, fun s => (h2 s).congr_of_eventuallyEq hf.symm⟩

theorem Ad.var (i : ι) : Ad (.var i) (fun v => v i) u S := by
  refine ⟨.of_forall fun v => rfl, (continuous_apply i).continuousAt, ContinuousLinearMap.proj i, fun ct => ?_, fun _ => hasFDerivAt_apply i u⟩
  funext k
  simp only [Expr.backward, ContinuousLinearMap.proj_apply, Pi.single_apply]
  by_cases h : k = i
  · subst h; simp
  · rw [if_neg h, if_neg (Ne.symm h), mul_zero]

theorem Ad.const (c : ℝ) : Ad (.const c : Expr ι) (fun _ => c) u S := by
  refine ⟨.of_forall fun v => rfl, continuousAt_const, 0, fun ct => ?_, fun _ => hasFDerivAt_const c u⟩
  funext k
  simp [Expr.backward]

theorem Ad.add (ha : Ad a f u S) (hb : Ad b g u S) : Ad (.add a b) (fun v => f v + g v) u S := by
  obtain ⟨La, a1, a2⟩ := ha.grad
  obtain ⟨Lb, b1, b2⟩ := hb.grad
  refine ⟨(ha.val.and hb.val).mono fun v h => by simp [Expr.eval, h.1, h.2, fadd], ha.cont.add hb.cont, La + Lb, fun ct => ?_,
    fun s => (a2 s).add (b2 s)⟩
  funext k
  simp only [Expr.backward, a1, b1, fadd, Option.bind_some, Option.map_some, add_apply]
  congr 1; ring

theorem Ad.sub (ha : Ad a f u S) (hb : Ad b g u S) : Ad (.sub a b) (fun v => f v - g v) u S := by
  obtain ⟨La, a1, a2⟩ := ha.grad
  obtain ⟨Lb, b1, b2⟩ := hb.grad
  refine ⟨(ha.val.and hb.val).mono fun v h => by simp [Expr.eval, h.1, h.2], ha.cont.sub hb.cont, La - Lb, fun ct => ?_,
    fun s => (a2 s).sub (b2 s)⟩
  funext k
  simp only [Expr.backward, a1, b1, fadd, fmul, Option.bind_some, Option.map_some, sub_apply]
  congr 1; ring

theorem Ad.mul (ha : Ad a f u S) (hb : Ad b g u S) : Ad (.mul a b) (fun v => f v * g v) u S := by
  obtain ⟨La, a1, a2⟩ := ha.grad
  obtain ⟨Lb, b1, b2⟩ := hb.grad
  refine ⟨(ha.val.and hb.val).mono fun v h => by simp [Expr.eval, h.1, h.2, fmul], ha.cont.mul hb.cont, f u • Lb + g u • La, fun ct => ?_,
    fun s => (a2 s).mul (b2 s)⟩
  funext k
  simp only [Expr.backward, ha.at, hb.at, fmul, Option.bind_some, Option.map_some, a1, b1, fadd,
    add_apply, smul_apply, smul_eq_mul]
  congr 1; ring

theorem Ad.div (ha : Ad a f u S) (hb : Ad b g u S) (h0 : g u ≠ 0) : Ad (.div a b) (fun v => f v / g v) u S := by
  obtain ⟨La, a1, a2⟩ := ha.grad
  obtain ⟨Lb, b1, b2⟩ := hb.grad
  refine ⟨((ha.val.and hb.val).and (hb.cont.eventually_ne h0)).mono fun v h => by simp [Expr.eval, h.1.1, h.1.2, h.2],
    ha.cont.div hb.cont h0,
    (g u)⁻¹ • La - (f u / g u / g u) • Lb, fun ct => ?_, fun s => ?_⟩
  · funext k
    simp only [Expr.backward, Expr.eval, ha.at, hb.at, fmul, Option.bind_some, Option.map_some, if_neg h0, a1, b1, fadd,
      sub_apply, smul_apply, smul_eq_mul]
    congr 1; ring
  · have h1 : HasFDerivAt (fun v => f v * (g v)⁻¹) _ u := (a2 s).mul ((hasDerivAt_inv h0).comp_hasFDerivAt u (b2 s))
    simp only [div_eq_mul_inv]
    refine h1.congr_fderiv ?_
    ext k
    simp only [add_apply, smul_apply, sub_apply, smul_eq_mul]
    field_simp
    ring

/-- One argument: the chain rule. -/
theorem Ad.comp {op : Expr ι → Expr ι} {φ : ℝ → ℝ} {φ' : ℝ} (ha : Ad a f u S) (hv : ∀ᶠ v in 𝓝 u, (op a).eval v = some (φ (f v)))
    (hb : ∀ ct : ℝ, (op a).backward u (some ct) = a.backward u (some (ct * φ'))) (hd : HasDerivAt φ φ' (f u)) :
    Ad (op a) (fun v => φ (f v)) u S := by
  obtain ⟨La, a1, a2⟩ := ha.grad
  refine ⟨hv, hd.continuousAt.comp ha.cont, φ' • La, fun ct => ?_, fun s => hd.comp_hasFDerivAt u (a2 s)⟩
  rw [hb, a1]
  funext k
  simp only [smul_apply, smul_eq_mul, mul_assoc]

theorem Ad.pow (ha : Ad a f u S) (k : ℕ) : Ad (.pow a k) (fun v => f v ^ k) u S :=
  ha.comp (op := fun a => .pow a k) (φ := fun x => x ^ k) (ha.val.mono fun v h => by simp [Expr.eval, h])
    (fun ct => by simp only [Expr.backward, ha.at, fmul, Option.bind_some, Option.map_some]) (hasDerivAt_pow k (f u))

theorem Ad.pow10 (ha : Ad a f u S) : Ad (.pow10 a) (fun v => (10 : ℝ) ^ f v) u S := by
  refine ha.comp (op := .pow10) (φ := fun x => (10 : ℝ) ^ x) (φ' := Real.log 10 * (10 : ℝ) ^ f u)
    (ha.val.mono fun v h => by simp [Expr.eval, h])
    (fun ct => by simp only [Expr.backward, ha.at, fmul, Option.bind_some, Option.map_some]) ?_
  have := (hasDerivAt_id (f u)).const_rpow (a := (10 : ℝ)) (by norm_num)
  simpa using this

theorem Ad.log10 (ha : Ad a f u S) (h0 : 0 < f u) : Ad (.log10 a) (fun v => Real.logb 10 (f v)) u S := by
  refine ha.comp (op := .log10) (φ := fun x => Real.logb 10 x) (φ' := 1 / f u / Real.log 10)
    ((ha.val.and (ha.cont.eventually_const_lt h0)).mono fun v h => by simp [Expr.eval, h.1, not_le.2 h.2])
    (fun ct => by simp only [Expr.backward, ha.at, fmul, Option.bind_some, Option.map_some, if_neg h0.ne']) ?_
  have := (Real.hasDerivAt_log h0.ne').div_const (Real.log 10)
  rw [← one_div] at this
  exact this

theorem hasDerivAt_nnSigmoid (x : ℝ) : HasDerivAt nnSigmoid (nnSigmoid x * (1 - nnSigmoid x)) x := by
  have h0 : 1 + Real.exp (-x) ≠ 0 := by positivity
  have h := ((hasDerivAt_neg x).exp.const_add 1).inv h0
  unfold nnSigmoid
  simp only [one_div]
  refine h.congr_deriv ?_
  field_simp
  ring

theorem Ad.logistic (ha : Ad a f u S) : Ad (.logistic a) (fun v => nnSigmoid (f v)) u S :=
  ha.comp (op := .logistic) (φ := nnSigmoid) (ha.val.mono fun v h => by simp [Expr.eval, h])
    (fun ct => by simp only [Expr.backward, ha.at, fmul, Option.bind_some, Option.map_some]) (hasDerivAt_nnSigmoid (f u))

theorem Ad.sqrt (ha : Ad a f u S) (h0 : 0 < f u) : Ad (.sqrt a) (fun v => Real.sqrt (f v)) u S := by
  refine ha.comp (op := .sqrt) (φ := Real.sqrt) (φ' := 1 / 2 / Real.sqrt (f u))
    ((ha.val.and (ha.cont.eventually_const_lt h0)).mono fun v h => by simp [Expr.eval, h.1, not_lt.2 h.2.le])
    (fun ct => by simp only [Expr.backward, ha.at, fmul, Option.bind_some, Option.map_some, if_neg (not_le.2 h0)]) ?_
  have := Real.hasDerivAt_sqrt h0.ne'
  rwa [div_div]

/-- Selection by a comparison; at equality the branches agree, with their derivatives. -/
theorem Ad.sel (hx : Ad x fx u S) (hy : Ad y fy u S) (ha : Ad a f u Sa) (hb : Ad b g u Sb)
    (hc : fx u = fy u → f u = g u) (hlt : S → fx u < fy u → Sa) (hgt : S → fy u < fx u → Sb)
    (heq : S → fx u = fy u → Sa ∧ Sb ∧ fderiv ℝ f u = fderiv ℝ g u) :
    Ad (.sel x y a b) (fun v => if fx v < fy v then f v else g v) u S := by
  obtain ⟨La, a1, a2⟩ := ha.grad
  obtain ⟨Lb, b1, b2⟩ := hb.grad
  have hval : flt (x.eval u) (y.eval u) ↔ fx u < fy u := by rw [hx.at, hy.at]; rfl
  refine ⟨?_, ?_, if fx u < fy u then La else Lb, fun ct => ?_, fun s => ?_⟩
  · filter_upwards [hx.val, hy.val, ha.val, hb.val] with v h1 h2 h3 h4
    simp only [Expr.eval, h1, h2, h3, h4, flt]
    split_ifs <;> rfl
  · rcases lt_trichotomy (fx u) (fy u) with h | h | h
    · refine ha.cont.congr ?_
      filter_upwards [hx.cont.eventually_lt hy.cont h] with v hv
      rw [if_pos hv]
    · have h1 : Tendsto f (𝓝 u) (𝓝 (f u)) := ha.cont
      have h2 : Tendsto g (𝓝 u) (𝓝 (f u)) := by rw [hc h]; exact hb.cont
      have e : (if fx u < fy u then f u else g u) = f u := by rw [hc h, ite_self]
      rw [ContinuousAt, e]
      exact Tendsto.if' h1 h2
    · refine hb.cont.congr ?_
      filter_upwards [hy.cont.eventually_lt hx.cont h] with v hv
      rw [if_neg hv.not_gt]
  · funext k
    simp only [Expr.backward, hval]
    split_ifs <;> simp [a1, b1, fadd]
  · rcases lt_trichotomy (fx u) (fy u) with h | h | h
    · rw [if_pos h]
      refine (a2 (hlt s h)).congr_of_eventuallyEq ?_
      filter_upwards [hx.cont.eventually_lt hy.cont h] with v hv
      rw [if_pos hv]
    · obtain ⟨s1, s2, hd⟩ := heq s h
      rw [(a2 s1).fderiv, (b2 s2).fderiv] at hd
      rw [hd, ite_self]
      have A : HasFDerivWithinAt (fun v => if fx v < fy v then f v else g v) Lb {v | fx v < fy v} u := by
        refine HasFDerivWithinAt.congr (hd ▸ (a2 s1).hasFDerivWithinAt) (fun v hv => if_pos hv) ?_
        rw [hc h, ite_self]
      have B : HasFDerivWithinAt (fun v => if fx v < fy v then f v else g v) Lb {v | fx v < fy v}ᶜ u :=
        HasFDerivWithinAt.congr (b2 s2).hasFDerivWithinAt (fun v hv => if_neg hv) (by rw [hc h, ite_self])
      have := A.union B
      rwa [Set.union_compl_self, hasFDerivWithinAt_univ] at this
    · rw [if_neg h.not_gt]
      refine (b2 (hgt s h)).congr_of_eventuallyEq ?_
      filter_upwards [hy.cont.eventually_lt hx.cont h] with v hv
      rw [if_neg hv.not_gt]

/-- Selection by constants. -/
theorem Ad.selConst (p q : ℝ) (ha : Ad a f u S) (hb : Ad b g u S) :
    Ad (.sel (.const p) (.const q) a b) (fun v => if p < q then f v else g v) u S := by
  obtain ⟨La, a1, a2⟩ := ha.grad
  obtain ⟨Lb, b1, b2⟩ := hb.grad
  have hval : ∀ v : ι → ℝ, flt ((Expr.const p).eval v) ((Expr.const q).eval v) ↔ p < q := fun v => Iff.rfl
  by_cases h : p < q
  · simp only [h, if_true]
    refine ⟨ha.val.mono fun v h1 => by simp [Expr.eval, flt, h, h1], ha.cont, La, fun ct => ?_, a2⟩
    funext k
    simp [Expr.backward, hval, h, a1, b1, fadd]
  · simp only [h, if_false]
    refine ⟨hb.val.mono fun v h1 => by simp [Expr.eval, flt, h, h1], hb.cont, Lb, fun ct => ?_, b2⟩
    funext k
    simp [Expr.backward, hval, h, a1, b1, fadd]

/-- Maximum: off ties only the larger argument needs a derivative. -/
theorem Ad.max (ha : Ad a f u Sa) (hb : Ad b g u Sb) (h : S → (f u < g u ∧ Sb) ∨ (g u < f u ∧ Sa)) :
    Ad (.max a b) (fun v => Max.max (f v) (g v)) u S := by
  obtain ⟨La, a1, a2⟩ := ha.grad
  obtain ⟨Lb, b1, b2⟩ := hb.grad
  refine ⟨(ha.val.and hb.val).mono fun v h => by simp [Expr.eval, h.1, h.2], ha.cont.max hb.cont,
    (if f u = g u then (1 / 2 : ℝ) else if g u < f u then 1 else 0) • La +
      (if f u = g u then (1 / 2 : ℝ) else if f u < g u then 1 else 0) • Lb, fun ct => ?_, fun s => ?_⟩
  · funext k
    simp only [Expr.backward, ha.at, hb.at, fmul, Option.bind_some, Option.map_some, a1, b1, fadd,
      add_apply, smul_apply, smul_eq_mul]
    congr 1; ring
  · rcases h s with ⟨h1, h2⟩ | ⟨h1, h2⟩
    · rw [if_neg h1.ne, if_neg h1.not_gt, if_neg h1.ne, if_pos h1, zero_smul, one_smul, zero_add]
      refine (b2 h2).congr_of_eventuallyEq ?_
      filter_upwards [ha.cont.eventually_lt hb.cont h1] with v hv
      exact max_eq_right hv.le
    · rw [if_neg h1.ne', if_pos h1, if_neg h1.ne', if_neg h1.not_gt, zero_smul, one_smul, add_zero]
      refine (a2 h2).congr_of_eventuallyEq ?_
      filter_upwards [hb.cont.eventually_lt ha.cont h1] with v hv
      exact max_eq_left hv.le

theorem Ad.min (ha : Ad a f u Sa) (hb : Ad b g u Sb) (h : S → (f u < g u ∧ Sa) ∨ (g u < f u ∧ Sb)) :
    Ad (.min a b) (fun v => Min.min (f v) (g v)) u S := by
  obtain ⟨La, a1, a2⟩ := ha.grad
  obtain ⟨Lb, b1, b2⟩ := hb.grad
  refine ⟨(ha.val.and hb.val).mono fun v h => by simp [Expr.eval, h.1, h.2], ha.cont.min hb.cont,
    (if f u = g u then (1 / 2 : ℝ) else if f u < g u then 1 else 0) • La +
      (if f u = g u then (1 / 2 : ℝ) else if g u < f u then 1 else 0) • Lb, fun ct => ?_, fun s => ?_⟩
  · funext k
    simp only [Expr.backward, ha.at, hb.at, fmul, Option.bind_some, Option.map_some, a1, b1, fadd,
      add_apply, smul_apply, smul_eq_mul]
    congr 1; ring
  · rcases h s with ⟨h1, h2⟩ | ⟨h1, h2⟩
    · rw [if_neg h1.ne, if_pos h1, if_neg h1.ne, if_neg h1.not_gt, zero_smul, one_smul, add_zero]
      refine (a2 h2).congr_of_eventuallyEq ?_
      filter_upwards [ha.cont.eventually_lt hb.cont h1] with v hv
      exact min_eq_left hv.le
    · rw [if_neg h1.ne', if_neg h1.not_gt, if_neg h1.ne', if_pos h1, zero_smul, one_smul, zero_add]
      refine (b2 h2).congr_of_eventuallyEq ?_
      filter_upwards [hb.cont.eventually_lt ha.cont h1] with v hv
      exact min_eq_right hv.le

theorem Ad.differentiable (h : Ad e f u S) (s : S) : HasFDerivAt f (fderiv ℝ f u) u := by
  obtain ⟨L, -, h2⟩ := h.grad
  exact (h2 s).differentiableAt.hasFDerivAt

/-! ### The traced functions -/

theorem Ad.sigmoid {x0 k lo hi : Expr ι} {fx0 fk flo fhi : (ι → ℝ) → ℝ} (hx : Ad x fx u S) (h0 : Ad x0 fx0 u S)
    (hk : Ad k fk u S) (hlo : Ad lo flo u S) (hhi : Ad hi fhi u S) :
    Ad (Trace.sigmoid x x0 k lo hi) (fun v => Diffstar.sigmoid (fx v) (fx0 v) (fk v) (flo v) (fhi v)) u S :=
  hlo.add ((hhi.sub hlo).mul (hk.mul (hx.sub h0)).logistic)

theorem Ad.sigmoidB (hx : Ad x fx u S) (c : ℝ × ℝ × ℝ × ℝ) :
    Ad (Trace.sigmoidB x c) (fun v => Diffstar.sigmoidB (fx v) c) u S :=
  hx.sigmoid (.const _) (.const _) (.const _) (.const _)

/-- Traced parameters. -/
structure AdP (p : DiffstarParams (Expr ι)) (P : (ι → ℝ) → DiffstarParams ℝ) (u : ι → ℝ) (S : Prop) : Prop where
  lgmcrit : Ad p.lgmcrit (fun v => (P v).lgmcrit) u S
  lgyAtMcrit : Ad p.lgyAtMcrit (fun v => (P v).lgyAtMcrit) u S
  indxLo : Ad p.indxLo (fun v => (P v).indxLo) u S
  indxHi : Ad p.indxHi (fun v => (P v).indxHi) u S
  lgQt : Ad p.lgQt (fun v => (P v).lgQt) u S
  qlglgdt : Ad p.qlglgdt (fun v => (P v).qlglgdt) u S
  lgDrop : Ad p.lgDrop (fun v => (P v).lgDrop) u S
  lgRejuv : Ad p.lgRejuv (fun v => (P v).lgRejuv) u S

theorem AdP.bounded {p : DiffstarParams (Expr ι)} {P : (ι → ℝ) → DiffstarParams ℝ} (h : AdP p P u S) :
    AdP (getBoundedDiffstarParams p) (fun v => Diffstar.getBoundedDiffstarParams (P v)) u S where
  lgmcrit := h.lgmcrit.sigmoidB _
  lgyAtMcrit := h.lgyAtMcrit.sigmoidB _
  indxLo := h.indxLo.sigmoidB _
  indxHi := h.indxHi.sigmoidB _
  lgQt := h.lgQt.sigmoidB _
  qlglgdt := h.qlglgdt.sigmoidB _
  lgDrop := h.lgDrop.sigmoidB _
  lgRejuv := h.lgRejuv.sigmoid (.const _) (.const _) (h.lgDrop.sigmoidB _) (.const _)

theorem AdP.sfhMsKernel {p : DiffstarParams (Expr ι)} {P : (ι → ℝ) → DiffstarParams ℝ} (h : AdP p P u S) {M : Type}
    (logMah : M → ℝ → ℝ → ℝ) (t : ℝ) (mah : M) (lgt0 fb : ℝ) :
    Ad (Trace.sfhMsKernel (logMah mah t lgt0) fb p) (fun v => Diffstar.sfhMsKernel logMah t mah (P v).ms lgt0 fb) u S :=
  (Ad.const _).mul (h.lgyAtMcrit.add (((Ad.const _).sigmoid h.lgmcrit (.const _) h.indxLo h.indxHi).mul
    ((Ad.const _).sub h.lgmcrit))).pow10

theorem Ad.twPoly (hy : Ad y fy u S) :
    Ad (.add (.add (.sub (.add (.div (.mul (.const (-5)) (.pow y 7)) (.const 69984))
      (.div (.mul (.const 7) (.pow y 5)) (.const 2592))) (.div (.mul (.const 35) (.pow y 3)) (.const 864)))
      (.div (.mul (.const 35) y) (.const 96))) (.const 0.5)) (fun v => Diffstar.twPoly (fy v)) u S := by
  refine (((((((Ad.const (-5)).mul (hy.pow 7)).div (.const 69984) (by norm_num)).add
    (((Ad.const 7).mul (hy.pow 5)).div (.const 2592) (by norm_num))).sub
    (((Ad.const 35).mul (hy.pow 3)).div (.const 864) (by norm_num))).add
    (((Ad.const 35).mul hy).div (.const 96) (by norm_num))).add (.const 0.5)).congr fun v => ?_
  unfold Diffstar.twPoly
  norm_num

theorem Ad.jaxTw (hy : Ad y fy u S) : Ad (Trace.jaxTw y) (fun v => Diffstar.jaxTw (fy v)) u S := by
  have hp := hy.twPoly
  have hd : S → HasFDerivAt (fun v => Diffstar.twPoly (fy v)) ((35 / 96 * (1 - fy u ^ 2 / 9) ^ 3) • fderiv ℝ fy u) u :=
    fun s => (twPoly_hasDerivAt (fy u)).comp_hasFDerivAt u (hy.differentiable s)
  have h1 := hy.sel (.const (-3)) (Sa := S) (Sb := S) (.const 0) hp (by
    intro h
    rw [h]
    unfold Diffstar.twPoly
    norm_num) (fun s _ => s) (fun s _ => s) (fun s h => ⟨s, s, by
      rw [(hd s).fderiv, h, fderiv_fun_const]
      norm_num⟩)
  have h2 := (Ad.const 3 (u := u) (S := S)).sel hy (Sa := S) (Sb := S) (.const 1) h1 (by
    intro h
    rw [← h]
    unfold Diffstar.twPoly
    norm_num) (fun s _ => s) (fun s _ => s) (fun s h => ⟨s, s, by
      have e : (fun v => if fy v < -3 then 0 else Diffstar.twPoly (fy v)) =ᶠ[𝓝 u] fun v => Diffstar.twPoly (fy v) := by
        filter_upwards [(continuousAt_const (y := (-3 : ℝ))).eventually_lt hy.cont (by rw [← h]; norm_num)] with v hv
        rw [if_neg hv.not_gt]
      rw [e.fderiv_eq, (hd s).fderiv, ← h, fderiv_fun_const]
      norm_num⟩)
  refine h2.congr fun v => ?_
  simp only [Diffstar.jaxTw, Diffstar.twPoly, gt_iff_lt]
  norm_num

theorem Ad.jaxPartialUTwKern {m h f1 f2 : Expr ι} {fm fh ff1 ff2 : (ι → ℝ) → ℝ} (hx : Ad x fx u S) (hm : Ad m fm u S)
    (hh : Ad h fh u S) (h1 : Ad f1 ff1 u S) (h2 : Ad f2 ff2 u S) (h0 : fh u ≠ 0) :
    Ad (Trace.jaxPartialUTwKern x m h f1 f2)
      (fun v => Diffstar.jaxPartialUTwKern (fx v) (fm v) (fh v) (ff1 v) (ff2 v)) u S := by
  have hy := (hx.sub hm).div hh h0
  have hz := h1.mul (hy.add (.const 3)).jaxTw
  have hw := h1.sub (h2.mul (hy.sub (.const 3)).jaxTw)
  refine hy.sel (.const 0) (Sa := S) (Sb := S) hz hw ?_ (fun s _ => s) (fun s _ => s) fun s e => ⟨s, s, ?_⟩
  · intro e
    rw [e, zero_add, zero_sub, jaxTw_hi le_rfl, jaxTw_lo le_rfl]
    ring
  · have hyd := hy.differentiable s
    have hup := (jaxTw_hasDerivAt _).comp_hasFDerivAt u (hyd.add_const 3)
    have hlo := (jaxTw_hasDerivAt _).comp_hasFDerivAt u (hyd.sub_const 3)
    have hzd := (h1.differentiable s).mul hup
    have hwd := (h1.differentiable s).sub ((h2.differentiable s).mul hlo)
    refine hzd.fderiv.trans (Eq.trans ?_ hwd.fderiv.symm)
    simp only [Function.comp_apply, e]
    norm_num
    rw [jaxTw_hi le_rfl, jaxTw_lo le_rfl, twDensity, twDensity]
    norm_num

theorem Ad.quenchingKern {lgt qt dt drop rejuv : Expr ι} {flgt fqt fdt fdrop frejuv : (ι → ℝ) → ℝ} (h1 : Ad lgt flgt u S)
    (h2 : Ad qt fqt u S) (h3 : Ad dt fdt u S) (h4 : Ad drop fdrop u S) (h5 : Ad rejuv frejuv u S) (h0 : fdt u ≠ 0) :
    Ad (Trace.quenchingKern lgt qt dt drop rejuv)
      (fun v => Diffstar.quenchingKern (flgt v) (fqt v) (fdt v) (fdrop v) (frejuv v)) u S :=
  (h1.jaxPartialUTwKern h2 (h3.div (.const 12) (by norm_num)) h4 (h4.sub h5)
    (div_ne_zero h0 (by norm_num))).pow10

/-- The rate with its floor: a tie is harmless if the rate is on the floor for all nearby parameters. -/
theorem AdP.sfhSinglegalScalar {p : DiffstarParams (Expr ι)} {P : (ι → ℝ) → DiffstarParams ℝ} (h : AdP p P u True)
    {M : Type} (logMah : M → ℝ → ℝ → ℝ) (t : ℝ) (mah : M) (lgt0 fb : ℝ)
    (hS : S → Diffstar.sfhSinglegalScalar logMah t mah (P u).ms (P u).q lgt0 fb ≠ 1 / 10 ^ 14 ∨
      ∀ᶠ v in 𝓝 u, Diffstar.sfhSinglegalScalar logMah t mah (P v).ms (P v).q lgt0 fb = 1 / 10 ^ 14) :
    Ad (Trace.sfhSinglegalScalar t (logMah mah t lgt0) fb p)
      (fun v => Diffstar.sfhSinglegalScalar logMah t mah (P v).ms (P v).q lgt0 fb) u S := by
  have hq := (Ad.const (Real.logb 10 t)).quenchingKern h.lgQt h.qlglgdt.pow10 h.lgDrop h.lgRejuv
    (Real.rpow_pos_of_pos (by norm_num) _).ne'
  have hs := hq.mul (h.sfhMsKernel logMah t mah lgt0 fb)
  refine (hs.imp (fun _ => trivial)).sel (.const SFR_MIN) (Sa := True) (Sb := True) (.const SFR_MIN) hs (fun e => e.symm)
    (fun _ _ => trivial) (fun _ _ => trivial) fun s e => ⟨trivial, trivial, ?_⟩
  rcases hS s with h1 | h1
  · refine absurd ?_ h1
    simp only [Diffstar.sfhSinglegalScalar]
    split_ifs with hlt
    · rfl
    · exact e
  · rw [fderiv_fun_const]
    refine (IsLocalMax.fderiv_eq_zero ?_).symm
    rw [IsLocalMax, IsMaxFilter]
    filter_upwards [h1] with v hv
    rw [e]
    simp only [Diffstar.sfhSinglegalScalar] at hv
    split_ifs at hv with hlt
    · exact hlt.le
    · exact hv.le

/-! ### Lists -/

/-- Traced arrays. -/
def AdL (es : List (Expr ι)) (F : (ι → ℝ) → List ℝ) (u : ι → ℝ) (S : Prop) : Prop :=
  (∀ v, (F v).length = es.length) ∧ ∀ i, i < es.length → Ad (es.getD i (.const 0)) (fun v => (F v).getD i 0) u S

variable {es gs : List (Expr ι)} {F G : (ι → ℝ) → List ℝ}

theorem AdL.nil (h : AdL [] F u S) : F = fun _ => [] := funext fun v => List.length_eq_zero_iff.1 (h.1 v)

theorem AdL.mkNil : AdL ([] : List (Expr ι)) (fun _ => []) u S := ⟨fun _ => rfl, fun i hi => absurd hi (by simp)⟩

theorem AdL.cons (h1 : Ad e f u S) (h2 : AdL es F u S) : AdL (e :: es) (fun v => f v :: F v) u S := by
  refine ⟨fun v => by simp [h2.1], fun i hi => ?_⟩
  cases i with
  | zero => simpa using h1
  | succ i => simpa using h2.2 i (by simpa using hi)

theorem AdL.uncons (h : AdL (e :: es) F u S) : ∃ f F', F = (fun v => f v :: F' v) ∧ Ad e f u S ∧ AdL es F' u S := by
  refine ⟨fun v => (F v).getD 0 0, fun v => (F v).tail, ?_, h.2 0 (by simp), fun v => by simp [h.1], fun i hi => ?_⟩
  · funext v
    have := h.1 v
    cases hF : F v with
    | nil => rw [hF] at this; simp at this
    | cons a l => simp [hF]
  · have := h.2 (i + 1) (by simpa using hi)
    rw [List.getD_cons_succ] at this
    refine this.congr fun v => ?_
    cases hF : F v <;> simp [hF]

theorem getD_zipWith_gen {α β γ : Type*} (op : α → β → γ) (a : List α) (b : List β) (i : ℕ) (ha : i < a.length)
    (hb : i < b.length) (da : α) (db : β) (dc : γ) : (List.zipWith op a b).getD i dc = op (a.getD i da) (b.getD i db) := by
  rw [List.getD_eq_getElem _ _ (by simp [ha, hb]), List.getD_eq_getElem _ _ ha, List.getD_eq_getElem _ _ hb,
    List.getElem_zipWith]

theorem getD_map_gen {α β : Type*} (op : α → β) (a : List α) (i : ℕ) (ha : i < a.length) (da : α) (db : β) :
    (a.map op).getD i db = op (a.getD i da) := by
  rw [List.getD_eq_getElem _ _ (by simp [ha]), List.getD_eq_getElem _ _ ha, List.getElem_map]

theorem AdL.map {op : Expr ι → Expr ι} {φ : ℝ → ℝ} {S' : Prop} (h : AdL es F u S)
    (hop : ∀ i, i < es.length → Ad (es.getD i (.const 0)) (fun v => (F v).getD i 0) u S →
      Ad (op (es.getD i (.const 0))) (fun v => φ ((F v).getD i 0)) u S') :
    AdL (es.map op) (fun v => (F v).map φ) u S' := by
  refine ⟨fun v => by simp [h.1], fun i hi => ?_⟩
  rw [List.length_map] at hi
  rw [getD_map_gen op es i hi (.const 0)]
  refine (hop i hi (h.2 i hi)).congr fun v => ?_
  rw [getD_map_gen φ (F v) i (by rw [h.1]; exact hi) 0]

theorem AdL.zipConst {op : Expr ι → ℝ → Expr ι} {φ : ℝ → ℝ → ℝ} {S' : Prop} (h : AdL es F u S) (cs : List ℝ)
    (hl : cs.length = es.length)
    (hop : ∀ i, i < es.length → Ad (es.getD i (.const 0)) (fun v => (F v).getD i 0) u S →
      Ad (op (es.getD i (.const 0)) (cs.getD i 0)) (fun v => φ ((F v).getD i 0) (cs.getD i 0)) u S') :
    AdL (List.zipWith op es cs) (fun v => List.zipWith φ (F v) cs) u S' := by
  refine ⟨fun v => by simp [h.1], fun i hi => ?_⟩
  have hi' : i < es.length := by simp only [List.length_zipWith] at hi; omega
  rw [getD_zipWith_gen op es cs i hi' (by omega) (.const 0) 0]
  refine (hop i hi' (h.2 i hi')).congr fun v => ?_
  rw [getD_zipWith_gen φ (F v) cs i (by rw [h.1]; exact hi') (by omega) 0 0]

theorem AdL.zip {op : Expr ι → Expr ι → Expr ι} {φ : ℝ → ℝ → ℝ} {S' Sg : Prop} (h : AdL es F u S) (hg : AdL gs G u Sg)
    (hl : gs.length = es.length)
    (hop : ∀ i, i < es.length → Ad (es.getD i (.const 0)) (fun v => (F v).getD i 0) u S →
      Ad (gs.getD i (.const 0)) (fun v => (G v).getD i 0) u Sg →
      Ad (op (es.getD i (.const 0)) (gs.getD i (.const 0))) (fun v => φ ((F v).getD i 0) ((G v).getD i 0)) u S') :
    AdL (List.zipWith op es gs) (fun v => List.zipWith φ (F v) (G v)) u S' := by
  refine ⟨fun v => by simp [h.1, hg.1], fun i hi => ?_⟩
  have hi' : i < es.length := by simp only [List.length_zipWith] at hi; omega
  rw [getD_zipWith_gen op es gs i hi' (by omega) (.const 0) (.const 0)]
  refine (hop i hi' (h.2 i hi') (hg.2 i (by omega))).congr fun v => ?_
  rw [getD_zipWith_gen φ (F v) (G v) i (by rw [h.1]; exact hi') (by rw [hg.1]; omega) 0 0]

theorem AdL.scan {fa c : Expr ι} {ffa fc : (ι → ℝ) → ℝ} (t : List ℝ) (h : AdL es F u S) (hl : es.length = t.length)
    (A : ℝ) (ha : Ad fa ffa u S) (hc : Ad c fc u S) :
    AdL (scanOut Trace.cumtrapzScanFunc (A, fa, c) (t.zip es))
      (fun v => scanOut Diffstar.cumtrapzScanFunc (A, ffa v, fc v) (t.zip (F v))) u S := by
  induction t generalizing es F fa c ffa fc A with
  | nil => simpa [scanOut] using AdL.mkNil
  | cons B t ih =>
    cases es with
    | nil => simp at hl
    | cons e es =>
      obtain ⟨f, F', rfl, h1, h2⟩ := h.uncons
      have hc' := hc.add (((Ad.const (B - A)).mul (h1.add ha)).div (.const 2) (by norm_num))
      exact AdL.cons hc' (ih h2 (by simpa using hl) B h1 hc')

theorem AdL.cumulativeMstarFormed (t : List ℝ) (h : AdL es F u S) (hl : es.length = t.length) :
    AdL (Trace.cumulativeMstarFormed t es) (fun v => Diffstar.cumulativeMstarFormed t (F v)) u S := by
  have h0 : Ad (.add (.const 0) (.div (.mul (.const (T_BIRTH_MIN - T_BIRTH_MIN)) (.add (.const SFR_MIN) (.const SFR_MIN)))
      (.const 2)) : Expr ι) (fun _ => 0 + (T_BIRTH_MIN - T_BIRTH_MIN) * (SFR_MIN + SFR_MIN) / 2) u S :=
    (Ad.const 0).add (((Ad.const _).mul ((Ad.const _).add (.const _))).div (.const 2) (by norm_num))
  exact (h.scan t hl T_BIRTH_MIN (.const SFR_MIN) h0).map (op := fun m => .mul m (.const YEAR_PER_GYR))
    (φ := fun m => m * YEAR_PER_GYR) fun i _ hi => hi.mul (.const _)

theorem AdL.interp (x : ℝ) (t : List ℝ) (ht : Spec.Increasing t) (h : AdL es F u S) (hl : es.length = t.length) :
    Ad (Trace.interp x t es) (fun v => npInterp x t (F v)) u S := by
  induction t generalizing es F with
  | nil =>
    have := List.length_eq_zero_iff.1 hl
    subst this
    rw [h.nil]
    exact Ad.const 0
  | cons x0 t ih =>
    cases es with
    | nil => simp at hl
    | cons e0 es =>
      obtain ⟨f0, F0, rfl, h0, hF0⟩ := h.uncons
      cases t with
      | nil =>
        have := List.length_eq_zero_iff.1 (by simpa using hl : es.length = 0)
        subst this
        rw [hF0.nil]
        exact h0
      | cons x1 t =>
        cases es with
        | nil => simp at hl
        | cons e1 es =>
          have hih := ih (List.Pairwise.of_cons ht) hF0 (by simpa using hl)
          obtain ⟨f1, F1, rfl, h1, hF1⟩ := hF0.uncons
          have hx : x1 - x0 ≠ 0 := by
            have := (List.pairwise_cons.1 ht).1 x1 (by simp)
            linarith
          have hlin := h0.add (((h1.sub h0).div (.const (x1 - x0)) hx).mul (.const (x - x0)))
          refine (Ad.selConst x0 x (Ad.selConst x1 x hih hlin) h0).congr fun v => ?_
          simp only [npInterp, ← not_lt, ite_not]

theorem AdL.sum (h : AdL es F u S) : Ad (es.foldr .add (.const 0)) (fun v => (F v).sum) u S := by
  induction es generalizing F with
  | nil => rw [h.nil]; exact Ad.const 0
  | cons e es ih =>
    obtain ⟨f, F', rfl, h1, h2⟩ := h.uncons
    exact (h1.add (ih h2)).congr fun v => by simp

theorem AdL.mean (h : AdL es F u S) (h0 : es ≠ []) : Ad (Trace.mean es) (fun v => Fit.mean (F v)) u S := by
  have : (es.length : ℝ) ≠ 0 := by
    have := List.length_pos_iff.2 h0
    positivity
  refine (h.sum.div (.const _) this).congr fun v => ?_
  rw [Fit.mean, h.1]

theorem AdL.last (h : AdL es F u S) (h0 : es ≠ []) : Ad (es.getLastD (.const 0)) (fun v => (F v).getLastD 0) u S := by
  have hp := List.length_pos_iff.2 h0
  have key : ∀ {α : Type} (l : List α) (d : α), l.getLastD d = l.getD (l.length - 1) d := by
    intro α l d
    rw [List.getLastD_eq_getLast?, List.getLast?_eq_getElem?, List.getD_eq_getElem?_getD]
  rw [key]
  refine (h.2 _ (by omega)).congr fun v => ?_
  rw [key, h.1]

end Diffstar.Trace
