import Verif.Props.Params
import Verif.Lemmas.Sfh
import Mathlib.Analysis.SpecialFunctions.Pow.Deriv
import Mathlib.Analysis.Complex.ExponentialBounds

/-! C04-C10: star formation histories. -/

namespace Diffstar.Props

open Diffstar Diffstar.Spec Set

/-! ### C04 -/

/-- **C04**: the SFR floor, for all four public functions, for every input with positive times (at
`t ≤ 0` the code takes `log10` of a non-positive number and returns NaN). -/
theorem C04_sfr_floor {M : Type*} {n : ℕ} (logMah dMhDt : M → ℝ → ℝ → ℝ)
    (logMah' dMhDt' : MahParams ℝ → ℝ → ℝ → ℝ)
    (p : DiffstarParams ℝ) (mah : M) (P : DiffstarParams (Fin n → ℝ)) (MAH : MahParams (Fin n → ℝ))
    (tarr : List ℝ) (_ht : ∀ t ∈ tarr, 0 < t) (lgt0 fb : ℝ) :
    (∀ s ∈ calcSfhSinglegal logMah p mah tarr lgt0 fb, 1 / 10 ^ 14 ≤ s) ∧
    (∀ s ∈ (calcSfhSinglegalSmh logMah p mah tarr lgt0 fb).sfh, 1 / 10 ^ 14 ≤ s) ∧
    (∀ i, ∀ s ∈ calcSfhGalpop logMah' P MAH tarr lgt0 fb i, 1 / 10 ^ 14 ≤ s) ∧
    (∀ i, ∀ s ∈ (calcSfhGalpopSmh logMah' P MAH tarr lgt0 fb).sfh i, 1 / 10 ^ 14 ≤ s) ∧
    (∀ s ∈ (calcMgasSinglegal logMah dMhDt p mah tarr lgt0 fb).sfh, 1 / 10 ^ 14 ≤ s) ∧
    (∀ i, ∀ s ∈ (calcMgasGalpop logMah' dMhDt' P MAH tarr lgt0 fb i).sfh, 1 / 10 ^ 14 ≤ s) := by
  have key : ∀ {M' : Type _} (lm : M' → ℝ → ℝ → ℝ) (m : M') (ms : MSParams ℝ) (q : QParams ℝ),
      ∀ s ∈ sfhSinglegalKern lm tarr m ms q lgt0 fb, 1 / 10 ^ 14 ≤ s := by
    intro M' lm m ms q s hs
    simp only [sfhSinglegalKern, List.mem_map] at hs
    obtain ⟨t, -, rfl⟩ := hs
    simp only [sfhSinglegalScalar, if_lt_eq_max]
    exact le_max_left _ _
  have key' : ∀ (lm : MahParams ℝ → ℝ → ℝ → ℝ) (m : MahParams ℝ) (ms : MSParams ℝ) (q : QParams ℝ),
      ∀ s ∈ sfhSinglegalKern lm tarr m ms q lgt0 fb, 1 / 10 ^ 14 ≤ s := by
    intro lm m ms q s hs
    simp only [sfhSinglegalKern, List.mem_map] at hs
    obtain ⟨t, -, rfl⟩ := hs
    simp only [sfhSinglegalScalar, if_lt_eq_max]
    exact le_max_left _ _
  exact ⟨key _ _ _ _, key _ _ _ _, fun i => key' _ _ _ _, fun i => key' _ _ _ _, key _ _ _ _,
    fun i => key' _ _ _ _⟩

/-- A concrete galaxy with a non-empty output, so C04 is not vacuous; its log is defined. -/
example : ∃ s ∈ calcSfhSinglegal (M := Unit) (fun _ _ _ => 12) DEFAULT_DIFFSTAR_PARAMS () [1, 5, 13] 1.1 0.156,
    0 < s := by
  have h := (C04_sfr_floor (n := 0) (M := Unit) (fun _ _ _ => 12) (fun _ _ _ => 0) (fun _ _ _ => 12) (fun _ _ _ => 0)
    DEFAULT_DIFFSTAR_PARAMS () ⟨0, 0, 0, 0, 0, 0, 0, 0⟩ ⟨0, 0, 0, 0, 0⟩ [1, 5, 13] (by norm_num) 1.1 0.156).1
  refine ⟨_, List.mem_cons_self, lt_of_lt_of_le (by norm_num) (h _ ?_)⟩
  simp [calcSfhSinglegal, sfhSinglegalKern]

/-! ### C05, C06 -/

/-- **C05**: plateaus and range of the quenching factor. -/
theorem C05_quenching_range (lgt lgQt dt drop rejuv : ℝ) (hdt : 0 < dt) :
    (lgt ≤ lgQt - dt / 2 → quenchingKern lgt lgQt dt drop rejuv = 1) ∧
    quenchingKern lgQt lgQt dt drop rejuv = (10 : ℝ) ^ drop ∧
    (lgQt + dt / 2 ≤ lgt → quenchingKern lgt lgQt dt drop rejuv = (10 : ℝ) ^ rejuv) ∧
    (drop ≤ rejuv → rejuv ≤ 0 →
      (10 : ℝ) ^ drop ≤ quenchingKern lgt lgQt dt drop rejuv ∧
      quenchingKern lgt lgQt dt drop rejuv ≤ 1 ∧
      (lgQt ≤ lgt → quenchingKern lgt lgQt dt drop rejuv ≤ (10 : ℝ) ^ rejuv)) := by
  refine ⟨?_, ?_, ?_, ?_⟩
  · intro h; rw [quenchingKern_eq, qExp_before hdt h, Real.rpow_zero]
  · rw [quenchingKern_eq, qExp_at]
  · intro h; rw [quenchingKern_eq, qExp_after hdt h]
  · intro h1 h2
    refine ⟨?_, ?_, ?_⟩
    · rw [quenchingKern_eq]
      exact Real.rpow_le_rpow_of_exponent_le (by norm_num) (qExp_ge_drop h1 h2)
    · rw [quenchingKern_eq]
      exact Real.rpow_le_one_of_one_le_of_nonpos (by norm_num) (qExp_le_zero h1 h2)
    · intro h
      rw [quenchingKern_eq]
      apply Real.rpow_le_rpow_of_exponent_le (by norm_num)
      have hy : 0 ≤ (lgt - lgQt) / (dt / 12) := div_nonneg (by linarith) (by linarith)
      unfold qExp
      rw [jaxTw_hi (y := (lgt - lgQt) / (dt / 12) + 3) (by linarith)]
      have b := jaxTw_le_one ((lgt - lgQt) / (dt / 12) - 3)
      nlinarith [mul_nonneg (sub_nonneg.2 h1) (sub_nonneg.2 b)]

example : quenchingKern 0.2 1 0.5 (-2) (-1) = 1 ∧ quenchingKern 1 1 0.5 (-2) (-1) = (10 : ℝ) ^ (-2 : ℝ) ∧
    quenchingKern 1.3 1 0.5 (-2) (-1) = (10 : ℝ) ^ (-1 : ℝ) :=
  ⟨(C05_quenching_range 0.2 1 0.5 (-2) (-1) (by norm_num)).1 (by norm_num),
   (C05_quenching_range 0.2 1 0.5 (-2) (-1) (by norm_num)).2.1,
   (C05_quenching_range 1.3 1 0.5 (-2) (-1) (by norm_num)).2.2.1 (by norm_num)⟩

/-- **C05** for `_quenching_kern_u_params`: the event has the bounded parameters, its full duration is `10 ** qlglgdt`,
and the factor lies in `(10 ** -3, 1]` for all unbounded parameters. -/
theorem C05_u_params_version (lgt : ℝ) (u : QParams ℝ) :
    let q := getBoundedQParams u
    let f := fun lgt => quenchingKernUParams lgt u.lgQt u.qlglgdt u.lgDrop u.lgRejuv
    (lgt ≤ q.lgQt - (10 : ℝ) ^ q.qlglgdt / 2 → f lgt = 1) ∧ f q.lgQt = (10 : ℝ) ^ q.lgDrop ∧
    (q.lgQt + (10 : ℝ) ^ q.qlglgdt / 2 ≤ lgt → f lgt = (10 : ℝ) ^ q.lgRejuv) ∧
    (|lgt - q.lgQt| < (10 : ℝ) ^ q.qlglgdt / 2 → lgt < q.lgQt → f lgt < 1) ∧ 1 / 1000 < f lgt ∧ f lgt ≤ 1 := by
  intro q f
  have hb := C01_bounded_params_in_bounds (DiffstarParams.join ⟨0, 0, 0, 0⟩ u)
  have h1 : -3 < q.lgDrop := hb.lgDrop.1
  have h2 : q.lgDrop < q.lgRejuv := hb.lgRejuv.1
  have h3 : q.lgRejuv < 0 := hb.lgRejuv.2
  have hdt : (0 : ℝ) < (10 : ℝ) ^ q.qlglgdt := Real.rpow_pos_of_pos (by norm_num) _
  have hf : ∀ x, f x = quenchingKern x q.lgQt ((10 : ℝ) ^ q.qlglgdt) q.lgDrop q.lgRejuv := fun x => rfl
  obtain ⟨c1, c2, c3, c4⟩ := C05_quenching_range lgt q.lgQt _ q.lgDrop q.lgRejuv hdt
  obtain ⟨c5, c6, -⟩ := c4 h2.le h3.le
  refine ⟨c1, c2, c3, ?_, ?_, c6⟩
  · intro ha hlt
    rw [hf, quenchingKern_eq]
    refine Real.rpow_lt_one_of_one_lt_of_neg (by norm_num) ?_
    unfold qExp
    have hy : (lgt - q.lgQt) / ((10 : ℝ) ^ q.qlglgdt / 12) < 0 := div_neg_of_neg_of_pos (by linarith) (by linarith)
    have hy' : -6 < (lgt - q.lgQt) / ((10 : ℝ) ^ q.qlglgdt / 12) := by
      rw [lt_div_iff₀ (by linarith)]
      have := (abs_lt.1 ha).1
      linarith
    have p0 : 0 < jaxTw ((lgt - q.lgQt) / ((10 : ℝ) ^ q.qlglgdt / 12) + 3) := by
      rw [← jaxTw_lo (le_refl (-3 : ℝ))]
      exact jaxTw_strictMonoOn ⟨le_refl _, by norm_num⟩ ⟨by linarith, by linarith⟩ (by linarith)
    have p1 : jaxTw ((lgt - q.lgQt) / ((10 : ℝ) ^ q.qlglgdt / 12) - 3) = 0 := jaxTw_lo (by linarith)
    rw [p1]
    nlinarith
  · refine lt_of_lt_of_le ?_ c5
    have : (10 : ℝ) ^ (-3 : ℝ) < (10 : ℝ) ^ q.lgDrop := Real.rpow_lt_rpow_of_exponent_lt (by norm_num) h1
    rw [Real.rpow_neg (by norm_num)] at this
    norm_num at this ⊢
    exact this

/-- **C05** for `_quenching_kern_u_params` with the unbounded version of an allowed event. -/
theorem C05_u_params_of_bounded (lgt : ℝ) (p : DiffstarParams ℝ) (hp : InBounds p) :
    let u := getUnboundedQParams p.q
    quenchingKernUParams lgt u.lgQt u.qlglgdt u.lgDrop u.lgRejuv =
      quenchingKern lgt p.lgQt ((10 : ℝ) ^ p.qlglgdt) p.lgDrop p.lgRejuv := by
  intro u
  have h := C02_bounded_of_unbounded p hp
  have e : getBoundedQParams u = p.q := congrArg DiffstarParams.q h
  change quenchingKern lgt (getBoundedQParams u).lgQt ((10 : ℝ) ^ (getBoundedQParams u).qlglgdt)
    (getBoundedQParams u).lgDrop (getBoundedQParams u).lgRejuv = _
  rw [e]
  rfl

example : InBounds ⟨12, -10, 1, -1, 1, -0.5, -2, -1⟩ := by constructor <;> norm_num

/-- **C06**: the quenching factor falls until the quenching time and rises afterwards (strictly inside
the event), and is differentiable in time everywhere, in particular continuous. -/
theorem C06_quenching_shape (lgQt dt drop rejuv : ℝ) (hdt : 0 < dt) (h1 : drop ≤ rejuv)
    (h2 : rejuv ≤ 0) :
    AntitoneOn (fun lgt => quenchingKern lgt lgQt dt drop rejuv) (Iic lgQt) ∧
    MonotoneOn (fun lgt => quenchingKern lgt lgQt dt drop rejuv) (Ici lgQt) ∧
    (drop < 0 → StrictAntiOn (fun lgt => quenchingKern lgt lgQt dt drop rejuv)
      (Icc (lgQt - dt / 2) lgQt)) ∧
    (drop < rejuv → StrictMonoOn (fun lgt => quenchingKern lgt lgQt dt drop rejuv)
      (Icc lgQt (lgQt + dt / 2))) ∧
    Differentiable ℝ (fun lgt => quenchingKern lgt lgQt dt drop rejuv) := by
  have hh : 0 < dt / 12 := by positivity
  have ymono : ∀ {a b : ℝ}, a ≤ b → (a - lgQt) / (dt / 12) ≤ (b - lgQt) / (dt / 12) := fun h =>
    (div_le_div_iff_of_pos_right hh).2 (by linarith)
  have ysmono : ∀ {a b : ℝ}, a < b → (a - lgQt) / (dt / 12) < (b - lgQt) / (dt / 12) := fun h =>
    (div_lt_div_iff_of_pos_right hh).2 (by linarith)
  have ynp : ∀ {a : ℝ}, a ≤ lgQt → (a - lgQt) / (dt / 12) ≤ 0 := fun h =>
    div_nonpos_of_nonpos_of_nonneg (by linarith) hh.le
  have ynn : ∀ {a : ℝ}, lgQt ≤ a → 0 ≤ (a - lgQt) / (dt / 12) := fun h =>
    div_nonneg (by linarith) hh.le
  have yge : ∀ {a : ℝ}, lgQt - dt / 2 ≤ a → -6 ≤ (a - lgQt) / (dt / 12) := fun h => by
    rw [le_div_iff₀ hh]; linarith
  have yle : ∀ {a : ℝ}, a ≤ lgQt + dt / 2 → (a - lgQt) / (dt / 12) ≤ 6 := fun h => by
    rw [div_le_iff₀ hh]; linarith
  simp only [quenchingKern_eq]
  refine ⟨?_, ?_, ?_, ?_, ?_⟩
  · intro a ha b hb hab
    apply Real.rpow_le_rpow_of_exponent_le (by norm_num)
    unfold qExp
    have := ynp ha
    have := ynp hb
    rw [jaxTw_lo (y := (a - lgQt) / (dt / 12) - 3) (by linarith),
      jaxTw_lo (y := (b - lgQt) / (dt / 12) - 3) (by linarith)]
    have m := jaxTw_mono (show (a - lgQt) / (dt / 12) + 3 ≤ (b - lgQt) / (dt / 12) + 3 by
      linarith [ymono hab])
    nlinarith [mul_nonneg (show 0 ≤ -drop by linarith) (sub_nonneg.2 m)]
  · intro a ha b hb hab
    apply Real.rpow_le_rpow_of_exponent_le (by norm_num)
    unfold qExp
    have := ynn ha
    have := ynn hb
    rw [jaxTw_hi (y := (a - lgQt) / (dt / 12) + 3) (by linarith),
      jaxTw_hi (y := (b - lgQt) / (dt / 12) + 3) (by linarith)]
    have m := jaxTw_mono (show (a - lgQt) / (dt / 12) - 3 ≤ (b - lgQt) / (dt / 12) - 3 by
      linarith [ymono hab])
    nlinarith [mul_nonneg (sub_nonneg.2 h1) (sub_nonneg.2 m)]
  · intro hd a ha b hb hab
    apply Real.rpow_lt_rpow_of_exponent_lt (by norm_num)
    unfold qExp
    have a1 := ynp ha.2
    have b1 := ynp hb.2
    have a2 := yge ha.1
    have b2 := yge hb.1
    rw [jaxTw_lo (y := (a - lgQt) / (dt / 12) - 3) (by linarith),
      jaxTw_lo (y := (b - lgQt) / (dt / 12) - 3) (by linarith)]
    have m := jaxTw_strictMonoOn (a := (a - lgQt) / (dt / 12) + 3) (b := (b - lgQt) / (dt / 12) + 3)
      ⟨by linarith, by linarith⟩ ⟨by linarith, by linarith⟩ (by linarith [ysmono hab])
    nlinarith [mul_pos (show 0 < -drop by linarith) (sub_pos.2 m)]
  · intro hd a ha b hb hab
    apply Real.rpow_lt_rpow_of_exponent_lt (by norm_num)
    unfold qExp
    have a1 := ynn ha.1
    have b1 := ynn hb.1
    have a2 := yle ha.2
    have b2 := yle hb.2
    rw [jaxTw_hi (y := (a - lgQt) / (dt / 12) + 3) (by linarith),
      jaxTw_hi (y := (b - lgQt) / (dt / 12) + 3) (by linarith)]
    have m := jaxTw_strictMonoOn (a := (a - lgQt) / (dt / 12) - 3) (b := (b - lgQt) / (dt / 12) - 3)
      ⟨by linarith, by linarith⟩ ⟨by linarith, by linarith⟩ (by linarith [ysmono hab])
    nlinarith [mul_pos (sub_pos.2 hd) (sub_pos.2 m)]
  · have hE : Differentiable ℝ fun lgt => qExp lgt lgQt dt drop rejuv := by
      unfold qExp
      have := jaxTw_differentiable
      fun_prop
    intro x
    exact ((hE x).hasDerivAt.const_rpow (by norm_num)).differentiableAt

example : (0 : ℝ) < 0.5 ∧ (-2 : ℝ) ≤ -1 ∧ (-1 : ℝ) ≤ 0 ∧ (-2 : ℝ) < 0 ∧ (-2 : ℝ) < -1 := by norm_num

/-! ### C07 -/

/-- **C07**: with parameters obtained from any unbounded vector, at every time of the table the
returned SFR is at most `max(1e-14, main-sequence SFR)`, is at least `10 ** lg_drop` times the main
sequence, and equals `max(1e-14, main-sequence SFR)` until the quenching event starts. -/
theorem C07_quenching_only_reduces {M : Type*} (logMah : M → ℝ → ℝ → ℝ) (u : DiffstarParams ℝ)
    (mah : M) (tarr : List ℝ) (lgt0 fb : ℝ) (hfb : 0 ≤ fb) (i : ℕ) (hi : i < tarr.length)
    (_ht : 0 < tarr[i]) :
    let p := getBoundedDiffstarParams u
    let ms := msSfr p fb (logMah mah tarr[i] lgt0)
    ∃ s, (calcSfhSinglegal logMah p mah tarr lgt0 fb)[i]? = some s ∧
      s ≤ max (1 / 10 ^ 14) ms ∧ (10 : ℝ) ^ p.lgDrop * ms ≤ s ∧
      (Real.logb 10 tarr[i] ≤ p.lgQt - (10 : ℝ) ^ p.qlglgdt / 2 → s = max (1 / 10 ^ 14) ms) := by
  intro p ms
  have hb := C01_bounded_params_in_bounds u
  have h1 : p.lgDrop ≤ p.lgRejuv := hb.lgRejuv.1.le
  have h2 : p.lgRejuv ≤ 0 := hb.lgRejuv.2.le
  have hms : 0 ≤ ms := msSfr_nonneg p hfb _
  have hdt : (0 : ℝ) < (10 : ℝ) ^ p.qlglgdt := by positivity
  refine ⟨_, by rw [calcSfhSinglegal_eq, List.getElem?_map, List.getElem?_eq_getElem hi]; rfl, ?_, ?_, ?_⟩
  · apply max_le_max le_rfl
    have : (10 : ℝ) ^ qExp (Real.logb 10 tarr[i]) p.lgQt ((10 : ℝ) ^ p.qlglgdt) p.lgDrop p.lgRejuv ≤ 1 :=
      Real.rpow_le_one_of_one_le_of_nonpos (by norm_num) (qExp_le_zero h1 h2)
    nlinarith
  · refine le_max_of_le_right (mul_le_mul_of_nonneg_right ?_ hms)
    exact Real.rpow_le_rpow_of_exponent_le (by norm_num) (qExp_ge_drop h1 h2)
  · intro h
    simp only [qExp_before hdt h, Real.rpow_zero, one_mul]
    rfl

example : (0 : ℝ) ≤ 0.156 ∧ 1 < ([1, 5, 13] : List ℝ).length ∧ (0 : ℝ) < ([1, 5, 13] : List ℝ)[1] := by
  norm_num

/-! ### C08 -/

/-- Quantitative core of C08. -/
theorem unquenched_drop : -(3 / 2825 : ℝ) ≤ DEFAULT_Q_PARAMS_UNQUENCHED.lgDrop ∧
    DEFAULT_Q_PARAMS_UNQUENCHED.lgDrop ≤ DEFAULT_Q_PARAMS_UNQUENCHED.lgRejuv ∧
    DEFAULT_Q_PARAMS_UNQUENCHED.lgRejuv ≤ 0 := by
  have hb := C01_bounded_params_in_bounds ⟨5, 5, 5, 5, 5, 5, 5, 5⟩
  have hq : (getBoundedDiffstarParams ⟨5, 5, 5, 5, 5, 5, 5, 5⟩).lgDrop = DEFAULT_Q_PARAMS_UNQUENCHED.lgDrop :=
    rfl
  have hr : (getBoundedDiffstarParams ⟨5, 5, 5, 5, 5, 5, 5, 5⟩).lgRejuv = DEFAULT_Q_PARAMS_UNQUENCHED.lgRejuv :=
    rfl
  refine ⟨?_, hq ▸ hr ▸ hb.lgRejuv.1.le, hr ▸ hb.lgRejuv.2.le⟩
  rw [← hq, bounded_eq]
  simp only [sigmoid, nnSigmoid]
  have e8 : (2824 : ℝ) ≤ Real.exp 8 := by
    have h : Real.exp 8 = Real.exp 1 ^ 8 := by rw [← Real.exp_nat_mul]; norm_num
    rw [h]
    calc (2824 : ℝ) ≤ 2.7182818283 ^ 8 := by norm_num
      _ ≤ Real.exp 1 ^ 8 := pow_le_pow_left₀ (by norm_num) Real.exp_one_gt_d9.le 8
  have e : (2824 : ℝ) ≤ Real.exp (4 / 3 * (5 - -1.5)) :=
    e8.trans (Real.exp_le_exp.2 (by norm_num))
  set E := Real.exp (4 / 3 * (5 - -1.5)) with hE
  have hneg : Real.exp (-(4 / 3 * (5 - -1.5))) = 1 / E := by rw [Real.exp_neg, one_div]
  rw [hneg]
  have hEp : 0 < E := Real.exp_pos _
  have : 1 / (1 + 1 / E) = 1 - 1 / (1 + E) := by field_simp; ring
  rw [this]
  have : 1 / (1 + E) ≤ 1 / 2825 := one_div_le_one_div_of_le (by norm_num) (by linarith)
  linarith

theorem log_ten_lt_three : Real.log 10 < 3 := by
  rw [Real.log_lt_iff_lt_exp (by norm_num)]
  have h : Real.exp 3 = Real.exp 1 ^ 3 := by rw [← Real.exp_nat_mul]; norm_num
  rw [h]
  calc (10 : ℝ) < 2.7182818283 ^ 3 := by norm_num
    _ ≤ Real.exp 1 ^ 3 := pow_le_pow_left₀ (by norm_num) Real.exp_one_gt_d9.le 3

/-- **C08**: the quenching parameters of the main-sequence branch change the SFR by less than 1% at
every time. -/
theorem C08_unquenched_within_one_percent (lgt : ℝ) :
    let q := DEFAULT_Q_PARAMS_UNQUENCHED
    0.99 < quenchingKern lgt q.lgQt ((10 : ℝ) ^ q.qlglgdt) q.lgDrop q.lgRejuv ∧
      quenchingKern lgt q.lgQt ((10 : ℝ) ^ q.qlglgdt) q.lgDrop q.lgRejuv ≤ 1 := by
  intro q
  obtain ⟨h0, h1, h2⟩ := unquenched_drop
  obtain ⟨a, b, -⟩ := (C05_quenching_range lgt q.lgQt ((10 : ℝ) ^ q.qlglgdt) q.lgDrop q.lgRejuv
    (by positivity)).2.2.2 h1 h2
  refine ⟨lt_of_lt_of_le ?_ a, b⟩
  rw [Real.rpow_def_of_pos (by norm_num)]
  have l1 := log_ten_lt_three
  have l0 : 0 < Real.log 10 := Real.log_pos (by norm_num)
  have : 1 + Real.log 10 * q.lgDrop ≤ Real.exp (Real.log 10 * q.lgDrop) := by
    linarith [Real.add_one_le_exp (Real.log 10 * q.lgDrop)]
  refine lt_of_lt_of_le ?_ this
  have : -(3 * (3 / 2825)) ≤ Real.log 10 * q.lgDrop := by
    have : -(3 / 2825) ≤ q.lgDrop := h0
    nlinarith
  norm_num at this ⊢
  linarith

/-- **C08** at the level of the SFH: a galaxy with the unquenched quenching parameters has, at every
time, an SFR within 1% of (and not above) the main sequence, up to the floor. -/
theorem C08_unquenched_sfh {M : Type*} (logMah : M → ℝ → ℝ → ℝ) (ms : MSParams ℝ) (mah : M)
    (tarr : List ℝ) (lgt0 fb : ℝ) (hfb : 0 ≤ fb) (i : ℕ) (hi : i < tarr.length)
    (_ht : 0 < tarr[i]) :
    let p := DiffstarParams.join ms DEFAULT_Q_PARAMS_UNQUENCHED
    let m := msSfr p fb (logMah mah tarr[i] lgt0)
    ∃ s, (calcSfhSinglegal logMah p mah tarr lgt0 fb)[i]? = some s ∧
      0.99 * m ≤ s ∧ s ≤ max (1 / 10 ^ 14) m := by
  intro p m
  have hm : 0 ≤ m := msSfr_nonneg p hfb _
  have h := C08_unquenched_within_one_percent (Real.logb 10 tarr[i])
  simp only [quenchingKern_eq] at h
  refine ⟨_, by rw [calcSfhSinglegal_eq, List.getElem?_map, List.getElem?_eq_getElem hi]; rfl, ?_, ?_⟩
  · exact le_max_of_le_right (mul_le_mul_of_nonneg_right h.1.le hm)
  · apply max_le_max le_rfl
    have := mul_le_mul_of_nonneg_right h.2 hm
    rw [one_mul] at this
    exact this

example : (0 : ℝ) ≤ 0.156 ∧ 2 < ([1, 5, 13] : List ℝ).length ∧ (0 : ℝ) < ([1, 5, 13] : List ℝ)[2] := by
  norm_num

/-! ### C09 -/

/-- **C09**: pivot value and sharp global bound of the main-sequence efficiency. -/
theorem C09_efficiency_bound (lgm lgmcrit lgy indxLo indxHi : ℝ) :
    sfrEffPlaw lgmcrit lgmcrit lgy indxLo indxHi = lgy ∧
    (0 ≤ indxLo → indxHi ≤ 0 →
      sfrEffPlaw lgm lgmcrit lgy indxLo indxHi ≤ lgy + max indxLo (-indxHi) / 27) := by
  refine ⟨by simp [sfrEffPlaw], fun h1 h2 => ?_⟩
  simp only [sfrEffPlaw, sigmoid, INDX_K]
  set d := lgm - lgmcrit with hd
  have hs := nnSigmoid_pos (9 * d)
  have hs1 := nnSigmoid_lt_one (9 * d)
  have a := mul_nnSigmoid_neg_le (9 * d)
  have b := mul_nnSigmoid_ge (9 * d)
  rw [nnSigmoid_neg] at a
  set S := nnSigmoid (9 * d)
  have e : (indxLo + (indxHi - indxLo) * S) * d = indxLo * (d * (1 - S)) + (-indxHi) * (-(d * S)) := by
    ring
  rw [e]
  have a' : d * (1 - S) ≤ 1 / 27 := by linarith
  have b' : -(d * S) ≤ 1 / 27 := by linarith
  rcases le_total 0 d with h | h
  · have : indxLo * (d * (1 - S)) ≤ max indxLo (-indxHi) * (1 / 27) :=
      mul_le_mul (le_max_left _ _) a' (mul_nonneg h (by linarith)) (h1.trans (le_max_left _ _))
    have : (-indxHi) * (-(d * S)) ≤ 0 := by
      nlinarith [mul_nonneg (mul_nonneg (neg_nonneg.2 h2) h) hs.le]
    linarith
  · have : (-indxHi) * (-(d * S)) ≤ max indxLo (-indxHi) * (1 / 27) :=
      mul_le_mul (le_max_right _ _) b' (by nlinarith) (h1.trans (le_max_left _ _))
    have : indxLo * (d * (1 - S)) ≤ 0 := by
      nlinarith [mul_nonneg (mul_nonneg h1 (neg_nonneg.2 h)) (sub_nonneg.2 hs1.le)]
    linarith

/-- **C09**, consequence for users: with bounded parameters no galaxy at any time forms stars faster
than `max(1e-14, fb * Mh * 10 ** (lgy_at_mcrit + 5/27))`. -/
theorem C09_sfr_upper_bound {M : Type*} (logMah : M → ℝ → ℝ → ℝ) (u : DiffstarParams ℝ)
    (mah : M) (tarr : List ℝ) (lgt0 fb : ℝ) (hfb : 0 ≤ fb) (i : ℕ) (hi : i < tarr.length)
    (ht : 0 < tarr[i]) :
    let p := getBoundedDiffstarParams u
    ∃ s, (calcSfhSinglegal logMah p mah tarr lgt0 fb)[i]? = some s ∧
      s ≤ max (1 / 10 ^ 14)
        (fb * (10 : ℝ) ^ logMah mah tarr[i] lgt0 * (10 : ℝ) ^ (p.lgyAtMcrit + 5 / 27)) := by
  intro p
  obtain ⟨s, hs, hle, -⟩ := C07_quenching_only_reduces logMah u mah tarr lgt0 fb hfb i hi ht
  refine ⟨s, hs, hle.trans (max_le_max le_rfl ?_)⟩
  have hb := C01_bounded_params_in_bounds u
  unfold msSfr
  refine mul_le_mul_of_nonneg_left ?_ (by positivity)
  apply Real.rpow_le_rpow_of_exponent_le (by norm_num)
  have := (C09_efficiency_bound (logMah mah tarr[i] lgt0) p.lgmcrit p.lgyAtMcrit p.indxLo p.indxHi).2
    hb.indxLo.1.le hb.indxHi.2.le
  have e : msLogEfficiency p (logMah mah tarr[i] lgt0) =
      sfrEffPlaw (logMah mah tarr[i] lgt0) p.lgmcrit p.lgyAtMcrit p.indxLo p.indxHi := by
    simp only [msLogEfficiency, sfrEffPlaw, sigmoid, nnSigmoid, INDX_K]; ring_nf
  rw [e]
  have h5 : max p.indxLo (-p.indxHi) ≤ 5 := max_le hb.indxLo.2.le (by linarith [hb.indxHi.1])
  linarith

example : (0 : ℝ) ≤ 1 ∧ (-1 : ℝ) ≤ 0 ∧ sfrEffPlaw 11 12 (-10) 1 (-1) ≤ -10 + max 1 (-(-1)) / 27 :=
  ⟨by norm_num, by norm_num, (C09_efficiency_bound 11 12 (-10) 1 (-1)).2 (by norm_num) (by norm_num)⟩

/-! ### C10 -/

/-- **C10**: for each galaxy and time there is a positive number `S`, independent of `fb`, such that the
SFR is `max(1e-14, fb * S)` for every `fb`. -/
theorem C10_fb_scaling {M : Type*} (logMah : M → ℝ → ℝ → ℝ) (p : DiffstarParams ℝ)
    (mah : M) (tarr : List ℝ) (lgt0 : ℝ) (i : ℕ) (hi : i < tarr.length) (_ht : 0 < tarr[i]) :
    ∃ S : ℝ, 0 < S ∧ ∀ fb,
      (calcSfhSinglegal logMah p mah tarr lgt0 fb)[i]? = some (max (1 / 10 ^ 14) (fb * S)) := by
  refine ⟨(10 : ℝ) ^ qExp (Real.logb 10 tarr[i]) p.lgQt ((10 : ℝ) ^ p.qlglgdt) p.lgDrop p.lgRejuv *
    msSfr p 1 (logMah mah tarr[i] lgt0), ?_, fun fb => ?_⟩
  · unfold msSfr; positivity
  · rw [calcSfhSinglegal_eq, List.getElem?_map, List.getElem?_eq_getElem hi]
    simp only [Option.map_some, msSfr, Option.some.injEq]
    congr 1
    ring

/-- **C10**, consequences: monotone in `fb`; above the floor scaling `fb` by `c` scales the SFR by `c`. -/
theorem C10_fb_monotone_and_linear {M : Type*} (logMah : M → ℝ → ℝ → ℝ) (p : DiffstarParams ℝ)
    (mah : M) (tarr : List ℝ) (lgt0 : ℝ) (i : ℕ) (hi : i < tarr.length) (ht : 0 < tarr[i]) (fb c s s' : ℝ)
    (hs : (calcSfhSinglegal logMah p mah tarr lgt0 fb)[i]? = some s)
    (hs' : (calcSfhSinglegal logMah p mah tarr lgt0 (c * fb))[i]? = some s') :
    (fb ≤ c * fb → s ≤ s') ∧ (1 / 10 ^ 14 < s → 1 / 10 ^ 14 < s' → s' = c * s) := by
  obtain ⟨S, hS, h⟩ := C10_fb_scaling logMah p mah tarr lgt0 i hi ht
  rw [h fb, Option.some.injEq] at hs
  rw [h (c * fb), Option.some.injEq] at hs'
  subst hs hs'
  refine ⟨fun h => max_le_max le_rfl (mul_le_mul_of_nonneg_right h hS.le), fun h1 h2 => ?_⟩
  rw [lt_max_iff] at h1 h2
  rcases h1 with h1 | h1
  · exact absurd h1 (lt_irrefl _)
  rcases h2 with h2 | h2
  · exact absurd h2 (lt_irrefl _)
  rw [max_eq_right h1.le, max_eq_right h2.le]
  ring

end Diffstar.Props
