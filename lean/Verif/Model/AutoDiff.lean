import Verif.Model.FitGrad

/-!
Reverse-mode differentiation of the fitting loss, as `jax.grad` does it: the loss is first turned into an expression of
primitive operations (tracing), then cotangents are propagated from the result to the arguments. In a `where` both branches
are computed, and the branch that is not selected receives the cotangent zero; zero times a partial derivative that is not
finite is NaN.

Simplifications: real numbers (`none` is NaN or infinite); numbers that do not depend on the parameters enter as constants;
`vmap`, `jit` and `scan` do not change the operations; an expression that is used twice occurs twice (cotangents add up).
-/

namespace Diffstar.Trace

noncomputable section

/-- Traced expressions of the variables `ι`. `sel x y a b` is `where(x < y, a, b)`. -/
inductive Expr (ι : Type) where
  | var (i : ι)
  | const (c : ℝ)
  | add (a b : Expr ι)
  | sub (a b : Expr ι)
  | mul (a b : Expr ι)
  | div (a b : Expr ι)
  | pow (a : Expr ι) (k : ℕ)
  | pow10 (a : Expr ι)
  | log10 (a : Expr ι)
  | logistic (a : Expr ι)
  | sqrt (a : Expr ι)
  | sel (x y a b : Expr ι)
  | max (a b : Expr ι)
  | min (a b : Expr ι)

/-- Numbers with NaN. -/
abbrev F := Option ℝ

/-- Product with NaN. -/
def fmul (a b : F) : F := a.bind fun x => b.map fun y => x * y

/-- Sum with NaN. -/
def fadd (a b : F) : F := a.bind fun x => b.map fun y => x + y

/-- Comparison; false for NaN. -/
def flt : F → F → Prop
  | some x, some y => x < y
  | _, _ => False

open Classical in
/-- Value of an expression. -/
def Expr.eval {ι : Type} (u : ι → ℝ) : Expr ι → F
  | .var i => some (u i)
  | .const c => some c
  | .add a b => fadd (a.eval u) (b.eval u)
  | .sub a b => (a.eval u).bind fun x => (b.eval u).map fun y => x - y
  | .mul a b => fmul (a.eval u) (b.eval u)
  | .div a b => (a.eval u).bind fun x => (b.eval u).bind fun y => if y = 0 then none else some (x / y)
  | .pow a k => (a.eval u).map fun x => x ^ k
  | .pow10 a => (a.eval u).map fun x => (10 : ℝ) ^ x
  | .log10 a => (a.eval u).bind fun x => if x ≤ 0 then none else some (Real.logb 10 x)
  | .logistic a => (a.eval u).map nnSigmoid
  | .sqrt a => (a.eval u).bind fun x => if x < 0 then none else some (Real.sqrt x)
  | .sel x y a b => if flt (x.eval u) (y.eval u) then a.eval u else b.eval u
  | .max a b => (a.eval u).bind fun x => (b.eval u).map fun y => Max.max x y
  | .min a b => (a.eval u).bind fun x => (b.eval u).map fun y => Min.min x y

open Classical in
/-- Cotangents of the variables for the cotangent `ct` of the expression (the transposed rules of `jax.lax`). Equal arguments
of a maximum or minimum share the cotangent. -/
def Expr.backward {ι : Type} (u : ι → ℝ) : Expr ι → F → ι → F
  | .var i, ct => fun k => if k = i then ct else some 0
  | .const _, _ => fun _ => some 0
  | .add a b, ct => fun k => fadd (a.backward u ct k) (b.backward u ct k)
  | .sub a b, ct => fun k => fadd (a.backward u ct k) (b.backward u (fmul ct (some (-1))) k)
  | .mul a b, ct => fun k => fadd (a.backward u (fmul ct (b.eval u)) k) (b.backward u (fmul ct (a.eval u)) k)
  | .div a b, ct => fun k =>
      fadd (a.backward u (fmul ct ((Expr.const 1).eval u |>.bind fun x => (b.eval u).bind fun y =>
        if y = 0 then none else some (x / y))) k)
        (b.backward u (fmul ct ((a.eval u).bind fun x => (b.eval u).bind fun y =>
          if y = 0 then none else some (-(x / y) / y))) k)
  | .pow a m, ct => a.backward u (fmul ct ((a.eval u).map fun x => m * x ^ (m - 1)))
  | .pow10 a, ct => a.backward u (fmul ct ((a.eval u).map fun x => Real.log 10 * (10 : ℝ) ^ x))
  | .log10 a, ct => a.backward u (fmul ct ((a.eval u).bind fun x => if x = 0 then none else some (1 / x / Real.log 10)))
  | .logistic a, ct => a.backward u (fmul ct ((a.eval u).map fun x => nnSigmoid x * (1 - nnSigmoid x)))
  | .sqrt a, ct => a.backward u (fmul ct ((a.eval u).bind fun x => if x ≤ 0 then none else some (1 / 2 / Real.sqrt x)))
  | .sel x y a b, ct => fun k =>
      fadd (a.backward u (if flt (x.eval u) (y.eval u) then ct else some 0) k)
        (b.backward u (if flt (x.eval u) (y.eval u) then some 0 else ct) k)
  | .max a b, ct => fun k =>
      fadd (a.backward u (fmul ct ((a.eval u).bind fun x => (b.eval u).map fun y =>
        if x = y then 1 / 2 else if y < x then 1 else 0)) k)
        (b.backward u (fmul ct ((a.eval u).bind fun x => (b.eval u).map fun y =>
          if x = y then 1 / 2 else if x < y then 1 else 0)) k)
  | .min a b, ct => fun k =>
      fadd (a.backward u (fmul ct ((a.eval u).bind fun x => (b.eval u).map fun y =>
        if x = y then 1 / 2 else if x < y then 1 else 0)) k)
        (b.backward u (fmul ct ((a.eval u).bind fun x => (b.eval u).map fun y =>
          if x = y then 1 / 2 else if y < x then 1 else 0)) k)

/-- `jax.grad` of a traced scalar. -/
def Expr.grad {ι : Type} (e : Expr ι) (u : ι → ℝ) : ι → F := e.backward u (some 1)

variable {ι : Type}

/-- `_sigmoid`, `diffstar/utils.py` L72-95. -/
def sigmoid (x x0 k ymin ymax : Expr ι) : Expr ι :=
  let heightDiff := .sub ymax ymin
  .add ymin (.mul heightDiff (.logistic (.mul k (.sub x x0))))

/-- `_sigmoid(u, *PDICT[key])`. -/
def sigmoidB (x : Expr ι) (b : ℝ × ℝ × ℝ × ℝ) : Expr ι :=
  sigmoid x (.const b.1) (.const b.2.1) (.const b.2.2.1) (.const b.2.2.2)

/-- `get_bounded_diffstar_params`, `defaults.py` L54-76, with `_get_bounded_sfr_params`, `kernels/main_sequence_kernels.py`
L66-83, and `_get_bounded_q_params`, `kernels/quenching_kernels.py` L131-160. -/
def getBoundedDiffstarParams (u : DiffstarParams (Expr ι)) : DiffstarParams (Expr ι) :=
  let lgDrop := sigmoidB u.lgDrop Q_BOUNDING_SIGMOID.lgDrop
  ⟨sigmoidB u.lgmcrit MS_BOUNDING_SIGMOID.lgmcrit, sigmoidB u.lgyAtMcrit MS_BOUNDING_SIGMOID.lgyAtMcrit,
    sigmoidB u.indxLo MS_BOUNDING_SIGMOID.indxLo, sigmoidB u.indxHi MS_BOUNDING_SIGMOID.indxHi,
    sigmoidB u.lgQt Q_BOUNDING_SIGMOID.lgQt, sigmoidB u.qlglgdt Q_BOUNDING_SIGMOID.qlglgdt, lgDrop,
    sigmoid u.lgRejuv (.const Q_BOUNDING_SIGMOID.lgRejuv.1) (.const Q_BOUNDING_SIGMOID.lgRejuv.2.1) lgDrop
      (.const Q_BOUNDING_SIGMOID.lgRejuv.2.2.2)⟩

/-- `_sfr_eff_plaw`, `kernels/main_sequence_kernels.py` L47-51. -/
def sfrEffPlaw (lgm lgmcrit lgyAtMcrit indxLo indxHi : Expr ι) : Expr ι :=
  let slope := sigmoid lgm lgmcrit (.const INDX_K) indxLo indxHi
  .add lgyAtMcrit (.mul slope (.sub lgm lgmcrit))

/-- `sfh_ms_kernel`, `kernels/main_sequence_kernels.py` L54-59; the halo mass `lm` does not depend on the parameters. -/
def sfhMsKernel (lm fb : ℝ) (p : DiffstarParams (Expr ι)) : Expr ι :=
  let mgash := .const (fb * (10 : ℝ) ^ lm)
  .mul mgash (.pow10 (sfrEffPlaw (.const lm) p.lgmcrit p.lgyAtMcrit p.indxLo p.indxHi))

/-- `_jax_tw`, `kernels/quenching_kernels.py` L115-120. -/
def jaxTw (y : Expr ι) : Expr ι :=
  let v := .add (.add (.sub (.add (.div (.mul (.const (-5)) (.pow y 7)) (.const 69984))
    (.div (.mul (.const 7) (.pow y 5)) (.const 2592))) (.div (.mul (.const 35) (.pow y 3)) (.const 864)))
    (.div (.mul (.const 35) y) (.const 96))) (.const 0.5)
  let res := .sel y (.const (-3)) (.const 0) v
  .sel (.const 3) y (.const 1) res

/-- `_jax_partial_u_tw_kern`, `kernels/quenching_kernels.py` L123-128. -/
def jaxPartialUTwKern (x m h f1 f2 : Expr ι) : Expr ι :=
  let y := .div (.sub x m) h
  let z := .mul f1 (jaxTw (.add y (.const 3)))
  let w := .sub f1 (.mul f2 (jaxTw (.sub y (.const 3))))
  .sel y (.const 0) z w

/-- `_quenching_kern`, `kernels/quenching_kernels.py` L77-112. -/
def quenchingKern (lgt lgQt lgQDt qDrop qRejuv : Expr ι) : Expr ι :=
  let lgQDtBy12 := .div lgQDt (.const 12)
  let f2 := .sub qDrop qRejuv
  .pow10 (jaxPartialUTwKern lgt lgQt lgQDtBy12 qDrop f2)

/-- `_sfh_singlegal_scalar`, `kernels/history_kernel_builders.py` L14-28. Under `vmap`, `lax.cond` computes both branches. -/
def sfhSinglegalScalar (tform lm fb : ℝ) (p : DiffstarParams (Expr ι)) : Expr ι :=
  let sfrMs := sfhMsKernel lm fb p
  let lgQDt := .pow10 p.qlglgdt
  let qfunc := quenchingKern (.const (Real.logb 10 tform)) p.lgQt lgQDt p.lgDrop p.lgRejuv
  let sfr := .mul qfunc sfrMs
  .sel sfr (.const SFR_MIN) (.const SFR_MIN) sfr

/-- `_cumtrapz_scan_func`, `diffstar/utils.py` L206-213. -/
def cumtrapzScanFunc (carryover : ℝ × Expr ι × Expr ι) (el : ℝ × Expr ι) : (ℝ × Expr ι × Expr ι) × Expr ι :=
  let b := el.1
  let fb := el.2
  let a := carryover.1
  let fa := carryover.2.1
  let c := .add carryover.2.2 (.div (.mul (.const (b - a)) (.add fb fa)) (.const 2))
  ((b, fb, c), c)

/-- `cumulative_mstar_formed`, `diffstar/utils.py` L237-275. -/
def cumulativeMstarFormed (tTable : List ℝ) (sfhTable : List (Expr ι)) : List (Expr ι) :=
  let paddedT := T_BIRTH_MIN :: tTable
  let paddedSfh := .const SFR_MIN :: sfhTable
  ((scanOut cumtrapzScanFunc (T_BIRTH_MIN, .const SFR_MIN, .const 0) (List.zip paddedT paddedSfh)).drop 1).map
    fun m => .mul m (.const YEAR_PER_GYR)

/-- `jnp.interp` (library) for an abscissa and a table of abscissae that do not depend on the parameters: linear between table
points, clamped outside; every branch is computed. -/
def interp (x : ℝ) : List ℝ → List (Expr ι) → Expr ι
  | x0 :: x1 :: xs, y0 :: y1 :: ys =>
      .sel (.const x0) (.const x)
        (.sel (.const x1) (.const x) (interp x (x1 :: xs) (y1 :: ys))
          (.add y0 (.mul (.div (.sub y1 y0) (.const (x1 - x0))) (.const (x - x0))))) y0
  | _, y0 :: _ => y0
  | _, [] => .const 0

/-- `compute_fstar`, `diffstar/utils.py` L310-342. -/
def computeFstar (tarr : List ℝ) (mstar : List (Expr ι)) (fstarTdelay : ℝ) : List (Expr ι) :=
  let mstarLow := tarr.map fun t => interp (t - fstarTdelay) tarr mstar
  let fstar := List.zipWith (fun m mlo => Expr.div (.div (.sub m mlo) (.const fstarTdelay)) (.const (10 ^ 9))) mstar mstarLow
  fstar.map fun f => .sel (.const 0) f f (.const 0)

/-- `jnp.mean` of a non-empty array. -/
def mean (l : List (Expr ι)) : Expr ι := .div (l.foldr .add (.const 0)) (.const l.length)

/-- `loss_default_clipssfrh`, `diffstar/fitting_helpers/diffstar_fitting_helpers.py` L187-235, as a function of the eight
unbounded parameters (`u_params`, argument 0). `jnp.clip(x, lo, inf)` is a maximum, `jnp.clip(x, -1, 1)` a maximum and a
minimum. -/
def lossDefaultClipssfrh {M : Type} (logMah : M → ℝ → ℝ → ℝ) (d : Fit.LossData M) : Expr (Fin 8) :=
  let p := getBoundedDiffstarParams ⟨.var 0, .var 1, .var 2, .var 3, .var 4, .var 5, .var 6, .var 7⟩
  let sfhTable := d.t.map fun t => sfhSinglegalScalar t (logMah d.mah t d.lgt0) d.fb p
  let mstarTable := cumulativeMstarFormed d.t sfhTable
  let fstar := computeFstar d.t mstarTable d.fstarTdelay
  let fstar := List.zipWith (fun f m => Expr.max f (.mul m (.const (d.ssfrhFloor / 10)))) fstar mstarTable
  let sfhTable := List.zipWith (fun f m => Expr.max f (.mul m (.const (d.ssfrhFloor / 10)))) sfhTable mstarTable
  let logFstar := fstar.map .log10
  let logsmTable := mstarTable.map .log10
  let sfrRes := List.zipWith (fun x m => Expr.div (.mul (.const (10 ^ 8)) x) (.const m))
    (List.zipWith (fun a b => Expr.sub a (.const b)) sfhTable d.sfhTarget) d.mstarTarget
  let sfrRes := sfrRes.map fun x => .min (.max x (.const (-1))) (.const 1)
  let loss := .mul (.const 30) (mean (List.zipWith (fun x w => Expr.pow (.div x (.const w)) 2)
    (List.zipWith (fun a b => Expr.sub a (.const b)) logsmTable d.logmstarTarget) d.weight))
  let loss := .add loss (mean (List.zipWith (fun x w => Expr.pow (.div x (.const w)) 2)
    (List.zipWith (fun a b => Expr.sub a (.const b)) logFstar d.logFstarTarget) d.weightFstar))
  let loss := .add loss (mean (List.zipWith (fun x w => Expr.pow (.div x (.const w)) 2) sfrRes d.weight))
  let loss := .add loss (.mul (.const 0.5) (.pow
    ((List.zipWith (fun a b => Expr.sub a (.const b)) logFstar d.logFstarTarget).getLastD (.const 0)) 2))
  .add loss (sigmoid (.sub p.lgQt (.const d.lgtFstarMax)) (.const 0) (.const 50) (.const 100) (.const 0))

/-- `loss_grad_default_clipssfrh_np`, `diffstar_fitting_helpers.py` L238-242. -/
def lossGradDefaultClipssfrhNp {M : Type} (logMah : M → ℝ → ℝ → ℝ) (u : Fin 8 → ℝ) (d : Fit.LossData M) : List F :=
  List.ofFn ((lossDefaultClipssfrh logMah d).grad u)

/-- `np.isnan(loss_func_deriv(p_init_2, loss_data)).any()`, `fitting_helpers/utils.py` L70 and L76, for this gradient; a start
vector with NaN or inf (`none`) gives NaN. -/
def gradNan {M : Type} (logMah : M → ℝ → ℝ → ℝ) (d : Fit.LossData M) (p : Option (DiffstarParams ℝ)) : Bool :=
  match p with
  | none => true
  | some p => (lossGradDefaultClipssfrhNp logMah
      ![p.lgmcrit, p.lgyAtMcrit, p.indxLo, p.indxHi, p.lgQt, p.qlglgdt, p.lgDrop, p.lgRejuv] d).any Option.isNone

end

end Diffstar.Trace
