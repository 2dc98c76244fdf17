import Verif.Model.Sfh
import Mathlib.Algebra.Order.Round
import Mathlib.Data.Int.Log

/-!
Floating-point versions of some functions of the package: every arithmetic operation is followed by a rounding. JAX computes
in single precision unless it is told otherwise (the package does not).

Simplifications: the range of exponents is unbounded (no overflow, no underflow); operations are rounded one by one in the
order of the source (a compiler may merge a product and a sum into one operation).
-/

namespace Diffstar

noncomputable section

/-- A rounding of real numbers to floating-point numbers. `u` is the unit roundoff. -/
structure Rounding where
  fl : ℝ → ℝ
  u : ℝ
  mono : Monotone fl
  idem : ∀ x, fl (fl x) = fl x
  neg : ∀ x, fl (-x) = -fl x
  one : fl 1 = 1
  err : ∀ x, |fl x - x| ≤ u * |x|

/-- Nearest integer, ties to even (IEEE 754 `roundTiesToEven`). -/
def roundEven (x : ℝ) : ℤ :=
  if x - ⌊x⌋ < 1 / 2 then ⌊x⌋ else if 1 / 2 < x - ⌊x⌋ then ⌊x⌋ + 1 else if Even ⌊x⌋ then ⌊x⌋ else ⌊x⌋ + 1

/-- Spacing of the floating-point numbers with `p` significant bits around `x > 0`. -/
def ulp (p : ℕ) (x : ℝ) : ℝ := 2 ^ (Int.log 2 x + 1 - p)

/-- Nearest floating-point number with `p` significant bits: `p = 24` is single, `p = 53` double precision. -/
def ieee (p : ℕ) (x : ℝ) : ℝ :=
  if 0 ≤ x then roundEven (x / ulp p x) * ulp p x else -(roundEven (-x / ulp p (-x)) * ulp p (-x))

namespace Rounding

variable (R : Rounding)

/-- `_cumtrapz_scan_func`, `diffstar/utils.py` L206-213. -/
def cumtrapzScanFunc (carryover : ℝ × ℝ × ℝ) (el : ℝ × ℝ) : (ℝ × ℝ × ℝ) × ℝ :=
  let b := el.1
  let fb := el.2
  let a := carryover.1
  let fa := carryover.2.1
  let c := R.fl (carryover.2.2 + R.fl (R.fl (R.fl (b - a) * R.fl (fb + fa)) / 2))
  ((b, fb, c), c)

/-- `cumtrapz`, `diffstar/utils.py` L216-234. -/
def cumtrapz (xarr yarr : List ℝ) : List ℝ :=
  match xarr, yarr with
  | x0 :: xs, y0 :: ys => scanOut R.cumtrapzScanFunc (x0, y0, 0) (List.zip (x0 :: xs) (y0 :: ys))
  | _, _ => []

/-- `cumulative_mstar_formed`, `diffstar/utils.py` L237-275. -/
def cumulativeMstarFormed (tTable sfhTable : List ℝ) : List ℝ :=
  let paddedT := R.fl T_BIRTH_MIN :: tTable
  let paddedSfh := R.fl SFR_MIN :: sfhTable
  ((R.cumtrapz paddedT paddedSfh).drop 1).map fun m => R.fl (m * R.fl YEAR_PER_GYR)

/-- `jax.nn.sigmoid` (library), with an exponential function `exp` of the library (`lax.logistic` as `1 / (1 + exp(-x))`). -/
def nnSigmoid (exp : ℝ → ℝ) (x : ℝ) : ℝ := R.fl (1 / R.fl (1 + exp (-x)))

/-- `_sigmoid`, `diffstar/utils.py` L72-95. -/
def sigmoid (exp : ℝ → ℝ) (x x0 k ymin ymax : ℝ) : ℝ :=
  let heightDiff := R.fl (ymax - ymin)
  R.fl (ymin + R.fl (heightDiff * R.nnSigmoid exp (R.fl (k * R.fl (x - x0)))))

/-- `_inverse_sigmoid`, `diffstar/utils.py` L98-101; `none` is a result that is not finite: division by zero or logarithm of
a number that is not positive. -/
def inverseSigmoid (log : ℝ → ℝ) (y x0 k ymin ymax : ℝ) : Option ℝ :=
  let d := R.fl (y - ymin)
  if d = 0 then none else
    let lnarg := R.fl (R.fl (R.fl (ymax - ymin) / d) - 1)
    if lnarg ≤ 0 then none else some (R.fl (x0 - R.fl (log lnarg / k)))

/-- `_sigmoid(u, *PDICT[key])`: the four numbers of `calculate_sigmoid_bounds` (computed in double precision, here exactly)
enter as floating-point numbers, `kernels/main_sequence_kernels.py` L32-44 and L73-76. -/
def sigmoidB (exp : ℝ → ℝ) (x : ℝ) (b : ℝ × ℝ × ℝ × ℝ) : ℝ :=
  R.sigmoid exp x (R.fl b.1) (R.fl b.2.1) (R.fl b.2.2.1) (R.fl b.2.2.2)

/-- `_inverse_sigmoid(p, *PDICT[key])`. -/
def inverseSigmoidB (log : ℝ → ℝ) (p : ℝ) (b : ℝ × ℝ × ℝ × ℝ) : Option ℝ :=
  R.inverseSigmoid log p (R.fl b.1) (R.fl b.2.1) (R.fl b.2.2.1) (R.fl b.2.2.2)

/-- `_get_bounded_sfr_params`, `kernels/main_sequence_kernels.py` L66-83. -/
def getBoundedSfrParams (exp : ℝ → ℝ) (u : MSParams ℝ) : MSParams ℝ :=
  ⟨R.sigmoidB exp u.lgmcrit MS_BOUNDING_SIGMOID.lgmcrit, R.sigmoidB exp u.lgyAtMcrit MS_BOUNDING_SIGMOID.lgyAtMcrit,
    R.sigmoidB exp u.indxLo MS_BOUNDING_SIGMOID.indxLo, R.sigmoidB exp u.indxHi MS_BOUNDING_SIGMOID.indxHi⟩

/-- `_get_bounded_q_params` and `_get_bounded_lg_rejuv`, `kernels/quenching_kernels.py` L131-160. -/
def getBoundedQParams (exp : ℝ → ℝ) (u : QParams ℝ) : QParams ℝ :=
  let lgDrop := R.sigmoidB exp u.lgDrop Q_BOUNDING_SIGMOID.lgDrop
  ⟨R.sigmoidB exp u.lgQt Q_BOUNDING_SIGMOID.lgQt, R.sigmoidB exp u.qlglgdt Q_BOUNDING_SIGMOID.qlglgdt, lgDrop,
    R.sigmoid exp u.lgRejuv (R.fl Q_BOUNDING_SIGMOID.lgRejuv.1) (R.fl Q_BOUNDING_SIGMOID.lgRejuv.2.1) lgDrop
      (R.fl Q_BOUNDING_SIGMOID.lgRejuv.2.2.2)⟩

/-- `get_bounded_diffstar_params`, `defaults.py` L54-76. -/
def getBoundedDiffstarParams (exp : ℝ → ℝ) (u : DiffstarParams ℝ) : DiffstarParams ℝ :=
  DiffstarParams.join (R.getBoundedSfrParams exp u.ms) (R.getBoundedQParams exp u.q)

/-- `_get_unbounded_sfr_params`, `kernels/main_sequence_kernels.py` L86-105. -/
def getUnboundedSfrParams (log : ℝ → ℝ) (p : MSParams ℝ) : MSParams (Option ℝ) :=
  ⟨R.inverseSigmoidB log p.lgmcrit MS_BOUNDING_SIGMOID.lgmcrit, R.inverseSigmoidB log p.lgyAtMcrit MS_BOUNDING_SIGMOID.lgyAtMcrit,
    R.inverseSigmoidB log p.indxLo MS_BOUNDING_SIGMOID.indxLo, R.inverseSigmoidB log p.indxHi MS_BOUNDING_SIGMOID.indxHi⟩

/-- `_get_unbounded_q_params` and `_get_unbounded_qrejuv`, `kernels/quenching_kernels.py` L169-186. -/
def getUnboundedQParams (log : ℝ → ℝ) (p : QParams ℝ) : QParams (Option ℝ) :=
  ⟨R.inverseSigmoidB log p.lgQt Q_BOUNDING_SIGMOID.lgQt, R.inverseSigmoidB log p.qlglgdt Q_BOUNDING_SIGMOID.qlglgdt,
    R.inverseSigmoidB log p.lgDrop Q_BOUNDING_SIGMOID.lgDrop,
    R.inverseSigmoid log p.lgRejuv (R.fl Q_BOUNDING_SIGMOID.lgRejuv.1) (R.fl Q_BOUNDING_SIGMOID.lgRejuv.2.1) p.lgDrop
      (R.fl Q_BOUNDING_SIGMOID.lgRejuv.2.2.2)⟩

/-- `get_unbounded_diffstar_params`, `defaults.py` L79-102. -/
def getUnboundedDiffstarParams (log : ℝ → ℝ) (p : DiffstarParams ℝ) : DiffstarParams (Option ℝ) :=
  DiffstarParams.join (R.getUnboundedSfrParams log p.ms) (R.getUnboundedQParams log p.q)

/-- `x**3`, `x**5` and `x**7`: repeated squaring (`lax.integer_pow`). -/
def pow3 (x : ℝ) : ℝ := R.fl (x * R.fl (x * x))

/-- See `pow3`. -/
def pow5 (x : ℝ) : ℝ := R.fl (x * R.fl (R.fl (x * x) * R.fl (x * x)))

/-- See `pow3`. -/
def pow7 (x : ℝ) : ℝ := R.fl (R.pow3 x * R.fl (R.fl (x * x) * R.fl (x * x)))

/-- The polynomial of the triweight kernel, `kernels/quenching_kernels.py` L117 (same text in `diffstar/utils.py` L139-145 and
`diffstarpop/sumstats/diffndhist.py`). -/
def twPoly (y : ℝ) : ℝ :=
  R.fl (R.fl (R.fl (R.fl (R.fl (R.fl (-5 * R.pow7 y) / 69984) + R.fl (R.fl (7 * R.pow5 y) / 2592)) -
    R.fl (R.fl (35 * R.pow3 y) / 864)) + R.fl (R.fl (35 * y) / 96)) + 1 / 2)

/-- `_jax_tw`, `kernels/quenching_kernels.py` L115-120. -/
def jaxTw (y : ℝ) : ℝ := if y > 3 then 1 else if y < -3 then 0 else R.twPoly y

/-- `_jax_partial_u_tw_kern`, `kernels/quenching_kernels.py` L123-128. -/
def jaxPartialUTwKern (x m h f1 f2 : ℝ) : ℝ :=
  let y := R.fl (R.fl (x - m) / h)
  let z := R.fl (f1 * R.jaxTw (R.fl (y + 3)))
  let w := R.fl (f1 - R.fl (f2 * R.jaxTw (R.fl (y - 3))))
  if y < 0 then z else w

/-- `_quenching_kern`, `kernels/quenching_kernels.py` L77-112, with a function `pow10` of the library for powers of ten. -/
def quenchingKern (pow10 : ℝ → ℝ) (lgt lgQt lgQDt qDrop qRejuv : ℝ) : ℝ :=
  let lgQDtBy12 := R.fl (lgQDt / 12)
  let f2 := R.fl (qDrop - qRejuv)
  pow10 (R.jaxPartialUTwKern lgt lgQt lgQDtBy12 qDrop f2)

/-- `tw_cuml_jax_kern`, `diffstar/utils.py` L111-147. -/
def twCumlJaxKern (x m h : ℝ) : ℝ :=
  let y := R.fl (R.fl (x - m) / h)
  if y < -3 then 0 else if y > 3 then 1 else R.twPoly y

/-- `tw_bin_jax_kern`, `diffstar/utils.py` L150-171. -/
def twBinJaxKern (m h L H : ℝ) : ℝ := R.fl (R.twCumlJaxKern H m h - R.twCumlJaxKern L m h)

/-- Functions of the mathematical library in floating-point arithmetic: `jnp.exp`, `10**x` and `jnp.log10`. -/
structure MathLib where
  exp : ℝ → ℝ
  pow10 : ℝ → ℝ
  log10 : ℝ → ℝ

/-- `_sfr_eff_plaw`, `kernels/main_sequence_kernels.py` L47-51. -/
def sfrEffPlaw (exp : ℝ → ℝ) (lgm lgmcrit lgyAtMcrit indxLo indxHi : ℝ) : ℝ :=
  let slope := R.sigmoid exp lgm lgmcrit INDX_K indxLo indxHi
  R.fl (lgyAtMcrit + R.fl (slope * R.fl (lgm - lgmcrit)))

/-- `sfh_ms_kernel`, `kernels/main_sequence_kernels.py` L54-59. `logMah` stands for diffmah's `_log_mah_kern` in floating-point
arithmetic. -/
def sfhMsKernel {M : Type*} (L : MathLib) (logMah : M → ℝ → ℝ → ℝ) (tform : ℝ) (mahParams : M)
    (ms : MSParams ℝ) (logt0 fb : ℝ) : ℝ :=
  let lm := logMah mahParams tform logt0
  let mgash := R.fl (fb * L.pow10 lm)
  R.fl (mgash * L.pow10 (R.sfrEffPlaw L.exp lm ms.lgmcrit ms.lgyAtMcrit ms.indxLo ms.indxHi))

/-- `_sfh_singlegal_scalar`, `kernels/history_kernel_builders.py` L14-28. -/
def sfhSinglegalScalar {M : Type*} (L : MathLib) (logMah : M → ℝ → ℝ → ℝ) (tform : ℝ) (mahParams : M)
    (ms : MSParams ℝ) (q : QParams ℝ) (logt0 fb : ℝ) : ℝ :=
  let lgtForm := L.log10 tform
  let sfrMs := R.sfhMsKernel L logMah tform mahParams ms logt0 fb
  let lgQDt := L.pow10 q.qlglgdt
  let qfunc := R.quenchingKern L.pow10 lgtForm q.lgQt lgQDt q.lgDrop q.lgRejuv
  let sfr := R.fl (qfunc * sfrMs)
  if sfr < R.fl SFR_MIN then R.fl SFR_MIN else sfr

/-- `calc_sfh_singlegal(..., return_smh=True)`, `sfh_model.py` L18-76. -/
def calcSfhSinglegalSmh {M : Type*} (L : MathLib) (logMah : M → ℝ → ℝ → ℝ) (sfhParams : DiffstarParams ℝ)
    (mahParams : M) (tarr : List ℝ) (lgt0 fb : ℝ) : GalHistory (List ℝ) :=
  let sfh := tarr.map fun t => R.sfhSinglegalScalar L logMah t mahParams sfhParams.ms sfhParams.q lgt0 fb
  let smh := R.cumulativeMstarFormed tarr sfh
  ⟨sfh, smh⟩

end Rounding

end

end Diffstar
