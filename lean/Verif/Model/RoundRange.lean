import Verif.Model.Rounding

/-! Star formation histories in floating-point arithmetic with a limited range of exponents: results can underflow and overflow. Exceptions:
`jnp.log10` neither underflows nor overflows for floating-point arguments between 0.01 and 100, and constants of the source are in the range. -/

namespace Diffstar

noncomputable section

/-- Arithmetic, exponential function and powers of ten with the range of single precision: as `R` and `L` between `2^-126` and `2^127`. Below that range a
result is only known to be small (gradual underflow and flushing to zero are both possible), above it may be infinite: `none`. -/
structure Machine (R : Rounding) (L : Rounding.MathLib) where
  fl : ℝ → Option ℝ
  exp : ℝ → Option ℝ
  pow10 : ℝ → Option ℝ
  fl_zero : fl 0 = some 0
  fl_normal : ∀ x, 2 ^ (-126 : ℤ) ≤ |x| → |x| ≤ 2 ^ (127 : ℤ) → fl x = some (R.fl x)
  fl_tiny : ∀ x, |x| < 2 ^ (-126 : ℤ) → ∃ y, fl x = some y ∧ |y| ≤ 2 ^ (-126 : ℤ) ∧ (0 ≤ x → 0 ≤ y)
  fl_large : ∀ x, 2 ^ (127 : ℤ) < |x| → fl x = none ∨ fl x = some (R.fl x)
  exp_normal : ∀ x, 2 ^ (-126 : ℤ) ≤ L.exp x → L.exp x ≤ 2 ^ (127 : ℤ) → exp x = some (L.exp x)
  exp_tiny : ∀ x, L.exp x < 2 ^ (-126 : ℤ) → ∃ y, exp x = some y ∧ 0 ≤ y ∧ y ≤ 2 ^ (-126 : ℤ)
  exp_large : ∀ x, 2 ^ (127 : ℤ) < L.exp x → exp x = none ∨ exp x = some (L.exp x)
  pow10_normal : ∀ x, 2 ^ (-126 : ℤ) ≤ L.pow10 x → L.pow10 x ≤ 2 ^ (127 : ℤ) → pow10 x = some (L.pow10 x)
  pow10_tiny : ∀ x, L.pow10 x < 2 ^ (-126 : ℤ) → ∃ y, pow10 x = some y ∧ 0 ≤ y ∧ y ≤ 2 ^ (-126 : ℤ)

namespace Machine

variable {R : Rounding} {L : Rounding.MathLib} (A : Machine R L)

/-- `jax.nn.sigmoid` (library) as `1 / (1 + exp(-x))`, which is zero if the denominator is infinite. -/
def nnSigmoid (x : ℝ) : Option ℝ :=
  match (A.exp (-x)).bind fun e => A.fl (1 + e) with
  | none => some 0
  | some s => A.fl (1 / s)

/-- `_sigmoid`, `diffstar/utils.py` L72-95. -/
def sigmoid (x x0 k ymin ymax : ℝ) : Option ℝ :=
  (A.fl (ymax - ymin)).bind fun heightDiff => (A.fl (x - x0)).bind fun d => (A.fl (k * d)).bind fun arg => (A.nnSigmoid arg).bind fun s =>
    (A.fl (heightDiff * s)).bind fun r => A.fl (ymin + r)

/-- `_sfr_eff_plaw`, `kernels/main_sequence_kernels.py` L47-51. -/
def sfrEffPlaw (lgm lgmcrit lgyAtMcrit indxLo indxHi : ℝ) : Option ℝ :=
  (A.sigmoid lgm lgmcrit INDX_K indxLo indxHi).bind fun slope => (A.fl (lgm - lgmcrit)).bind fun d => (A.fl (slope * d)).bind fun e =>
    A.fl (lgyAtMcrit + e)

/-- The polynomial of the triweight kernel, `kernels/quenching_kernels.py` L117; powers by repeated squaring as in `Rounding.twPoly`. -/
def twPoly (y : ℝ) : Option ℝ :=
  (A.fl (y * y)).bind fun y2 => (A.fl (y2 * y2)).bind fun y4 => (A.fl (y * y2)).bind fun y3 => (A.fl (y * y4)).bind fun y5 =>
  (A.fl (y3 * y4)).bind fun y7 => (A.fl (-5 * y7)).bind fun a7 => (A.fl (a7 / 69984)).bind fun b7 =>
  (A.fl (7 * y5)).bind fun a5 => (A.fl (a5 / 2592)).bind fun b5 => (A.fl (35 * y3)).bind fun a3 => (A.fl (a3 / 864)).bind fun b3 =>
  (A.fl (35 * y)).bind fun a1 => (A.fl (a1 / 96)).bind fun b1 => (A.fl (b7 + b5)).bind fun s => (A.fl (s - b3)).bind fun s =>
  (A.fl (s + b1)).bind fun s => A.fl (s + 1 / 2)

/-- `_jax_tw`, `kernels/quenching_kernels.py` L115-120. -/
def jaxTw (y : ℝ) : Option ℝ := if y > 3 then some 1 else if y < -3 then some 0 else A.twPoly y

/-- `_jax_partial_u_tw_kern`, `kernels/quenching_kernels.py` L123-128. -/
def jaxPartialUTwKern (x m h f1 f2 : ℝ) : Option ℝ :=
  (A.fl (x - m)).bind fun d => (A.fl (d / h)).bind fun y =>
    let z := (A.fl (y + 3)).bind fun v => (A.jaxTw v).bind fun tw => A.fl (f1 * tw)
    let w := (A.fl (y - 3)).bind fun v => (A.jaxTw v).bind fun tw => (A.fl (f2 * tw)).bind fun g => A.fl (f1 - g)
    if y < 0 then z else w

/-- `_quenching_kern`, `kernels/quenching_kernels.py` L77-112. -/
def quenchingKern (lgt lgQt lgQDt qDrop qRejuv : ℝ) : Option ℝ :=
  (A.fl (lgQDt / 12)).bind fun lgQDtBy12 => (A.fl (qDrop - qRejuv)).bind fun f2 => (A.jaxPartialUTwKern lgt lgQt lgQDtBy12 qDrop f2).bind A.pow10

/-- `sfh_ms_kernel`, `kernels/main_sequence_kernels.py` L54-59. -/
def sfhMsKernel {M : Type*} (logMah : M → ℝ → ℝ → ℝ) (tform : ℝ) (mahParams : M) (ms : MSParams ℝ) (logt0 fb : ℝ) : Option ℝ :=
  let lm := logMah mahParams tform logt0
  (A.pow10 lm).bind fun mass => (A.fl (fb * mass)).bind fun mgash =>
    (A.sfrEffPlaw lm ms.lgmcrit ms.lgyAtMcrit ms.indxLo ms.indxHi).bind fun lgEff => (A.pow10 lgEff).bind fun eff => A.fl (mgash * eff)

/-- `_sfh_singlegal_scalar`, `kernels/history_kernel_builders.py` L14-28. -/
def sfhSinglegalScalar {M : Type*} (logMah : M → ℝ → ℝ → ℝ) (tform : ℝ) (mahParams : M) (ms : MSParams ℝ) (q : QParams ℝ) (logt0 fb : ℝ) : Option ℝ :=
  (A.sfhMsKernel logMah tform mahParams ms logt0 fb).bind fun sfrMs => (A.pow10 q.qlglgdt).bind fun lgQDt =>
    (A.quenchingKern (L.log10 tform) q.lgQt lgQDt q.lgDrop q.lgRejuv).bind fun qfunc =>
      (A.fl (qfunc * sfrMs)).map fun sfr => if sfr < R.fl SFR_MIN then R.fl SFR_MIN else sfr

/-- `_cumtrapz_scan_func`, `diffstar/utils.py` L206-213. -/
def cumtrapzScanFunc (carryover : ℝ × ℝ × ℝ) (el : ℝ × ℝ) : Option ℝ :=
  (A.fl (el.1 - carryover.1)).bind fun width => (A.fl (el.2 + carryover.2.1)).bind fun height => (A.fl (width * height)).bind fun area =>
    (A.fl (area / 2)).bind fun half => A.fl (carryover.2.2 + half)

/-- `scan` of `cumtrapz`, `diffstar/utils.py` L216-234. -/
def scan : ℝ × ℝ × ℝ → List (ℝ × ℝ) → Option (List ℝ)
  | _, [] => some []
  | c, e :: es => (A.cumtrapzScanFunc c e).bind fun m => (scan (e.1, e.2, m) es).map (m :: ·)

/-- `cumulative_mstar_formed`, `diffstar/utils.py` L237-275. -/
def cumulativeMstarFormed (tTable sfhTable : List ℝ) : Option (List ℝ) :=
  (A.scan (R.fl T_BIRTH_MIN, R.fl SFR_MIN, 0) (List.zip (R.fl T_BIRTH_MIN :: tTable) (R.fl SFR_MIN :: sfhTable))).bind fun m =>
    (m.drop 1).mapM fun m => A.fl (m * R.fl YEAR_PER_GYR)

/-- `calc_sfh_singlegal(..., return_smh=True)`, `sfh_model.py` L18-76. -/
def calcSfhSinglegalSmh {M : Type*} (logMah : M → ℝ → ℝ → ℝ) (sfhParams : DiffstarParams ℝ) (mahParams : M) (tarr : List ℝ) (lgt0 fb : ℝ) :
    Option (GalHistory (List ℝ)) :=
  (tarr.mapM fun t => A.sfhSinglegalScalar logMah t mahParams sfhParams.ms sfhParams.q lgt0 fb).bind fun sfh =>
    (A.cumulativeMstarFormed tarr sfh).map fun smh => ⟨sfh, smh⟩

/-- `_sigmoid(u, *PDICT[key])`, as `Rounding.sigmoidB`: `kernels/main_sequence_kernels.py` L32-44 and L73-76. -/
def sigmoidB (x : ℝ) (b : ℝ × ℝ × ℝ × ℝ) : Option ℝ := A.sigmoid x (R.fl b.1) (R.fl b.2.1) (R.fl b.2.2.1) (R.fl b.2.2.2)

/-- `get_bounded_diffstar_params`, `defaults.py` L54-76, with `_get_bounded_sfr_params`, `kernels/main_sequence_kernels.py` L66-83, and
`_get_bounded_q_params`, `_get_bounded_lg_rejuv`, `kernels/quenching_kernels.py` L131-160. -/
def getBoundedDiffstarParams (u : DiffstarParams ℝ) : Option (DiffstarParams ℝ) :=
  (A.sigmoidB u.lgmcrit MS_BOUNDING_SIGMOID.lgmcrit).bind fun lgmcrit => (A.sigmoidB u.lgyAtMcrit MS_BOUNDING_SIGMOID.lgyAtMcrit).bind fun lgyAtMcrit =>
  (A.sigmoidB u.indxLo MS_BOUNDING_SIGMOID.indxLo).bind fun indxLo => (A.sigmoidB u.indxHi MS_BOUNDING_SIGMOID.indxHi).bind fun indxHi =>
  (A.sigmoidB u.lgDrop Q_BOUNDING_SIGMOID.lgDrop).bind fun lgDrop => (A.sigmoidB u.lgQt Q_BOUNDING_SIGMOID.lgQt).bind fun lgQt =>
  (A.sigmoidB u.qlglgdt Q_BOUNDING_SIGMOID.qlglgdt).bind fun qlglgdt =>
  (A.sigmoid u.lgRejuv (R.fl Q_BOUNDING_SIGMOID.lgRejuv.1) (R.fl Q_BOUNDING_SIGMOID.lgRejuv.2.1) lgDrop (R.fl Q_BOUNDING_SIGMOID.lgRejuv.2.2.2)).map
    fun lgRejuv => ⟨lgmcrit, lgyAtMcrit, indxLo, indxHi, lgQt, qlglgdt, lgDrop, lgRejuv⟩

/-- `calc_sfh_galpop(..., return_smh=True)`, `sfh_model.py` L79-144: `vmap` over galaxies, `kernels/history_kernel_builders.py` L35-41 and
`sfh_model.py` L13. A row without a value (`none`) has an infinite or undefined entry. -/
def calcSfhGalpopSmh {n : ℕ} (logMah : MahParams ℝ → ℝ → ℝ → ℝ) (sfhParams : DiffstarParams (Fin n → ℝ)) (mahParams : MahParams (Fin n → ℝ))
    (tarr : List ℝ) (lgt0 fb : ℝ) : GalHistory (Fin n → Option (List ℝ)) :=
  let sfh := fun i => tarr.mapM fun t => A.sfhSinglegalScalar logMah t (mahParams.row i) (sfhParams.ms.row i) (sfhParams.q.row i) lgt0 fb
  ⟨sfh, fun i => (sfh i).bind fun s => A.cumulativeMstarFormed tarr s⟩

end Machine

end

end Diffstar
