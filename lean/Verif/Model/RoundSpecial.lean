import Verif.Model.Rounding

/-!
The parameter transforms in floating point with infinities and NaN, as they occur for parameters that sit on their bounds. Numbers are
rounded as in `Model/Rounding.lean` (no limits of the exponent).
-/

namespace Diffstar

noncomputable section

/-- A result of IEEE arithmetic (library). -/
inductive Special where
  | num (x : ℝ)
  | posInf
  | negInf
  | nan

namespace Rounding

variable (R : Rounding)

/-- `_inverse_sigmoid`, `diffstar/utils.py` L98-101, for `k > 0`. A difference `y - ymin` of zero is positive zero: the quotient is
infinite with the sign of the numerator, or NaN; the logarithm of zero is minus infinity, of infinity infinity, of a negative number NaN. -/
def inverseSigmoidSpecial (log : ℝ → ℝ) (y x0 k ymin ymax : ℝ) : Special :=
  let n := R.fl (ymax - ymin)
  let d := R.fl (y - ymin)
  if d = 0 then (if 0 < n then Special.negInf else Special.nan) else
    let lnarg := R.fl (R.fl (n / d) - 1)
    if lnarg < 0 then Special.nan else if lnarg = 0 then Special.posInf else Special.num (R.fl (x0 - R.fl (log lnarg / k)))

/-- `_sigmoid`, `diffstar/utils.py` L72-95, for `k > 0`: `jax.nn.sigmoid` (library) is one at infinity and zero at minus infinity. -/
def sigmoidSpecial (exp : ℝ → ℝ) (x : Special) (x0 k ymin ymax : ℝ) : Special :=
  match x with
  | .num x => .num (R.sigmoid exp x x0 k ymin ymax)
  | .posInf => .num (R.fl (ymin + R.fl (R.fl (ymax - ymin) * 1)))
  | .negInf => .num (R.fl (ymin + R.fl (R.fl (ymax - ymin) * 0)))
  | .nan => .nan

/-- `_sigmoid(u, *PDICT[key])`. -/
def sigmoidBSpecial (exp : ℝ → ℝ) (x : Special) (b : ℝ × ℝ × ℝ × ℝ) : Special :=
  R.sigmoidSpecial exp x (R.fl b.1) (R.fl b.2.1) (R.fl b.2.2.1) (R.fl b.2.2.2)

/-- `_inverse_sigmoid(p, *PDICT[key])`. -/
def inverseSigmoidBSpecial (log : ℝ → ℝ) (p : ℝ) (b : ℝ × ℝ × ℝ × ℝ) : Special :=
  R.inverseSigmoidSpecial log p (R.fl b.1) (R.fl b.2.1) (R.fl b.2.2.1) (R.fl b.2.2.2)

/-- `get_unbounded_diffstar_params`, `defaults.py` L79-102, with `_get_unbounded_sfr_params`, `kernels/main_sequence_kernels.py` L86-105, and
`_get_unbounded_q_params`, `_get_unbounded_qrejuv`, `kernels/quenching_kernels.py` L169-186. -/
def getUnboundedSpecial (log : ℝ → ℝ) (p : DiffstarParams ℝ) : DiffstarParams Special :=
  ⟨R.inverseSigmoidBSpecial log p.lgmcrit MS_BOUNDING_SIGMOID.lgmcrit, R.inverseSigmoidBSpecial log p.lgyAtMcrit MS_BOUNDING_SIGMOID.lgyAtMcrit,
    R.inverseSigmoidBSpecial log p.indxLo MS_BOUNDING_SIGMOID.indxLo, R.inverseSigmoidBSpecial log p.indxHi MS_BOUNDING_SIGMOID.indxHi,
    R.inverseSigmoidBSpecial log p.lgQt Q_BOUNDING_SIGMOID.lgQt, R.inverseSigmoidBSpecial log p.qlglgdt Q_BOUNDING_SIGMOID.qlglgdt,
    R.inverseSigmoidBSpecial log p.lgDrop Q_BOUNDING_SIGMOID.lgDrop,
    R.inverseSigmoidSpecial log p.lgRejuv (R.fl Q_BOUNDING_SIGMOID.lgRejuv.1) (R.fl Q_BOUNDING_SIGMOID.lgRejuv.2.1) p.lgDrop
      (R.fl Q_BOUNDING_SIGMOID.lgRejuv.2.2.2)⟩

/-- `get_bounded_diffstar_params`, `defaults.py` L54-76, with `_get_bounded_sfr_params`, `kernels/main_sequence_kernels.py` L66-83, and
`_get_bounded_q_params`, `_get_bounded_lg_rejuv`, `kernels/quenching_kernels.py` L131-160. Sigmoids of numbers and infinities between finite
bounds are numbers, so the drop is a number or NaN. -/
def getBoundedSpecial (exp : ℝ → ℝ) (u : DiffstarParams Special) : DiffstarParams Special :=
  let lgDrop := R.sigmoidBSpecial exp u.lgDrop Q_BOUNDING_SIGMOID.lgDrop
  let lgRejuv := match lgDrop with
    | .num d => R.sigmoidSpecial exp u.lgRejuv (R.fl Q_BOUNDING_SIGMOID.lgRejuv.1) (R.fl Q_BOUNDING_SIGMOID.lgRejuv.2.1) d
        (R.fl Q_BOUNDING_SIGMOID.lgRejuv.2.2.2)
    | _ => .nan
  ⟨R.sigmoidBSpecial exp u.lgmcrit MS_BOUNDING_SIGMOID.lgmcrit, R.sigmoidBSpecial exp u.lgyAtMcrit MS_BOUNDING_SIGMOID.lgyAtMcrit,
    R.sigmoidBSpecial exp u.indxLo MS_BOUNDING_SIGMOID.indxLo, R.sigmoidBSpecial exp u.indxHi MS_BOUNDING_SIGMOID.indxHi,
    R.sigmoidBSpecial exp u.lgQt Q_BOUNDING_SIGMOID.lgQt, R.sigmoidBSpecial exp u.qlglgdt Q_BOUNDING_SIGMOID.qlglgdt, lgDrop, lgRejuv⟩

end Rounding

end

end Diffstar
