import Verif.Model.Rounding

/-!
Floating-point version of the gas masses. Same conventions as `Model/Rounding.lean`.
-/

namespace Diffstar.Rounding

noncomputable section

variable (R : Rounding)

/-- `_jax_get_dt_array`, `diffstar/utils.py` L15-28. As in `Diffstar.jaxGetDtArray`, `none` for fewer than three entries. -/
def jaxGetDtArray (t : List ℝ) : Option (List ℝ) :=
  if 3 ≤ t.length then
    let n := t.length
    let tmid : ℕ → ℝ := fun i => R.fl (0.5 * R.fl (t.getD i 0 + t.getD (i + 1) 0))
    let tLo := R.fl (t.getD 0 0 - R.fl (R.fl (t.getD 1 0 - t.getD 0 0) / 2))
    let tHi := R.fl (t.getD (n - 1) 0 + R.fl (R.fl (tmid (n - 2) - tmid (n - 3)) / 2))
    some ((List.range n).map fun i =>
      if i = n - 1 then R.fl (tHi - tmid (n - 2))
      else if i = 0 then R.fl (tmid 0 - tLo)
      else R.fl (tmid i - tmid (i - 1)))
  else none

/-- `_jax_get_dt_array(mgas) / dt / 1e9` with `dt = _jax_get_dt_array(tarr)`, `mgas_model.py` L74-75. -/
def gasRate (tarr mgas : List ℝ) : Option (List ℝ) :=
  match R.jaxGetDtArray mgas, R.jaxGetDtArray tarr with
  | some dm, some dt => some (List.zipWith (fun a b => R.fl (R.fl (a / b) / R.fl (10 ^ 9))) dm dt)
  | _, _ => none

/-- Lines 67-77 of `mgas_model.py`: everything after the SFH. -/
def gasFromHistories (tarr sfh dmhdt : List ℝ) (fb : ℝ) : GasHistory :=
  let dmgasdtInst := dmhdt.map fun d => R.fl (fb * d)
  let smh := R.cumulativeMstarFormed tarr sfh
  let mgasInst := R.cumulativeMstarFormed tarr dmgasdtInst
  let mgas := List.zipWith (fun a b => R.fl (a - b)) mgasInst smh
  ⟨sfh, smh, R.gasRate tarr mgas, mgas⟩

/-- `calc_mgas_singlegal`, `mgas_model.py` L17-77. -/
def calcMgasSinglegal {M : Type*} (L : MathLib) (logMah dMhDt : M → ℝ → ℝ → ℝ) (sfhParams : DiffstarParams ℝ)
    (mahParams : M) (tarr : List ℝ) (lgt0 fb : ℝ) : GasHistory :=
  let sfh := tarr.map fun t => R.sfhSinglegalScalar L logMah t mahParams sfhParams.ms sfhParams.q lgt0 fb
  let dmhdt := tarr.map fun t => dMhDt mahParams t lgt0
  R.gasFromHistories tarr sfh dmhdt fb

end

end Diffstar.Rounding
