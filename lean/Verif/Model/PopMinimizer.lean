import Verif.Model.FitDrivers

/-!
Model of `minimizer` in `diffstar/diffstarpop/utils.py`. scipy is a parameter, as in `Model/FitDrivers.lean`.
-/

namespace Diffstar.PopFit

open Diffstar.Fit

/-- `minimizer`, `diffstar/diffstarpop/utils.py` L44-83: `(p_best, loss_best, success)`. -/
def minimizer {P : Type} (scipy : P → ScipyResult P) (pInit : P) : P × F × ℤ :=
  let res := scipy pInit
  let pBest := res.x
  let lossBest := res.fun'
  let success := 1
  (pBest, lossBest, success)

end Diffstar.PopFit
