import Verif.Model.Loaders

/-!
Model of the preparation of halo histories in `scripts/galacticus_analysis/galacticus_diffmah_fitter_script.py` L78-107.
-/

namespace Diffstar.GalMah

open Diffstar.Load

noncomputable section

open Classical

/-- `np.array([t[-1] for t in times_for_rank]).max()`, L78; `none` is `IndexError` (a halo without times) or the
`ValueError` of the maximum of nothing. -/
def rankTmax (times : List (List ℝ)) : Option ℝ := (times.mapM List.getLast?).bind List.max?

/-- `comm.allreduce(t_max_for_rank, op=MPI.MAX)`, L79, over all ranks. -/
def globalT0 (ranks : List (List (List ℝ))) : Option ℝ := (ranks.mapM rankTmax).bind List.max?

/-- One pass of the halo loop, L91-107: the arguments `t_sim`, `mah_sim`, `force_skip_fit` of `diffmah_fitter`.
`none` is `IndexError`. -/
def prepare (T0 dtFitMin : ℝ) (t mah : List ℝ) : Option (List ℝ × List ℝ × Bool) :=
  let mahSim := accMax mah
  match t.getLast?, t.head?, mahSim.getLast? with
  | some tLast, some tFirst, some mLast =>
    let dt := tLast - tFirst
    let forceSkip := decide (dt < dtFitMin)
    if tLast < T0 then some (t ++ [T0], mahSim ++ [mLast], forceSkip) else some (t, mahSim, forceSkip)
  | _, _, _ => none

end

end Diffstar.GalMah
