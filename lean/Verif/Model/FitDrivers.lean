import Verif.Model.Utils
import Mathlib.Data.EReal.Basic

/-!
Model of `diffstar/fitting_helpers/utils.py` (optimiser drivers).

A float returned by an optimiser is `Option EReal`: `none` is NaN, and ±inf are the extended reals.
The random numbers are a stream: `normal k` is the vector returned by the `k`-th call of
`np.random.normal(p_init[0], p_init[1])`. `gradNan p` says whether `loss_func_deriv(p, loss_data)` contains NaN.
`minimize p` is what scipy's L-BFGS-B returns (`res.x`, `res.fun`) when started at `p`.
-/

namespace Diffstar.Fit

noncomputable section

open Classical

/-- A possibly-NaN float. -/
abbrev F := Option EReal

/-- `np.min(list)` of a non-empty list (library): NaN if any entry is NaN. -/
def npMin (l : List F) : F :=
  if none ∈ l then none else (l.filterMap id).min?

/-- `np.nanmin(list)` (library): minimum of the non-NaN entries. -/
def npNanmin (l : List F) : F := (l.filterMap id).min?

/-- `np.nanargmin(list)` (library): first index of the smallest non-NaN entry; raises (`none`) if all
entries are NaN or the list is empty. -/
def npNanargmin (l : List F) : Option ℕ :=
  match npNanmin l with
  | none => none
  | some m => some (l.findIdx fun x => decide (x = some m))

/-- `x > tol` for floats: false if `x` is NaN. -/
def gtTol : F → EReal → Prop
  | none, _ => False
  | some x, tol => tol < x

/-- The `while` loop of `return_random_pinit`, `utils.py` L74-77: at most `fuel` more draws, next draw number
`k`; returns the start vector, the NaN flag and the next draw number. -/
def pinitLoop {P : Type} (normal : ℕ → P) (gradNan : P → Bool) : ℕ → ℕ → P → Bool → P × Bool × ℕ
  | 0, k, p, isnan => (p, isnan, k)
  | fuel + 1, k, p, isnan =>
      if isnan then pinitLoop normal gradNan fuel (k + 1) (normal k) (gradNan (normal k))
      else (p, isnan, k)

/-- `return_random_pinit`, `utils.py` L61-81, starting at draw number `k`. -/
def returnRandomPinit {P : Type} (normal : ℕ → P) (gradNan : P → Bool) (k : ℕ) : P × Bool × ℕ :=
  let p := normal k
  let isnan := gradNan p
  if isnan then pinitLoop normal gradNan 1000 (k + 1) p isnan
  else (p, isnan, k + 1)

/-- One entry of the three parallel lists `p_best_list`, `loss_best_list`, `success_list`. -/
structure Attempt (P : Type) where
  p : P
  loss : F
  success : ℤ

/-- The `while` loop of `minimizer_wrapper`, `utils.py` L136-168. `fuel = max_iter - iter_id`; `acc` are the
entries so far, `cur` is `loss_best_current`, `k` the next draw number. -/
def minimizerLoop {P : Type} (normal : ℕ → P) (gradNan : P → Bool) (minimize : P → P × F) (p0 : P)
    (tol : EReal) : ℕ → ℕ → F → List (Attempt P) → List (Attempt P)
  | 0, _, _, acc => acc
  | fuel + 1, k, cur, acc =>
      if gtTol cur tol then
        let r := returnRandomPinit normal gradNan k
        if r.2.1 then
          let acc := acc ++ [⟨p0, some ((999.99 : ℝ) : EReal), -1⟩]
          minimizerLoop normal gradNan minimize p0 tol fuel r.2.2 (npMin (acc.map Attempt.loss)) acc
        else
          let res := minimize r.1
          let acc := acc ++ [⟨res.1, res.2, 1⟩]
          let cur := if ∀ a ∈ acc, a.loss = none then some ⊤ else npNanmin (acc.map Attempt.loss)
          minimizerLoop normal gradNan minimize p0 tol fuel r.2.2 cur acc
      else acc

/-- The entries collected by `minimizer_wrapper` (L127-168). -/
def minimizerAttempts {P : Type} (normal : ℕ → P) (gradNan : P → Bool) (minimize : P → P × F) (p0 : P)
    (tol : EReal) (maxIter : ℕ) : List (Attempt P) :=
  minimizerLoop normal gradNan minimize p0 tol maxIter 0 (some ⊤) []

/-- The selection at the end of `minimizer_wrapper`, L170-180. -/
def selectBest {P : Type} (p0 : P) (l : List (Attempt P)) : Attempt P :=
  match npNanargmin (l.map Attempt.loss) with
  | none => ⟨p0, some ((999.99 : ℝ) : EReal), -1⟩
  | some i => l.getD i ⟨p0, some ((999.99 : ℝ) : EReal), -1⟩

/-- `minimizer_wrapper`, `utils.py` L84-180; `p0 = p_init[0]`. (`np.isnan([]).all()` is `True`, so an empty
list takes the first branch.) -/
def minimizerWrapper {P : Type} (normal : ℕ → P) (gradNan : P → Bool) (minimize : P → P × F) (p0 : P)
    (tol : EReal) (maxIter : ℕ) : Attempt P :=
  selectBest p0 (minimizerAttempts normal gradNan minimize p0 tol maxIter)

/-- Adam as seen by the driver: `jax_opt.adam(step_size)` and the loss with its gradient.
`loss s` is the loss value at the parameters of state `s`: `none` when the loss, a parameter or a gradient entry
is not finite (the condition tested at `utils.py` L304-307). `update i s` is
`opt_update(i, grads, s)`. -/
structure Adam (S P : Type) where
  init : P → S
  getParams : S → P
  loss : S → Option ℝ
  update : ℕ → S → S

/-- Index returned by `np.nanargmin` on an array of finite numbers (first minimum); `none` = `ValueError` for an
empty array. -/
def argminFinite (l : List ℝ) : Option ℕ :=
  match l.min? with
  | none => none
  | some m => some (l.findIdx fun x => decide (x = m))

/-- `(best_fit_params, best_fit_loss, loss_arr, params_arr)`. -/
structure AdamResult (P : Type) where
  params : P
  loss : ℝ
  lossArr : List ℝ
  paramsArr : List P

/-- Body of `_jax_adam_wrapper`, `utils.py` L293-330: `rem` steps remain, `istep` is the loop counter;
`lossArr`, `paramsArr` are the preallocated arrays. `none` = the `ValueError` of `nanargmin` on an empty
array. -/
def adamLoop {S P : Type} [Zero P] (A : Adam S P) : ℕ → ℕ → S → List ℝ → List P → Option (AdamResult P)
  | 0, _, _, lossArr, paramsArr =>
      (argminFinite lossArr).map fun i =>
        ⟨paramsArr.getD i 0, lossArr.getD i 0, lossArr, paramsArr⟩
  | rem + 1, istep, s, lossArr, paramsArr =>
      let p := A.getParams s
      match A.loss s with
      | none =>
          if istep > 0 then
            (argminFinite (lossArr.take istep)).map fun i =>
              ⟨paramsArr.getD i 0, lossArr.getD i 0, lossArr.take istep, paramsArr.take istep⟩
          else some ⟨p, 999.99, lossArr.take istep, paramsArr.take istep⟩
      | some loss =>
          adamLoop A rem (istep + 1) (A.update istep s) (lossArr.set istep loss) (paramsArr.set istep p)

/-- `_jax_adam_wrapper`, `utils.py` L258-330. `loss_arr` starts filled with -1, `params_arr` with zeros. -/
def jaxAdamWrapper {S P : Type} [Zero P] (A : Adam S P) (paramsInit : P) (nStep : ℕ) : Option (AdamResult P) :=
  adamLoop A nStep 0 (A.init paramsInit) (List.replicate nStep (-1)) (List.replicate nStep 0)

/-- The warm-up loop of `jax_adam_wrapper_v2`, `utils.py` L236-240. -/
def adamWarmup {S P : Type} [Zero P] (A : Adam S P) (warmupNStep : ℕ) : ℕ → P → Option P
  | 0, p => some p
  | n + 1, p => (jaxAdamWrapper A p warmupNStep).bind fun r => adamWarmup A warmupNStep n r.params

/-- `jax_adam_wrapper_v2`, `utils.py` L183-255. `warm` and `main` are Adam with the warm-up and the final step
size; `finite p` is `np.all(np.isfinite(p))`. The last component is `fit_terminates`. -/
def jaxAdamWrapperV2 {S P : Type} [Zero P] (warm main : Adam S P) (finite : P → Bool) (paramsInit : P)
    (nStep nWarmup warmupNStep : ℕ) : Option (AdamResult P × ℕ) :=
  (adamWarmup warm warmupNStep nWarmup paramsInit).bind fun pInit =>
    let p0 := if finite pInit then pInit else paramsInit
    (jaxAdamWrapper main p0 nStep).map fun r => (r, if r.lossArr.length < nStep then 0 else 1)

/-- Result of scipy's `minimize`: `res.x`, `res.fun`, `res.success`. -/
structure ScipyResult (P : Type) where
  x : P
  fun' : F
  success : Bool

/-- `minimizer`, `utils.py` L10-58. `extraArgs` is the number of extra positional arguments `*args`; the call at
L51-53 passes them positionally after `nstep`, where the first one binds `n_warmup`, which is also given by
keyword: a `TypeError` (`none`) unless there are none. -/
def minimizer {S P : Type} [Zero P] (warm main : Adam S P) (finite : P → Bool) (scipy : P → ScipyResult P)
    (pInit : P) (nstep extraArgs : ℕ) : Option (P × F × ℤ) :=
  let res := scipy pInit
  if res.success then some (res.x, res.fun', 1)
  else if extraArgs > 0 then none
  else (jaxAdamWrapperV2 warm main finite pInit nstep 2 50).map fun r =>
    (r.1.params, some ((r.1.loss : ℝ) : EReal), if r.2 ≠ 0 then 0 else -1)

end

end Diffstar.Fit
