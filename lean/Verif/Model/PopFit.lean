import Mathlib.Data.Real.Basic

/-!
Model of the optimisation loop of `scripts/diffstarpop_scripts/fit_mstar_ssfr_pdfs_mgash.py`, L140-214.

The optimiser (`jax_opt.adam`) and the loss kernel are parameters. A parameter or gradient vector is a list of numbers
with `none` for NaN or infinity; a loss is `none` if it is not finite. Storing in `f4` arrays is taken as exact.
-/

namespace Diffstar.PopFit

noncomputable section

/-- Vectors with non-finite entries. -/
abbrev Vec := List (Option ℝ)

/-- `np.all(np.isfinite(v))`. -/
def allFinite (v : Vec) : Bool := v.all Option.isSome

/-- `opt_init`, `opt_update`, `get_params` of L149-150. -/
structure Optimizer (S : Type) where
  init : Vec → S
  update : ℕ → Vec → S → S
  params : S → Vec

/-- Loop state; `lossArr` entries are `none` for the initial `inf` (L147), `paramsArr` starts with zeros (L153). -/
structure St (S : Type) where
  opt : S
  currentGrads : Option Vec
  lossArr : List (Option ℝ)
  paramsArr : List Vec

/-- How one pass of the loop ends. -/
inductive Outcome (S : Type)
  | next (st : St S)
  | stop (st : St S)
  | unbound

/-- Second half of the loop body, L190-211: record the point and update, or not; stop if the gradient is not finite. -/
def finishStep {S : Type} (o : Optimizer S) (istep : ℕ) (st : St S) (p : Vec) (loss : Option ℝ) (grads : Vec) : Outcome S :=
  let ok := allFinite p && loss.isSome && allFinite grads
  let st :=
    if ok then { st with
      paramsArr := st.paramsArr.set istep p
      lossArr := st.lossArr.set istep loss
      opt := o.update istep grads st.opt }
    else st
  let st := { st with currentGrads := some grads }
  if allFinite grads then .next st else .stop st

/-- Loop body, L164-211. The extra step of L171-188 uses `current_grads`, which is unbound in the first pass. -/
def step {S : Type} (o : Optimizer S) (kernel : Vec → Option ℝ × Vec) (istep : ℕ) (st : St S) : Outcome S :=
  let p := o.params st.opt
  let (loss, grads) := kernel p
  if loss.isSome then finishStep o istep st p loss grads
  else
    match st.currentGrads with
    | none => .unbound
    | some cg =>
      let p2 := o.params (o.update istep cg st.opt)
      let (loss2, grads2) := kernel p2
      if allFinite p2 && loss2.isSome && allFinite grads2 then finishStep o istep st p2 loss2 grads2
      else .next st

/-- `for istep in range(n_step)`, L160; `none` is `UnboundLocalError`. -/
def loop {S : Type} (o : Optimizer S) (kernel : Vec → Option ℝ × Vec) : List ℕ → St S → Option (St S)
  | [], st => some st
  | i :: is, st =>
    match step o kernel i st with
    | .next st => loop o kernel is st
    | .stop st => some st
    | .unbound => none

open Classical in
/-- Order of the entries of `loss_arr`: `none` is `inf`. -/
def lossLe : Option ℝ → Option ℝ → Prop
  | _, none => True
  | none, some _ => False
  | some a, some b => a ≤ b

open Classical in
/-- `np.argmin(loss_arr)` (library): first index of a smallest entry; `none` is the `ValueError` of an empty array. -/
def argmin (l : List (Option ℝ)) : Option ℕ :=
  (List.range l.length).find? fun i => l.all fun y => decide (lossLe (l.getD i none) y)

/-- L147-214: the parameters written to the output file; `none` is an exception. -/
def runFit {S : Type} (o : Optimizer S) (kernel : Vec → Option ℝ × Vec) (nStep : ℕ) (paramsInit : Vec) : Option Vec := do
  let st : St S := ⟨o.init paramsInit, none, List.replicate nStep none,
    List.replicate nStep (List.replicate paramsInit.length (some 0))⟩
  let st ← loop o kernel (List.range nStep) st
  let i ← argmin st.lossArr
  return st.paramsArr.getD i []

end

end Diffstar.PopFit
