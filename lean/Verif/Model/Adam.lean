import Verif.Model.PopFit
import Verif.Model.FitDrivers
import Mathlib.Analysis.SpecialFunctions.Pow.Real

/-!
The optimiser `jax.example_libraries.optimizers.adam` (library), with which both drivers run:
`scripts/diffstarpop_scripts/fit_mstar_ssfr_pdfs_mgash.py` L145-150 and `diffstar/fitting_helpers/utils.py` L293-294.

The library code of the update is
```
m = (1 - b1) * g + b1 * m
v = (1 - b2) * jnp.square(g) + b2 * v
mhat = m / (1 - b1 ** (i + 1))
vhat = v / (1 - b2 ** (i + 1))
x = x - step_size(i) * mhat / (jnp.sqrt(vhat) + eps)
```
for each component, with `b1 = 0.9`, `b2 = 0.999`, `eps = 1e-8` (neither driver sets them). Arithmetic is exact.
-/

namespace Diffstar.AdamStep

noncomputable section

/-- Default decay rate of the first moment (library). -/
def B1 : ℝ := 0.9

/-- Default decay rate of the second moment (library). -/
def B2 : ℝ := 0.999

/-- Default `eps` (library). -/
def EPS : ℝ := 1e-8

/-- `(x, m, v)` of one component. -/
structure Cell where
  x : ℝ
  m : ℝ
  v : ℝ

/-- `init` of `adam` (library). -/
def cellInit (x : ℝ) : Cell := ⟨x, 0, 0⟩

/-- `update` of `adam` (library), for one component. -/
def cellUpdate (stepSize : ℝ) (i : ℕ) (g : ℝ) (c : Cell) : Cell :=
  let m := (1 - B1) * g + B1 * c.m
  let v := (1 - B2) * g ^ 2 + B2 * c.v
  let mhat := m / (1 - B1 ^ (i + 1))
  let vhat := v / (1 - B2 ^ (i + 1))
  ⟨c.x - stepSize * mhat / (Real.sqrt vhat + EPS), m, v⟩

/-- One component with NaN: a NaN parameter stays NaN, and a NaN gradient makes the parameter NaN. -/
def cellUpdate? (stepSize : ℝ) (i : ℕ) : Option ℝ → Option Cell → Option Cell
  | some g, some c => some (cellUpdate stepSize i g c)
  | _, _ => none

/-- `jax_opt.adam(step_size)` of the population fit, `fit_mstar_ssfr_pdfs_mgash.py` L149-150, L162 and L201. -/
def popAdam (stepSize : ℝ) : PopFit.Optimizer (List (Option Cell)) where
  init p := p.map (Option.map cellInit)
  update i g s := List.zipWith (cellUpdate? stepSize i) g s
  params s := s.map (Option.map Cell.x)

/-- The step size of the population fit, `fit_mstar_ssfr_pdfs_mgash.py` L145. -/
def POP_STEP_SIZE : ℝ := 0.01

/-- `jax_opt.adam(step_size)` with the loss and its gradient, `utils.py` L293-325. `lossGrad p` is `loss_vg(p, loss_data)`,
and `none` if the loss or a component of the gradient is not finite; the driver then stops before the update (L304-318).
The start is taken to be finite. -/
def fitAdam {n : ℕ} (stepSize : ℝ) (lossGrad : (Fin n → ℝ) → Option (ℝ × (Fin n → ℝ))) :
    Fit.Adam (Fin n → Cell) (Fin n → ℝ) where
  init p := fun k => cellInit (p k)
  getParams s := fun k => (s k).x
  loss s := (lossGrad fun k => (s k).x).map Prod.fst
  update i s :=
    match lossGrad fun k => (s k).x with
    | some r => fun k => cellUpdate stepSize i (r.2 k) (s k)
    | none => s

/-- Default `step_size` of `jax_adam_wrapper_v2`, `utils.py` L189. -/
def STEP_SIZE : ℝ := 0.01

/-- `warmup_step_size = 5 * step_size`, `utils.py` L233-234. -/
def warmupStepSize : ℝ := 5 * STEP_SIZE

/-- `minimizer`, `utils.py` L10-58, with this optimiser as backup; all entries of the start are finite. -/
def minimizerAdam {n : ℕ} (lossGrad : (Fin n → ℝ) → Option (ℝ × (Fin n → ℝ)))
    (scipy : (Fin n → ℝ) → Fit.ScipyResult (Fin n → ℝ)) (pInit : Fin n → ℝ) (nstep : ℕ) :
    Option ((Fin n → ℝ) × Fit.F × ℤ) :=
  Fit.minimizer (fitAdam warmupStepSize lossGrad) (fitAdam STEP_SIZE lossGrad) (fun _ => true) scipy pInit nstep 0

end

end Diffstar.AdamStep
