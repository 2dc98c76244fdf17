import Verif.Model.FitLoss

/-!
Model of the gradient of the fitting loss, `diffstar/fitting_helpers/diffstar_fitting_helpers.py` L238-242, and of its use in
`return_random_pinit`, `diffstar/fitting_helpers/utils.py` L70 and L76.

Reverse-mode differentiation (`jax.grad`) is a parameter: it maps a function of eight numbers and a point to eight numbers,
`none` for NaN.
-/

namespace Diffstar.Fit

noncomputable section

/-- `jax.grad` of a function of an array of eight numbers. -/
abbrev Ad8 := ((Fin 8 → ℝ) → ℝ) → (Fin 8 → ℝ) → Fin 8 → Option ℝ

/-- `DEFAULT_DIFFSTAR_U_PARAMS._make(u_params)`, L211. -/
def makeUParams8 (u : Fin 8 → ℝ) : DiffstarParams ℝ := ⟨u 0, u 1, u 2, u 3, u 4, u 5, u 6, u 7⟩

/-- `loss_grad_default_clipssfrh`, L238: derivative with respect to argument 0. -/
def lossGradDefaultClipssfrh {M : Type} (ad : Ad8) (logMah : M → ℝ → ℝ → ℝ) (u : Fin 8 → ℝ) (d : LossData M) :
    Fin 8 → Option ℝ :=
  ad (fun v => lossDefaultClipssfrh logMah (makeUParams8 v) d) u

/-- `loss_grad_default_clipssfrh_np`, L241-242: the same as a numpy array. -/
def lossGradDefaultClipssfrhNp {M : Type} (ad : Ad8) (logMah : M → ℝ → ℝ → ℝ) (u : Fin 8 → ℝ) (d : LossData M) :
    List (Option ℝ) :=
  List.ofFn (lossGradDefaultClipssfrh ad logMah u d)

/-- `np.isnan(loss_func_deriv(p_init_2, loss_data)).any()`, `utils.py` L70 and L76, for this gradient; a start vector with
NaN or inf (`none`) gives NaN. -/
def gradNanDefault {M : Type} (ad : Ad8) (logMah : M → ℝ → ℝ → ℝ) (d : LossData M) (p : Option (DiffstarParams ℝ)) : Bool :=
  match p with
  | none => true
  | some p => (lossGradDefaultClipssfrhNp ad logMah
      ![p.lgmcrit, p.lgyAtMcrit, p.indxLo, p.indxHi, p.lgQt, p.qlglgdt, p.lgDrop, p.lgRejuv] d).any Option.isNone

end

end Diffstar.Fit
