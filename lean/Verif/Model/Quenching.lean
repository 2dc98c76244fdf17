import Verif.Model.MainSequence

/-! Model of `/repo/diffstar/kernels/quenching_kernels.py`. -/

namespace Diffstar

noncomputable section

/-- `QParams` namedtuple, `kernels/quenching_kernels.py` L12-15 (also `QUParams`, L205). -/
structure QParams (α : Type*) where
  lgQt : α
  qlglgdt : α
  lgDrop : α
  lgRejuv : α

/-- `DEFAULT_Q_PDICT`, L12-14. -/
def DEFAULT_Q_PARAMS : QParams ℝ := ⟨1, -0.50725, -1.01773, -0.212307⟩

/-- `Q_PARAM_BOUNDS_PDICT`, L19-21. -/
def Q_PARAM_BOUNDS : QParams (ℝ × ℝ) := ⟨(0.1, 2), (-3, -0.01), (-3, 0), (-3, 0)⟩

/-- `Q_BOUNDING_SIGMOID_PDICT`, L36. -/
def Q_BOUNDING_SIGMOID : QParams (ℝ × ℝ × ℝ × ℝ) :=
  ⟨calculateSigmoidBounds Q_PARAM_BOUNDS.lgQt,
   calculateSigmoidBounds Q_PARAM_BOUNDS.qlglgdt,
   calculateSigmoidBounds Q_PARAM_BOUNDS.lgDrop,
   calculateSigmoidBounds Q_PARAM_BOUNDS.lgRejuv⟩

/-- `_jax_tw`, L115-120. The second `where` overrides the first. -/
def jaxTw (y : ℝ) : ℝ :=
  let v := -5 * y ^ 7 / 69984 + 7 * y ^ 5 / 2592 - 35 * y ^ 3 / 864 + 35 * y / 96 + 0.5
  let res := if y < -3 then 0 else v
  if y > 3 then 1 else res

/-- `_jax_partial_u_tw_kern`, L123-128. -/
def jaxPartialUTwKern (x m h f1 f2 : ℝ) : ℝ :=
  let y := (x - m) / h
  let z := f1 * jaxTw (y + 3)
  let w := f1 - f2 * jaxTw (y - 3)
  if y < 0 then z else w

/-- `_quenching_kern`, L77-112. -/
def quenchingKern (lgt lgQt lgQDt qDrop qRejuv : ℝ) : ℝ :=
  let lgQDtBy12 := lgQDt / 12
  let f2 := qDrop - qRejuv
  (10 : ℝ) ^ jaxPartialUTwKern lgt lgQt lgQDtBy12 qDrop f2

/-- `_get_bounded_lg_rejuv`, L152-160: the lower end of the sigmoid is `lg_drop`. -/
def getBoundedLgRejuv (uLgRejuv lgDrop : ℝ) : ℝ :=
  sigmoid uLgRejuv Q_BOUNDING_SIGMOID.lgRejuv.1 Q_BOUNDING_SIGMOID.lgRejuv.2.1 lgDrop
    Q_BOUNDING_SIGMOID.lgRejuv.2.2.2

/-- `_get_bounded_q_params`, L131-137. -/
def getBoundedQParams (u : QParams ℝ) : QParams ℝ :=
  let lgQt := sigmoidB u.lgQt Q_BOUNDING_SIGMOID.lgQt
  let qlglgdt := sigmoidB u.qlglgdt Q_BOUNDING_SIGMOID.qlglgdt
  let lgDrop := sigmoidB u.lgDrop Q_BOUNDING_SIGMOID.lgDrop
  let lgRejuv := getBoundedLgRejuv u.lgRejuv lgDrop
  ⟨lgQt, qlglgdt, lgDrop, lgRejuv⟩

/-- `_get_unbounded_qrejuv`, L178-186. -/
def getUnboundedQrejuv (lgRejuv lgDrop : ℝ) : ℝ :=
  inverseSigmoid lgRejuv Q_BOUNDING_SIGMOID.lgRejuv.1 Q_BOUNDING_SIGMOID.lgRejuv.2.1 lgDrop
    Q_BOUNDING_SIGMOID.lgRejuv.2.2.2

/-- `_get_unbounded_q_params`, L169-175. -/
def getUnboundedQParams (p : QParams ℝ) : QParams ℝ :=
  let uLgQt := inverseSigmoidB p.lgQt Q_BOUNDING_SIGMOID.lgQt
  let uQlglgdt := inverseSigmoidB p.qlglgdt Q_BOUNDING_SIGMOID.qlglgdt
  let uLgDrop := inverseSigmoidB p.lgDrop Q_BOUNDING_SIGMOID.lgDrop
  let uLgRejuv := getUnboundedQrejuv p.lgRejuv p.lgDrop
  ⟨uLgQt, uQlglgdt, uLgDrop, uLgRejuv⟩

/-- `_quenching_kern_u_params`, L39-74. -/
def quenchingKernUParams (lgt uLgQt uQlglgdt uLgDrop uLgRejuv : ℝ) : ℝ :=
  let q := getBoundedQParams ⟨uLgQt, uQlglgdt, uLgDrop, uLgRejuv⟩
  let lgQDt := (10 : ℝ) ^ q.qlglgdt
  quenchingKern lgt q.lgQt lgQDt q.lgDrop q.lgRejuv

/-- `DEFAULT_Q_U_PARAMS_UNQUENCHED = QUParams(*[5] * 4)`, L211. -/
def DEFAULT_Q_U_PARAMS_UNQUENCHED : QParams ℝ := ⟨5, 5, 5, 5⟩

/-- `DEFAULT_Q_PARAMS_UNQUENCHED`, L212-214. -/
def DEFAULT_Q_PARAMS_UNQUENCHED : QParams ℝ := getBoundedQParams DEFAULT_Q_U_PARAMS_UNQUENCHED

end

end Diffstar
