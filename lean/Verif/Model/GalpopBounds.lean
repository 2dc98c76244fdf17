import Verif.Model.Sfh

/-!
Model of the array versions of the parameter transforms, `kernels/main_sequence_kernels.py` L108-123 and
`kernels/quenching_kernels.py` L140-202. An array of shape `(n, k)` is a list of `n` rows of length `k`; `none` = an
exception (wrong number of columns).
-/

namespace Diffstar

noncomputable section

/-- `_get_bounded_sfr_params_galpop_kern`, `main_sequence_kernels.py` L108-110: `*ms_params` needs four entries. -/
def getBoundedSfrParamsGalpopKern : List ℝ → Option (List ℝ)
  | [a, b, c, d] =>
    let p := getBoundedSfrParams ⟨a, b, c, d⟩
    some [p.lgmcrit, p.lgyAtMcrit, p.indxLo, p.indxHi]
  | _ => none

/-- `_get_unbounded_sfr_params_galpop_kern`, L113-115. -/
def getUnboundedSfrParamsGalpopKern : List ℝ → Option (List ℝ)
  | [a, b, c, d] =>
    let p := getUnboundedSfrParams ⟨a, b, c, d⟩
    some [p.lgmcrit, p.lgyAtMcrit, p.indxLo, p.indxHi]
  | _ => none

/-- `_get_bounded_sfr_params_vmap`, L118-120 (`vmap` over rows). -/
def getBoundedSfrParamsVmap (arr : List (List ℝ)) : Option (List (List ℝ)) := arr.mapM getBoundedSfrParamsGalpopKern

/-- `_get_unbounded_sfr_params_vmap`, L121-123. -/
def getUnboundedSfrParamsVmap (arr : List (List ℝ)) : Option (List (List ℝ)) :=
  arr.mapM getUnboundedSfrParamsGalpopKern

/-- `_get_bounded_q_params_galpop_kern`, `quenching_kernels.py` L189-191. -/
def getBoundedQParamsGalpopKern : List ℝ → Option (List ℝ)
  | [a, b, c, d] =>
    let p := getBoundedQParams ⟨a, b, c, d⟩
    some [p.lgQt, p.qlglgdt, p.lgDrop, p.lgRejuv]
  | _ => none

/-- `_get_unbounded_q_params_galpop_kern`, L194-196. -/
def getUnboundedQParamsGalpopKern : List ℝ → Option (List ℝ)
  | [a, b, c, d] =>
    let p := getUnboundedQParams ⟨a, b, c, d⟩
    some [p.lgQt, p.qlglgdt, p.lgDrop, p.lgRejuv]
  | _ => none

/-- `_get_bounded_q_params_vmap`, L199. -/
def getBoundedQParamsVmap (arr : List (List ℝ)) : Option (List (List ℝ)) := arr.mapM getBoundedQParamsGalpopKern

/-- `_get_unbounded_q_params_vmap`, L200-202. -/
def getUnboundedQParamsVmap (arr : List (List ℝ)) : Option (List (List ℝ)) := arr.mapM getUnboundedQParamsGalpopKern

/-- `_get_bounded_lg_drop`, L140-143. -/
def getBoundedLgDrop (u : ℝ) : ℝ := sigmoidB u Q_BOUNDING_SIGMOID.lgDrop

/-- `_get_unbounded_lg_drop`, L146-149. -/
def getUnboundedLgDrop (p : ℝ) : ℝ := inverseSigmoidB p Q_BOUNDING_SIGMOID.lgDrop

/-- `_get_bounded_qt`, L163-166. -/
def getBoundedQt (u : ℝ) : ℝ := sigmoidB u Q_BOUNDING_SIGMOID.lgQt

end

end Diffstar
