import Verif.Model.Utils

/-! Model of `/repo/diffstar/kernels/main_sequence_kernels.py`. -/

namespace Diffstar

noncomputable section

/-- `MSParams` namedtuple, `kernels/main_sequence_kernels.py` L13-20 (field order as in the source).
Generic in the entry type so that the same structure describes one galaxy (`ℝ`) and a population
(`Fin n → ℝ`). Also used for `MSUParams` (L126), whose fields are the same names prefixed by `u_`. -/
structure MSParams (α : Type*) where
  lgmcrit : α
  lgyAtMcrit : α
  indxLo : α
  indxHi : α

/-- `DEFAULT_MS_PDICT`, L13-18. -/
def DEFAULT_MS_PARAMS : MSParams ℝ := ⟨12, -10, 1, -1⟩

/-- `MS_PARAM_BOUNDS_PDICT`, L22-27. -/
def MS_PARAM_BOUNDS : MSParams (ℝ × ℝ) := ⟨(9, 13.5), (-12, -8), (0, 5), (-5, 0)⟩

/-- `INDX_K = 9.0`, L29. -/
def INDX_K : ℝ := 9

/-- Value of one entry of `calculate_sigmoid_bounds`, L32-41 (same text in
`kernels/quenching_kernels.py` L24-33): `(x0, k, ymin, ymax)`. -/
def calculateSigmoidBounds (b : ℝ × ℝ) : ℝ × ℝ × ℝ × ℝ :=
  ((b.1 + b.2) / 2, |4 / (b.2 - b.1)|, b.1, b.2)

/-- `_sigmoid(u, *PDICT[key])`, the call pattern of L73-76. -/
def sigmoidB (u : ℝ) (b : ℝ × ℝ × ℝ × ℝ) : ℝ := sigmoid u b.1 b.2.1 b.2.2.1 b.2.2.2

/-- `_inverse_sigmoid(p, *PDICT[key])`, the call pattern of L93-98. -/
def inverseSigmoidB (p : ℝ) (b : ℝ × ℝ × ℝ × ℝ) : ℝ := inverseSigmoid p b.1 b.2.1 b.2.2.1 b.2.2.2

/-- `MS_BOUNDING_SIGMOID_PDICT`, L44. -/
def MS_BOUNDING_SIGMOID : MSParams (ℝ × ℝ × ℝ × ℝ) :=
  ⟨calculateSigmoidBounds MS_PARAM_BOUNDS.lgmcrit,
   calculateSigmoidBounds MS_PARAM_BOUNDS.lgyAtMcrit,
   calculateSigmoidBounds MS_PARAM_BOUNDS.indxLo,
   calculateSigmoidBounds MS_PARAM_BOUNDS.indxHi⟩

/-- `_sfr_eff_plaw`, L47-51. -/
def sfrEffPlaw (lgm lgmcrit lgyAtMcrit indxLo indxHi : ℝ) : ℝ :=
  let slope := sigmoid lgm lgmcrit INDX_K indxLo indxHi
  lgyAtMcrit + slope * (lgm - lgmcrit)

/-- `sfh_ms_kernel`, L54-59. `logMah mah_params t logt0` stands for diffmah's `_log_mah_kern`, an
arbitrary function here. -/
def sfhMsKernel {M : Type*} (logMah : M → ℝ → ℝ → ℝ) (tform : ℝ) (mahParams : M)
    (ms : MSParams ℝ) (logt0 fb : ℝ) : ℝ :=
  let lm := logMah mahParams tform logt0
  let mgash := fb * (10 : ℝ) ^ lm
  mgash * (10 : ℝ) ^ sfrEffPlaw lm ms.lgmcrit ms.lgyAtMcrit ms.indxLo ms.indxHi

/-- `_get_bounded_sfr_params`, L66-83. -/
def getBoundedSfrParams (u : MSParams ℝ) : MSParams ℝ :=
  let lgmcrit := sigmoidB u.lgmcrit MS_BOUNDING_SIGMOID.lgmcrit
  let lgyAtMcrit := sigmoidB u.lgyAtMcrit MS_BOUNDING_SIGMOID.lgyAtMcrit
  let indxLo := sigmoidB u.indxLo MS_BOUNDING_SIGMOID.indxLo
  let indxHi := sigmoidB u.indxHi MS_BOUNDING_SIGMOID.indxHi
  ⟨lgmcrit, lgyAtMcrit, indxLo, indxHi⟩

/-- `_get_unbounded_sfr_params`, L86-105. -/
def getUnboundedSfrParams (p : MSParams ℝ) : MSParams ℝ :=
  let uLgmcrit := inverseSigmoidB p.lgmcrit MS_BOUNDING_SIGMOID.lgmcrit
  let uLgyAtMcrit := inverseSigmoidB p.lgyAtMcrit MS_BOUNDING_SIGMOID.lgyAtMcrit
  let uIndxLo := inverseSigmoidB p.indxLo MS_BOUNDING_SIGMOID.indxLo
  let uIndxHi := inverseSigmoidB p.indxHi MS_BOUNDING_SIGMOID.indxHi
  ⟨uLgmcrit, uLgyAtMcrit, uIndxLo, uIndxHi⟩

end

end Diffstar
