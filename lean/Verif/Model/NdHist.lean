import Verif.Model.Utils
import Mathlib.Algebra.BigOperators.Fin

/-!
Model of `diffstar/diffstarpop/sumstats/diffndhist.py` and `sumstats/smhm.py`.

Arrays of shape `(npts, ndim)` are functions `Fin n → Fin d → ℝ`; the bin axis is an arbitrary index type
`B` (the code's flat bin axis is `B = Fin nbins`).
-/

namespace Diffstar.NdHist

noncomputable section

/-- `_tw_cuml_lax_kern`, `sumstats/diffndhist.py` L9-19 (a separate copy of the one in
`diffstarpop/utils.py`). -/
def twCumlLaxKern (x m h : ℝ) : ℝ :=
  let z := (x - m) / h
  let val := -5 * z ^ 7 / 69984 + 7 * z ^ 5 / 2592 - 35 * z ^ 3 / 864 + 35 * z / 96 + 1 / 2
  let val := if z < -3 then 0 else val
  let val := if z > 3 then 1 else val
  val

/-- `_tw_bin_weight_lax_kern`, `sumstats/diffndhist.py` L22-30. -/
def twBinWeightLaxKern (x sig lo hi : ℝ) : ℝ :=
  let a := twCumlLaxKern x lo sig
  let b := twCumlLaxKern x hi sig
  a - b

/-- `_tw_ndhist_kern`, L38-46 (`prod` over the vmapped bin weights). -/
def twNdhistKern {d : ℕ} (nddata ndsig ndlo ndhi : Fin d → ℝ) : ℝ :=
  ∏ k, twBinWeightLaxKern (nddata k) (ndsig k) (ndlo k) (ndhi k)

/-- `_tw_ndhist_sumkern`, L53-58. -/
def twNdhistSumkern {n d : ℕ} (nddata ndsig : Fin n → Fin d → ℝ) (ndlo ndhi : Fin d → ℝ) : ℝ :=
  ∑ i, twNdhistKern (nddata i) (ndsig i) ndlo ndhi

/-- `tw_ndhist`, L65-94 (vmap of the previous function over the bins). -/
def twNdhist {n d : ℕ} {B : Type*} (nddata ndsig : Fin n → Fin d → ℝ) (lo hi : B → Fin d → ℝ) : B → ℝ :=
  fun b => twNdhistSumkern nddata ndsig (lo b) (hi b)

/-- `_tw_ndhist_weighted_sum_kern`, L97-105. -/
def twNdhistWeightedSumKern {d : ℕ} (nddata ndsig : Fin d → ℝ) (y : ℝ) (ndlo ndhi : Fin d → ℝ) : ℝ :=
  let w := ∏ k, twBinWeightLaxKern (nddata k) (ndsig k) (ndlo k) (ndhi k)
  w * y

/-- `_tw_ndhist_weighted_kern`, L114-119. -/
def twNdhistWeightedKern {n d : ℕ} (nddata ndsig : Fin n → Fin d → ℝ) (y : Fin n → ℝ)
    (ndlo ndhi : Fin d → ℝ) : ℝ :=
  ∑ i, twNdhistWeightedSumKern (nddata i) (ndsig i) (y i) ndlo ndhi

/-- `tw_ndhist_weighted`, L128-163. -/
def twNdhistWeighted {n d : ℕ} {B : Type*} (nddata ndsig : Fin n → Fin d → ℝ) (ydata : Fin n → ℝ)
    (lo hi : B → Fin d → ℝ) : B → ℝ :=
  fun b => twNdhistWeightedKern nddata ndsig ydata (lo b) (hi b)

/-- `compute_smhm`, `sumstats/smhm.py` L9-43. `logmh_bins` has `nb + 1` edges; `none` is the `0/0` of the
final division. (`ydata` of shape `(n, 1)` gives per-point arrays of shape `(1,)`, whose sum is the sum
of the entries.) -/
def computeSmhm {n nb : ℕ} (logmh logsm sigma : Fin n → ℝ) (logmhBins : Fin (nb + 1) → ℝ) :
    Fin nb → Option ℝ :=
  let nddata : Fin n → Fin 1 → ℝ := fun i _ => logmh i
  let ndsig : Fin n → Fin 1 → ℝ := fun i _ => sigma i
  let ndbinsLo : Fin nb → Fin 1 → ℝ := fun j _ => logmhBins j.castSucc
  let ndbinsHi : Fin nb → Fin 1 → ℝ := fun j _ => logmhBins j.succ
  let wndhist := twNdhistWeighted nddata ndsig logsm ndbinsLo ndbinsHi
  let wcounts := twNdhistWeighted nddata ndsig (fun _ => 1) ndbinsLo ndbinsHi
  fun j => if wcounts j = 0 then none else some (wndhist j / wcounts j)

end

end Diffstar.NdHist
