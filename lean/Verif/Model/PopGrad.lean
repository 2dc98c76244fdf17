import Verif.Model.PopLoss
import Verif.Model.PopFit
import Verif.Model.PopTables
import Verif.Model.Text

/-!
Model of the flat-array wrappers of the population losses, `mstar_ssfr_loss_mgash_anyz.py` L191-205, L340-354, L458-472,
L491-499, L520-530, and of the parts of `scripts/diffstarpop_scripts/fit_mstar_ssfr_pdfs_mgash.py` around the loop:
choice of kernel and data (L93-122), of the starting point (L126-135) and of what is saved (L216-229).

Reverse-mode differentiation (`value_and_grad`) is a parameter: it maps a NaN-valued function of the namedtuple and a
point to a namedtuple of derivatives, `none` for NaN.
-/

namespace Diffstar.PopLoss

open Diffstar.Pop

noncomputable section

/-- `jax.grad` with respect to the namedtuple. -/
abbrev Ad := ((PF → ℝ) → Option ℝ) → (PF → ℝ) → PF → Option ℝ

/-- `DEFAULT_DIFFSTARPOP_U_PARAMS._make(flat_uparams)`, L193 and so on; `none` is the `TypeError` for a wrong number of
values. -/
def makeUParams (flat : List ℝ) : Option (PF → ℝ) :=
  if flat.length = PF.fields.length then some (makeTuple PF.fields flat) else none

/-- The common text of `loss_mstar_kern_tobs_grad_wrapper` L191-197, `loss_mstar_ssfr_kern_tobs_grad_wrapper` L340-346,
`loss_mstar_ssfr_sat_kern_tobs_grad_wrapper` L458-464, `loss_combined_wrapper` L491-499, `loss_combined_3loss_wrapper`
L520-530: the loss, and `jnp.array(grads)`, the derivatives in field order. -/
def gradWrapper (ad : Ad) (loss : (PF → ℝ) → Option ℝ) (flat : List ℝ) : Option (Option ℝ × List (Option ℝ)) :=
  (makeUParams flat).map fun u => (loss u, PF.fields.map (ad loss u))

/-- `loss_mstar_kern_tobs_grad_wrapper`, L191-197. -/
def lossMstarGradWrapper {K : Type} {nk n nb : ℕ} (ad : Ad) (rng : Rng K) (logMah : MahParams ℝ → ℝ → ℝ → ℝ)
    (flat : List ℝ) (d : MstarData K nk n nb) : Option (Option ℝ × List (Option ℝ)) :=
  gradWrapper ad (fun u => lossMstar rng logMah u d) flat

/-- `loss_mstar_ssfr_kern_tobs_grad_wrapper`, L340-346, and `loss_mstar_ssfr_sat_kern_tobs_grad_wrapper`, L458-464. -/
def lossMstarSsfrGradWrapper {K : Type} {nk n nms nsf nz nm nt : ℕ} (ad : Ad) (rng : Rng K)
    (logMah : MahParams ℝ → ℝ → ℝ → ℝ) (flat : List ℝ) (d : SsfrData K nk n nms nsf nz nm nt) :
    Option (Option ℝ × List (Option ℝ)) :=
  gradWrapper ad (fun u => lossMstarSsfr rng logMah u d) flat

/-- `loss_combined_wrapper`, L491-499. -/
def lossCombinedWrapper {K : Type} {nk n nb nk' n' nms nsf nz nm nt : ℕ} (ad : Ad) (rng : Rng K)
    (logMah : MahParams ℝ → ℝ → ℝ → ℝ) (flat : List ℝ) (dMstar : MstarData K nk n nb)
    (dCen : SsfrData K nk' n' nms nsf nz nm nt) : Option (Option ℝ × List (Option ℝ)) :=
  gradWrapper ad (fun u => lossCombined rng logMah u dMstar dCen) flat

/-- `loss_combined_3loss_wrapper`, L520-530. -/
def lossCombined3Wrapper {K : Type} {nk n nb nk' n' nms nsf nz nm nt nk'' n'' nms' nsf' nz' nm' nt' : ℕ} (ad : Ad)
    (rng : Rng K) (logMah : MahParams ℝ → ℝ → ℝ → ℝ) (flat : List ℝ) (dMstar : MstarData K nk n nb)
    (dCen : SsfrData K nk' n' nms nsf nz nm nt) (dSat : SsfrData K nk'' n'' nms' nsf' nz' nm' nt') :
    Option (Option ℝ × List (Option ℝ)) :=
  gradWrapper ad (fun u => lossCombined3 rng logMah u dMstar dCen dSat) flat

/-- `get_pred_mstar_data_wrapper`, L200-205. -/
def getPredMstarDataWrapper {K : Type} {nk n nb : ℕ} (rng : Rng K) (logMah : MahParams ℝ → ℝ → ℝ → ℝ) (flat : List ℝ)
    (d : MstarData K nk n nb) : Option (Fin nk → Option (Fin nb → ℝ)) :=
  (makeUParams flat).map fun u => mstarKernTobs rng logMah u d.samples d.lgt0 d.fb d.bins

/-- `get_pred_mstar_ssfr_data_wrapper`, L349-354, and `get_pred_mstar_ssfr_sat_data_wrapper`, L467-472. -/
def getPredMstarSsfrDataWrapper {K : Type} {nk n nms nsf nz nm nt : ℕ} (rng : Rng K)
    (logMah : MahParams ℝ → ℝ → ℝ → ℝ) (flat : List ℝ) (d : SsfrData K nk n nms nsf nz nm nt) :
    Option (Fin nz → Fin nt → Fin nsf → Option ℝ) :=
  (makeUParams flat).map fun u => mstarSsfrKernTobs rng logMah u d

/-! ### The script around the loop -/

/-- The values of a vector without NaN. -/
def finiteVals (p : PopFit.Vec) : Option (List ℝ) := if PopFit.allFinite p then some (p.filterMap id) else none

/-- `loss_type` with the data it loads, L93-122. -/
inductive ScriptLoss (K : Type)
  | mstar {nk n nb : ℕ} (dMstar : MstarData K nk n nb)
  | mstarSsfrCen {nk n nb nk' n' nms nsf nz nm nt : ℕ} (dMstar : MstarData K nk n nb)
      (dCen : SsfrData K nk' n' nms nsf nz nm nt)
  | mstarSsfrCenSat {nk n nb nk' n' nms nsf nz nm nt nk'' n'' nms' nsf' nz' nm' nt' : ℕ} (dMstar : MstarData K nk n nb)
      (dCen : SsfrData K nk' n' nms nsf nz nm nt) (dSat : SsfrData K nk'' n'' nms' nsf' nz' nm' nt')

/-- `loss_kernel(flat, *loss_data)`, L117-122. -/
def ScriptLoss.wrapper {K : Type} (l : ScriptLoss K) (ad : Ad) (rng : Rng K) (logMah : MahParams ℝ → ℝ → ℝ → ℝ)
    (flat : List ℝ) : Option (Option ℝ × List (Option ℝ)) :=
  match l with
  | .mstar dMstar => lossMstarGradWrapper ad rng logMah flat dMstar
  | .mstarSsfrCen dMstar dCen => lossCombinedWrapper ad rng logMah flat dMstar dCen
  | .mstarSsfrCenSat dMstar dCen dSat => lossCombined3Wrapper ad rng logMah flat dMstar dCen dSat

/-- `loss_kernel(p, *loss_data)`, L141 and L166, for a vector of 88 entries. What happens for vectors with NaN or
infinite entries is a parameter. -/
def scriptKernel (wrapper : List ℝ → Option (Option ℝ × List (Option ℝ))) (nanCase : PopFit.Vec → Option ℝ × PopFit.Vec)
    (p : PopFit.Vec) : Option ℝ × PopFit.Vec :=
  match (finiteVals p).bind wrapper with
  | some r => r
  | none => nanCase p

/-- `jnp.asarray(get_unbounded_diffstarpop_params(params))`. -/
def uParamsOf (params : Option (PF → ℝ)) : Option (List ℝ) :=
  params.map fun p => PF.fields.map (getUnboundedDiffstarpopParams p)

/-- `DiffstarPop_UParams_Diffstarfits_mgash`, `kernels/params/params_diffstarfits_mgash.py` L65-71. -/
def diffstarfitsDict : List (Text.Str × Option (List ℝ)) :=
  [("smdpl_dr1_nomerging".toList, uParamsOf (calibration diffstarfitsSmdplDr1Nomerging)),
   ("smdpl_dr1".toList, uParamsOf (calibration diffstarfitsSmdplDr1)),
   ("tng".toList, uParamsOf (calibration diffstarfitsTng)),
   ("galacticus_in_situ".toList, uParamsOf (calibration diffstarfitsGalacticusInSitu)),
   ("galacticus_in_plus_ex_situ".toList, uParamsOf (calibration diffstarfitsGalacticusInPlusExSitu))]

/-- Starting point, L126-135; `str.startswith`, `str.split("_")[1:]`, `"_".join`. `load` reads
`diffstarpop_u_params` of a `.npz` file; `none` is an exception (`KeyError`, missing file). -/
def startUParams (load : Text.Str → Option (List ℝ)) (paramsPath : Option Text.Str) : Option (List ℝ) :=
  match paramsPath with
  | none => uParamsOf defaultDiffstarpopParams
  | some path =>
    if "diffstarfits".toList.isPrefixOf path then
      let simName := ['_'].intercalate ((path.splitOn '_').drop 1)
      (diffstarfitsDict.lookup simName).join
    else load path

/-- `return_params_from_result`, L216-219, and `jnp.asarray`, L222; `none` is a `TypeError`. -/
def returnParamsFromResult (bestFitUParams : List ℝ) : Option (List ℝ) :=
  (makeUParams bestFitUParams).map fun u => PF.fields.map (getBoundedDiffstarpopParams u)

/-- The two arrays of the `.npz` file, L224-228: `diffstarpop_params` and `diffstarpop_u_params`. -/
def savedArrays (bestFitUParams : List ℝ) : Option (List ℝ × List ℝ) :=
  (returnParamsFromResult bestFitUParams).map fun p => (p, bestFitUParams)

end

end Diffstar.PopLoss
