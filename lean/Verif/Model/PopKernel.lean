import Verif.Model.SfhPdf
import Verif.Model.SatQuench
import Verif.Model.Sfh

/-!
Model of `diffstar/diffstarpop/kernels/diffstarpop_mgash.py` and
`diffstar/diffstarpop/mc_diffstarpop_mgash.py` (Monte Carlo generators).

`jax.random` is a parameter: any key type with `split`, `multivariate_normal` and `uniform`.
-/

namespace Diffstar.Pop

noncomputable section

/-- The part of `jax.random` used by the generators. -/
structure Rng (K : Type) where
  /-- `jran.split(key, n)` -/
  split : K → (n : ℕ) → Fin n → K
  /-- `jran.multivariate_normal(key, mean, cov, shape=())` -/
  multivariateNormal : K → (Fin 4 → ℝ) → Matrix (Fin 4) (Fin 4) ℝ → Fin 4 → ℝ
  /-- `jran.uniform(key, minval=0, maxval=1, shape=())` -/
  uniform : K → ℝ

/-- Result of the `u_params` kernels: `(u_params_ms, u_params_q, frac_quench, mc_is_quenched_sequence)`.
A `none` parameter set contains NaNs. -/
structure McU where
  uMs : Option (DiffstarParams ℝ)
  uQ : Option (DiffstarParams ℝ)
  fracQ : ℝ
  mcIsQ : Prop

/-- `_diffstarpop_means_covs`, `kernels/diffstarpop_mgash.py` L87-114. -/
def diffstarpopMeansCovs (p : PF → ℝ) (logmp0 tpeak lgmuInfall logmhostInfall gyrSinceInfall : ℝ) :
    MeansCovs :=
  let meansCovs := sfhPdfScalarKernel (sfhPdfPart p) logmp0 tpeak
  let fracQuenchSatUpdated := getQprobSat (satquenchPart p) lgmuInfall logmhostInfall gyrSinceInfall
    meansCovs.fracQuenchSat
  { meansCovs with fracQuenchSat := fracQuenchSatUpdated }

/-- `_diffstarpop_means_covs_cen`, L117-124. -/
def diffstarpopMeansCovsCen (p : PF → ℝ) (logmp0 tpeak : ℝ) : MeansCovs :=
  sfhPdfScalarKernel (sfhPdfPart p) logmp0 tpeak

/-- Main-sequence draw, L53-55 and L72-80: four drawn parameters followed by
`DEFAULT_Q_U_PARAMS_UNQUENCHED`. -/
def drawMs {K : Type} (rng : Rng K) (key : K) (mu : Option (Fin 4 → ℝ))
    (cov : Option (Matrix (Fin 4) (Fin 4) ℝ)) : Option (DiffstarParams ℝ) := do
  let mu ← mu
  let cov ← cov
  let u := rng.multivariateNormal key mu cov
  return DiffstarParams.join ⟨u 0, u 1, u 2, u 3⟩ DEFAULT_Q_U_PARAMS_UNQUENCHED

/-- Quenched-sequence draws, L56-71: `mu_qseq[:4]` with the ms block, `mu_qseq[4:]` with the q block. -/
def drawQ {K : Type} (rng : Rng K) (keyMs keyQ : K) (mu : Option (Fin 8 → ℝ))
    (covMs covQ : Option (Matrix (Fin 4) (Fin 4) ℝ)) : Option (DiffstarParams ℝ) := do
  let mu ← mu
  let covMs ← covMs
  let covQ ← covQ
  let uMs := rng.multivariateNormal keyMs ![mu 0, mu 1, mu 2, mu 3] covMs
  let uQ := rng.multivariateNormal keyQ ![mu 4, mu 5, mu 6, mu 7] covQ
  return DiffstarParams.join ⟨uMs 0, uMs 1, uMs 2, uMs 3⟩ ⟨uQ 0, uQ 1, uQ 2, uQ 3⟩

/-- `mc_diffstar_u_params_singlegal_kernel`, L18-84. `upid` is an integer halo id. -/
def mcDiffstarUParamsSinglegalKernel {K : Type} (rng : Rng K) (p : PF → ℝ) (logmp0 tpeak : ℝ) (upid : ℤ)
    (lgmuInfall logmhostInfall gyrSinceInfall : ℝ) (ranKey : K) : McU :=
  let mc := diffstarpopMeansCovs p logmp0 tpeak lgmuInfall logmhostInfall gyrSinceInfall
  let fracQuench := if upid = -1 then mc.fracQuenchCen else mc.fracQuenchSat
  let keys := rng.split ranKey 4
  let uMs := drawMs rng (keys 0) mc.muMseq mc.covMseqMs
  let uQ := drawQ rng (keys 1) (keys 2) mc.muQseq mc.covQseqMs mc.covQseqQ
  let uran := rng.uniform (keys 3)
  ⟨uMs, uQ, fracQuench, uran < fracQuench⟩

/-- `mc_diffstar_u_params_singlegal_kernel_cen`, L127-181. -/
def mcDiffstarUParamsSinglegalKernelCen {K : Type} (rng : Rng K) (p : PF → ℝ) (logmp0 tpeak : ℝ)
    (ranKey : K) : McU :=
  let mc := diffstarpopMeansCovsCen p logmp0 tpeak
  let fracQuench := mc.fracQuenchCen
  let keys := rng.split ranKey 4
  let uMs := drawMs rng (keys 0) mc.muMseq mc.covMseqMs
  let uQ := drawQ rng (keys 1) (keys 2) mc.muQseq mc.covQseqMs mc.covQseqQ
  let uran := rng.uniform (keys 3)
  ⟨uMs, uQ, fracQuench, uran < fracQuench⟩

/-- `MCDiffstarParams`, `mc_diffstarpop_mgash.py` L12-13. -/
structure McParams where
  paramsMs : Option (DiffstarParams ℝ)
  paramsQ : Option (DiffstarParams ℝ)
  fracQ : ℝ
  mcIsQ : Prop

/-- `mc_diffstar_params_singlegal`, `mc_diffstarpop_mgash.py` L145-222. -/
def mcDiffstarParamsSinglegal {K : Type} (rng : Rng K) (p : PF → ℝ) (logmp0 tpeak : ℝ) (upid : ℤ)
    (lgmuInfall logmhostInfall gyrSinceInfall : ℝ) (ranKey : K) : McParams :=
  let r := mcDiffstarUParamsSinglegalKernel rng p logmp0 tpeak upid lgmuInfall logmhostInfall gyrSinceInfall
    ranKey
  let paramsQ := r.uQ.map getBoundedDiffstarParams
  let paramsMs := r.uMs.map getBoundedDiffstarParams
  ⟨paramsMs, paramsQ, r.fracQ, r.mcIsQ⟩

/-- `MCDiffstar`, `mc_diffstarpop_mgash.py` L15-23. Simplification: a history whose parameters contain a NaN is `none` as a
whole; in the code a NaN of the rejuvenation level alone leaves the rates before the quenching time (see
`Model/PopAutoDiff.lean`). -/
structure McSfh where
  paramsMs : Option (DiffstarParams ℝ)
  paramsQ : Option (DiffstarParams ℝ)
  sfhMs : Option (List ℝ)
  sfhQ : Option (List ℝ)
  fracQ : ℝ
  mcIsQ : Prop

/-- `mc_diffstar_sfh_singlegal`, `mc_diffstarpop_mgash.py` L27-142. -/
def mcDiffstarSfhSinglegal {K : Type} (rng : Rng K) (logMah : MahParams ℝ → ℝ → ℝ → ℝ) (p : PF → ℝ)
    (mah : MahParams ℝ) (logmp0 : ℝ) (upid : ℤ) (lgmuInfall logmhostInfall gyrSinceInfall : ℝ) (ranKey : K)
    (tarr : List ℝ) (lgt0 fb : ℝ) : McSfh :=
  let tpeak := mah.tPeak
  let r := mcDiffstarParamsSinglegal rng p logmp0 tpeak upid lgmuInfall logmhostInfall gyrSinceInfall ranKey
  let sfhMs := r.paramsMs.map fun q => calcSfhSinglegal logMah q mah tarr lgt0 fb
  let sfhQ := r.paramsQ.map fun q => calcSfhSinglegal logMah q mah tarr lgt0 fb
  ⟨r.paramsMs, r.paramsQ, sfhMs, sfhQ, r.fracQ, r.mcIsQ⟩

/-- Halo inputs of a population of `n` galaxies (arrays of shape `(n,)`). -/
structure HaloInputs (n : ℕ) where
  logmp0 : Fin n → ℝ
  tpeak : Fin n → ℝ
  upid : Fin n → ℤ
  lgmuInfall : Fin n → ℝ
  logmhostInfall : Fin n → ℝ
  gyrSinceInfall : Fin n → ℝ

/-- `mc_diffstar_u_params_galpop`, `mc_diffstarpop_mgash.py` L258-283: `vmap` over galaxies of
`mc_diffstar_u_params_singlegal`, L225-249 (the kernel and nothing else), with `jran.split(ran_key, ngals)`. -/
def mcDiffstarUParamsGalpop {K : Type} {n : ℕ} (rng : Rng K) (p : PF → ℝ) (h : HaloInputs n) (ranKey : K) :
    Fin n → McU :=
  let ranKeys := rng.split ranKey n
  fun i => mcDiffstarUParamsSinglegalKernel rng p (h.logmp0 i) (h.tpeak i) (h.upid i) (h.lgmuInfall i)
    (h.logmhostInfall i) (h.gyrSinceInfall i) (ranKeys i)

/-- `mc_diffstar_params_galpop`, `mc_diffstarpop_mgash.py` L289-366. -/
def mcDiffstarParamsGalpop {K : Type} {n : ℕ} (rng : Rng K) (p : PF → ℝ) (h : HaloInputs n) (ranKey : K) :
    Fin n → McParams :=
  let r := mcDiffstarUParamsGalpop rng p h ranKey
  let paramsMs := fun i => (r i).uMs.map getBoundedDiffstarParams
  let paramsQ := fun i => (r i).uQ.map getBoundedDiffstarParams
  fun i => ⟨paramsMs i, paramsQ i, (r i).fracQ, (r i).mcIsQ⟩

/-- `mc_diffstar_sfh_galpop`, `mc_diffstarpop_mgash.py` L369-476. `tpeak` is taken from the last field of
`mah_params`. `calc_sfh_galpop` acts row-wise (see `calcSfhGalpop`); rows with NaN parameters have no SFH. -/
def mcDiffstarSfhGalpop {K : Type} {n : ℕ} (rng : Rng K) (logMah : MahParams ℝ → ℝ → ℝ → ℝ) (p : PF → ℝ)
    (mah : MahParams (Fin n → ℝ)) (logmp0 : Fin n → ℝ) (upid : Fin n → ℤ)
    (lgmuInfall logmhostInfall gyrSinceInfall : Fin n → ℝ) (ranKey : K) (tarr : List ℝ) (lgt0 fb : ℝ) :
    Fin n → McSfh :=
  let tpeak := mah.tPeak
  let r := mcDiffstarParamsGalpop rng p ⟨logmp0, tpeak, upid, lgmuInfall, logmhostInfall, gyrSinceInfall⟩
    ranKey
  let sfhMs := fun i => (r i).paramsMs.map fun q =>
    sfhSinglegalKern logMah tarr (mah.row i) q.ms q.q lgt0 fb
  let sfhQ := fun i => (r i).paramsQ.map fun q =>
    sfhSinglegalKern logMah tarr (mah.row i) q.ms q.q lgt0 fb
  fun i => ⟨(r i).paramsMs, (r i).paramsQ, sfhMs i, sfhQ i, (r i).fracQ, (r i).mcIsQ⟩

/-- `mc_select_diffstar_params`, `diffstarpop/param_utils.py` L57-86: field-wise `where` over the eight
fields. -/
def mcSelectDiffstarParams {n : ℕ} (p1 p0 : DiffstarParams (Fin n → ℝ)) (mcIs1 : Fin n → Bool) :
    DiffstarParams (Fin n → ℝ) :=
  let where' := fun (a b : Fin n → ℝ) => fun i => if mcIs1 i then a i else b i
  { lgmcrit := where' p1.lgmcrit p0.lgmcrit
    lgyAtMcrit := where' p1.lgyAtMcrit p0.lgyAtMcrit
    indxLo := where' p1.indxLo p0.indxLo
    indxHi := where' p1.indxHi p0.indxHi
    lgQt := where' p1.lgQt p0.lgQt
    qlglgdt := where' p1.qlglgdt p0.qlglgdt
    lgDrop := where' p1.lgDrop p0.lgDrop
    lgRejuv := where' p1.lgRejuv p0.lgRejuv }

end

/-- A namedtuple with named fields and values of any type, in field order. -/
abbrev NamedTuple (α : Type) := List (String × α)

/-- `namedtuple._replace(**kwds)` (Python library): each field takes the keyword value if present, else its
own; left-over keywords raise (`none`). -/
def NamedTuple.replace {α : Type} (self kwds : NamedTuple α) : Option (NamedTuple α) :=
  let out := self.map fun kv => (kv.1, (kwds.lookup kv.1).getD kv.2)
  if ∀ kw ∈ kwds, kw.1 ∈ self.map Prod.fst then some out else none

/-- `get_all_params_from_varied`, `diffstarpop/param_utils.py` L10-28. -/
def getAllParamsFromVaried {α : Type} (varied defaults : NamedTuple α) : Option (NamedTuple α) :=
  NamedTuple.replace defaults varied

/-- Field names of `DiffstarPopUParams`, `defaults_mgash.py` L32-33: all 88 names with prefix `u_`. -/
def uPopNames : List String := (QF.fields.map QF.name ++ SF.fields.map SF.name).map fun s => "u_" ++ s

/-- `get_all_diffstarpop_u_params`, `diffstarpop/param_utils.py` L31-54, for any default values
`defaults` of the 88 unbounded parameters; `_make` re-labels the values positionally. -/
def getAllDiffstarpopUParams {α : Type} (defaults : List α) (varied : NamedTuple α) :
    Option (NamedTuple α) :=
  (getAllParamsFromVaried varied (uPopNames.zip defaults)).map fun r => uPopNames.zip (r.map Prod.snd)

end Diffstar.Pop
