import Verif.Model.Quenching

/-!
Model of `/repo/diffstar/kernels/history_kernel_builders.py`, `/repo/diffstar/defaults.py` (parameter
tuples), `/repo/diffstar/sfh_model.py` and `/repo/diffstar/mgas_model.py`.

diffmah's `_log_mah_kern`, `mah_singlehalo` are parameters. Populations are indexed by `Fin n`; this
builds the shape agreement that JAX checks at trace time into the types.
-/

namespace Diffstar

noncomputable section

/-- `DiffstarParams` namedtuple, `defaults.py` L46-48: main-sequence fields then quenching fields
(also `DiffstarUParams`, L50). -/
structure DiffstarParams (α : Type*) where
  lgmcrit : α
  lgyAtMcrit : α
  indxLo : α
  indxHi : α
  lgQt : α
  qlglgdt : α
  lgDrop : α
  lgRejuv : α

/-- `sfh_params[:4]`. -/
def DiffstarParams.ms {α : Type*} (p : DiffstarParams α) : MSParams α :=
  ⟨p.lgmcrit, p.lgyAtMcrit, p.indxLo, p.indxHi⟩

/-- `sfh_params[4:]`. -/
def DiffstarParams.q {α : Type*} (p : DiffstarParams α) : QParams α :=
  ⟨p.lgQt, p.qlglgdt, p.lgDrop, p.lgRejuv⟩

/-- `DiffstarParams(*ms_params, *q_params)`. -/
def DiffstarParams.join {α : Type*} (ms : MSParams α) (q : QParams α) : DiffstarParams α :=
  ⟨ms.lgmcrit, ms.lgyAtMcrit, ms.indxLo, ms.indxHi, q.lgQt, q.qlglgdt, q.lgDrop, q.lgRejuv⟩

/-- `DEFAULT_DIFFSTAR_PARAMS`, `defaults.py` L48. -/
def DEFAULT_DIFFSTAR_PARAMS : DiffstarParams ℝ :=
  DiffstarParams.join DEFAULT_MS_PARAMS DEFAULT_Q_PARAMS

/-- `get_bounded_diffstar_params`, `defaults.py` L54-76. -/
def getBoundedDiffstarParams (u : DiffstarParams ℝ) : DiffstarParams ℝ :=
  let ms := getBoundedSfrParams u.ms
  let q := getBoundedQParams u.q
  DiffstarParams.join ms q

/-- `get_unbounded_diffstar_params`, `defaults.py` L79-100. -/
def getUnboundedDiffstarParams (p : DiffstarParams ℝ) : DiffstarParams ℝ :=
  let ums := getUnboundedSfrParams p.ms
  let uq := getUnboundedQParams p.q
  DiffstarParams.join ums uq

/-- `_sfh_singlegal_scalar`, `kernels/history_kernel_builders.py` L14-28. -/
def sfhSinglegalScalar {M : Type*} (logMah : M → ℝ → ℝ → ℝ) (tform : ℝ) (mahParams : M)
    (ms : MSParams ℝ) (q : QParams ℝ) (logt0 fb : ℝ) : ℝ :=
  let lgtForm := Real.logb 10 tform
  let sfrMs := sfhMsKernel logMah tform mahParams ms logt0 fb
  let lgQDt := (10 : ℝ) ^ q.qlglgdt
  let qfunc := quenchingKern lgtForm q.lgQt lgQDt q.lgDrop q.lgRejuv
  let sfr := qfunc * sfrMs
  if sfr < SFR_MIN then SFR_MIN else sfr

/-- `_sfh_singlegal_kern`, `kernels/history_kernel_builders.py` L31-32 (`vmap` over times). -/
def sfhSinglegalKern {M : Type*} (logMah : M → ℝ → ℝ → ℝ) (tarr : List ℝ) (mahParams : M)
    (ms : MSParams ℝ) (q : QParams ℝ) (logt0 fb : ℝ) : List ℝ :=
  tarr.map fun t => sfhSinglegalScalar logMah t mahParams ms q logt0 fb

/-- Row `i` of a population parameter tuple: `jnp.array(params).T[i]`, `sfh_model.py` L133-135, and
equally the slice that `vmap` takes of a tuple of arrays (`mgas_model.py` L124). -/
def MSParams.row {n : ℕ} (p : MSParams (Fin n → ℝ)) (i : Fin n) : MSParams ℝ :=
  ⟨p.lgmcrit i, p.lgyAtMcrit i, p.indxLo i, p.indxHi i⟩

/-- See `MSParams.row`. -/
def QParams.row {n : ℕ} (p : QParams (Fin n → ℝ)) (i : Fin n) : QParams ℝ :=
  ⟨p.lgQt i, p.qlglgdt i, p.lgDrop i, p.lgRejuv i⟩

/-- Diffmah parameter tuple `DEFAULT_MAH_PARAMS` (diffmah; field list quoted at `sfh_model.py` L38). -/
structure MahParams (α : Type*) where
  logmp : α
  logtc : α
  earlyIndex : α
  lateIndex : α
  tPeak : α

/-- See `MSParams.row`. -/
def MahParams.row {n : ℕ} (p : MahParams (Fin n → ℝ)) (i : Fin n) : MahParams ℝ :=
  ⟨p.logmp i, p.logtc i, p.earlyIndex i, p.lateIndex i, p.tPeak i⟩

/-- `_sfh_galpop_kern`, `kernels/history_kernel_builders.py` L35-41 (`vmap` over galaxies). -/
def sfhGalpopKern {n : ℕ} (logMah : MahParams ℝ → ℝ → ℝ → ℝ) (tarr : List ℝ)
    (mahParams : MahParams (Fin n → ℝ)) (ms : MSParams (Fin n → ℝ)) (q : QParams (Fin n → ℝ))
    (logt0 fb : ℝ) : Fin n → List ℝ :=
  fun i => sfhSinglegalKern logMah tarr (mahParams.row i) (ms.row i) (q.row i) logt0 fb

/-- `calc_sfh_singlegal(..., return_smh=False)`, `sfh_model.py` L18-76. -/
def calcSfhSinglegal {M : Type*} (logMah : M → ℝ → ℝ → ℝ) (sfhParams : DiffstarParams ℝ)
    (mahParams : M) (tarr : List ℝ) (lgt0 fb : ℝ) : List ℝ :=
  sfhSinglegalKern logMah tarr mahParams sfhParams.ms sfhParams.q lgt0 fb

/-- `GalHistory(sfh, smh)`, `sfh_model.py` L15. -/
structure GalHistory (α : Type*) where
  sfh : α
  smh : α

/-- `calc_sfh_singlegal(..., return_smh=True)`, `sfh_model.py` L18-76. -/
def calcSfhSinglegalSmh {M : Type*} (logMah : M → ℝ → ℝ → ℝ) (sfhParams : DiffstarParams ℝ)
    (mahParams : M) (tarr : List ℝ) (lgt0 fb : ℝ) : GalHistory (List ℝ) :=
  let sfh := sfhSinglegalKern logMah tarr mahParams sfhParams.ms sfhParams.q lgt0 fb
  let smh := cumulativeMstarFormed tarr sfh
  ⟨sfh, smh⟩

/-- `calc_sfh_galpop(..., return_smh=False)`, `sfh_model.py` L79-144. -/
def calcSfhGalpop {n : ℕ} (logMah : MahParams ℝ → ℝ → ℝ → ℝ)
    (sfhParams : DiffstarParams (Fin n → ℝ)) (mahParams : MahParams (Fin n → ℝ)) (tarr : List ℝ)
    (lgt0 fb : ℝ) : Fin n → List ℝ :=
  sfhGalpopKern logMah tarr mahParams sfhParams.ms sfhParams.q lgt0 fb

/-- `calc_sfh_galpop(..., return_smh=True)`, `sfh_model.py` L79-144. -/
def calcSfhGalpopSmh {n : ℕ} (logMah : MahParams ℝ → ℝ → ℝ → ℝ)
    (sfhParams : DiffstarParams (Fin n → ℝ)) (mahParams : MahParams (Fin n → ℝ)) (tarr : List ℝ)
    (lgt0 fb : ℝ) : GalHistory (Fin n → List ℝ) :=
  let sfh := sfhGalpopKern logMah tarr mahParams sfhParams.ms sfhParams.q lgt0 fb
  let smh := fun i => cumulativeMstarFormed tarr (sfh i)
  ⟨sfh, smh⟩

/-- `GalHistory(sfh, smh, dmgash, mgash)`, `mgas_model.py` L14. `dmgash = none` when the table has
fewer than three times (see `jaxGetDtArray`). -/
structure GasHistory where
  sfh : List ℝ
  smh : List ℝ
  dmgash : Option (List ℝ)
  mgash : List ℝ

/-- Lines 64-77 of `mgas_model.py` (and 126-139, per galaxy): everything after the SFH. -/
def gasFromHistories (tarr sfh dmhdt : List ℝ) (fb : ℝ) : GasHistory :=
  let dmgasdtInst := dmhdt.map fun d => fb * d
  let smh := cumulativeMstarFormed tarr sfh
  let mgasInst := cumulativeMstarFormed tarr dmgasdtInst
  let mgas := List.zipWith (fun a b => a - b) mgasInst smh
  let dmgasDt :=
    match jaxGetDtArray mgas, jaxGetDtArray tarr with
    | some dm, some dt => some (List.zipWith (fun a b => a / b / 10 ^ 9) dm dt)
    | _, _ => none
  ⟨sfh, smh, dmgasDt, mgas⟩

/-- `calc_mgas_singlegal`, `mgas_model.py` L17-77. `dMhDt mah_params t lgt0` stands for the first
output of diffmah's `mah_singlehalo` at one time. -/
def calcMgasSinglegal {M : Type*} (logMah dMhDt : M → ℝ → ℝ → ℝ) (sfhParams : DiffstarParams ℝ)
    (mahParams : M) (tarr : List ℝ) (lgt0 fb : ℝ) : GasHistory :=
  let sfh := sfhSinglegalKern logMah tarr mahParams sfhParams.ms sfhParams.q lgt0 fb
  let dmhdt := tarr.map fun t => dMhDt mahParams t lgt0
  gasFromHistories tarr sfh dmhdt fb

/-- `calc_mgas_galpop`, `mgas_model.py` L80-139. diffmah's `mah_halopop` is taken to be the row-wise
`mah_singlehalo` (its documented meaning). -/
def calcMgasGalpop {n : ℕ} (logMah dMhDt : MahParams ℝ → ℝ → ℝ → ℝ)
    (sfhParams : DiffstarParams (Fin n → ℝ)) (mahParams : MahParams (Fin n → ℝ)) (tarr : List ℝ)
    (lgt0 fb : ℝ) : Fin n → GasHistory :=
  let sfh := sfhGalpopKern logMah tarr mahParams sfhParams.ms sfhParams.q lgt0 fb
  let dmhdt : Fin n → List ℝ := fun i => tarr.map fun t => dMhDt (mahParams.row i) t lgt0
  fun i => gasFromHistories tarr (sfh i) (dmhdt i) fb

end

end Diffstar
