import Verif.Model.PopKernel
import Verif.Model.PopParams
import Verif.Model.NdHist
import Mathlib.Logic.Equiv.Fin.Basic

/-!
Model of `diffstar/diffstarpop/loss_kernels/mstar_ssfr_loss_mgash_anyz.py`.

NaN is `none`. Indices given to `jnp.take` are assumed in range (`Fin`). `tw_ndhist_weighted` is imported from
diffsky; its model is the copy in `diffstar/diffstarpop/sumstats/diffndhist.py`.
-/

namespace Diffstar.PopLoss

open Diffstar.Pop

noncomputable section

open Classical in
/-- A float array with NaN entries: either NaN-free, or some later sum is NaN. -/
def allSome {ι α : Type*} (f : ι → Option α) : Option (ι → α) :=
  if h : ∀ i, (f i).isSome then some fun i => (f i).get (h i) else none

open Classical in
/-- `_mse`, L32-35. The mean of an empty array, or of one with NaN, is NaN. -/
def mse {ι : Type*} [Fintype ι] (pred : ι → Option ℝ) (target : ι → ℝ) : Option ℝ :=
  (allSome pred).bind fun pred =>
    let diff := fun i => pred i - target i
    if Fintype.card ι = 0 then none else some ((∑ i, diff i ^ 2) / Fintype.card ι)

/-- `N_TIMES`, L26. -/
def N_TIMES : ℕ := 20

/-- `jnp.logspace(start, stop, num)` (library), `num ≥ 2`. -/
def logspace (start stop : ℝ) (num : ℕ) : List ℝ :=
  (List.range num).map fun i : ℕ => (10 : ℝ) ^ (start + (i : ℝ) * ((stop - start) / ((num : ℝ) - 1)))

/-- `tarr` of L43 and L68. -/
def obsTimes (tobs : ℝ) : List ℝ := logspace (-1) (Real.logb 10 tobs) N_TIMES

/-- Halos of one target bin: one row along the mapped axis of `mc_diffstar_sfh_galpop_vmap`, L84-85. -/
structure HaloSample (K : Type) (n : ℕ) where
  mah : MahParams (Fin n → ℝ)
  logmp0 : Fin n → ℝ
  upid : Fin n → ℤ
  lgmuInfall : Fin n → ℝ
  logmhostInfall : Fin n → ℝ
  gyrSinceInfall : Fin n → ℝ
  ranKey : K
  tobs : ℝ

/-- `_mc_diffstar_sfh_galpop_vmap_kern`, L54-81. -/
def mcSample {K : Type} {n : ℕ} (rng : Rng K) (logMah : MahParams ℝ → ℝ → ℝ → ℝ) (p : PF → ℝ)
    (h : HaloSample K n) (lgt0 fb : ℝ) : Fin n → McSfh :=
  let tarr := obsTimes h.tobs
  mcDiffstarSfhGalpop rng logMah p h.mah h.logmp0 h.upid h.lgmuInfall h.logmhostInfall h.gyrSinceInfall
    h.ranKey tarr lgt0 fb

/-- One branch of one galaxy at the time of observation: `_calculate_obs_data_kern` L38-48 and
`sfh[:, :, -1]` L158: (SFR, stellar mass). -/
def obsData (tobs : ℝ) (sfh : List ℝ) : ℝ × ℝ :=
  let tarr := obsTimes tobs
  let smh := cumulativeMstarFormed tarr sfh
  (sfh.getLastD 0, smh.getLastD 0)

/-- `jnp.concatenate((weight_ms, weight_q), axis=1)`, L165-169 and L298-303. -/
def branchWeights {n : ℕ} (fracQ : Fin n → ℝ) : Fin (n + n) → ℝ :=
  Fin.append (fun i => 1 * (1 - fracQ i)) (fun i => 1 * fracQ i)

/-- `jnp.mean(jnp.diff(bins))`. -/
def meanDiff {nb : ℕ} (bins : Fin (nb + 1) → ℝ) : ℝ := (∑ j : Fin nb, (bins j.succ - bins j.castSucc)) / nb

open Classical in
/-- `wcounts / jnp.sum(wcounts)`; `none` is `0/0`. (With non-negative counts a zero sum means zero counts.) -/
def normalise {B : Type*} [Fintype B] (w : B → ℝ) : Option (B → ℝ) :=
  if ∑ b, w b = 0 then none else some fun b => w b / ∑ b, w b

/-- `compute_diff_histograms_mstar_atmobs_z`, L93-114. -/
def diffHistMstar {n nb : ℕ} (bins : Fin (nb + 1) → ℝ) (logSmh weight : Fin n → ℝ) : Option (Fin nb → ℝ) :=
  let nddata : Fin n → Fin 1 → ℝ := fun i _ => logSmh i
  let sigma := meanDiff bins + 0
  let ndsig : Fin n → Fin 1 → ℝ := fun _ _ => sigma
  let ndbinsLo : Fin nb → Fin 1 → ℝ := fun j _ => bins j.castSucc
  let ndbinsHi : Fin nb → Fin 1 → ℝ := fun j _ => bins j.succ
  let wcounts := NdHist.twNdhistWeighted nddata ndsig weight ndbinsLo ndbinsHi
  normalise wcounts

/-- `compute_diff_histograms_mstar_ssfr_atz`, L213-235, over any flat bin axis `B`. -/
def diffHistMstarSsfr {n nms nsf : ℕ} {B : Type*} [Fintype B] (logSmh logSsfr weight : Fin n → ℝ)
    (ndbinsLo ndbinsHi : B → Fin 2 → ℝ) (mstarBins : Fin (nms + 1) → ℝ) (ssfrBins : Fin (nsf + 1) → ℝ) :
    Option (B → ℝ) :=
  let sigmaMstar := meanDiff mstarBins + 0
  let sigmaSsfr := meanDiff ssfrBins + 0
  let ndsig : Fin n → Fin 2 → ℝ := fun _ => ![sigmaMstar, sigmaSsfr]
  let nddata : Fin n → Fin 2 → ℝ := fun i => ![logSmh i, logSsfr i]
  let wcounts := NdHist.twNdhistWeighted nddata ndsig weight ndbinsLo ndbinsHi
  normalise wcounts

/-- `mstar_kern_tobs` L123-177 for one target bin, from the Monte Carlo galaxies. -/
def mstarPdf {n nb : ℕ} (tobs : ℝ) (gals : Fin n → McSfh) (bins : Fin (nb + 1) → ℝ) : Option (Fin nb → ℝ) :=
  (allSome fun i => (gals i).sfhMs).bind fun sfhMs =>
  (allSome fun i => (gals i).sfhQ).bind fun sfhQ =>
    let logSmhMs := fun i => Real.logb 10 (obsData tobs (sfhMs i)).2
    let logSmhQ := fun i => Real.logb 10 (obsData tobs (sfhQ i)).2
    let weightSmh := branchWeights fun i => (gals i).fracQ
    let logSmh := Fin.append logSmhMs logSmhQ
    diffHistMstar bins logSmh weightSmh

/-- `mstar_kern_tobs`, L123-177: parameters are given unbounded. -/
def mstarKernTobs {K : Type} {nk n nb : ℕ} (rng : Rng K) (logMah : MahParams ℝ → ℝ → ℝ → ℝ) (u : PF → ℝ)
    (samples : Fin nk → HaloSample K n) (lgt0 fb : ℝ) (bins : Fin (nb + 1) → ℝ) : Fin nk → Option (Fin nb → ℝ) :=
  let p := getBoundedDiffstarpopParams u
  fun k => mstarPdf (samples k).tobs (mcSample rng logMah p (samples k) lgt0 fb) bins

/-- `mstar_ssfr_kern_tobs` L284-313 for one target bin, before re-indexing. -/
def mstarSsfrPdf {n nms nsf : ℕ} (tobs : ℝ) (gals : Fin n → McSfh) (ndbinsLo ndbinsHi : Fin (nms * nsf) → Fin 2 → ℝ)
    (mstarBins : Fin (nms + 1) → ℝ) (ssfrBins : Fin (nsf + 1) → ℝ) : Option (Fin (nms * nsf) → ℝ) :=
  (allSome fun i => (gals i).sfhMs).bind fun sfhMs =>
  (allSome fun i => (gals i).sfhQ).bind fun sfhQ =>
    let logSfhMs := fun i => Real.logb 10 (obsData tobs (sfhMs i)).1
    let logSfhQ := fun i => Real.logb 10 (obsData tobs (sfhQ i)).1
    let logSmhMs := fun i => Real.logb 10 (obsData tobs (sfhMs i)).2
    let logSmhQ := fun i => Real.logb 10 (obsData tobs (sfhQ i)).2
    let logSsfrMs := fun i => max (logSfhMs i - logSmhMs i) (-12)
    let logSsfrQ := fun i => max (logSfhQ i - logSmhQ i) (-12)
    let weight := branchWeights fun i => (gals i).fracQ
    let logSmh := Fin.append logSmhMs logSmhQ
    let logSsfr := Fin.append logSsfrMs logSsfrQ
    diffHistMstarSsfr logSmh logSsfr weight ndbinsLo ndbinsHi mstarBins ssfrBins

/-- `reshape((nk, nms, nsf))`, L314-318 (row-major). -/
def reshape {nms nsf : ℕ} (flat : Fin (nms * nsf) → ℝ) : Fin nms → Fin nsf → ℝ :=
  fun a b => flat (finProdFinEquiv (a, b))

/-- `take(pdf, indx_pdf, axis=0)` and `einsum("zmab,zm->zab")`, L319-320, for one redshift. NaN times zero is NaN. -/
def mixBins {nk nm nms nsf : ℕ} (pdf : Fin nk → Option (Fin nms → Fin nsf → ℝ)) (indx : Fin nm → Fin nk)
    (w : Fin nm → ℝ) : Option (Fin nms → Fin nsf → ℝ) :=
  (allSome fun m => pdf (indx m)).map fun pdfs => fun a b => ∑ m, pdfs m a b * w m

open Classical in
/-- `take(…, target_mstar_ids, axis=1)` and the division of L321-322, for one redshift. -/
def conditional {nms nsf nt : ℕ} (pdfs : Option (Fin nms → Fin nsf → ℝ)) (ids : Fin nt → Fin nms) :
    Fin nt → Fin nsf → Option ℝ :=
  fun t b => pdfs.bind fun pdfs =>
    let row := pdfs (ids t)
    if ∑ b, row b = 0 then none else some (row b / ∑ b, row b)

/-- The part of the loss data shared by `mstar_ssfr_kern_tobs` and `mstar_ssfr_sat_kern_tobs`. -/
structure SsfrData (K : Type) (nk n nms nsf nz nm nt : ℕ) where
  samples : Fin nk → HaloSample K n
  lgt0 : ℝ
  fb : ℝ
  ndbinsLo : Fin (nms * nsf) → Fin 2 → ℝ
  ndbinsHi : Fin (nms * nsf) → Fin 2 → ℝ
  mstarBins : Fin (nms + 1) → ℝ
  ssfrBins : Fin (nsf + 1) → ℝ
  nmhaloPdf : Fin nz → Fin nm → ℝ
  indxPdf : Fin nz → Fin nm → Fin nk
  targetMstarIds : Fin nt → Fin nms
  target : Fin nz → Fin nt → Fin nsf → ℝ

/-- `mstar_ssfr_kern_tobs`, L244-323, and `mstar_ssfr_sat_kern_tobs`, L362-441 (same text). -/
def mstarSsfrKernTobs {K : Type} {nk n nms nsf nz nm nt : ℕ} (rng : Rng K) (logMah : MahParams ℝ → ℝ → ℝ → ℝ)
    (u : PF → ℝ) (d : SsfrData K nk n nms nsf nz nm nt) : Fin nz → Fin nt → Fin nsf → Option ℝ :=
  let p := getBoundedDiffstarpopParams u
  let pdf := fun k => (mstarSsfrPdf (d.samples k).tobs (mcSample rng logMah p (d.samples k) d.lgt0 d.fb)
    d.ndbinsLo d.ndbinsHi d.mstarBins d.ssfrBins).map reshape
  fun z => conditional (mixBins pdf (d.indxPdf z) (d.nmhaloPdf z)) d.targetMstarIds

/-- Loss data of the stellar mass function. -/
structure MstarData (K : Type) (nk n nb : ℕ) where
  samples : Fin nk → HaloSample K n
  lgt0 : ℝ
  fb : ℝ
  bins : Fin (nb + 1) → ℝ
  target : Fin nk → Fin nb → ℝ

/-- `loss_mstar_kern_tobs`, L180-185. -/
def lossMstar {K : Type} {nk n nb : ℕ} (rng : Rng K) (logMah : MahParams ℝ → ℝ → ℝ → ℝ) (u : PF → ℝ)
    (d : MstarData K nk n nb) : Option ℝ :=
  let pred := mstarKernTobs rng logMah u d.samples d.lgt0 d.fb d.bins
  (mse (ι := Fin nk × Fin nb) (fun i => (pred i.1).map fun f => f i.2) (fun i => d.target i.1 i.2)).map
    fun x => x * 1000

/-- `loss_mstar_ssfr_kern_tobs`, L326-332, and `loss_mstar_ssfr_sat_kern_tobs`, L444-450. -/
def lossMstarSsfr {K : Type} {nk n nms nsf nz nm nt : ℕ} (rng : Rng K) (logMah : MahParams ℝ → ℝ → ℝ → ℝ)
    (u : PF → ℝ) (d : SsfrData K nk n nms nsf nz nm nt) : Option ℝ :=
  let pred := mstarSsfrKernTobs rng logMah u d
  (mse (ι := Fin nz × Fin nt × Fin nsf) (fun i => pred i.1 i.2.1 i.2.2) (fun i => d.target i.1 i.2.1 i.2.2)).map
    fun x => x * 1000

/-- Float addition with NaN. -/
def addNan (a b : Option ℝ) : Option ℝ := a.bind fun a => b.map fun b => a + b

/-- `loss_combined_kern`, L480-485. -/
def lossCombined {K : Type} {nk n nb nk' n' nms nsf nz nm nt : ℕ} (rng : Rng K)
    (logMah : MahParams ℝ → ℝ → ℝ → ℝ) (u : PF → ℝ) (dMstar : MstarData K nk n nb)
    (dCen : SsfrData K nk' n' nms nsf nz nm nt) : Option ℝ :=
  addNan (lossMstarSsfr rng logMah u dCen) (lossMstar rng logMah u dMstar)

/-- `loss_combined_3loss_kern`, L502-512. -/
def lossCombined3 {K : Type} {nk n nb nk' n' nms nsf nz nm nt nk'' n'' nms' nsf' nz' nm' nt' : ℕ} (rng : Rng K)
    (logMah : MahParams ℝ → ℝ → ℝ → ℝ) (u : PF → ℝ) (dMstar : MstarData K nk n nb)
    (dCen : SsfrData K nk' n' nms nsf nz nm nt) (dSat : SsfrData K nk'' n'' nms' nsf' nz' nm' nt') : Option ℝ :=
  addNan (addNan (lossMstarSsfr rng logMah u dCen) (lossMstar rng logMah u dMstar)) (lossMstarSsfr rng logMah u dSat)

end

end Diffstar.PopLoss
