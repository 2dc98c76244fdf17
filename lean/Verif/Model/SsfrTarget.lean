import Verif.Model.LossData

/-!
Model of the sSFR targets and bins of `scripts/diffstarpop_scripts/fit_get_loss_helpers_mgash.py`:
`get_loss_data_pdfs_ssfr_central` (L351-663) and `get_loss_data_pdfs_ssfr_satellite` (L666-974). Arrays read from
`smdpl_mstar_ssfr.h5` and `smdpl_smhm.h5` are functions of redshift index and halo mass bin.
-/

namespace Diffstar.LossData

open Diffstar.Targets

noncomputable section

/-- `mstar_ssfr_wcounts_cent` (L426) or `mstar_ssfr_wcounts_sat` (L741); there is no function for `.all`. -/
def ssfrWeights {nm na nb : ℕ} (kind : Kind) (cent sat : ℕ → Fin nm → Fin na → Fin nb → ℝ) :
    ℕ → Fin nm → Fin na → Fin nb → ℝ :=
  match kind with
  | .satellite => sat
  | _ => cent

/-- `counts_cen` (L406 and L434-436) or `counts_sat` (L722 and L748). -/
def ssfrCounts {nm : ℕ} (kind : Kind) (countsCen countsSat : ℕ → Fin nm → ℕ) : ℕ → Fin nm → ℕ :=
  match kind with
  | .satellite => countsSat
  | _ => countsCen

open Classical in
/-- `target_data`, L475-487 (`target_data_sat`, L788-800): one list of rows per redshift, one row per entry of
`target_mstar_ids`; `none` is the `IndexError` of a stellar mass grid that is too short. -/
def ssfrTargets {nm na nb : ℕ} (kind : Kind) (cent sat : ℕ → Fin nm → Fin na → Fin nb → ℝ)
    (countsCen countsSat : ℕ → Fin nm → ℕ) (nAges : ℕ) : Option (List (List (Fin nb → ℝ))) :=
  (List.range nAges).mapM fun i =>
    let pdf := targetPdf (ssfrWeights kind cent sat i) (mhaloPdf (ssfrCounts kind countsCen countsSat i))
    targetMstarIds.mapM fun jval => if h : jval < na then some (targetRow pdf ⟨jval, h⟩) else none

/-- `ndbins_lo`, `ndbins_hi`, L499-506 (L812-819), as arrays with a flat bin axis. -/
def ndbinsLo {na nb : ℕ} (ms : Fin (na + 1) → ℝ) (sf : Fin (nb + 1) → ℝ) : Fin (na * nb) → Fin 2 → ℝ := fun k =>
  let x := (productBins ms sf).getD k.val ((0, 0), (0, 0))
  ![x.1.1, x.1.2]

/-- See `ndbinsLo`. -/
def ndbinsHi {na nb : ℕ} (ms : Fin (na + 1) → ℝ) (sf : Fin (nb + 1) → ℝ) : Fin (na * nb) → Fin 2 → ℝ := fun k =>
  let x := (productBins ms sf).getD k.val ((0, 0), (0, 0))
  ![x.2.1, x.2.2]

/-- `loss_data_ssfr`, L512-531 (L825-844), for a grid of 25 stellar mass bins: the sampled halos, the ragged halo mass
distribution, the indices and the target array are given. -/
def ssfrLossData {K : Type} {nk n nb nz nm : ℕ} (samples : Fin nk → PopLoss.HaloSample K n) (lgt0 fb : ℝ)
    (ms : Fin 26 → ℝ) (sf : Fin (nb + 1) → ℝ) (mhaloPdfRagged : Fin nz → Fin nm → ℝ) (indxPdf : Fin nz → Fin nm → Fin nk)
    (target : Fin nz → Fin 5 → Fin nb → ℝ) : PopLoss.SsfrData K nk n 25 nb nz nm 5 where
  samples := samples
  lgt0 := lgt0
  fb := fb
  ndbinsLo := ndbinsLo ms sf
  ndbinsHi := ndbinsHi ms sf
  mstarBins := ms
  ssfrBins := sf
  nmhaloPdf := mhaloPdfRagged
  indxPdf := indxPdf
  targetMstarIds := fun t => Fin.ofNat 25 (targetMstarIds.getD t.val 0)
  target := target

end

end Diffstar.LossData
