import Verif.Model.LossData

/-!
Model of the stellar mass loss data of `scripts/diffstarpop_scripts/fit_get_loss_helpers_mgash.py`:
`get_loss_data_pdfs_mstar` (L127-327), `get_loss_data_pdfs_mstar_cen` (L977-1184) and `get_loss_data_pdfs_mstar_sat`
(L1187-1394). Arrays read from `smdpl_mstar_ssfr.h5` are functions of redshift index and halo mass bin.
-/

namespace Diffstar.LossData

open Diffstar.Targets

noncomputable section

/-- The weights that are normalised to the target: `mstar_wcounts[i, j]` (L217), `mstar_wcounts_cen[i, j]` (L1027 and
L1071-1073), `mstar_wcounts_sat[i, j]` (L1238 and L1281-1283). -/
def mstarWeights {na nb : ℕ} (kind : Kind) (wcounts : ℕ → ℕ → Fin na → ℝ) (cent sat : ℕ → ℕ → Fin na → Fin nb → ℝ)
    (i j : ℕ) : Fin na → ℝ :=
  match kind with
  | .all => wcounts i j
  | .central => sumSsfr (cent i j)
  | .satellite => sumSsfr (sat i j)

/-- State of the loops: the halos of each entry, `mstar_counts_target`, and the number of calls of `np.random.choice`. -/
structure MstarLoop (na : ℕ) where
  entries : List Entry
  targets : List (Option (Fin na → ℝ))
  run : ℕ

/-- Body of the inner loop, L204-220 (L1058-1076, L1268-1286). -/
def mstarBinStep {na : ℕ} (choice : Choice) (kind : Kind) (samples : List Sample) (nhalos : ℕ)
    (weights : ℕ → ℕ → Fin na → ℝ) (i : ℕ) (tTarget : ℝ) (st : MstarLoop na) (j : ℕ) : MstarLoop na :=
  let sel := select kind samples i j
  if sel.length < 50 then st
  else
    let replace := if sel.length < nhalos then true else false
    let rows := choice st.run sel nhalos replace
    { entries := st.entries ++ [⟨rows, tTarget⟩]
      targets := st.targets ++ [mstarTarget (weights i j)]
      run := st.run + 1 }

/-- The double loop, L200-220. -/
def mstarLossData {na : ℕ} (choice : Choice) (kind : Kind) (samples : List Sample) (nhalos nm : ℕ)
    (weights : ℕ → ℕ → Fin na → ℝ) (ageTargets : List ℝ) : MstarLoop na :=
  (ageTargets.zipIdx.map fun x => (x.2, x.1)).foldl
    (fun st z => (List.range nm).foldl (mstarBinStep choice kind samples nhalos weights z.1 z.2) st) ⟨[], [], 0⟩

/-- `loss_mstar_kern_tobs`, `mstar_ssfr_loss_mgash_anyz.py` L180-185, for a target array that may have NaN entries: then
the mean of the squares is NaN. -/
def lossMstarNan {K : Type} {nk n nb : ℕ} (rng : Pop.Rng K) (logMah : MahParams ℝ → ℝ → ℝ → ℝ) (u : Pop.PF → ℝ)
    (samples : Fin nk → PopLoss.HaloSample K n) (lgt0 fb : ℝ) (bins : Fin (nb + 1) → ℝ)
    (target : Fin nk → Option (Fin nb → ℝ)) : Option ℝ :=
  (PopLoss.allSome target).bind fun t => PopLoss.lossMstar rng logMah u ⟨samples, lgt0, fb, bins, t⟩

end

end Diffstar.LossData
