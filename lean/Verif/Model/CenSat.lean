import Verif.Model.TngRanks

/-!
Model of the central/satellite flags of the TNG and Galacticus measurements:
`create_target_data` and `create_pdf_target_data` of `scripts/diffstarpop_scripts/smhm_utils_tng_mgash.py` and
`scripts/diffstarpop_scripts/smhm_utils_galacticus_mgash.py`.

The flags are integers. `none` is an exception. The tables `tng_cosmic_time.npy` and `tarr_disk.npy` are read, and the
index computed from them is not used.
-/

namespace Diffstar.Targets

noncomputable section

open Classical in
/-- Body of the redshift loops, `smhm_utils_tng_mgash.py` L299-326 and L521-558, `smhm_utils_galacticus_mgash.py`
L233-258 and L453-488: as `measureAtz`, with `is_central = flag == 1` and `is_satell = flag == 0`. The entries of the
list are the halos with a fit and their flags. -/
def measureFlagsAtz {nm na nb : ℕ} (logmhBins : Fin (nm + 1) → ℝ) (mstarBins : Fin (na + 1) → ℝ)
    (ssfrBins : Fin (nb + 1) → ℝ) (pop : List (Halo × ℤ)) (tid : ℕ) : SubvolAtz nm na nb :=
  let data := fun p : List (Halo × ℤ) => p.map fun h => (h.1.logMah tid, h.1.logSmh tid)
  let isCentral := fun h : Halo × ℤ => h.2 = 1
  let isSatell := fun h : Halo × ℤ => h.2 = 0
  let diff := computeDiffHistogramsAtz logmhBins (data pop)
  let hard := computeHistogramsAtz logmhBins (data pop)
  let cen := computeHistogramsAtz logmhBins (data (pop.filter fun h => isCentral h))
  let sat := computeHistogramsAtz logmhBins (data (pop.filter fun h => isSatell h))
  let mobsSel := fun (j : Fin nm) (h : Halo × ℤ) => inPdfBin logmhBins j (h.1.logMah tid)
  let ssfr := fun h : Halo => max (h.logSsfr tid) (-12)
  let mstar := fun j => diffHistMstarAtz mstarBins ((pop.filter fun h => mobsSel j h).map fun h => h.1.logSmh tid)
  { wcounts := diff.1
    whist := diff.2
    counts := hard.1
    hist := hard.2
    countsCen := cen.1
    countsSat := sat.1
    mstarWcounts := fun j => (mstar j).1
    mstarCounts := fun j => (mstar j).2
    mstarSsfrCen := fun j => diffHistMstarSsfrAtz mstarBins ssfrBins
      ((pop.filter fun h => mobsSel j h ∧ isCentral h).map fun h => (h.1.logSmh tid, ssfr h.1))
    mstarSsfrSat := fun j => diffHistMstarSsfrAtz mstarBins ssfrBins
      ((pop.filter fun h => mobsSel j h ∧ isSatell h).map fun h => (h.1.logSmh tid, ssfr h.1)) }

/-- The population given to `sample_halos`: `final_upid`, `smhm_utils_tng_mgash.py` L330-331,
`smhm_utils_galacticus_mgash.py` L262-263. -/
def withFinalUpid (pop : List (Halo × ℤ)) : List Halo := pop.map fun h => { h.1 with upid := finalUpid h.2 }

/-- `upid[:, -1]`, `smhm_utils_tng_mgash.py` L299-300 and L521-522, on the table `cen1_sat0[has_fit]`, one column per
snapshot; `none` is the `IndexError` of a table without columns. -/
def lastFlags (pop : List (Halo × List ℤ)) : Option (List (Halo × ℤ)) :=
  pop.mapM fun h => h.2.getLast?.map fun f => (h.1, f)

/-- The TNG measurement at the time index `tid`, with the sampled halos: `create_target_data`, L259-364, and
`create_pdf_target_data`, L467-567. -/
def tngMeasureAtz {nm na nb : ℕ} (choice : Choice) (call nHalosPerSubvol : ℕ) (logmhBins : Fin (nm + 1) → ℝ)
    (mstarBins : Fin (na + 1) → ℝ) (ssfrBins : Fin (nb + 1) → ℝ) (pop : List (Halo × List ℤ)) (tid zid : ℕ)
    (tobs redshift : ℝ) : Option (SubvolAtz nm na nb × List Sample) := do
  let pop ← lastFlags pop
  return (measureFlagsAtz logmhBins mstarBins ssfrBins pop tid,
    sampleHalos choice call nHalosPerSubvol logmhBins (withFinalUpid pop) tid zid tobs redshift)

end

end Diffstar.Targets
