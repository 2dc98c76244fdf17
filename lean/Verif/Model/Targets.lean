import Verif.Model.Sfh
import Verif.Model.PopLoss
import Verif.Model.Text

/-!
Model of the scripts which measure the targets of the population fits:
`scripts/diffstarpop_scripts/smhm_utils_{smdpl,tng,galacticus}_mgash.py` and
`scripts/diffstarpop_scripts/measure_smhm_{smdpl,tng,galacticus}_script_mpi_mgash.py`.

Line numbers refer to the SMDPL files, unless stated otherwise; the other two have the same text for these functions.
A population is a list of halos (the row axis of the tables). Boolean masks are `List.filter`. Transposed parameter
arrays are lists of parameter tuples. All table entries are finite (`binned_statistic` rejects others).
-/

namespace Diffstar.Targets

noncomputable section

/-! ### One halo of the tables -/

/-- One row of the tables of `load_diffstar_sfh_tables`, L125-174, with the halo's `upid`; the functions give the
row entries by time index. -/
structure Halo where
  logMah : ℕ → ℝ
  logSmh : ℕ → ℝ
  logSsfr : ℕ → ℝ
  mah : MahParams ℝ
  sfh : DiffstarParams ℝ
  upid : ℤ

/-- A call `f(*args, kw1=…, kw2=…)` of a function with required keyword-only arguments (Python): `none` is
`TypeError`. -/
def pyCall {α : Type*} (required : List String) (given : List String) (result : α) : Option α :=
  if required.all fun k => given.contains k then some result else none

/-- Required keyword-only arguments of `calc_sfh_galpop`, `diffstar/sfh_model.py` L79-88 (`return_smh` has a default). -/
def calcSfhGalpopRequired : List String := ["lgt0", "fb"]

/-- Simulations with a target script. -/
inductive Sim | smdpl | tng | galacticus
deriving DecidableEq

/-- Keywords given to `calc_sfh_galpop` by `load_diffstar_sfh_tables`: `smhm_utils_smdpl_mgash.py` L157-159,
`smhm_utils_tng_mgash.py` L109-111, `smhm_utils_galacticus_mgash.py` L73-75. -/
def keywordsGiven : Sim → List String
  | .smdpl => ["lgt0", "return_smh"]
  | .tng => ["lgt0", "fb", "return_smh"]
  | .galacticus => ["lgt0", "return_smh"]

/-- One row of a catalogue as `load_diffstar_sfh_tables` reads it. -/
structure CatRow where
  mah : MahParams ℝ
  sfh : DiffstarParams ℝ
  diffmahLoss : ℝ
  diffstarLoss : ℝ
  success : ℤ
  upid : ℤ

/-- `has_fit`: `smhm_utils_smdpl_mgash.py` L143; `smhm_utils_tng_mgash.py` L90-94 and
`smhm_utils_galacticus_mgash.py` L52-56 also ask for a positive Diffstar loss. -/
def hasFit (sim : Sim) (r : CatRow) : Prop :=
  match sim with
  | .smdpl => r.diffmahLoss > 0 ∧ r.success = 1
  | .tng | .galacticus => r.diffmahLoss > 0 ∧ r.diffstarLoss > 0 ∧ r.success = 1

/-- `T_TABLE_MIN = 0.01`, `diffstar/defaults.py` L17. -/
def T_TABLE_MIN : ℝ := 0.01

/-- `np.linspace(a, b, n)` (library), `n ≥ 2`. -/
def linspace (a b : ℝ) (n : ℕ) : List ℝ := (List.range n).map fun i : ℕ => a + (i : ℝ) * ((b - a) / ((n : ℝ) - 1))

/-- The rows of the tables, L143-162. The MAH and SFH are evaluated with the constant `LGT0` (not the argument `lgt0`,
which only ends the time table). -/
def tableRow (logMah : MahParams ℝ → ℝ → ℝ → ℝ) (lgt0 : ℝ) (nTimes : ℕ) (r : CatRow) : Halo :=
  let tTable := linspace T_TABLE_MIN ((10 : ℝ) ^ lgt0) nTimes
  let gal := calcSfhSinglegalSmh logMah r.sfh r.mah tTable LGT0 FB
  let logSfh := fun i => Real.logb 10 (gal.sfh.getD i 0)
  let logSmh := fun i => Real.logb 10 (gal.smh.getD i 0)
  { logMah := fun i => logMah r.mah (tTable.getD i 0) LGT0
    logSmh := logSmh
    logSsfr := fun i => logSfh i - logSmh i
    mah := r.mah
    sfh := r.sfh
    upid := r.upid }

open Classical in
/-- The rows computed by `load_diffstar_sfh_tables`, L125-174 (with `upid[has_fit]`, L348-352), apart from the keyword
check of `calc_sfh_galpop`. -/
def tableRows (sim : Sim) (logMah : MahParams ℝ → ℝ → ℝ → ℝ) (lgt0 : ℝ) (nTimes : ℕ) (cat : List CatRow) : List Halo :=
  (cat.filter fun r => hasFit sim r).map (tableRow logMah lgt0 nTimes)

/-- `load_diffstar_sfh_tables`, L125-174: `none` is the `TypeError` of a missing keyword of `calc_sfh_galpop`. -/
def loadTables (sim : Sim) (logMah : MahParams ℝ → ℝ → ℝ → ℝ) (lgt0 : ℝ) (nTimes : ℕ) (cat : List CatRow) :
    Option (List Halo) :=
  pyCall calcSfhGalpopRequired (keywordsGiven sim) (tableRows sim logMah lgt0 nTimes cat)

/-! ### Halo mass bins -/

/-- Bins of `scipy.stats.binned_statistic` and of `np.histogram` (library): half open, the last one closed. -/
def inHistBin {nb : ℕ} (bins : Fin (nb + 1) → ℝ) (j : Fin nb) (x : ℝ) : Prop :=
  bins j.castSucc ≤ x ∧ (x < bins j.succ ∨ (j.val + 1 = nb ∧ x = bins j.succ))

open Classical in
/-- `compute_histograms_atz`, L238-245: `(count, whist)`; the data are pairs `(log_mah, log_smh)`. -/
def computeHistogramsAtz {nb : ℕ} (bins : Fin (nb + 1) → ℝ) (data : List (ℝ × ℝ)) : (Fin nb → ℕ) × (Fin nb → ℝ) :=
  (fun j => (data.filter fun x => inHistBin bins j x.1).length,
   fun j => ((data.filter fun x => inHistBin bins j x.1).map Prod.snd).sum)

/-- `compute_diff_histograms_atz`, L217-235: `(wcounts, whist)`. -/
def computeDiffHistogramsAtz {nb : ℕ} (bins : Fin (nb + 1) → ℝ) (data : List (ℝ × ℝ)) : (Fin nb → ℝ) × (Fin nb → ℝ) :=
  let nddata : Fin data.length → Fin 1 → ℝ := fun i _ => data[i].1
  let sigma := PopLoss.meanDiff bins + 0
  let ndsig : Fin data.length → Fin 1 → ℝ := fun _ _ => sigma
  let ydata : Fin data.length → ℝ := fun i => data[i].2
  let ndbinsLo : Fin nb → Fin 1 → ℝ := fun j _ => bins j.castSucc
  let ndbinsHi : Fin nb → Fin 1 → ℝ := fun j _ => bins j.succ
  let whist := NdHist.twNdhistWeighted nddata ndsig ydata ndbinsLo ndbinsHi
  let wcounts := NdHist.twNdhistWeighted nddata ndsig (fun _ => 1) ndbinsLo ndbinsHi
  (wcounts, whist)

/-! ### Time index of a redshift -/

/-- `np.digitize(x, bins)` for decreasing `bins`, `right=False` (library): the `i` with `bins[i-1] > x >= bins[i]`,
where a missing left neighbour is `+∞` and a missing right neighbour is `-∞`. -/
def digitizeDecreasing : List ℝ → ℝ → ℕ
  | [], _ => 0
  | b :: bs, x => open Classical in if x < b then digitizeDecreasing bs x + 1 else 0

/-- `return_target_redshfit_index`, L255-257, for one target; `zOfAge` is `get_redshift_from_age`, L248-252 (a
decreasing table of astropy). -/
def targetRedshiftIndex (zOfAge : ℝ → ℝ) (tTable : List ℝ) (z : ℝ) : ℕ :=
  let zTable := tTable.map zOfAge
  digitizeDecreasing zTable z

/-! ### Sampled halos -/

/-- `N_HALOS_MAX`, L50. -/
def N_HALOS_MAX : ℕ := 20000

/-- One row of the file `*_smhm_samples_haloes.h5`. -/
structure Sample where
  logmhId : ℕ
  logmhVal : ℝ
  mah : MahParams ℝ
  ms : MSParams ℝ
  q : QParams ℝ
  upid : ℤ
  tobsId : ℕ
  tobsVal : ℝ
  redshift : ℝ

/-- `np.random.choice(a, size, replace)` of one run: the calls are numbered. -/
abbrev Choice := ℕ → List ℕ → ℕ → Bool → List ℕ

open Classical in
/-- `arange_arr[sel]`, L286-289. -/
def binMembers {nb : ℕ} (bins : Fin (nb + 1) → ℝ) (pop : List Halo) (tid : ℕ) (j : Fin nb) : List ℕ :=
  (List.range pop.length).filter fun i => (pop[i]?).any fun h =>
    decide (h.logMah tid ≥ bins j.castSucc ∧ h.logMah tid < bins j.succ)

/-- Body of the loop of `sample_halos`, L286-295, with the time columns of L403-410. `call` numbers the calls of
`np.random.choice`. -/
def sampleBin {nb : ℕ} (choice : Choice) (call nHalosPerSubvol : ℕ) (bins : Fin (nb + 1) → ℝ) (pop : List Halo)
    (tid zid : ℕ) (tobs redshift : ℝ) (j : Fin nb) : List Sample :=
  let sel := binMembers bins pop tid j
  let selNum := min nHalosPerSubvol sel.length
  let sel := choice (call + j.val) sel selNum false
  sel.filterMap fun i => (pop[i]?).map fun h =>
    { logmhId := j.val
      logmhVal := (bins j.castSucc + bins j.succ) / 2
      mah := h.mah
      ms := h.sfh.ms
      q := h.sfh.q
      upid := h.upid
      tobsId := zid
      tobsVal := tobs
      redshift := redshift }

/-- `sample_halos`, L260-313. `nHalosPerSubvol` is `N_HALOS_MAX // n_subvol_smdpl` (L284), `N_HALOS_MAX // NCHUNKS`
(TNG) or `N_HALOS_MAX` (Galacticus, which also skips empty bins, `smhm_utils_galacticus_mgash.py` L162-163: same
rows). -/
def sampleHalos {nb : ℕ} (choice : Choice) (call nHalosPerSubvol : ℕ) (bins : Fin (nb + 1) → ℝ) (pop : List Halo)
    (tid zid : ℕ) (tobs redshift : ℝ) : List Sample :=
  (List.finRange nb).flatMap (sampleBin choice call nHalosPerSubvol bins pop tid zid tobs redshift)

/-! ### Targets of one subvolume -/

/-- Product bins, L576-583: `ndbins_lo`, `ndbins_hi` in the order of the two loops. -/
def productBins {na nb : ℕ} (as : Fin (na + 1) → ℝ) (bs : Fin (nb + 1) → ℝ) : List ((ℝ × ℝ) × (ℝ × ℝ)) :=
  (List.finRange na).flatMap fun i => (List.finRange nb).map fun j =>
    ((as i.castSucc, bs j.castSucc), (as i.succ, bs j.succ))

/-- `compute_diff_histograms_mstar_atmobs_z`, L477-499: `(wcounts, counts)`. -/
def diffHistMstarAtz {nb : ℕ} (bins : Fin (nb + 1) → ℝ) (logSmh : List ℝ) : (Fin nb → ℝ) × (Fin nb → ℕ) :=
  let nddata : Fin logSmh.length → Fin 1 → ℝ := fun i _ => logSmh[i]
  let ndsig : Fin logSmh.length → Fin 1 → ℝ := fun _ _ => PopLoss.meanDiff bins + 0
  let ndbinsLo : Fin nb → Fin 1 → ℝ := fun j _ => bins j.castSucc
  let ndbinsHi : Fin nb → Fin 1 → ℝ := fun j _ => bins j.succ
  let wcounts := NdHist.twNdhistWeighted nddata ndsig (fun _ => 1) ndbinsLo ndbinsHi
  let counts := open Classical in fun j => (logSmh.filter fun x => inHistBin bins j x).length
  (wcounts, counts)

/-- `compute_diff_histograms_mstar_ssfr_atz`, L502-525, and `reshape((nmstar, nssfr))`, L612: the data are pairs
`(log_smh, log_ssfr)`; entry `(a, b)` of the reshaped array is entry `a * nssfr + b` of the flat one. -/
def diffHistMstarSsfrAtz {na nb : ℕ} (mstarBins : Fin (na + 1) → ℝ) (ssfrBins : Fin (nb + 1) → ℝ)
    (data : List (ℝ × ℝ)) : Fin na → Fin nb → ℝ :=
  let nd := productBins mstarBins ssfrBins
  let sigmaMstar := PopLoss.meanDiff mstarBins + 0
  let sigmaSsfr := PopLoss.meanDiff ssfrBins + 0
  let ndsig : Fin data.length → Fin 2 → ℝ := fun _ => ![sigmaMstar, sigmaSsfr]
  let nddata : Fin data.length → Fin 2 → ℝ := fun i => ![data[i].1, data[i].2]
  let ndbinsLo : Fin nd.length → Fin 2 → ℝ := fun k => ![nd[k].1.1, nd[k].1.2]
  let ndbinsHi : Fin nd.length → Fin 2 → ℝ := fun k => ![nd[k].2.1, nd[k].2.2]
  let wcounts := List.ofFn (NdHist.twNdhistWeighted nddata ndsig (fun _ => 1) ndbinsLo ndbinsHi)
  fun a b => wcounts.getD (a.val * nb + b.val) 0

/-- The measurements of one subvolume at one redshift. -/
@[ext]
structure SubvolAtz (nm na nb : ℕ) where
  wcounts : Fin nm → ℝ
  whist : Fin nm → ℝ
  counts : Fin nm → ℕ
  hist : Fin nm → ℝ
  countsCen : Fin nm → ℕ
  countsSat : Fin nm → ℕ
  mstarWcounts : Fin nm → Fin na → ℝ
  mstarCounts : Fin nm → Fin na → ℕ
  mstarSsfrCen : Fin nm → Fin na → Fin nb → ℝ
  mstarSsfrSat : Fin nm → Fin na → Fin nb → ℝ

/-- Mask of the PDF targets, L593-595: both inequalities strict. -/
def inPdfBin {nm : ℕ} (bins : Fin (nm + 1) → ℝ) (j : Fin nm) (x : ℝ) : Prop :=
  x > bins j.castSucc ∧ x < bins j.succ

open Classical in
/-- Body of the redshift loops of `create_target_data`, L366-389, and `create_pdf_target_data`, L591-623, for the time
index `tid`, SMDPL. (TNG and Galacticus take centrals from a flag: `Model/CenSat.lean`.) -/
def measureAtz {nm na nb : ℕ} (logmhBins : Fin (nm + 1) → ℝ) (mstarBins : Fin (na + 1) → ℝ)
    (ssfrBins : Fin (nb + 1) → ℝ) (pop : List Halo) (tid : ℕ) : SubvolAtz nm na nb :=
  let data := fun p : List Halo => p.map fun h => (h.logMah tid, h.logSmh tid)
  let isCentral := fun h : Halo => h.upid = -1
  let diff := computeDiffHistogramsAtz logmhBins (data pop)
  let hard := computeHistogramsAtz logmhBins (data pop)
  let cen := computeHistogramsAtz logmhBins (data (pop.filter fun h => isCentral h))
  let sat := computeHistogramsAtz logmhBins (data (pop.filter fun h => ¬ isCentral h))
  let mobsSel := fun (j : Fin nm) (h : Halo) => inPdfBin logmhBins j (h.logMah tid)
  let ssfr := fun h : Halo => max (h.logSsfr tid) (-12)
  let mstar := fun j => diffHistMstarAtz mstarBins ((pop.filter fun h => mobsSel j h).map fun h => h.logSmh tid)
  { wcounts := diff.1
    whist := diff.2
    counts := hard.1
    hist := hard.2
    countsCen := cen.1
    countsSat := sat.1
    mstarWcounts := fun j => (mstar j).1
    mstarCounts := fun j => (mstar j).2
    mstarSsfrCen := fun j => diffHistMstarSsfrAtz mstarBins ssfrBins
      ((pop.filter fun h => mobsSel j h ∧ isCentral h).map fun h => (h.logSmh tid, ssfr h))
    mstarSsfrSat := fun j => diffHistMstarSsfrAtz mstarBins ssfrBins
      ((pop.filter fun h => mobsSel j h ∧ ¬ isCentral h).map fun h => (h.logSmh tid, ssfr h)) }

/-! ### Sum over subvolumes -/

/-- Sum of two measurements, `measure_smhm_smdpl_script_mpi_mgash.py` L202-212. -/
def SubvolAtz.add {nm na nb : ℕ} (x y : SubvolAtz nm na nb) : SubvolAtz nm na nb where
  wcounts := fun j => x.wcounts j + y.wcounts j
  whist := fun j => x.whist j + y.whist j
  counts := fun j => x.counts j + y.counts j
  hist := fun j => x.hist j + y.hist j
  countsCen := fun j => x.countsCen j + y.countsCen j
  countsSat := fun j => x.countsSat j + y.countsSat j
  mstarWcounts := fun j a => x.mstarWcounts j a + y.mstarWcounts j a
  mstarCounts := fun j a => x.mstarCounts j a + y.mstarCounts j a
  mstarSsfrCen := fun j a b => x.mstarSsfrCen j a b + y.mstarSsfrCen j a b
  mstarSsfrSat := fun j a b => x.mstarSsfrSat j a b + y.mstarSsfrSat j a b

/-- `np.zeros` of L186-197. -/
def SubvolAtz.zero {nm na nb : ℕ} : SubvolAtz nm na nb :=
  ⟨fun _ => 0, fun _ => 0, fun _ => 0, fun _ => 0, fun _ => 0, fun _ => 0, fun _ _ => 0, fun _ _ => 0,
    fun _ _ _ => 0, fun _ _ _ => 0⟩

/-- The workers, L99-178: one entry per subvolume of the listing; `none` (missing input) is caught at L176-178 and
leaves no temporary file. -/
def workerFiles {nm na nb : ℕ} (logmhBins : Fin (nm + 1) → ℝ) (mstarBins : Fin (na + 1) → ℝ) (ssfrBins : Fin (nb + 1) → ℝ)
    (tid : ℕ) (subvols : List (Option (List Halo))) : List (Option (SubvolAtz nm na nb)) :=
  subvols.map fun pop => pop.map fun pop => measureAtz logmhBins mstarBins ssfrBins pop tid

/-- Rank 0, L186-212: opens the temporary file of every subvolume of the listing; `none` is `FileNotFoundError`. -/
def collect {nm na nb : ℕ} (files : List (Option (SubvolAtz nm na nb))) : Option (SubvolAtz nm na nb) :=
  files.foldlM (fun acc f => f.map fun f => acc.add f) SubvolAtz.zero

open Classical in
/-- `smhm = hist / counts`, L244; `none` is `0/0`. -/
def smhm {nm na nb : ℕ} (tot : SubvolAtz nm na nb) (j : Fin nm) : Option ℝ :=
  if tot.counts j = 0 then none else some (tot.hist j / tot.counts j)

/-! ### Names of subvolumes -/

/-- `return_subvol_str`, L80-92, given the digit strings found in the file names; `none` is an unbound
`subvol_str` (or the `max` of an empty array). -/
def returnSubvolStr (subvol : ℕ) (subvols : List Text.Str) : Option Text.Str :=
  let lens := subvols.map List.length
  if lens.any (· == 1) then some (Text.natStr subvol)
  else lens.max?.bind fun m => if lens.all (· == m) then some (Text.zpad m (Text.natStr subvol)) else none

end

end Diffstar.Targets
