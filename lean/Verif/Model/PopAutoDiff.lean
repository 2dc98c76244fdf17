import Verif.Model.AutoDiff
import Verif.Model.PopGrad

/-!
Reverse-mode differentiation of the population losses (`jax.value_and_grad` in
`diffstar/diffstarpop/loss_kernels/mstar_ssfr_loss_mgash_anyz.py`), with the traced expressions of `Model/AutoDiff.lean`. The
variables are the 88 unbounded population parameters; halo data, bins, targets, times and random keys are constants.

`jax.random.multivariate_normal` is `mean + cholesky(cov) @ z` with a standard normal vector `z` that depends only on the key.
Simplification: the Cholesky factor is that of a diagonal matrix, with the differentiation rule of its formula.
-/

namespace Diffstar.Trace

open Diffstar.Pop Diffstar.PopLoss

noncomputable section

variable {ι : Type}

/-- `jnp.sum` of an array. -/
def sum {m : ℕ} (f : Fin m → Expr ι) : Expr ι := (List.ofFn f).foldr .add (.const 0)

/-- `jnp.prod` of an array. -/
def prod {m : ℕ} (f : Fin m → Expr ι) : Expr ι := (List.ofFn f).foldr .mul (.const 1)

/-- `jnp.take` of one entry of an array with an index that does not depend on the parameters: the other entries receive the
cotangent zero. -/
def take {m : ℕ} (f : Fin m → Expr ι) (i : Fin m) : Expr ι :=
  (List.ofFn f).foldr (fun other acc => .sel (.const 0) (.const 1) acc other) (f i)

/-- `smoothly_clipped_line`, `diffstarpop/utils.py` L154-201. -/
def smoothlyClippedLine (x x0 : ℝ) (y0 m : Expr ι) (yLo yHi : ℝ) : Expr ι :=
  let xLo := .add (.div (.sub (.const yLo) y0) m) (.const x0)
  let xHi := .add (.div (.sub (.const yHi) y0) m) (.const x0)
  let dxLo := .sub (.const x0) xLo
  let dxHi := .sub xHi (.const x0)
  let epsLo := .div dxLo (.const 100)
  let epsHi := .div dxHi (.const 100)
  let xcLo := .add xLo epsLo
  let xcHi := .sub xHi epsHi
  let yLoBound := .add y0 (.mul m (.sub xcLo (.const x0)))
  let yHiBound := .add y0 (.mul m (.sub xcHi (.const x0)))
  let clippingK := .div (.const 20) epsLo
  let yUnclipped := .add y0 (.mul m (.const (x - x0)))
  let yClippedFromBelow := sigmoid (.const x) xcLo clippingK yLoBound yUnclipped
  sigmoid (.const x) xcHi clippingK yClippedFromBelow yHiBound

/-- `line_model`, `kernels/sfh_pdf_mgash.py` L266-268. -/
def lineModel (x : ℝ) (y0 m : Expr ι) (bounds : ℝ × ℝ) : Expr ι :=
  smoothlyClippedLine x LGM_X0 y0 m bounds.1 bounds.2

/-- `Mcrit_model` with `_sig_slope`, `kernels/sfh_pdf_mgash.py` L271-280. -/
def mcritModel (x : ℝ) (xtp ytp lo hi : Expr ι) : Expr ι :=
  let slope := sigmoid (.const x) xtp (.const 3) lo hi
  .add ytp (.mul slope (.sub (.const x) xtp))

/-- `get_bounded_diffstarpop_params`, `defaults_mgash.py` L36-50, with `_get_p_from_u_p_scalar`, `kernels/sfh_pdf_mgash.py`
L621-626, and `_get_bounded_satq_param`, `satquenchpop_model.py` L136-140: the same operations for each field, with the bounds
of the field. -/
def boundedPop : PF → Expr PF := fun f =>
  let lo := (PF.bounds f).1
  let hi := (PF.bounds f).2
  sigmoid (.var f) (.const (0.5 * (lo + hi))) (.const 0.1) (.const lo) (.const hi)

/-- `_get_mean_u_params_mseq`, `kernels/sfh_pdf_mgash.py` L321-354. -/
def meanMseq (p : QF → Expr ι) (logmp0 : ℝ) : Fin 4 → Expr ι :=
  let ulgm := mcritModel logmp0 (p .mean_ulgm_mseq_xtp) (p .mean_ulgm_mseq_ytp) (p .mean_ulgm_mseq_lo) (p .mean_ulgm_mseq_hi)
  let ulgy := mcritModel logmp0 (p .mean_ulgy_mseq_xtp) (p .mean_ulgy_mseq_ytp) (p .mean_ulgy_mseq_lo) (p .mean_ulgy_mseq_hi)
  let ul := lineModel logmp0 (p .mean_ul_mseq_int) (p .mean_ul_mseq_slp) BV_mean_ul
  let uh := lineModel logmp0 (p .mean_uh_mseq_int) (p .mean_uh_mseq_slp) BV_mean_uh
  ![ulgm, ulgy, ul, uh]

/-- `_delta_uqt`, `kernels/sfh_pdf_mgash.py` L306-318. -/
def deltaUqt (p : QF → Expr ι) (logmp0 tpeak : ℝ) : Expr ι :=
  let vsTpeak := sigmoid (.const tpeak) (p .delta_uqt_x0) (p .delta_uqt_k) (p .delta_uqt_ylo) (p .delta_uqt_yhi)
  let vsLogmp0 := .mul (.const (logmp0 - 12.5)) (p .delta_uqt_slope)
  .add vsTpeak vsLogmp0

/-- `_get_mean_u_params_qseq`, `kernels/sfh_pdf_mgash.py` L357-420. -/
def meanQseq (p : QF → Expr ι) (logmp0 tpeak : ℝ) : Fin 8 → Expr ι :=
  let ulgm := mcritModel logmp0 (p .mean_ulgm_qseq_xtp) (p .mean_ulgm_qseq_ytp) (p .mean_ulgm_qseq_lo) (p .mean_ulgm_qseq_hi)
  let ulgy := mcritModel logmp0 (p .mean_ulgy_qseq_xtp) (p .mean_ulgy_qseq_ytp) (p .mean_ulgy_qseq_lo) (p .mean_ulgy_qseq_hi)
  let ul := lineModel logmp0 (p .mean_ul_qseq_int) (p .mean_ul_qseq_slp) BV_mean_ul
  let uh := lineModel logmp0 (p .mean_uh_qseq_int) (p .mean_uh_qseq_slp) BV_mean_uh
  let uqt0 := mcritModel logmp0 (p .mean_uqt_xtp) (p .mean_uqt_ytp) (p .mean_uqt_lo) (p .mean_uqt_hi)
  let uqt := .add uqt0 (deltaUqt p logmp0 tpeak)
  let uqs := lineModel logmp0 (p .mean_uqs_int) (p .mean_uqs_slp) BV_mean_uqs
  let udrop := lineModel logmp0 (p .mean_udrop_int) (p .mean_udrop_slp) BV_mean_udrop
  let urej := lineModel logmp0 (p .mean_urej_int) (p .mean_urej_slp) BV_mean_urej
  ![ulgm, ulgy, ul, uh, uqt, uqs, udrop, urej]

/-- `_get_cov_params_mseq_ms_block`, `kernels/sfh_pdf_mgash.py` L423-457 (standard deviations). -/
def stdMseqMs (p : QF → Expr ι) (logmp0 : ℝ) : Fin 4 → Expr ι :=
  ![lineModel logmp0 (p .std_ulgm_mseq_int) (p .std_ulgm_mseq_slp) BV_std_ulgm,
    lineModel logmp0 (p .std_ulgy_mseq_int) (p .std_ulgy_mseq_slp) BV_std_ulgy,
    lineModel logmp0 (p .std_ul_mseq_int) (p .std_ul_mseq_slp) BV_std_ul,
    lineModel logmp0 (p .std_uh_mseq_int) (p .std_uh_mseq_slp) BV_std_uh]

/-- `_get_cov_params_qseq_ms_block`, `kernels/sfh_pdf_mgash.py` L460-493 (standard deviations). -/
def stdQseqMs (p : QF → Expr ι) (logmp0 : ℝ) : Fin 4 → Expr ι :=
  ![lineModel logmp0 (p .std_ulgm_qseq_int) (p .std_ulgm_qseq_slp) BV_std_ulgm,
    lineModel logmp0 (p .std_ulgy_qseq_int) (p .std_ulgy_qseq_slp) BV_std_ulgy,
    lineModel logmp0 (p .std_ul_qseq_int) (p .std_ul_qseq_slp) BV_std_ul,
    lineModel logmp0 (p .std_uh_qseq_int) (p .std_uh_qseq_slp) BV_std_uh]

/-- `_get_cov_params_qseq_q_block`, `kernels/sfh_pdf_mgash.py` L496-529 (standard deviations). -/
def stdQseqQ (p : QF → Expr ι) (logmp0 : ℝ) : Fin 4 → Expr ι :=
  ![lineModel logmp0 (p .std_uqt_int) (p .std_uqt_slp) BV_std_uqt,
    lineModel logmp0 (p .std_uqs_int) (p .std_uqs_slp) BV_std_uqs,
    lineModel logmp0 (p .std_udrop_int) (p .std_udrop_slp) BV_std_udrop,
    lineModel logmp0 (p .std_urej_int) (p .std_urej_slp) BV_std_urej]

/-- `_frac_quench_cen`, `kernels/sfh_pdf_mgash.py` L565-590. -/
def fracQuenchCen (p : QF → Expr ι) (logmp0 tpeak : ℝ) : Expr ι :=
  let fquenchX0 := sigmoid (.const tpeak) (p .frac_quench_cen_x0_tpeak) (p .frac_quench_cen_k_tpeak)
    (p .frac_quench_cen_x0_ylotpeak) (p .frac_quench_cen_x0_yhitpeak)
  let ylo := sigmoid (.const tpeak) (p .frac_quench_cen_x0_tpeak) (p .frac_quench_cen_k_tpeak)
    (p .frac_quench_cen_ylo_ylotpeak) (p .frac_quench_cen_ylo_yhitpeak)
  sigmoid (.const logmp0) fquenchX0 (p .frac_quench_cen_k) ylo (p .frac_quench_cen_yhi)

/-- `_frac_quench_sat`, `kernels/sfh_pdf_mgash.py` L593-618. -/
def fracQuenchSat (p : QF → Expr ι) (logmp0 tpeak : ℝ) : Expr ι :=
  let fquenchX0 := sigmoid (.const tpeak) (p .frac_quench_sat_x0_tpeak) (p .frac_quench_sat_k_tpeak)
    (p .frac_quench_sat_x0_ylotpeak) (p .frac_quench_sat_x0_yhitpeak)
  let ylo := sigmoid (.const tpeak) (p .frac_quench_sat_x0_tpeak) (p .frac_quench_sat_k_tpeak)
    (p .frac_quench_sat_ylo_ylotpeak) (p .frac_quench_sat_ylo_yhitpeak)
  sigmoid (.const logmp0) fquenchX0 (p .frac_quench_sat_k) ylo (p .frac_quench_sat_yhi)

/-- `predict_sat_frac_delta_qprob` with the functions it calls, `satquenchpop_model.py` L68-133. -/
def predictSatFracDeltaQprob (p : SF → Expr ι) (lgmuInfall logmhostInfall gyrSinceInfall : ℝ) : Expr ι :=
  let qprobHiMhLo := sigmoid (.const lgmuInfall) (p .qphi_lgmu_crit) (.const LGMU_SPEED) (p .lgmu_lo_mh_lo) (p .lgmu_hi_mh_lo)
  let qprobHiMhHi := sigmoid (.const lgmuInfall) (p .qphi_lgmu_crit) (.const LGMU_SPEED) (p .lgmu_lo_mh_hi) (p .lgmu_hi_mh_hi)
  let qprobHi := sigmoid (.const logmhostInfall) (p .qp_lgmh_crit) (.const DEFAULT_LGMH_K) qprobHiMhLo qprobHiMhHi
  let tDelay := sigmoid (.const logmhostInfall) (p .td_lgmhc) (.const DEFAULT_LGMH_K) (p .td_mlo) (p .td_mhi)
  sigmoid (.const gyrSinceInfall) tDelay (.const DEFAULT_Q_SPEED) (.const 0) qprobHi

/-- `get_qprob_sat`, `satquenchpop_model.py` L56-65. -/
def getQprobSat (p : SF → Expr ι) (lgmuInfall logmhostInfall gyrSinceInfall : ℝ) (qprobCen : Expr ι) : Expr ι :=
  let fracDeltaQprob := predictSatFracDeltaQprob p lgmuInfall logmhostInfall gyrSinceInfall
  let deltaQprob := .mul fracDeltaQprob (.sub (.const 1) qprobCen)
  .add qprobCen deltaQprob

open Classical in
/-- `frac_quench`, `kernels/diffstarpop_mgash.py` L28-46 and L87-114: `where(upid == -1, …)` computes both. -/
def fracQuench (p : PF → Expr ι) (logmp0 tpeak : ℝ) (upid : ℤ) (lgmuInfall logmhostInfall gyrSinceInfall : ℝ) : Expr ι :=
  let q := fun f => p (.inl f)
  .sel (.const 0) (.const (if upid = -1 then 1 else 0)) (fracQuenchCen q logmp0 tpeak)
    (getQprobSat (fun f => p (.inr f)) lgmuInfall logmhostInfall gyrSinceInfall (fracQuenchSat q logmp0 tpeak))

/-- `jran.multivariate_normal` (library): `mean + cholesky(cov) @ z` with `cov = D @ corr @ D`, `diffstarpop/utils.py` L132-151,
for the unit correlation matrix. The Cholesky factor of a diagonal matrix has the square roots on the diagonal, and its other
entries are those of the matrix. A NaN in the covariance makes every component NaN. -/
def multivariateNormal (z : Fin 4 → ℝ) (mean std : Fin 4 → Expr ι) : Fin 4 → Expr ι := fun i =>
  .add (mean i) (sum fun j => .mul (if j = i then .sqrt (.mul (.mul (std i) (.const 1)) (std i))
    else .mul (.mul (std i) (.const 0)) (std j)) (.const (z j)))

/-- `u_params_ms`, `kernels/diffstarpop_mgash.py` L53-55 and L72-80. -/
def drawMs (z : Fin 4 → ℝ) (mu std : Fin 4 → Expr ι) : DiffstarParams (Expr ι) :=
  let u := multivariateNormal z mu std
  ⟨u 0, u 1, u 2, u 3, .const DEFAULT_Q_U_PARAMS_UNQUENCHED.lgQt, .const DEFAULT_Q_U_PARAMS_UNQUENCHED.qlglgdt,
    .const DEFAULT_Q_U_PARAMS_UNQUENCHED.lgDrop, .const DEFAULT_Q_U_PARAMS_UNQUENCHED.lgRejuv⟩

/-- `u_params_q`, `kernels/diffstarpop_mgash.py` L56-71. -/
def drawQ (z z' : Fin 4 → ℝ) (mu : Fin 8 → Expr ι) (stdMs stdQ : Fin 4 → Expr ι) : DiffstarParams (Expr ι) :=
  let uMs := multivariateNormal z ![mu 0, mu 1, mu 2, mu 3] stdMs
  let uQ := multivariateNormal z' ![mu 4, mu 5, mu 6, mu 7] stdQ
  ⟨uMs 0, uMs 1, uMs 2, uMs 3, uQ 0, uQ 1, uQ 2, uQ 3⟩

/-- One Monte Carlo galaxy: the two star formation histories and the quenched fraction. -/
structure Gal (ι : Type) where
  sfhMs : List (Expr ι)
  sfhQ : List (Expr ι)
  fracQ : Expr ι

/-- One galaxy of `_mc_diffstar_sfh_galpop_vmap_kern`, `loss_kernels/mstar_ssfr_loss_mgash_anyz.py` L54-81, with
`mc_diffstar_sfh_galpop`, `mc_diffstarpop_mgash.py` L369-476. `z` gives the normal vector of a key; `split` is
`jran.split`. -/
def mcSample {K : Type} {n : ℕ} (split : K → (m : ℕ) → Fin m → K) (z : K → Fin 4 → ℝ) (logMah : MahParams ℝ → ℝ → ℝ → ℝ)
    (p : PF → Expr ι) (h : HaloSample K n) (lgt0 fb : ℝ) : Fin n → Gal ι := fun i =>
  let q := fun f => p (.inl f)
  let keys := split (split h.ranKey n i) 4
  let uMs := drawMs (z (keys 0)) (meanMseq q (h.logmp0 i)) (stdMseqMs q (h.logmp0 i))
  let uQ := drawQ (z (keys 1)) (z (keys 2)) (meanQseq q (h.logmp0 i) (h.mah.tPeak i)) (stdQseqMs q (h.logmp0 i))
    (stdQseqQ q (h.logmp0 i))
  let sfh := fun u => (obsTimes h.tobs).map fun t =>
    sfhSinglegalScalar t (logMah (h.mah.row i) t lgt0) fb (getBoundedDiffstarParams u)
  ⟨sfh uMs, sfh uQ, fracQuench p (h.logmp0 i) (h.mah.tPeak i) (h.upid i) (h.lgmuInfall i) (h.logmhostInfall i)
    (h.gyrSinceInfall i)⟩

/-- `jnp.log10(smh[:, -1])`, `loss_kernels/mstar_ssfr_loss_mgash_anyz.py` L43-47 and L162-163. -/
def logMass (tobs : ℝ) (sfh : List (Expr ι)) : Expr ι :=
  .log10 ((cumulativeMstarFormed (obsTimes tobs) sfh).getLastD (.const 0))

/-- `jnp.clip(log_sfh - log_smh, -12.0, None)`, L287-296. -/
def logSsfr (tobs : ℝ) (sfh : List (Expr ι)) : Expr ι :=
  .max (.sub (.log10 (sfh.getLastD (.const 0))) (logMass tobs sfh)) (.const (-12))

/-- `_tw_cuml_lax_kern`, `sumstats/diffndhist.py` L9-19; the operations on `z` are those of `_jax_tw`. -/
def twCumlLaxKern (x : Expr ι) (m h : ℝ) : Expr ι := jaxTw (.div (.sub x (.const m)) (.const h))

/-- `_tw_bin_weight_lax_kern`, `sumstats/diffndhist.py` L22-30. -/
def twBinWeightLaxKern (x : Expr ι) (sig lo hi : ℝ) : Expr ι := .sub (twCumlLaxKern x lo sig) (twCumlLaxKern x hi sig)

/-- `_tw_ndhist_weighted_kern`, `sumstats/diffndhist.py` L97-119, for one bin. -/
def twNdhistWeightedKern {n d : ℕ} (nddata : Fin n → Fin d → Expr ι) (ndsig : Fin d → ℝ) (y : Fin n → Expr ι)
    (ndlo ndhi : Fin d → ℝ) : Expr ι :=
  sum fun i => .mul (prod fun k => twBinWeightLaxKern (nddata i k) (ndsig k) (ndlo k) (ndhi k)) (y i)

/-- `wcounts / jnp.sum(wcounts)`. -/
def normalise {nb : ℕ} (w : Fin nb → Expr ι) : Fin nb → Expr ι := fun b => .div (w b) (sum w)

/-- `jnp.concatenate((weight_ms, weight_q), axis=1)`, L165-169 and L298-303. -/
def branchWeights {n : ℕ} (fracQ : Fin n → Expr ι) : Fin (n + n) → Expr ι :=
  Fin.append (fun i => .mul (.const 1) (.sub (.const 1) (fracQ i))) (fun i => .mul (.const 1) (fracQ i))

/-- `mstar_kern_tobs`, L123-177, for one target bin. -/
def mstarPdf {n nb : ℕ} (tobs : ℝ) (gals : Fin n → Gal ι) (bins : Fin (nb + 1) → ℝ) : Fin nb → Expr ι :=
  let logSmh := Fin.append (fun i => logMass tobs (gals i).sfhMs) (fun i => logMass tobs (gals i).sfhQ)
  let weight := branchWeights fun i => (gals i).fracQ
  normalise fun b => twNdhistWeightedKern (fun i (_ : Fin 1) => logSmh i) (fun _ => meanDiff bins + 0) weight
    (fun _ => bins b.castSucc) (fun _ => bins b.succ)

/-- `mstar_ssfr_kern_tobs`, L284-313, for one target bin. -/
def mstarSsfrPdf {n nms nsf : ℕ} (tobs : ℝ) (gals : Fin n → Gal ι) (ndbinsLo ndbinsHi : Fin (nms * nsf) → Fin 2 → ℝ)
    (mstarBins : Fin (nms + 1) → ℝ) (ssfrBins : Fin (nsf + 1) → ℝ) : Fin (nms * nsf) → Expr ι :=
  let logSmh := Fin.append (fun i => logMass tobs (gals i).sfhMs) (fun i => logMass tobs (gals i).sfhQ)
  let logSsfrh := Fin.append (fun i => logSsfr tobs (gals i).sfhMs) (fun i => logSsfr tobs (gals i).sfhQ)
  let weight := branchWeights fun i => (gals i).fracQ
  normalise fun b => twNdhistWeightedKern (fun i => ![logSmh i, logSsfrh i])
    ![meanDiff mstarBins + 0, meanDiff ssfrBins + 0] weight (ndbinsLo b) (ndbinsHi b)

/-- `loss_mstar_kern_tobs`, L180-185, with `_mse`, L32-35, as a function of the 88 unbounded parameters. -/
def lossMstar {K : Type} {nk n nb : ℕ} (split : K → (m : ℕ) → Fin m → K) (z : K → Fin 4 → ℝ)
    (logMah : MahParams ℝ → ℝ → ℝ → ℝ) (d : MstarData K nk n nb) : Expr PF :=
  let pdf := fun k => mstarPdf (d.samples k).tobs (mcSample split z logMah boundedPop (d.samples k) d.lgt0 d.fb) d.bins
  .mul (.div (sum fun k => sum fun b => .pow (.sub (pdf k b) (.const (d.target k b))) 2) (.const ((nk : ℝ) * nb)))
    (.const 1000)

/-- `pred_data` of `mstar_ssfr_kern_tobs`, L314-323 and L432-441. -/
def mstarSsfrKernTobs {K : Type} {nk n nms nsf nz nm nt : ℕ} (split : K → (m : ℕ) → Fin m → K) (z : K → Fin 4 → ℝ)
    (logMah : MahParams ℝ → ℝ → ℝ → ℝ) (d : SsfrData K nk n nms nsf nz nm nt) : Fin nz → Fin nt → Fin nsf → Expr PF :=
  let pdf := fun k a b => mstarSsfrPdf (d.samples k).tobs (mcSample split z logMah boundedPop (d.samples k) d.lgt0 d.fb)
    d.ndbinsLo d.ndbinsHi d.mstarBins d.ssfrBins (finProdFinEquiv (a, b))
  let mixed := fun iz a b => sum fun m => .mul (take (fun k => pdf k a b) (d.indxPdf iz m)) (.const (d.nmhaloPdf iz m))
  let row := fun iz t b => take (fun a => mixed iz a b) (d.targetMstarIds t)
  fun iz t b => .div (row iz t b) (sum fun b => row iz t b)

/-- `loss_mstar_ssfr_kern_tobs`, L326-332, and `loss_mstar_ssfr_sat_kern_tobs`, L444-450. -/
def lossMstarSsfr {K : Type} {nk n nms nsf nz nm nt : ℕ} (split : K → (m : ℕ) → Fin m → K) (z : K → Fin 4 → ℝ)
    (logMah : MahParams ℝ → ℝ → ℝ → ℝ) (d : SsfrData K nk n nms nsf nz nm nt) : Expr PF :=
  let pred := mstarSsfrKernTobs split z logMah d
  .mul (.div (sum fun iz => sum fun t => sum fun b => .pow (.sub (pred iz t b) (.const (d.target iz t b))) 2)
    (.const ((nz : ℝ) * nt * nsf))) (.const 1000)

/-- `loss_combined_kern`, L480-485. -/
def lossCombined {K : Type} {nk n nb nk' n' nms nsf nz nm nt : ℕ} (split : K → (m : ℕ) → Fin m → K) (z : K → Fin 4 → ℝ)
    (logMah : MahParams ℝ → ℝ → ℝ → ℝ) (dMstar : MstarData K nk n nb) (dCen : SsfrData K nk' n' nms nsf nz nm nt) : Expr PF :=
  .add (lossMstarSsfr split z logMah dCen) (lossMstar split z logMah dMstar)

/-- `loss_combined_3loss_kern`, L502-512. -/
def lossCombined3 {K : Type} {nk n nb nk' n' nms nsf nz nm nt nk'' n'' nms' nsf' nz' nm' nt' : ℕ}
    (split : K → (m : ℕ) → Fin m → K) (z : K → Fin 4 → ℝ) (logMah : MahParams ℝ → ℝ → ℝ → ℝ) (dMstar : MstarData K nk n nb)
    (dCen : SsfrData K nk' n' nms nsf nz nm nt) (dSat : SsfrData K nk'' n'' nms' nsf' nz' nm' nt') : Expr PF :=
  .add (.add (lossMstarSsfr split z logMah dCen) (lossMstar split z logMah dMstar)) (lossMstarSsfr split z logMah dSat)

/-- `value_and_grad` and the flat-array wrappers, L191-197, L340-346, L458-464, L491-499 and L520-530: the loss and
`jnp.array(grads)`, the derivatives in field order. -/
def gradWrapper (e : Expr PF) (flat : List ℝ) : Option (Option ℝ × List (Option ℝ)) :=
  (makeUParams flat).map fun u => (e.eval u, PF.fields.map (e.grad u))

/-- The traced loss of each `loss_type`, `scripts/diffstarpop_scripts/fit_mstar_ssfr_pdfs_mgash.py` L93-122. -/
def scriptLoss {K : Type} (split : K → (m : ℕ) → Fin m → K) (z : K → Fin 4 → ℝ) (logMah : MahParams ℝ → ℝ → ℝ → ℝ) :
    ScriptLoss K → Expr PF
  | .mstar dMstar => lossMstar split z logMah dMstar
  | .mstarSsfrCen dMstar dCen => lossCombined split z logMah dMstar dCen
  | .mstarSsfrCenSat dMstar dCen dSat => lossCombined3 split z logMah dMstar dCen dSat

end

end Diffstar.Trace
