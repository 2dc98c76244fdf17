import Verif.Model.RoundHist
import Verif.Model.RoundJoint
import Verif.Model.RoundDraw
import Verif.Model.PopLoss

/-! Floating-point version of the predicted stellar mass function, from the halo catalogue to the histogram. -/

namespace Diffstar.Rounding

open Diffstar.Pop Diffstar.PopLoss

noncomputable section

variable (R : Rounding)

/-- Log stellar mass at the end of the table: `_calculate_obs_data_kern`, `diffstarpop/loss_kernels/mstar_ssfr_loss_mgash_anyz.py` L38-48,
and L162-163. -/
def logMassAt (L : MathLib) (tarr sfh : List ℝ) : ℝ := L.log10 ((R.cumulativeMstarFormed tarr sfh).getLastD 0)

/-- Weights of the two branches of each galaxy, L165-166 and L169. -/
def branchWeights {n : ℕ} (fracQ : Fin n → ℝ) : Fin (n + n) → ℝ :=
  Fin.append (fun i => R.fl (1 * R.fl (1 - fracQ i))) (fun i => R.fl (1 * fracQ i))

/-- `pdf` is a possible result of `mstar_kern_tobs` for one target bin, L123-177. `p` are the bounded population parameters, `z` the standard
normal deviates of each key, `tarr` the table of times as computed (`logspace` of the library, L43 and L68). -/
def IsMstarPdf {K : Type} {n nb : ℕ} (L : MathLib) (logMah : MahParams ℝ → ℝ → ℝ → ℝ) (rng : Rng K) (z : K → Fin 4 → ℝ) (p : PF → ℝ)
    (h : HaloSample K n) (tarr : List ℝ) (lgt0 fb : ℝ) (bins : Fin (nb + 1) → ℝ) (pdf : Option (Fin nb → ℝ)) : Prop :=
  let keys := rng.split h.ranKey n
  let sfhMs := fun i => R.mcSfhMs L logMah p (h.mah.row i) (h.logmp0 i) (z (rng.split (keys i) 4 0)) tarr lgt0 fb
  let sfhQ := fun i => R.mcSfhQ L logMah p (h.mah.row i) (h.logmp0 i) (z (rng.split (keys i) 4 1)) (z (rng.split (keys i) 4 2)) tarr lgt0 fb
  let fracQ := fun i => R.fracQuench L.exp p (h.logmp0 i) (h.mah.tPeak i) (h.upid i) (h.lgmuInfall i) (h.logmhostInfall i) (h.gyrSinceInfall i)
  match allSome sfhMs, allSome sfhQ with
  | some sfhMs, some sfhQ => R.IsDiffHistMstar bins (Fin.append (fun i => R.logMassAt L tarr (sfhMs i)) fun i => R.logMassAt L tarr (sfhQ i))
      (R.branchWeights fracQ) pdf
  | _, _ => pdf = none

/-- Log specific star formation rate at the end of the table, L285-296 of the same file: `clip(log10(sfr) - log10(mass), -12)`. -/
def logSsfrAt (L : MathLib) (tarr sfh : List ℝ) : ℝ := max (R.fl (L.log10 (sfh.getLastD 0) - R.logMassAt L tarr sfh)) (-12)

/-- `pdf` is a possible joint distribution of `mstar_ssfr_kern_tobs` for one target bin, L269-312 (satellites: L387-430). -/
def IsMstarSsfrPdf {K : Type} {n nms nsf : ℕ} (L : MathLib) (logMah : MahParams ℝ → ℝ → ℝ → ℝ) (rng : Rng K) (z : K → Fin 4 → ℝ) (p : PF → ℝ)
    (h : HaloSample K n) (tarr : List ℝ) (lgt0 fb : ℝ) (lo hi : Fin (nms * nsf) → Fin 2 → ℝ) (mstarBins : Fin (nms + 1) → ℝ) (ssfrBins : Fin (nsf + 1) → ℝ)
    (pdf : Option (Fin (nms * nsf) → ℝ)) : Prop :=
  let keys := rng.split h.ranKey n
  let sfhMs := fun i => R.mcSfhMs L logMah p (h.mah.row i) (h.logmp0 i) (z (rng.split (keys i) 4 0)) tarr lgt0 fb
  let sfhQ := fun i => R.mcSfhQ L logMah p (h.mah.row i) (h.logmp0 i) (z (rng.split (keys i) 4 1)) (z (rng.split (keys i) 4 2)) tarr lgt0 fb
  let fracQ := fun i => R.fracQuench L.exp p (h.logmp0 i) (h.mah.tPeak i) (h.upid i) (h.lgmuInfall i) (h.logmhostInfall i) (h.gyrSinceInfall i)
  match allSome sfhMs, allSome sfhQ with
  | some sfhMs, some sfhQ =>
    R.IsDiffHistMstarSsfr (Fin.append (fun i => R.logMassAt L tarr (sfhMs i)) fun i => R.logMassAt L tarr (sfhQ i))
      (Fin.append (fun i => R.logSsfrAt L tarr (sfhMs i)) fun i => R.logSsfrAt L tarr (sfhQ i)) (R.branchWeights fracQ) lo hi mstarBins ssfrBins pdf
  | _, _ => pdf = none

end

end Diffstar.Rounding
