import Verif.Model.RoundHist

/-! Floating-point version of the joint histogram of stellar mass and specific star formation rate. -/

namespace Diffstar

noncomputable section

namespace Rounding

variable (R : Rounding)

/-- `counts` are possible values of `tw_ndhist_weighted` for data in two dimensions with the same widths for all points,
`diffstarpop/sumstats/diffndhist.py` L97-163: product of the weights of the two dimensions, times `y`, summed over the points. -/
def IsHist2 {n : ℕ} {B : Type*} (lo hi : B → Fin 2 → ℝ) (sigma : Fin 2 → ℝ) (x : Fin n → Fin 2 → ℝ) (y : Fin n → ℝ) (counts : B → ℝ) : Prop :=
  ∀ b, R.IsSum (Finset.univ.val.map fun i => R.fl (R.fl (R.twBinWeightLaxKern (x i 0) (sigma 0) (lo b 0) (hi b 0) *
    R.twBinWeightLaxKern (x i 1) (sigma 1) (lo b 1) (hi b 1)) * y i)) (counts b)

open Classical in
/-- `pdf` is a possible result of `compute_diff_histograms_mstar_ssfr_atz`,
`diffstarpop/loss_kernels/mstar_ssfr_loss_mgash_anyz.py` L213-235; `none` is a division by zero. -/
def IsDiffHistMstarSsfr {n nms nsf : ℕ} {B : Type*} [Fintype B] (logSmh logSsfr weight : Fin n → ℝ) (lo hi : B → Fin 2 → ℝ)
    (mstarBins : Fin (nms + 1) → ℝ) (ssfrBins : Fin (nsf + 1) → ℝ) (pdf : Option (B → ℝ)) : Prop :=
  ∃ sigmaMstar sigmaSsfr counts total, R.IsMeanDiff mstarBins sigmaMstar ∧ R.IsMeanDiff ssfrBins sigmaSsfr ∧
    R.IsHist2 lo hi ![sigmaMstar, sigmaSsfr] (fun i => ![logSmh i, logSsfr i]) weight counts ∧
    R.IsSum (Finset.univ.val.map counts) total ∧
    pdf = if total = 0 then none else some fun b => R.fl (counts b / total)

open Classical in
/-- `row` is a possible row of `mstar_ssfr_kern_tobs` (one redshift, one stellar mass `a`) from the joint distributions `pdf`, L319-322 of the same file:
`einsum("zmab,zm->zab")` (products summed over the halo masses in some order), sum of the row and division. -/
def IsConditional {nk nm nms nsf : ℕ} (pdf : Fin nk → Fin nms → Fin nsf → ℝ) (indx : Fin nm → Fin nk) (w : Fin nm → ℝ) (a : Fin nms)
    (row : Option (Fin nsf → ℝ)) : Prop :=
  ∃ mixed total, (∀ b, R.IsSum (Finset.univ.val.map fun m => R.fl (pdf (indx m) a b * w m)) (mixed b)) ∧
    R.IsSum (Finset.univ.val.map mixed) total ∧ row = if total = 0 then none else some fun b => R.fl (mixed b / total)

end Rounding

end

end Diffstar
