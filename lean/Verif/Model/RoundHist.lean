import Verif.Model.Rounding
import Verif.Model.PopLoss

/-!
Floating-point versions of the histograms and of the mean square error of the population losses. The order in which the
library adds the terms of a sum is not known, so that the functions are relations: what a result can be.
-/

namespace Diffstar

noncomputable section

namespace Rounding

variable (R : Rounding)

/-- `jnp.sum` (library): the terms are added two by two in some order, with a rounding after each addition. (That the library
may start with zero makes no difference: adding zero to a floating-point number is exact.) -/
inductive IsSum : Multiset ℝ → ℝ → Prop
  | zero : IsSum 0 0
  | one (x : ℝ) : IsSum {x} x
  | add {a b : Multiset ℝ} {s t : ℝ} : a ≠ 0 → b ≠ 0 → IsSum a s → IsSum b t → IsSum (a + b) (R.fl (s + t))

/-- `_tw_cuml_lax_kern`, `diffstarpop/sumstats/diffndhist.py` L9-19. -/
def twCumlLaxKern (x m h : ℝ) : ℝ :=
  let z := R.fl (R.fl (x - m) / h)
  let val := R.twPoly z
  let val := if z < -3 then 0 else val
  let val := if z > 3 then 1 else val
  val

/-- `_tw_bin_weight_lax_kern`, `diffstarpop/sumstats/diffndhist.py` L22-30. -/
def twBinWeightLaxKern (x sig lo hi : ℝ) : ℝ :=
  let a := R.twCumlLaxKern x lo sig
  let b := R.twCumlLaxKern x hi sig
  R.fl (a - b)

/-- `sigma` is a possible value of `jnp.mean(jnp.diff(bins))`,
`diffstarpop/loss_kernels/mstar_ssfr_loss_mgash_anyz.py` L104. -/
def IsMeanDiff {nb : ℕ} (bins : Fin (nb + 1) → ℝ) (sigma : ℝ) : Prop :=
  ∃ total, R.IsSum (Finset.univ.val.map fun j : Fin nb => R.fl (bins j.succ - bins j.castSucc)) total ∧
    sigma = R.fl (total / nb)

/-- `counts` are possible values of `tw_ndhist_weighted` for data in one dimension with the same `sigma` for all points,
`diffstarpop/sumstats/diffndhist.py` L97-163 (a product of one factor is this factor). -/
def IsHist {n nb : ℕ} (bins : Fin (nb + 1) → ℝ) (sigma : ℝ) (x y : Fin n → ℝ) (counts : Fin nb → ℝ) : Prop :=
  ∀ b, R.IsSum (Finset.univ.val.map fun i => R.fl (R.twBinWeightLaxKern (x i) sigma (bins b.castSucc) (bins b.succ) * y i))
    (counts b)

open Classical in
/-- `pdf` is a possible result of `compute_diff_histograms_mstar_atmobs_z`,
`diffstarpop/loss_kernels/mstar_ssfr_loss_mgash_anyz.py` L93-114; `none` is a division by zero. -/
def IsDiffHistMstar {n nb : ℕ} (bins : Fin (nb + 1) → ℝ) (logSmh weight : Fin n → ℝ) (pdf : Option (Fin nb → ℝ)) : Prop :=
  ∃ sigma counts total, R.IsMeanDiff bins sigma ∧ R.IsHist bins sigma logSmh weight counts ∧
    R.IsSum (Finset.univ.val.map counts) total ∧
    pdf = if total = 0 then none else some fun b => R.fl (counts b / total)

/-- `loss` is a possible value of `_mse(pred, target) * 1000`, L32-35 and L185 of the same file. -/
def IsLoss {ι : Type*} [Fintype ι] (pred target : ι → ℝ) (loss : ℝ) : Prop :=
  ∃ total, R.IsSum (Finset.univ.val.map fun i => R.fl (R.fl (pred i - target i) * R.fl (pred i - target i))) total ∧
    loss = R.fl (R.fl (total / Fintype.card ι) * 1000)

end Rounding

end

end Diffstar
