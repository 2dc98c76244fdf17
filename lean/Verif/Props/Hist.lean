import Verif.Lemmas.NdHist
import Verif.Spec

/-!
Properties of the triweight kernels, differentiable histograms and the stellar-to-halo-mass relation:
C23, C24, C25, C26.
-/

namespace Diffstar.Props

open Diffstar.Spec

/-! ### C23 -/

/-- **C23** (shape): for width `h > 0` the triweight cumulative kernel is `0` up to three widths below the
centre, `1` from three widths above, strictly increasing in between, monotone everywhere, within `[0, 1]`
and symmetric about the centre. -/
theorem C23_triweight_is_cdf (m h : ℝ) (hh : 0 < h) :
    (∀ x, x ≤ m - 3 * h → twCumlJaxKern x m h = 0) ∧
    (∀ x, m + 3 * h ≤ x → twCumlJaxKern x m h = 1) ∧
    (∀ x x', x ≤ x' → twCumlJaxKern x m h ≤ twCumlJaxKern x' m h) ∧
    (∀ x x', m - 3 * h ≤ x → x < x' → x' ≤ m + 3 * h → twCumlJaxKern x m h < twCumlJaxKern x' m h) ∧
    (∀ x, 0 ≤ twCumlJaxKern x m h ∧ twCumlJaxKern x m h ≤ 1) ∧
    (∀ δ, twCumlJaxKern (m + δ) m h + twCumlJaxKern (m - δ) m h = 1) := by
  simp only [twCumlJaxKern_eq]
  refine ⟨?_, ?_, ?_, ?_, ?_, ?_⟩
  · intro x hx; exact jaxTw_lo (by rw [div_le_iff₀ hh]; linarith)
  · intro x hx; exact jaxTw_hi (by rw [le_div_iff₀ hh]; linarith)
  · intro x x' hx; exact jaxTw_mono (div_le_div_of_nonneg_right (by linarith) hh.le)
  · intro x x' h1 h2 h3
    rw [jaxTw_lt_iff (div_lt_div_of_pos_right (by linarith) hh), lt_div_iff₀ hh, div_lt_iff₀ hh]
    constructor <;> linarith
  · intro x; exact ⟨jaxTw_nonneg _, jaxTw_le_one _⟩
  · intro δ
    have e1 : (m + δ - m) / h = δ / h := by ring
    have e2 : (m - δ - m) / h = -(δ / h) := by ring
    rw [e1, e2, jaxTw_add_neg]

/-- **C23** (smoothness): everywhere differentiable in `x`, with derivative the triweight density
`(35/96)(1 - z²/9)³ / h` for `|z| ≤ 3`, zero outside; hence continuous. -/
theorem C23_triweight_density (x m h : ℝ) (hh : 0 < h) :
    (|x - m| ≤ 3 * h → HasDerivAt (fun y => twCumlJaxKern y m h)
      (35 / 96 * (1 - ((x - m) / h) ^ 2 / 9) ^ 3 / h) x) ∧
    (3 * h ≤ |x - m| → HasDerivAt (fun y => twCumlJaxKern y m h) 0 x) := by
  have key : HasDerivAt (fun y => twCumlJaxKern y m h) (twDensity ((x - m) / h) * (1 / h)) x := by
    simp only [twCumlJaxKern_eq]
    exact (jaxTw_hasDerivAt ((x - m) / h)).comp x (((hasDerivAt_id x).sub_const m).div_const h)
  have habs : |(x - m) / h| = |x - m| / h := by rw [abs_div, abs_of_pos hh]
  constructor
  · intro hx
    convert key using 1
    rw [twDensity, if_pos (by rw [habs, div_le_iff₀ hh]; exact hx)]
    ring
  · intro hx
    convert key using 1
    rcases hx.lt_or_eq with hx | hx
    · rw [twDensity, if_neg (by rw [habs, div_le_iff₀ hh]; linarith)]
      ring
    · have e : |(x - m) / h| = 3 := by rw [habs, ← hx]; field_simp
      have e2 : ((x - m) / h) ^ 2 = 9 := by rw [← sq_abs, e]; norm_num
      rw [twDensity, if_pos e.le, e2]
      norm_num

/-- **C23** (agreement): the kernels in `diffstar/utils.py`, `diffstarpop/utils.py`,
`sumstats/diffndhist.py` and `kernels/quenching_kernels.py` are the same function. -/
theorem C23_triweight_implementations_agree (x m h : ℝ) :
    twCumlLaxKern x m h = twCumlJaxKern x m h ∧
    NdHist.twCumlLaxKern x m h = twCumlJaxKern x m h ∧
    jaxTw ((x - m) / h) = twCumlJaxKern x m h := by
  simp [twCumlLax_eq, ndTwCumlLax_eq, twCumlJaxKern_eq]

example : twCumlJaxKern 10.1 10 0.1 = 1808 / 2187 := by norm_num [twCumlJaxKern]

/-! ### C24 -/

/-- **C24** (implementations): integrating the kernel centred on the point over the bin
(`tw_bin_jax_kern`) gives the same weight as the point-versus-edges form used by the histograms. -/
theorem C24_bin_weights_agree (x h lo hi : ℝ) :
    twBinWeightLaxKern x h lo hi = twBinJaxKern x h lo hi ∧
    NdHist.twBinWeightLaxKern x h lo hi = twBinJaxKern x h lo hi := by
  have key : ∀ a, jaxTw ((x - a) / h) = 1 - jaxTw ((a - x) / h) := by
    intro a
    have e : (a - x) / h = -((x - a) / h) := by ring
    rw [e]; linarith [jaxTw_add_neg ((x - a) / h)]
  simp only [twBinWeightLaxKern, twBinJaxKern, twCumlLax_eq, twCumlJaxKern_eq, ndBin_eq, key]
  constructor <;> ring

/-- **C24** (a probability): non-negative for `lo ≤ hi`, at most one, additive over adjacent bins, and
positive exactly when the bin overlaps the open support `(x - 3h, x + 3h)` of the point. -/
theorem C24_bin_weight_is_probability (x h lo mid hi : ℝ) (hh : 0 < h) :
    (lo ≤ hi → 0 ≤ twBinJaxKern x h lo hi) ∧ twBinJaxKern x h lo hi ≤ 1 ∧
    twBinJaxKern x h lo mid + twBinJaxKern x h mid hi = twBinJaxKern x h lo hi ∧
    (lo < hi → (0 < twBinJaxKern x h lo hi ↔ lo < x + 3 * h ∧ x - 3 * h < hi)) := by
  rw [← (C24_bin_weights_agree x h lo hi).2]
  refine ⟨ndBin_nonneg hh, ndBin_le_one _ _ _ _, ?_, ndBin_pos_iff hh⟩
  rw [(C24_bin_weights_agree x h lo hi).2]
  simp only [twBinJaxKern]; ring

/-- **C24** (completeness): the weights over contiguous bins with edges `e 0, …, e n` sum to at most one, and
to exactly one when the edges cover `[x - 3h, x + 3h]`. -/
theorem C24_bin_weights_sum (x h : ℝ) (hh : 0 < h) (n : ℕ) (e : Fin (n + 1) → ℝ) :
    ∑ j : Fin n, twBinJaxKern x h (e j.castSucc) (e j.succ) ≤ 1 ∧
    (e 0 ≤ x - 3 * h → x + 3 * h ≤ e (Fin.last n) →
      ∑ j : Fin n, twBinJaxKern x h (e j.castSucc) (e j.succ) = 1) := by
  simp only [← (C24_bin_weights_agree x h _ _).2]
  exact ⟨ndBin_sum_le_one n e, ndBin_sum_eq_one hh n e⟩

example : ∃ e : Fin 3 → ℝ, e 0 ≤ 10 - 3 * (0.1 : ℝ) ∧ 10 + 3 * (0.1 : ℝ) ≤ e (Fin.last 2) ∧ e 1 = 10 :=
  ⟨![9, 10, 11], by simp; norm_num, by simp [Fin.last]; norm_num, by simp⟩

/-! ### C25 -/

/-- **C25** (weights): `tw_ndhist` is `tw_ndhist_weighted` with unit weights; the weighted histogram is
linear in the weights, and non-negative for non-negative weights and properly ordered bins. -/
theorem C25_ndhist_linear_nonneg {n d : ℕ} {B : Type} (x s : Fin n → Fin d → ℝ) (hs : ∀ i k, 0 < s i k)
    (lo hi : B → Fin d → ℝ) (y y' : Fin n → ℝ) (a c : ℝ) (b : B) :
    NdHist.twNdhist x s lo hi b = NdHist.twNdhistWeighted x s (fun _ => 1) lo hi b ∧
    NdHist.twNdhistWeighted x s (fun i => a * y i + c * y' i) lo hi b =
      a * NdHist.twNdhistWeighted x s y lo hi b + c * NdHist.twNdhistWeighted x s y' lo hi b ∧
    ((∀ k, lo b k ≤ hi b k) → (∀ i, 0 ≤ y i) → 0 ≤ NdHist.twNdhistWeighted x s y lo hi b) := by
  refine ⟨?_, ?_, ?_⟩
  · simp [NdHist.twNdhist, NdHist.twNdhistWeighted, NdHist.twNdhistSumkern, NdHist.twNdhistWeightedKern,
      NdHist.twNdhistKern, NdHist.twNdhistWeightedSumKern]
  · simp only [NdHist.twNdhistWeighted, NdHist.twNdhistWeightedKern, NdHist.twNdhistWeightedSumKern]
    rw [Finset.mul_sum, Finset.mul_sum, ← Finset.sum_add_distrib]
    exact Finset.sum_congr rfl fun i _ => by ring
  · intro hb hy
    simp only [NdHist.twNdhistWeighted, NdHist.twNdhistWeightedKern, NdHist.twNdhistWeightedSumKern]
    exact Finset.sum_nonneg fun i _ =>
      mul_nonneg (Finset.prod_nonneg fun k _ => ndBin_nonneg (hs i k) (hb k)) (hy i)

/-- **C25** (catalogs): the histogram of two concatenated catalogs is the sum of their histograms, and
reordering the rows of a catalog (data, scatter and weights together) changes nothing. -/
theorem C25_ndhist_additive {n n' d : ℕ} {B : Type} (x s : Fin n → Fin d → ℝ)
    (x' s' : Fin n' → Fin d → ℝ) (y : Fin n → ℝ) (y' : Fin n' → ℝ) (lo hi : B → Fin d → ℝ) (b : B) :
    NdHist.twNdhistWeighted (Fin.append x x') (Fin.append s s') (Fin.append y y') lo hi b =
      NdHist.twNdhistWeighted x s y lo hi b + NdHist.twNdhistWeighted x' s' y' lo hi b ∧
    (∀ σ : Equiv.Perm (Fin n), NdHist.twNdhistWeighted (x ∘ σ) (s ∘ σ) (y ∘ σ) lo hi b =
      NdHist.twNdhistWeighted x s y lo hi b) := by
  simp only [NdHist.twNdhistWeighted, NdHist.twNdhistWeightedKern]
  constructor
  · rw [Fin.sum_univ_add]
    simp
  · intro σ
    exact Equiv.sum_comp σ fun i => NdHist.twNdhistWeightedSumKern (x i) (s i) (y i) (lo b) (hi b)

/-- **C25** (conservation): over a full product grid with `nb k` contiguous bins along dimension `k`, the
total histogram never exceeds the total (non-negative) weight, and equals it when every point is at least
three widths inside the grid in every dimension. -/
theorem C25_ndhist_conserves_weight {n d : ℕ} (x s : Fin n → Fin d → ℝ) (hs : ∀ i k, 0 < s i k)
    (y : Fin n → ℝ) (nb : Fin d → ℕ) (e : (k : Fin d) → Fin (nb k + 1) → ℝ) (he : ∀ k, Monotone (e k)) :
    ((∀ i, 0 ≤ y i) →
      ∑ b : (k : Fin d) → Fin (nb k), NdHist.twNdhistWeighted x s y
        (fun b k => e k (b k).castSucc) (fun b k => e k (b k).succ) b ≤ ∑ i, y i) ∧
    ((∀ i k, e k 0 ≤ x i k - 3 * s i k ∧ x i k + 3 * s i k ≤ e k (Fin.last (nb k))) →
      ∑ b : (k : Fin d) → Fin (nb k), NdHist.twNdhistWeighted x s y
        (fun b k => e k (b k).castSucc) (fun b k => e k (b k).succ) b = ∑ i, y i) := by
  have key : ∑ b : (k : Fin d) → Fin (nb k), NdHist.twNdhistWeighted x s y
        (fun b k => e k (b k).castSucc) (fun b k => e k (b k).succ) b =
      ∑ i, (∏ k, ∑ j : Fin (nb k),
        NdHist.twBinWeightLaxKern (x i k) (s i k) (e k j.castSucc) (e k j.succ)) * y i := by
    simp only [NdHist.twNdhistWeighted, NdHist.twNdhistWeightedKern, NdHist.twNdhistWeightedSumKern]
    rw [Finset.sum_comm]
    refine Finset.sum_congr rfl fun i _ => ?_
    rw [← Finset.sum_mul, Finset.prod_univ_sum]
    simp
  rw [key]
  constructor
  · intro hy
    refine Finset.sum_le_sum fun i _ => ?_
    have hp : (∏ k, ∑ j : Fin (nb k),
        NdHist.twBinWeightLaxKern (x i k) (s i k) (e k j.castSucc) (e k j.succ)) ≤ 1 :=
      Finset.prod_le_one
        (fun k _ => Finset.sum_nonneg fun j _ =>
          ndBin_nonneg (hs i k) (he k (Fin.castSucc_lt_succ).le))
        (fun k _ => ndBin_sum_le_one _ _)
    nlinarith [hy i]
  · intro hin
    refine Finset.sum_congr rfl fun i _ => ?_
    rw [Finset.prod_eq_one fun k _ => ndBin_sum_eq_one (hs i k) _ _ (hin i k).1 (hin i k).2, one_mul]

example : ∃ (e : (k : Fin 2) → Fin (2 + 1) → ℝ) (x s : Fin 1 → Fin 2 → ℝ),
    (∀ k, Monotone (e k)) ∧ (∀ i k, 0 < s i k) ∧
    ∀ i k, e k 0 ≤ x i k - 3 * s i k ∧ x i k + 3 * s i k ≤ e k (Fin.last 2) := by
  refine ⟨fun _ j => (j : ℕ), fun _ _ => 1, fun _ _ => 1 / 4, ?_, ?_, ?_⟩
  · intro k a b hab; exact Nat.cast_le.2 hab
  · intro i k; norm_num
  · intro i k; norm_num

/-! ### C26 -/

/-- **C26** (mean): in every bin with a defined value, `compute_smhm` lies between any lower and upper
bound of the catalog's `logsm` (in particular between its minimum and maximum). -/
theorem C26_smhm_between_min_max {n nb : ℕ} (logmh logsm sigma : Fin n → ℝ) (hσ : ∀ i, 0 < sigma i)
    (bins : Fin (nb + 1) → ℝ) (hb : StrictMono bins) (lo hi : ℝ) (hlo : ∀ i, lo ≤ logsm i)
    (hhi : ∀ i, logsm i ≤ hi) (j : Fin nb) (v : ℝ)
    (hv : NdHist.computeSmhm logmh logsm sigma bins j = some v) : lo ≤ v ∧ v ≤ hi := by
  simp only [NdHist.computeSmhm] at hv
  split_ifs at hv with hw
  obtain rfl := Option.some.inj hv
  simp only [NdHist.twNdhistWeighted, NdHist.twNdhistWeightedKern, NdHist.twNdhistWeightedSumKern,
    mul_one] at hw ⊢
  set w : Fin n → ℝ := fun i => ∏ _k : Fin 1, NdHist.twBinWeightLaxKern (logmh i) (sigma i)
    (bins j.castSucc) (bins j.succ) with hwdef
  have hw0 : ∀ i, 0 ≤ w i := fun i => Finset.prod_nonneg fun k _ =>
    ndBin_nonneg (hσ i) (hb (Fin.castSucc_lt_succ)).le
  have hpos : 0 < ∑ i, w i := lt_of_le_of_ne (Finset.sum_nonneg fun i _ => hw0 i) (Ne.symm hw)
  constructor
  · rw [le_div_iff₀ hpos, Finset.mul_sum]
    exact Finset.sum_le_sum fun i _ => by nlinarith [hw0 i, hlo i]
  · rw [div_le_iff₀ hpos, Finset.mul_sum]
    exact Finset.sum_le_sum fun i _ => by nlinarith [hw0 i, hhi i]

/-- **C26** (affine): shifting and scaling all `logsm` shifts and scales the relation, and does not change
which bins are defined. -/
theorem C26_smhm_affine {n nb : ℕ} (logmh logsm sigma : Fin n → ℝ) (bins : Fin (nb + 1) → ℝ) (a c : ℝ)
    (j : Fin nb) :
    NdHist.computeSmhm logmh (fun i => a * logsm i + c) sigma bins j =
      (NdHist.computeSmhm logmh logsm sigma bins j).map fun v => a * v + c := by
  simp only [NdHist.computeSmhm]
  split_ifs with hw
  · rfl
  · simp only [Option.map_some]
    congr 1
    simp only [NdHist.twNdhistWeighted, NdHist.twNdhistWeightedKern, NdHist.twNdhistWeightedSumKern,
      mul_one] at hw ⊢
    simp only [mul_add, Finset.sum_add_distrib, ← Finset.sum_mul]
    rw [add_div]
    congr 1
    · rw [← mul_div_assoc, Finset.mul_sum]
      congr 1
      exact Finset.sum_congr rfl fun i _ => by ring
    · field_simp

/-- **C26** (definedness): the value is undefined exactly when no halo overlaps the bin within three
scatters. -/
theorem C26_smhm_undefined_iff {n nb : ℕ} (logmh logsm sigma : Fin n → ℝ) (hσ : ∀ i, 0 < sigma i)
    (bins : Fin (nb + 1) → ℝ) (hb : StrictMono bins) (j : Fin nb) :
    NdHist.computeSmhm logmh logsm sigma bins j = none ↔
      ∀ i, logmh i + 3 * sigma i ≤ bins j.castSucc ∨ bins j.succ ≤ logmh i - 3 * sigma i := by
  have hlt : bins j.castSucc < bins j.succ := hb (Fin.castSucc_lt_succ)
  simp only [NdHist.computeSmhm]
  have hiff : ∀ i, NdHist.twBinWeightLaxKern (logmh i) (sigma i) (bins j.castSucc) (bins j.succ) = 0 ↔
      logmh i + 3 * sigma i ≤ bins j.castSucc ∨ bins j.succ ≤ logmh i - 3 * sigma i := by
    intro i
    have h1 := ndBin_pos_iff (x := logmh i) (hσ i) hlt
    have h0 := ndBin_nonneg (x := logmh i) (hσ i) hlt.le
    rw [← not_lt, ← not_lt, ← not_and_or, ← h1]
    constructor
    · intro h; rw [h]; exact lt_irrefl _
    · intro h; exact le_antisymm (not_lt.1 h) h0
  simp only [← hiff]
  simp only [NdHist.twNdhistWeighted, NdHist.twNdhistWeightedKern, NdHist.twNdhistWeightedSumKern,
    Fin.prod_univ_one, mul_one]
  have hz : (∑ i, NdHist.twBinWeightLaxKern (logmh i) (sigma i) (bins j.castSucc) (bins j.succ)) = 0 ↔
      ∀ i, NdHist.twBinWeightLaxKern (logmh i) (sigma i) (bins j.castSucc) (bins j.succ) = 0 := by
    rw [Finset.sum_eq_zero_iff_of_nonneg (fun i _ => ndBin_nonneg (x := logmh i) (hσ i) hlt.le)]
    simp
  rw [← hz]
  split_ifs with h
  · simp [h]
  · simp [h]

example : ∃ bins : Fin 3 → ℝ, StrictMono bins := ⟨fun j => (j : ℕ), fun _ _ h => Nat.cast_lt.2 h⟩

end Diffstar.Props
