import Verif.Model.RoundJoint
import Verif.Props.RoundHist
import Verif.Props.PopStable

/-! C153: joint distributions of stellar mass and specific star formation rate in floating-point arithmetic. -/

namespace Diffstar.Props

open Diffstar Diffstar.Spec Finset

/-- Error of the product of two bin weights, after rounding. -/
theorem binFl2_close {R : Rounding} (hu : R.u ≤ 2 ^ (-24 : ℤ)) {v v' w w' d e : ℝ} (hv : 0 ≤ v) (hv1 : v ≤ 1) (hw : 0 ≤ w) (hw1 : w ≤ 1)
    (h : |v' - v| ≤ d) (h' : |w' - w| ≤ e) (hd : d ≤ 1 / 1000) (he : e ≤ 1 / 1000) : |R.fl (v' * w') - v * w| ≤ 1.001 * (d + e) + 7 / 10 ^ 8 := by
  have hs0 := u_small hu
  have h0 := R.u_nonneg
  have d0 : 0 ≤ d := (abs_nonneg _).trans h
  have e0 : 0 ≤ e := (abs_nonneg _).trans h'
  have a : |v'| ≤ 1.001 := by
    rw [abs_le] at h ⊢
    constructor <;> norm_num at hd ⊢ <;> linarith
  have b : |w'| ≤ 1.001 := by
    rw [abs_le] at h' ⊢
    constructor <;> norm_num at he ⊢ <;> linarith
  have c := R.err (v' * w')
  have c1 : |v' * w'| ≤ 1.001 * 1.001 := by
    rw [abs_mul]
    exact mul_le_mul a b (abs_nonneg _) (by norm_num)
  have c2 : R.u * |v' * w'| ≤ 6 / 10 ^ 8 * (1.001 * 1.001) := mul_le_mul hs0 c1 (abs_nonneg _) (by norm_num)
  have k : |v' * w' - v * w| ≤ 1.001 * (d + e) := by
    rw [show v' * w' - v * w = (v' - v) * w + v' * (w' - w) by ring]
    refine (abs_add_le _ _).trans ?_
    rw [abs_mul, abs_mul, abs_of_nonneg hw]
    have k1 : |v' - v| * w ≤ d * 1 := mul_le_mul h hw1 hw d0
    have k2 : |v'| * |w' - w| ≤ 1.001 * e := mul_le_mul a h' (abs_nonneg _) (by norm_num)
    norm_num at k2 ⊢
    linarith
  have := abs_add_le (R.fl (v' * w') - v' * w') (v' * w' - v * w)
  rw [sub_add_sub_cancel] at this
  have c3 := c.trans c2
  norm_num at c3 k ⊢
  linarith

/-- Sum in floating-point arithmetic of terms with errors proportional to weights. -/
theorem weighted_sum_close {R : Rounding} (hu : R.u ≤ 2 ^ (-24 : ℤ)) {n : ℕ} (hN : n ≤ 10 ^ 6) {p p' y : Fin n → ℝ} (hy : ∀ i, 0 ≤ y i) {d s : ℝ}
    (hd : d ≤ 1 / 100) (hp : ∀ i, 0 ≤ p i) (hp1 : ∀ i, p i ≤ 1) (h : ∀ i, |p' i - p i| ≤ d)
    (hs : R.IsSum (univ.val.map fun i => R.fl (p' i * y i)) s) :
    let c := ∑ i, p i * y i
    let D := (d + 7 / 10 ^ 8) * ∑ i, y i
    |s - c| ≤ D + 7 / 10 ^ 8 * n * (c + D) := by
  intro c D
  have hs0 := u_small hu
  have h0 := R.u_nonneg
  have ha : ∀ i, |R.fl (p' i * y i) - p i * y i| ≤ (d + 7 / 10 ^ 8) * y i := by
    intro i
    have g1 := h i
    have g2 : |p' i| ≤ 1.01 := by
      have a := hp i
      have b := hp1 i
      rw [abs_le] at g1 ⊢
      constructor <;> norm_num at hd ⊢ <;> linarith
    have g3 := R.err (p' i * y i)
    rw [abs_mul, abs_of_nonneg (hy i)] at g3
    have g4 : R.u * (|p' i| * y i) ≤ 7 / 10 ^ 8 * y i := by
      rw [← mul_assoc]
      refine mul_le_mul_of_nonneg_right ?_ (hy i)
      have := mul_le_mul hs0 g2 (abs_nonneg _) (by norm_num)
      norm_num at this ⊢
      linarith
    have g5 : |p' i * y i - p i * y i| ≤ d * y i := by
      rw [← sub_mul, abs_mul, abs_of_nonneg (hy i)]
      exact mul_le_mul_of_nonneg_right g1 (hy i)
    have g6 := abs_add_le (R.fl (p' i * y i) - p' i * y i) (p' i * y i - p i * y i)
    rw [sub_add_sub_cancel] at g6
    rw [add_mul]
    linarith
  have h1 := isSum_close hs
  rw [Multiset.card_map, Multiset.map_map] at h1
  set a := fun i => R.fl (p' i * y i) with hadef
  change |s - ∑ i, a i| ≤ ((1 + R.u) ^ (Fintype.card (Fin n)) - 1) * ∑ i, |a i| at h1
  rw [Fintype.card_fin] at h1
  have h2 : |∑ i, a i - c| ≤ D := by
    simp only [c, D]
    rw [← sum_sub_distrib, mul_sum]
    exact (abs_sum_le_sum_abs _ _).trans (sum_le_sum fun i _ => ha i)
  have h3 : ∑ i, |a i| ≤ c + D := by
    simp only [c, D]
    rw [mul_sum, ← sum_add_distrib]
    refine sum_le_sum fun i _ => ?_
    have := abs_add_le (a i - p i * y i) (p i * y i)
    rw [sub_add_cancel, abs_of_nonneg (mul_nonneg (hp i) (hy i))] at this
    linarith [ha i]
  have h4 := pow_u_le hu hN
  have h5 : 0 ≤ ∑ i, |a i| := sum_nonneg fun i _ => abs_nonneg _
  have h6 : ((1 + R.u) ^ n - 1) * ∑ i, |a i| ≤ 7 / 10 ^ 8 * n * (c + D) :=
    mul_le_mul h4 h3 h5 (by positivity)
  have h7 := abs_add_le (s - ∑ i, a i) (∑ i, a i - c)
  rw [sub_add_sub_cancel] at h7
  linarith

/-- Normalised histogram: the error of a value is proportional to the value and to the error of a single count. -/
theorem normalised_fl_rel {R : Rounding} (hu : R.u ≤ 2 ^ (-24 : ℤ)) {nb : ℕ} (hnb : nb ≤ 10 ^ 6) {c c' : Fin nb → ℝ} {T W d e k : ℝ} (hW : 0 < W)
    (hc : ∀ b, 0 ≤ c b) (hcW : ∑ b, c b ≤ W) (hhalf : W ≤ 2 * ∑ b, c b) (he0 : 0 ≤ e) (he' : e ≤ 1 / 20) (hd : 0 ≤ d) (hk : 0 ≤ k) (hk' : k ≤ 1 / 20)
    (hb : ∀ b, |c' b - c b| ≤ d * W + k * (c b + d * W)) (h : ∑ b, |c' b - c b| ≤ (e - 8 / 10 ^ 8 * nb) * W) (hT : R.IsSum (univ.val.map c') T) :
    0 < T ∧ ∀ b, |R.fl (c' b / T) - c b / ∑ b, c b| ≤ 2.35 * d + (2.25 * (e + k) + 7 / 10 ^ 8) * (c b / ∑ b, c b) := by
  have hs0 := u_small hu
  have h0 := R.u_nonneg
  have hnb0 : (0 : ℝ) ≤ nb := Nat.cast_nonneg nb
  set S := ∑ b, c b with hS
  have h1 := isSum_close hT
  rw [Multiset.card_map, Multiset.map_map] at h1
  change |T - ∑ b, c' b| ≤ ((1 + R.u) ^ (Fintype.card (Fin nb)) - 1) * ∑ b, |c' b| at h1
  rw [Fintype.card_fin] at h1
  have hA : ∑ b, |c' b| ≤ 1.05 * W := by
    have : ∑ b, |c' b| ≤ ∑ b, (|c' b - c b| + c b) := sum_le_sum fun b _ => by
      have := abs_add_le (c' b - c b) (c b)
      rwa [sub_add_cancel, abs_of_nonneg (hc b)] at this
    rw [sum_add_distrib] at this
    have : (e - 8 / 10 ^ 8 * nb) * W ≤ 1 / 20 * W := mul_le_mul_of_nonneg_right (by norm_num at he' ⊢; linarith) hW.le
    norm_num
    linarith
  have hA0 : 0 ≤ ∑ b, |c' b| := sum_nonneg fun b _ => abs_nonneg _
  have h2 : |T - ∑ b, c' b| ≤ 7 / 10 ^ 8 * nb * (1.05 * W) :=
    h1.trans (mul_le_mul (pow_u_le hu hnb) hA hA0 (by positivity))
  have h3 : |∑ b, c' b - S| ≤ (e - 8 / 10 ^ 8 * nb) * W := by
    rw [hS, ← sum_sub_distrib]
    exact (abs_sum_le_sum_abs _ _).trans h
  have h4 : |T - S| ≤ e * W := by
    have := abs_add_le (T - ∑ b, c' b) (∑ b, c' b - S)
    rw [sub_add_sub_cancel] at this
    have hp : 0 ≤ (nb : ℝ) * W := by positivity
    norm_num at h2 h3
    nlinarith
  have h5 : 0.45 * W ≤ T := by
    have := (abs_le.1 h4).1
    have : e * W ≤ 1 / 20 * W := mul_le_mul_of_nonneg_right he' hW.le
    norm_num
    linarith
  have hTpos : 0 < T := lt_of_lt_of_le (by positivity) h5
  have hSpos : 0 < S := by linarith
  refine ⟨hTpos, fun b => ?_⟩
  set f := c b / S with hf
  have f0 : 0 ≤ f := div_nonneg (hc b) hSpos.le
  have cf : c b = f * S := by rw [hf, div_mul_cancel₀ _ hSpos.ne']
  have q1 : |c' b / T - f| ≤ (d * W + k * (f * W + d * W) + f * (e * W)) / T := by
    have e1 : c' b / T - f = ((c' b - c b) - f * (T - S)) / T := by
      rw [cf]; field_simp; ring
    rw [e1, abs_div, abs_of_pos hTpos]
    refine div_le_div_of_nonneg_right ?_ hTpos.le
    refine (abs_sub _ _).trans ?_
    rw [abs_mul, abs_of_nonneg f0]
    have i1 := mul_le_mul_of_nonneg_left h4 f0
    have i2 : c b ≤ f * W := by rw [cf]; exact mul_le_mul_of_nonneg_left hcW f0
    have i3 := mul_le_mul_of_nonneg_left i2 hk
    have := hb b
    linarith
  have WT : W / T ≤ 1 / 0.45 := by
    rw [div_le_div_iff₀ hTpos (by norm_num)]
    linarith
  have WT0 : 0 ≤ W / T := by positivity
  have q2 : (d * W + k * (f * W + d * W) + f * (e * W)) / T ≤ (d + k * (f + d) + f * e) * (1 / 0.45) := by
    rw [show (d * W + k * (f * W + d * W) + f * (e * W)) / T = (d + k * (f + d) + f * e) * (W / T) by field_simp]
    exact mul_le_mul_of_nonneg_left WT (by positivity)
  have kd : k * d ≤ 1 / 20 * d := mul_le_mul_of_nonneg_right hk' hd
  have q3 : |c' b / T - f| ≤ 2.34 * d + 2.24 * (e + k) * f := by
    refine q1.trans (q2.trans ?_)
    have p1 : 0 ≤ f * e := by positivity
    have p2 : 0 ≤ k * f := by positivity
    norm_num
    nlinarith
  have q4 := R.err (c' b / T)
  have q5 : |c' b / T| ≤ 2.34 * d + 2.24 * (e + k) * f + f := by
    have := abs_add_le (c' b / T - f) f
    rw [sub_add_cancel, abs_of_nonneg f0] at this
    linarith
  have q6 : R.u * |c' b / T| ≤ 6 / 10 ^ 8 * (2.34 * d + 2.24 * (e + k) * f + f) := mul_le_mul hs0 q5 (abs_nonneg _) (by norm_num)
  have q7 := abs_add_le (R.fl (c' b / T) - c' b / T) (c' b / T - f)
  rw [sub_add_sub_cancel] at q7
  have p3 : 0 ≤ (e + k) * f := by positivity
  norm_num at q3 q6 ⊢
  nlinarith

theorem grid_total {nms nsf : ℕ} (mb : Fin (nms + 1) → ℝ) (sb : Fin (nsf + 1) → ℝ) (lo hi : Fin (nms * nsf) → Fin 2 → ℝ)
    (hg : ∀ a c, lo (finProdFinEquiv (a, c)) = ![mb a.castSucc, sb c.castSucc] ∧ hi (finProdFinEquiv (a, c)) = ![mb a.succ, sb c.succ]) (x y σ τ : ℝ) :
    ∑ b, NdHist.twBinWeightLaxKern x σ (lo b 0) (hi b 0) * NdHist.twBinWeightLaxKern y τ (lo b 1) (hi b 1) =
      NdHist.twBinWeightLaxKern x σ (mb 0) (mb (Fin.last nms)) * NdHist.twBinWeightLaxKern y τ (sb 0) (sb (Fin.last nsf)) := by
  rw [← Equiv.sum_comp finProdFinEquiv, Fintype.sum_prod_type, ← ndBin_total x σ nms mb, ← ndBin_total y τ nsf sb, Finset.sum_mul_sum]
  refine Finset.sum_congr rfl fun a _ => Finset.sum_congr rfl fun c _ => ?_
  rw [(hg a c).1, (hg a c).2]
  rfl

theorem grid_ordered {nms nsf : ℕ} {mb : Fin (nms + 1) → ℝ} (hmb : StrictMono mb) {sb : Fin (nsf + 1) → ℝ} (hsb : StrictMono sb) {lo hi : Fin (nms * nsf) → Fin 2 → ℝ}
    (hg : ∀ a c, lo (finProdFinEquiv (a, c)) = ![mb a.castSucc, sb c.castSucc] ∧ hi (finProdFinEquiv (a, c)) = ![mb a.succ, sb c.succ]) (b : Fin (nms * nsf)) :
    lo b 0 ≤ hi b 0 ∧ lo b 1 ≤ hi b 1 := by
  obtain ⟨⟨a, c⟩, rfl⟩ := finProdFinEquiv.surjective b
  rw [(hg a c).1, (hg a c).2]
  exact ⟨(hmb a.castSucc_lt_succ).le, (hsb c.castSucc_lt_succ).le⟩

theorem joint_error (R : Rounding) (hu : R.u ≤ 2 ^ (-24 : ℤ)) {n nms nsf : ℕ} (hms : 0 < nms) (hsf : 0 < nsf) (mb : Fin (nms + 1) → ℝ) (hmb : StrictMono mb)
    (sb : Fin (nsf + 1) → ℝ) (hsb : StrictMono sb) (lo hi : Fin (nms * nsf) → Fin 2 → ℝ)
    (hg : ∀ a c, lo (finProdFinEquiv (a, c)) = ![mb a.castSucc, sb c.castSucc] ∧ hi (finProdFinEquiv (a, c)) = ![mb a.succ, sb c.succ])
    (x y w : Fin n → ℝ) (hw : ∀ i, 0 ≤ w i) (hpos : 0 < ∑ i, w i)
    (hin : ∑ i, w i ≤ 2 * ∑ i, w i * (NdHist.twBinWeightLaxKern (x i) ((mb (Fin.last nms) - mb 0) / nms) (mb 0) (mb (Fin.last nms)) *
      NdHist.twBinWeightLaxKern (y i) ((sb (Fin.last nsf) - sb 0) / nsf) (sb 0) (sb (Fin.last nsf)))) {d e : ℝ}
    (hd : d = 1.5 / 10 ^ 5 + 2.5 / 10 ^ 7 * (nms + nsf)) (hedef : e = nms * nsf * d + 8 / 10 ^ 8 * n) (he : e ≤ 1 / 20) {sigma tau total : ℝ}
    {counts : Fin (nms * nsf) → ℝ} (h1 : R.IsMeanDiff mb sigma) (h2 : R.IsMeanDiff sb tau)
    (h3 : R.IsHist2 lo hi ![sigma, tau] (fun i => ![x i, y i]) w counts) (h4 : R.IsSum (univ.val.map counts) total) :
    0 < total ∧ ∃ f : Fin (nms * nsf) → ℝ, PopLoss.diffHistMstarSsfr x y w lo hi mb sb = some f ∧
      ∀ b, |R.fl (counts b / total) - f b| ≤ 2.4 * d + 5 * e * f b := by
  have m1 : (1 : ℝ) ≤ nms := by exact_mod_cast hms
  have s1 : (1 : ℝ) ≤ nsf := by exact_mod_cast hsf
  have n0 : (0 : ℝ) ≤ n := Nat.cast_nonneg n
  have N1 : (1 : ℝ) ≤ nms * nsf := one_le_mul_of_one_le_of_one_le m1 s1
  have d0 : 1.5 / 10 ^ 5 ≤ d := by rw [hd]; norm_num; positivity
  have dm : 2.5 / 10 ^ 7 * (nms : ℝ) ≤ d := by rw [hd]; norm_num; linarith
  have ds : 2.5 / 10 ^ 7 * (nsf : ℝ) ≤ d := by rw [hd]; norm_num; linarith
  have hd0 : 0 < d := lt_of_lt_of_le (by norm_num) d0
  have hNd : (nms : ℝ) * nsf * d ≤ 1 / 20 := by rw [hedef] at he; norm_num at he ⊢; linarith
  have mle : (nms : ℝ) ≤ nms * nsf := le_mul_of_one_le_right (by linarith) s1
  have sle : (nsf : ℝ) ≤ nms * nsf := le_mul_of_one_le_left (by linarith) m1
  have hm : nms ≤ 1000 := by
    by_contra hc
    have : (1000 : ℝ) ≤ nms := by exact_mod_cast (not_le.1 hc).le
    have : (1000 : ℝ) * (2.5 / 10 ^ 7 * 1000) ≤ nms * nsf * d :=
      mul_le_mul (this.trans mle) ((mul_le_mul_of_nonneg_left this (by norm_num)).trans dm) (by norm_num) (by positivity)
    norm_num at this hNd
    linarith
  have hs : nsf ≤ 1000 := by
    by_contra hc
    have : (1000 : ℝ) ≤ nsf := by exact_mod_cast (not_le.1 hc).le
    have : (1000 : ℝ) * (2.5 / 10 ^ 7 * 1000) ≤ nms * nsf * d :=
      mul_le_mul (this.trans sle) ((mul_le_mul_of_nonneg_left this (by norm_num)).trans ds) (by norm_num) (by positivity)
    norm_num at this hNd
    linarith
  have hN : n ≤ 10 ^ 6 := by
    by_contra hc
    have : (10 ^ 6 : ℝ) ≤ n := by exact_mod_cast (not_le.1 hc).le
    have p : 0 ≤ (nms : ℝ) * nsf * d := by positivity
    rw [hedef] at he
    norm_num at he
    linarith
  rw [← meanDiff_telescope, ← meanDiff_telescope] at hin
  have hσ := meanDiff_pos hmb hms
  have hτ := meanDiff_pos hsb hsf
  have cm := isMeanDiff_close hu hms hm hmb h1
  have cs := isMeanDiff_close hu hsf hs hsb h2
  have m1000 : (nms : ℝ) ≤ 1000 := by exact_mod_cast hm
  have s1000 : (nsf : ℝ) ≤ 1000 := by exact_mod_cast hs
  set σ := PopLoss.meanDiff mb with hσd
  set τ := PopLoss.meanDiff sb with hτd
  set W := ∑ i, w i with hW
  have ord := grid_ordered hmb hsb hg
  set p : Fin (nms * nsf) → Fin n → ℝ := fun b i => NdHist.twBinWeightLaxKern (x i) σ (lo b 0) (hi b 0) * NdHist.twBinWeightLaxKern (y i) τ (lo b 1) (hi b 1) with hp
  set c : Fin (nms * nsf) → ℝ := fun b => ∑ i, p b i * w i with hc
  have p0 : ∀ b i, 0 ≤ p b i := fun b i => mul_nonneg (ndBin_nonneg hσ (ord b).1) (ndBin_nonneg hτ (ord b).2)
  have p1 : ∀ b i, p b i ≤ 1 := fun b i => mul_le_one₀ (ndBin_le_one ..) (ndBin_nonneg hτ (ord b).2) (ndBin_le_one ..)
  have ctot : ∑ b, c b = ∑ i, w i * (NdHist.twBinWeightLaxKern (x i) σ (mb 0) (mb (Fin.last nms)) * NdHist.twBinWeightLaxKern (y i) τ (sb 0) (sb (Fin.last nsf))) := by
    rw [hc, sum_comm]
    refine sum_congr rfl fun i _ => ?_
    rw [← sum_mul, hp]
    simp only
    rw [grid_total mb sb lo hi hg, mul_comm]
  rw [← ctot] at hin
  have hc0 : ∀ b, 0 ≤ c b := fun b => sum_nonneg fun i _ => mul_nonneg (p0 b i) (hw i)
  have hcW : ∑ b, c b ≤ W := by
    rw [ctot]
    refine sum_le_sum fun i _ => mul_le_of_le_one_right (hw i) ?_
    exact mul_le_one₀ (ndBin_le_one ..) (ndBin_nonneg hτ (hsb.monotone (Fin.zero_le _))) (ndBin_le_one ..)
  have perr : ∀ b i, |R.fl (R.twBinWeightLaxKern (x i) sigma (lo b 0) (hi b 0) * R.twBinWeightLaxKern (y i) tau (lo b 1) (hi b 1)) - p b i| ≤ d - 2 / 10 ^ 7 := by
    intro b i
    have a1 := binFl_close hu (x := x i) (lo := lo b 0) (hi := hi b 0) hσ (by positivity) (by norm_num; linarith) cm
    have a2 := binFl_close hu (x := y i) (lo := lo b 1) (hi := hi b 1) hτ (by positivity) (by norm_num; linarith) cs
    have := binFl2_close hu (ndBin_nonneg hσ (ord b).1) (ndBin_le_one ..) (ndBin_nonneg hτ (ord b).2) (ndBin_le_one ..) a1 a2 (by norm_num; linarith) (by norm_num; linarith)
    refine this.trans ?_
    rw [hd]
    norm_num
    linarith
  set k : ℝ := 7 / 10 ^ 8 * n with hk
  have d1 : d - 2 / 10 ^ 7 ≤ 1 / 100 := by
    have := mul_le_mul_of_nonneg_right N1 hd0.le
    rw [hd] at this ⊢
    norm_num
    linarith
  have cerr : ∀ b, |counts b - c b| ≤ (d - 1 / 10 ^ 7) * W + k * (c b + (d - 1 / 10 ^ 7) * W) := by
    intro b
    have := weighted_sum_close hu hN hw d1 (p0 b) (p1 b) (perr b) (h3 b)
    have le : (d - 2 / 10 ^ 7 + 7 / 10 ^ 8) * W ≤ (d - 1 / 10 ^ 7) * W := mul_le_mul_of_nonneg_right (by norm_num; linarith) hpos.le
    have k0 : 0 ≤ k := by positivity
    have := this.trans (add_le_add le (mul_le_mul_of_nonneg_left (add_le_add le_rfl le) k0))
    exact this
  have k0 : 0 ≤ k := by positivity
  have kN : k ≤ 1 / 20 := by
    have p : 0 ≤ (nms : ℝ) * nsf * d := by positivity
    rw [hedef] at he
    rw [hk]
    norm_num at he ⊢
    linarith
  have dd : 0 ≤ d - 1 / 10 ^ 7 := by norm_num at d0 ⊢; linarith
  have herr : ∑ b, |counts b - c b| ≤ (e - 8 / 10 ^ 8 * ((nms * nsf : ℕ) : ℝ)) * W := by
    have a1 : ∀ D, D = (d - 1 / 10 ^ 7) * W → ∑ b, |counts b - c b| ≤ ∑ b, (D + k * (c b + D)) := by
      rintro D rfl
      exact sum_le_sum fun b (_ : b ∈ univ) => cerr b
    obtain ⟨D, hD⟩ : ∃ D, D = (d - 1 / 10 ^ 7) * W := ⟨_, rfl⟩
    replace a1 := a1 D hD
    rw [sum_add_distrib, ← mul_sum, sum_add_distrib] at a1
    simp only [sum_const, card_univ, Fintype.card_fin, nsmul_eq_mul] at a1
    rw [hD] at a1
    push_cast at a1 ⊢
    have a2 : (nms * nsf : ℝ) * ((d - 1 / 10 ^ 7) * W) ≤ 1 / 20 * W := by
      rw [← mul_assoc]
      refine mul_le_mul_of_nonneg_right (le_trans ?_ hNd) hpos.le
      exact mul_le_mul_of_nonneg_left (by norm_num) (by positivity)
    have a3 : k * (∑ b, c b + (nms * nsf : ℝ) * ((d - 1 / 10 ^ 7) * W)) ≤ k * (1.05 * W) := by
      refine mul_le_mul_of_nonneg_left ?_ k0
      norm_num at a2 ⊢
      linarith
    refine a1.trans ((add_le_add le_rfl a3).trans ?_)
    rw [show (nms * nsf : ℝ) * ((d - 1 / 10 ^ 7) * W) + k * (1.05 * W) = (nms * nsf * (d - 1 / 10 ^ 7) + k * 1.05) * W by ring]
    refine mul_le_mul_of_nonneg_right ?_ hpos.le
    rw [hedef, hk]
    norm_num
    nlinarith
  have e0 : 0 ≤ e := by rw [hedef]; positivity
  have hN6 : nms * nsf ≤ 10 ^ 6 := by
    calc nms * nsf ≤ 1000 * 1000 := Nat.mul_le_mul hm hs
      _ = 10 ^ 6 := by norm_num
  obtain ⟨b1, b2⟩ := normalised_fl_rel hu hN6 hpos hc0 hcW hin e0 he dd k0 kN cerr herr h4
  have hS : ∑ b, c b ≠ 0 := by linarith
  have Spos : 0 < ∑ b, c b := by linarith
  refine ⟨b1, fun b => c b / ∑ b, c b, ?_, fun b => (b2 b).trans ?_⟩
  · have : PopLoss.diffHistMstarSsfr x y w lo hi mb sb = PopLoss.normalise c := by
      simp only [PopLoss.diffHistMstarSsfr, add_zero]
      congr 1
      funext b
      simp only [NdHist.twNdhistWeighted, NdHist.twNdhistWeightedKern, NdHist.twNdhistWeightedSumKern, Fin.prod_univ_two]
      rfl
    rw [this]
    unfold PopLoss.normalise
    exact if_neg hS
  · have f0 : 0 ≤ c b / ∑ b, c b := div_nonneg (hc0 b) Spos.le
    refine add_le_add ?_ (mul_le_mul_of_nonneg_right ?_ f0)
    · norm_num; linarith
    · have ke : k ≤ e := by
        have p : 0 ≤ (nms : ℝ) * nsf * d := by positivity
        rw [hedef, hk]
        norm_num
        linarith
      have ed : 1.5 / 10 ^ 5 ≤ e := by
        have := mul_le_mul_of_nonneg_right N1 hd0.le
        rw [hedef]
        norm_num at d0 ⊢
        linarith
      norm_num at ed ⊢
      linarith

/-- **C153**: in single precision (or better), whatever the order of the sums, the predicted joint distribution of stellar mass and specific star
formation rate of `n` galaxies on a grid of `nms × nsf` bins is a number in every bin, and each value `f` has an error of at most `2.4 d + 5 e f`, where
`d = 1.5e-5 + 2.5e-7 (nms + nsf)` and `e = nms nsf d + 8e-8 n`, if at least half of the galaxies (by weight) are inside the grid. -/
theorem C153_joint_partial (R : Rounding) (hu : R.u ≤ 2 ^ (-24 : ℤ)) {n nms nsf : ℕ} (hms : 0 < nms) (hsf : 0 < nsf) (mb : Fin (nms + 1) → ℝ)
    (hmb : StrictMono mb) (sb : Fin (nsf + 1) → ℝ) (hsb : StrictMono sb) (lo hi : Fin (nms * nsf) → Fin 2 → ℝ)
    (hg : ∀ a c, lo (finProdFinEquiv (a, c)) = ![mb a.castSucc, sb c.castSucc] ∧ hi (finProdFinEquiv (a, c)) = ![mb a.succ, sb c.succ])
    (logSmh logSsfr weight : Fin n → ℝ) (hw : ∀ i, 0 ≤ weight i) (hpos : 0 < ∑ i, weight i)
    (hin : ∑ i, weight i ≤ 2 * ∑ i, weight i * (NdHist.twBinWeightLaxKern (logSmh i) ((mb (Fin.last nms) - mb 0) / nms) (mb 0) (mb (Fin.last nms)) *
      NdHist.twBinWeightLaxKern (logSsfr i) ((sb (Fin.last nsf) - sb 0) / nsf) (sb 0) (sb (Fin.last nsf)))) (pdf : Option (Fin (nms * nsf) → ℝ))
    (h : R.IsDiffHistMstarSsfr logSmh logSsfr weight lo hi mb sb pdf) :
    let d : ℝ := 1.5 / 10 ^ 5 + 2.5 / 10 ^ 7 * (nms + nsf)
    let e : ℝ := nms * nsf * d + 8 / 10 ^ 8 * n
    e ≤ 1 / 20 → ∃ f g : Fin (nms * nsf) → ℝ, PopLoss.diffHistMstarSsfr logSmh logSsfr weight lo hi mb sb = some f ∧ pdf = some g ∧
      ∀ b, |g b - f b| ≤ 2.4 * d + 5 * e * f b := by
  intro d e he
  obtain ⟨sigma, tau, counts, total, h1, h2, h3, h4, rfl⟩ := h
  obtain ⟨g1, f, g2, g3⟩ := joint_error R hu hms hsf mb hmb sb hsb lo hi hg logSmh logSsfr weight hw hpos hin (d := d) (e := e) rfl rfl he h1 h2 h3 h4
  exact ⟨f, _, g2, if_neg g1.ne', g3⟩

/-- There always is a result. -/
theorem isDiffHistMstarSsfr_exists (R : Rounding) {n nms nsf : ℕ} {B : Type*} [Fintype B] (logSmh logSsfr weight : Fin n → ℝ) (lo hi : B → Fin 2 → ℝ)
    (mb : Fin (nms + 1) → ℝ) (sb : Fin (nsf + 1) → ℝ) : ∃ pdf, R.IsDiffHistMstarSsfr logSmh logSsfr weight lo hi mb sb pdf := by
  obtain ⟨S, hS⟩ := isSum_exists R (univ.val.map fun j : Fin nms => R.fl (mb j.succ - mb j.castSucc))
  obtain ⟨S', hS'⟩ := isSum_exists R (univ.val.map fun j : Fin nsf => R.fl (sb j.succ - sb j.castSucc))
  choose counts hc using fun b : B => isSum_exists R (univ.val.map fun i : Fin n => R.fl (R.fl (R.twBinWeightLaxKern (logSmh i) (R.fl (S / nms)) (lo b 0) (hi b 0) *
    R.twBinWeightLaxKern (logSsfr i) (R.fl (S' / nsf)) (lo b 1) (hi b 1)) * weight i))
  obtain ⟨T, hT⟩ := isSum_exists R (univ.val.map counts)
  exact ⟨_, _, _, counts, T, ⟨S, hS, rfl⟩, ⟨S', hS', rfl⟩, hc, hT, rfl⟩

theorem unit_sigma {nb : ℕ} (hn : 0 < nb) (hN : nb < 2 ^ 24) {bins : Fin (nb + 1) → ℝ} (hb : ∀ j : Fin nb, bins j.succ - bins j.castSucc = 1) {sigma : ℝ}
    (h : float32.IsMeanDiff bins sigma) : sigma = 1 := by
  obtain ⟨total, ht, rfl⟩ := h
  have h2 := isSum_ones ht (fun x hx => by
    obtain ⟨j, -, rfl⟩ := Multiset.mem_map.1 hx
    rw [hb, float32.one]) (by rw [Multiset.card_map]; simpa using hN)
  rw [Multiset.card_map, Finset.card_val, card_univ, Fintype.card_fin] at h2
  have : (nb : ℝ) ≠ 0 := by exact_mod_cast hn.ne'
  rw [h2, div_self this, float32.one]

/-- Edges of bins of stellar mass and of specific star formation rate, one dex apart. -/
def gridMassEdges : Fin (5 + 1) → ℝ := ![7, 8, 9, 10, 11, 12]

/-- See `gridMassEdges`. -/
def gridRateEdges : Fin (4 + 1) → ℝ := ![-12, -11, -10, -9, -8]

theorem gridMassEdges_diff (j : Fin 5) : gridMassEdges j.succ - gridMassEdges j.castSucc = 1 := by
  fin_cases j <;> simp [gridMassEdges] <;> norm_num

theorem gridRateEdges_diff (j : Fin 4) : gridRateEdges j.succ - gridRateEdges j.castSucc = 1 := by
  fin_cases j <;> simp [gridRateEdges] <;> norm_num

/-- The flat grid of these bins. -/
def gridLo (b : Fin (5 * 4)) : Fin 2 → ℝ := ![gridMassEdges (finProdFinEquiv.symm b).1.castSucc, gridRateEdges (finProdFinEquiv.symm b).2.castSucc]

/-- See `gridLo`. -/
def gridHi (b : Fin (5 * 4)) : Fin 2 → ℝ := ![gridMassEdges (finProdFinEquiv.symm b).1.succ, gridRateEdges (finProdFinEquiv.symm b).2.succ]

theorem grid_ok : ∀ (a : Fin 5) (c : Fin 4), gridLo (finProdFinEquiv (a, c)) = ![gridMassEdges a.castSucc, gridRateEdges c.castSucc] ∧
    gridHi (finProdFinEquiv (a, c)) = ![gridMassEdges a.succ, gridRateEdges c.succ] := by
  intro a c
  simp only [gridLo, gridHi, Equiv.symm_apply_apply, and_self]

theorem gridMassEdges_mono : StrictMono gridMassEdges := by
  rw [Fin.strictMono_iff_lt_succ]
  intro i
  linarith [gridMassEdges_diff i]

theorem gridRateEdges_mono : StrictMono gridRateEdges := by
  rw [Fin.strictMono_iff_lt_succ]
  intro i
  linarith [gridRateEdges_diff i]

/-- Galaxies of mass `10**(8 + 3/128)` and specific star formation rate `1e-10` are inside the grid. -/
theorem grid_inside : (0.7 : ℝ) ≤ NdHist.twBinWeightLaxKern (1027 / 128) ((gridMassEdges (Fin.last 5) - gridMassEdges 0) / (5 : ℕ)) (gridMassEdges 0) (gridMassEdges (Fin.last 5)) *
    NdHist.twBinWeightLaxKern (-10) ((gridRateEdges (Fin.last 4) - gridRateEdges 0) / (4 : ℕ)) (gridRateEdges 0) (gridRateEdges (Fin.last 4)) := by
  have e1 : gridMassEdges (Fin.last 5) = 12 := rfl
  have e2 : gridMassEdges 0 = 7 := rfl
  have e3 : gridRateEdges (Fin.last 4) = -8 := rfl
  have e4 : gridRateEdges 0 = -12 := rfl
  rw [e1, e2, e3, e4, ndBin_eq, ndBin_eq]
  have a1 : jaxTw ((1027 / 128 - 12) / ((12 - 7) / (5 : ℕ))) = 0 := jaxTw_lo (by norm_num)
  have a2 : 0.8 ≤ jaxTw ((1027 / 128 - 7) / ((12 - 7) / (5 : ℕ))) := by
    rw [jaxTw_mid (by norm_num) (by norm_num)]; unfold twPoly; norm_num
  have a3 : jaxTw ((-10 - -8) / ((-8 - -12) / (4 : ℕ))) ≤ 0.02 := by
    rw [jaxTw_mid (by norm_num) (by norm_num)]; unfold twPoly; norm_num
  have a4 : 0.98 ≤ jaxTw ((-10 - -12) / ((-8 - -12) / (4 : ℕ))) := by
    rw [jaxTw_mid (by norm_num) (by norm_num)]; unfold twPoly; norm_num
  rw [a1, sub_zero]
  calc (0.7 : ℝ) ≤ 0.8 * 0.96 := by norm_num
    _ ≤ _ := mul_le_mul a2 (by norm_num at a3 a4 ⊢; linarith) (by norm_num) (le_trans (by norm_num) a2)

/-- **C153**: in single precision a predicted joint distribution can be negative: for bins of one dex and galaxies with mass `10**(8 + 3/128)` and specific
star formation rate `1e-10`, whatever their number and weights and the order of the sums, the values of the bins of mass `10**11` to `10**12` and rates between
`1e-11` and `1e-9` are negative. All numbers are floating-point numbers. -/
theorem C153_nonneg_violated {n : ℕ} (hn : 0 < n) (hN : n ≤ 100000) (weight : Fin n → ℝ) (hw : ∀ i, 0 < weight i) (pdf : Option (Fin (5 * 4) → ℝ))
    (h : float32.IsDiffHistMstarSsfr (fun _ => 1027 / 128) (fun _ => -10) weight gridLo gridHi gridMassEdges gridRateEdges pdf) :
    ∃ g, pdf = some g ∧ g (finProdFinEquiv (4, 1)) < 0 := by
  obtain ⟨sigma, tau, counts, total, h1, h2, h3, h4, rfl⟩ := h
  have hs := unit_sigma (by norm_num) (by norm_num) gridMassEdges_diff h1
  have ht := unit_sigma (by norm_num) (by norm_num) gridRateEdges_diff h2
  have : Nonempty (Fin n) := ⟨⟨0, hn⟩⟩
  have hpos : 0 < ∑ i, weight i := sum_pos (fun i _ => hw i) univ_nonempty
  have hN' : (n : ℝ) ≤ 100000 := by exact_mod_cast hN
  obtain ⟨g1, -⟩ := joint_error float32 (le_of_eq rfl) (by norm_num) (by norm_num) gridMassEdges gridMassEdges_mono gridRateEdges gridRateEdges_mono gridLo gridHi grid_ok
    (fun _ => 1027 / 128) (fun _ => -10) weight (fun i => (hw i).le) hpos (by
      rw [← sum_mul]
      have := mul_le_mul_of_nonneg_left grid_inside hpos.le
      norm_num at this ⊢
      linarith) rfl rfl (by norm_num; linarith) h1 h2 h3 h4
  refine ⟨_, if_neg g1.ne', ?_⟩
  have hneg : counts (finProdFinEquiv (4, 1)) < 0 := by
    refine isSum_neg float32_u_lt (h3 _) ?_ ?_
    · rw [Ne, Multiset.map_eq_zero]
      exact fun hc => univ_nonempty.ne_empty (Finset.val_eq_zero.1 hc)
    · intro x hx
      obtain ⟨i, -, rfl⟩ := Multiset.mem_map.1 hx
      rw [(grid_ok 4 1).1, (grid_ok 4 1).2]
      have e : float32.twBinWeightLaxKern (1027 / 128) sigma 11 12 = -(2 ^ (-23 : ℤ)) := by rw [hs]; exact edges_weight
      have e' : 0 < float32.twBinWeightLaxKern (-10) tau (-11) (-10) := by
        have c := binFl_close (R := float32) le_rfl (x := -10) (lo := -11) (hi := -10) (s := 1) (s' := tau) (e := 0) one_pos le_rfl (by norm_num) (by rw [ht]; norm_num)
        rw [ndBin_eq] at c
        have a1 : jaxTw ((-10 - -10) / 1) ≤ 0.5 := by
          rw [jaxTw_mid (by norm_num) (by norm_num)]; unfold twPoly; norm_num
        have a2 : 0.8 ≤ jaxTw ((-10 - -11) / 1) := by
          rw [jaxTw_mid (by norm_num) (by norm_num)]; unfold twPoly; norm_num
        have := (abs_le.1 c).1
        norm_num at this a1 a2
        linarith
      change float32.fl (float32.fl (float32.twBinWeightLaxKern (1027 / 128) sigma 11 12 * float32.twBinWeightLaxKern (-10) tau (-11) (-10)) * weight i) < 0
      rw [e, neg_mul, float32.neg, neg_mul, float32.neg]
      have a := float32.fl_pos float32_u_lt (x := 2 ^ (-23 : ℤ) * float32.twBinWeightLaxKern (-10) tau (-11) (-10)) (mul_pos (by positivity) e')
      have := float32.fl_pos float32_u_lt (mul_pos a (hw i))
      linarith
  have := float32.fl_pos float32_u_lt (x := -(counts (finProdFinEquiv (4, 1)) / total)) (by
    rw [neg_pos]; exact div_neg_of_neg_of_pos hneg g1)
  rw [float32.neg] at this
  linarith

/-- C153 meets its hypotheses: 10000 galaxies on that grid. -/
example : ∃ pdf, float32.IsDiffHistMstarSsfr (fun _ : Fin 10000 => 1027 / 128) (fun _ => -10) (fun _ => 1) gridLo gridHi gridMassEdges gridRateEdges pdf ∧
    (∑ _i : Fin 10000, (1 : ℝ)) ≤ 2 * ∑ _i : Fin 10000, 1 * (NdHist.twBinWeightLaxKern (1027 / 128) ((gridMassEdges (Fin.last 5) - gridMassEdges 0) / (5 : ℕ)) (gridMassEdges 0)
      (gridMassEdges (Fin.last 5)) * NdHist.twBinWeightLaxKern (-10) ((gridRateEdges (Fin.last 4) - gridRateEdges 0) / (4 : ℕ)) (gridRateEdges 0) (gridRateEdges (Fin.last 4))) ∧
    ((5 : ℕ) : ℝ) * (4 : ℕ) * (1.5 / 10 ^ 5 + 2.5 / 10 ^ 7 * ((5 : ℕ) + (4 : ℕ))) + 8 / 10 ^ 8 * (10000 : ℕ) ≤ 1 / 20 := by
  obtain ⟨pdf, h⟩ := isDiffHistMstarSsfr_exists float32 (fun _ : Fin 10000 => 1027 / 128) (fun _ => -10) (fun _ => 1) gridLo gridHi gridMassEdges gridRateEdges
  refine ⟨pdf, h, ?_, by norm_num⟩
  rw [← sum_mul]
  have hp : (0 : ℝ) ≤ ∑ _i : Fin 10000, (1 : ℝ) := sum_nonneg fun _ _ => zero_le_one
  have := mul_le_mul_of_nonneg_left grid_inside hp
  generalize (∑ _i : Fin 10000, (1 : ℝ)) = X at *
  linarith

/-- **C153**, distributions of specific star formation rates at given stellar mass: if the joint distributions `g` of the halo bins are within `D` of the exact ones
`f`, the row computed from `g` in single precision is a number in every bin and each value `v` of the exact row is reproduced within `2.4 δ + 5 e v`, where `δ`
is `D` times the sum of the halo weights over the share of the row, and `e = nsf δ + 8e-8 (nm + nsf + 1)`. -/
theorem C153_conditional_partial (R : Rounding) (hu : R.u ≤ 2 ^ (-24 : ℤ)) {nk nm nms nsf nt : ℕ} (f g : Fin nk → Fin nms → Fin nsf → ℝ) (indx : Fin nm → Fin nk)
    (w : Fin nm → ℝ) (hw : ∀ m, 0 ≤ w m) (ids : Fin nt → Fin nms) (hf : ∀ k a b, 0 ≤ f k a b) {D : ℝ} (hD : ∀ k a b, |g k a b - f k a b| ≤ D)
    (t : Fin nt) (row : Option (Fin nsf → ℝ)) (h : R.IsConditional g indx w (ids t) row) (hD0 : 0 ≤ D) :
    let share := ∑ b, ∑ m, f (indx m) (ids t) b * w m
    let δ := D * (∑ m, w m) / share
    let e := nsf * δ + 8 / 10 ^ 8 * (nm + nsf + 1)
    0 < share → e ≤ 1 / 20 → ∃ g' v : Fin nsf → ℝ, row = some g' ∧
      (∀ b, PopLoss.conditional (PopLoss.mixBins (fun k => some (f k)) indx w) ids t b = some (v b)) ∧ ∀ b, |g' b - v b| ≤ 2.4 * δ + 5 * e * v b := by
  intro share δ e hs he
  obtain ⟨mixed, total, h1, h2, rfl⟩ := h
  set W := ∑ m, w m with hW
  have W0 : 0 ≤ W := sum_nonneg fun m _ => hw m
  have δ0 : 0 ≤ δ := by positivity
  have δS : δ * share = D * W := div_mul_cancel₀ _ hs.ne'
  have nm0 : (0 : ℝ) ≤ nm := Nat.cast_nonneg _
  have nsf0 : (0 : ℝ) ≤ nsf := Nat.cast_nonneg _
  have pn : 0 ≤ (nsf : ℝ) * δ := by positivity
  have he2 : (nsf : ℝ) * δ + 8 / 10 ^ 8 * (nm + nsf + 1) ≤ 1 / 20 := he
  have hnm : nm + 1 ≤ 10 ^ 6 := by
    by_contra hc
    have : (10 ^ 6 : ℝ) ≤ nm + 1 := by exact_mod_cast (not_le.1 hc).le
    norm_num at he2
    linarith
  have hnsf : nsf ≤ 10 ^ 6 := by
    by_contra hc
    have : (10 ^ 6 : ℝ) ≤ nsf := by exact_mod_cast (not_le.1 hc).le
    norm_num at he2
    linarith
  set r : Fin nsf → ℝ := fun b => ∑ m, f (indx m) (ids t) b * w m with hr
  have r0 : ∀ b, 0 ≤ r b := fun b => sum_nonneg fun m _ => mul_nonneg (hf ..) (hw m)
  set k : ℝ := 7 / 10 ^ 8 * (nm + 1) with hk
  have k0 : 0 ≤ k := by positivity
  have kN : k ≤ 1 / 20 := by rw [hk]; norm_num at he2 ⊢; linarith
  have cerr : ∀ b, |mixed b - r b| ≤ δ * share + k * (r b + δ * share) := by
    intro b
    have a := isSum_approx (R := R) (fun m : Fin nm => (Rounding.Approx.exact (R := R) (g (indx m) (ids t) b * w m)).round) (h1 b)
    have dif : |∑ m, g (indx m) (ids t) b * w m - r b| ≤ D * W := by
      rw [hr, hW, ← sum_sub_distrib, mul_sum]
      refine (abs_sum_le_sum_abs _ _).trans (sum_le_sum fun m _ => ?_)
      rw [← sub_mul, abs_mul, abs_of_nonneg (hw m)]
      exact mul_le_mul_of_nonneg_right (hD ..) (hw m)
    have ab : ∑ m, |g (indx m) (ids t) b * w m| ≤ r b + D * W := by
      rw [hr, hW, mul_sum, ← sum_add_distrib]
      refine sum_le_sum fun m _ => ?_
      rw [abs_mul, abs_of_nonneg (hw m), ← add_mul]
      refine mul_le_mul_of_nonneg_right ?_ (hw m)
      have := abs_add_le (g (indx m) (ids t) b - f (indx m) (ids t) b) (f (indx m) (ids t) b)
      rw [sub_add_cancel, abs_of_nonneg (hf ..)] at this
      linarith [hD (indx m) (ids t) b]
    have b2 := a.2
    rw [Fintype.card_fin] at b2
    have b3 := b2.trans (mul_le_mul (pow_u_le hu (by omega)) ab (sum_nonneg fun m _ => abs_nonneg _) (by positivity))
    have e1 : 7 / 10 ^ 8 * ((0 + 1 + nm : ℕ) : ℝ) = k := by rw [hk]; push_cast; ring
    rw [e1] at b3
    have := abs_add_le (mixed b - ∑ m, g (indx m) (ids t) b * w m) (∑ m, g (indx m) (ids t) b * w m - r b)
    rw [sub_add_sub_cancel] at this
    rw [δS]
    linarith
  have hsum : ∑ b, r b = share := rfl
  have herr : ∑ b, |mixed b - r b| ≤ (e - 8 / 10 ^ 8 * (nsf : ℝ)) * share := by
    have a1 : ∀ X, X = δ * share → ∑ b, |mixed b - r b| ≤ ∑ b, (X + k * (r b + X)) := by
      rintro X rfl
      exact sum_le_sum fun b _ => cerr b
    obtain ⟨X, hX⟩ : ∃ X, X = δ * share := ⟨_, rfl⟩
    replace a1 := a1 X hX
    rw [sum_add_distrib, ← mul_sum, sum_add_distrib] at a1
    simp only [sum_const, card_univ, Fintype.card_fin, nsmul_eq_mul] at a1
    rw [hX, hsum] at a1
    have a2 : (nsf : ℝ) * (δ * share) ≤ 1 / 20 * share := by
      rw [← mul_assoc]
      refine mul_le_mul_of_nonneg_right ?_ hs.le
      norm_num at he2 ⊢
      linarith
    have a3 : k * (share + nsf * (δ * share)) ≤ k * (1.05 * share) := by
      refine mul_le_mul_of_nonneg_left ?_ k0
      norm_num at a2 ⊢
      linarith
    refine a1.trans ((add_le_add le_rfl a3).trans ?_)
    rw [show (nsf : ℝ) * (δ * share) + k * (1.05 * share) = (nsf * δ + k * 1.05) * share by ring]
    refine mul_le_mul_of_nonneg_right ?_ hs.le
    change (nsf : ℝ) * δ + k * 1.05 ≤ nsf * δ + 8 / 10 ^ 8 * (nm + nsf + 1) - 8 / 10 ^ 8 * nsf
    rw [hk]
    norm_num
    linarith
  have e0 : 0 ≤ e := by positivity
  obtain ⟨b1, b2⟩ := normalised_fl_rel hu hnsf hs r0 (le_of_eq hsum) (by rw [hsum]; linarith) e0 he δ0 k0 kN cerr herr h2
  refine ⟨_, fun b => r b / share, if_neg b1.ne', fun b => ?_, fun b => (b2 b).trans ?_⟩
  · have : PopLoss.allSome (fun m => some (f (indx m))) = some fun m => f (indx m) := allSome_eq_some.2 fun m => rfl
    unfold PopLoss.conditional PopLoss.mixBins
    rw [this]
    simp only [Option.map_some, Option.bind_some]
    exact if_neg hs.ne'
  · rw [hsum]
    have f0 : 0 ≤ r b / share := div_nonneg (r0 b) hs.le
    refine add_le_add ?_ (mul_le_mul_of_nonneg_right ?_ f0)
    · norm_num; linarith
    · have ke : k ≤ e - 1 / 10 ^ 8 := by
        change k ≤ (nsf : ℝ) * δ + 8 / 10 ^ 8 * (nm + nsf + 1) - 1 / 10 ^ 8
        rw [hk]
        norm_num
        linarith
      have nsf1 : (1 : ℝ) ≤ nsf := by exact_mod_cast (Fin.pos b : 0 < nsf)
      have e8 : 16 / 10 ^ 8 ≤ e := by
        change (16 / 10 ^ 8 : ℝ) ≤ (nsf : ℝ) * δ + 8 / 10 ^ 8 * (nm + nsf + 1)
        norm_num
        linarith
      norm_num at ke e8 ⊢
      linarith

/-- C153 meets its hypotheses: two halo bins, four bins of specific star formation rate, one value in error by `1e-4`. -/
example : ∃ (f g : Fin 2 → Fin 1 → Fin 4 → ℝ) (row : Option (Fin 4 → ℝ)), (∀ k a b, 0 ≤ f k a b) ∧ (∀ k a b, |g k a b - f k a b| ≤ 1 / 10 ^ 4) ∧ f ≠ g ∧
    float32.IsConditional g (id : Fin 2 → Fin 2) (fun _ => 1) 0 row ∧ (0 : ℝ) < ∑ b, ∑ m : Fin 2, f m 0 b * 1 ∧
    ((4 : ℕ) : ℝ) * (1 / 10 ^ 4 * (∑ _m : Fin 2, 1) / ∑ b, ∑ m : Fin 2, f m 0 b * 1) + 8 / 10 ^ 8 * ((2 : ℕ) + (4 : ℕ) + 1) ≤ 1 / 20 := by
  obtain ⟨mixed, hm⟩ := Classical.axiomOfChoice fun b : Fin 4 => isSum_exists float32 (univ.val.map fun m : Fin 2 =>
    float32.fl ((fun (_ : Fin 2) (_ : Fin 1) (_ : Fin 4) => (1 / 4 + 1 / 10 ^ 4 : ℝ)) (id m) 0 b * (fun _ : Fin 2 => (1 : ℝ)) m))
  obtain ⟨T, hT⟩ := isSum_exists float32 (univ.val.map mixed)
  refine ⟨fun _ _ _ => 1 / 4, fun _ _ _ => 1 / 4 + 1 / 10 ^ 4, _, fun _ _ _ => by norm_num, fun _ _ _ => by norm_num [abs_le], ?_, ⟨mixed, T, hm, hT, rfl⟩, ?_, ?_⟩
  · intro hc
    have := congrFun (congrFun (congrFun hc 0) 0) 0
    norm_num at this
  · norm_num
  · norm_num

end Diffstar.Props
