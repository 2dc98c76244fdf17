import Verif.Model.RoundHist
import Verif.Props.RoundTw
import Verif.Props.PopLoss
import Verif.Lemmas.NdHist

/-!
C139: the predicted stellar mass functions in floating-point arithmetic.
-/

namespace Diffstar.Props

open Diffstar Diffstar.Spec Finset

/-- Error of a sum in any order. -/
theorem isSum_close {R : Rounding} {m : Multiset ℝ} {s : ℝ} (h : R.IsSum m s) :
    |s - m.sum| ≤ ((1 + R.u) ^ Multiset.card m - 1) * (m.map fun x => |x|).sum := by
  induction h with
  | zero => simp
  | one x => simp; exact mul_nonneg R.u_nonneg (abs_nonneg x)
  | @add a b s t ha hb _ _ iha ihb =>
    have hu := R.u_nonneg
    have ca : 1 ≤ Multiset.card a := Multiset.card_pos.2 ha
    have cb : 1 ≤ Multiset.card b := Multiset.card_pos.2 hb
    rw [Multiset.sum_add, Multiset.card_add, Multiset.map_add, Multiset.sum_add]
    have pos : ∀ c : Multiset ℝ, 0 ≤ (c.map fun x => |x|).sum := fun c =>
      Multiset.sum_nonneg fun x hx => by obtain ⟨y, -, rfl⟩ := Multiset.mem_map.1 hx; exact abs_nonneg y
    have hA := pos a
    have hB := pos b
    have sA : |a.sum| ≤ (a.map fun x => |x|).sum := Multiset.abs_sum_le_sum_abs
    have sB : |b.sum| ≤ (b.map fun x => |x|).sum := Multiset.abs_sum_le_sum_abs
    set A := (a.map fun x => |x|).sum
    set B := (b.map fun x => |x|).sum
    obtain ⟨k, hk⟩ : ∃ k, Multiset.card a + Multiset.card b = k + 1 := ⟨Multiset.card a + Multiset.card b - 1, by omega⟩
    have p1 : (1 + R.u) ^ Multiset.card a ≤ (1 + R.u) ^ k := pow_le_pow_right₀ (by linarith) (by omega)
    have p2 : (1 + R.u) ^ Multiset.card b ≤ (1 + R.u) ^ k := pow_le_pow_right₀ (by linarith) (by omega)
    rw [hk, pow_succ]
    have i1 : |s - a.sum| ≤ ((1 + R.u) ^ k - 1) * A := iha.trans (mul_le_mul_of_nonneg_right (by linarith) hA)
    have i2 : |t - b.sum| ≤ ((1 + R.u) ^ k - 1) * B := ihb.trans (mul_le_mul_of_nonneg_right (by linarith) hB)
    have e := R.err (s + t)
    have h1 : |s + t - (a.sum + b.sum)| ≤ ((1 + R.u) ^ k - 1) * (A + B) := by
      have := abs_add_le (s - a.sum) (t - b.sum)
      rw [show s + t - (a.sum + b.sum) = (s - a.sum) + (t - b.sum) by ring]
      linarith
    have h2 : |s + t| ≤ (1 + R.u) ^ k * (A + B) := by
      have h3 := abs_add_le (s + t - (a.sum + b.sum)) (a.sum + b.sum)
      rw [sub_add_cancel] at h3
      have h4 := abs_add_le a.sum b.sum
      linarith
    have h3 := abs_add_le (R.fl (s + t) - (s + t)) (s + t - (a.sum + b.sum))
    rw [sub_add_sub_cancel] at h3
    have h4 := mul_le_mul_of_nonneg_left h2 hu
    linarith

/-- Error of a sum in any order of terms with errors. -/
theorem isSum_approx {R : Rounding} {ι : Type*} [Fintype ι] {k : ℕ} {a x A : ι → ℝ} (h : ∀ i, R.Approx k (A i) (a i) (x i))
    {v : ℝ} (hs : R.IsSum (univ.val.map a) v) : R.Approx (k + Fintype.card ι) (∑ i, A i) v (∑ i, x i) := by
  have h1 := isSum_close hs
  rw [Multiset.card_map, Multiset.map_map] at h1
  change |v - ∑ i, a i| ≤ ((1 + R.u) ^ (Fintype.card ι) - 1) * ∑ i, |a i| at h1
  refine ⟨(abs_sum_le_sum_abs _ _).trans (sum_le_sum fun i _ => (h i).1), ?_⟩
  have h2 : ∑ i, |a i| ≤ (1 + R.u) ^ k * ∑ i, A i := by
    rw [mul_sum]; exact sum_le_sum fun i _ => (h i).abs_le
  have h3 : |∑ i, a i - ∑ i, x i| ≤ ((1 + R.u) ^ k - 1) * ∑ i, A i := by
    rw [← sum_sub_distrib, mul_sum]
    exact (abs_sum_le_sum_abs _ _).trans (sum_le_sum fun i _ => (h i).2)
  have h4 := abs_add_le (v - ∑ i, a i) (∑ i, a i - ∑ i, x i)
  rw [sub_add_sub_cancel] at h4
  have h5 := mul_le_mul_of_nonneg_left h2 (sub_nonneg.2 (Rounding.one_le_pow_u (R := R) (Fintype.card ι)))
  rw [pow_add]
  linarith

/-- Many roundings in single precision. -/
theorem pow_u_le {R : Rounding} (hu : R.u ≤ 2 ^ (-24 : ℤ)) {k : ℕ} (hk : k ≤ 10 ^ 6) : (1 + R.u) ^ k - 1 ≤ 7 / 10 ^ 8 * k := by
  have hs := u_small hu
  have h0 := R.u_nonneg
  have hk' : (k : ℝ) ≤ 10 ^ 6 := by exact_mod_cast hk
  have hk0 : (0 : ℝ) ≤ k := Nat.cast_nonneg k
  set y := (k : ℝ) * R.u with hy
  have hy0 : 0 ≤ y := mul_nonneg hk0 h0
  have hy1 : y ≤ 6 / 10 ^ 8 * k := by rw [hy]; nlinarith
  have hy2 : y ≤ 0.06 := hy1.trans (by
    calc 6 / 10 ^ 8 * (k : ℝ) ≤ 6 / 10 ^ 8 * 10 ^ 6 := by gcongr
      _ ≤ 0.06 := by norm_num)
  have h1 : (1 + R.u) ^ k ≤ Real.exp y := by
    rw [hy, Real.exp_nat_mul, add_comm]
    exact pow_le_pow_left₀ (by linarith) (Real.add_one_le_exp R.u) k
  have h2 : Real.exp y * (1 - y) ≤ 1 := by
    have := Real.add_one_le_exp (-y)
    rw [Real.exp_neg] at this
    have hp := Real.exp_pos y
    have := mul_le_mul_of_nonneg_left this hp.le
    rw [mul_inv_cancel₀ hp.ne'] at this
    linarith
  have h3 : Real.exp y ≤ 1 + y / 0.94 := by
    have : Real.exp y * 0.94 ≤ 0.94 + y := by
      have hp := Real.exp_pos y
      by_contra hc
      push Not at hc
      norm_num at hc hy2
      nlinarith
    rw [show (1 : ℝ) + y / 0.94 = (0.94 + y) / 0.94 by norm_num; ring, le_div_iff₀ (by norm_num)]
    exact this
  have : y / 0.94 ≤ 7 / 10 ^ 8 * k := by
    rw [div_le_iff₀ (by norm_num)]; norm_num at hy1 ⊢; nlinarith
  linarith

/-- The width of the kernel in floating-point arithmetic. -/
theorem isMeanDiff_close {R : Rounding} (hu : R.u ≤ 2 ^ (-24 : ℤ)) {nb : ℕ} (hn : 0 < nb) (hnb : nb ≤ 1000)
    {bins : Fin (nb + 1) → ℝ} (hb : StrictMono bins) {sigma : ℝ} (h : R.IsMeanDiff bins sigma) :
    |sigma - PopLoss.meanDiff bins| ≤ 7 / 10 ^ 8 * (nb + 2) * PopLoss.meanDiff bins := by
  obtain ⟨total, ht, rfl⟩ := h
  have hpos : ∀ j : Fin nb, 0 < bins j.succ - bins j.castSucc := fun j => sub_pos.2 (hb j.castSucc_lt_succ)
  have h1 := ((isSum_approx (fun j : Fin nb => (Rounding.Approx.exact (R := R) (bins j.succ - bins j.castSucc)).round) ht).div_const
    nb).round
  have hn' : (0 : ℝ) < nb := by exact_mod_cast hn
  rw [abs_of_pos hn', Fintype.card_fin] at h1
  have e : (∑ j : Fin nb, |bins j.succ - bins j.castSucc|) / (nb : ℝ) = PopLoss.meanDiff bins := by
    unfold PopLoss.meanDiff
    congr 1
    exact sum_congr rfl fun j _ => abs_of_pos (hpos j)
  have e2 : (∑ j : Fin nb, (bins j.succ - bins j.castSucc)) / (nb : ℝ) = PopLoss.meanDiff bins := rfl
  rw [e, e2] at h1
  refine h1.2.trans (mul_le_mul_of_nonneg_right ?_ (meanDiff_pos hb hn).le)
  refine (pow_u_le hu (by omega)).trans (le_of_eq ?_)
  push_cast
  ring

/-- Error of the cumulative kernel when its width has a relative error. -/
theorem cumlFl_close {R : Rounding} (hu : R.u ≤ 2 ^ (-24 : ℤ)) {x m s s' e : ℝ} (hs : 0 < s) (he0 : 0 ≤ e) (he : e ≤ 1 / 100)
    (h : |s' - s| ≤ e * s) :
    |R.twCumlLaxKern x m s' - NdHist.twCumlLaxKern x m s| ≤ 2.8 / 10 ^ 6 + 1.5 * e := by
  have e1 : R.twCumlLaxKern x m s' = R.jaxTw (R.fl (R.fl (x - m) / s')) := by
    unfold Rounding.twCumlLaxKern Rounding.jaxTw
    rfl
  rw [e1, ndTwCumlLax_eq]
  have h1 := flQuot R hu (x - m) s'
  have hs' := abs_le.1 h
  have hs'pos : 0 < s' := by nlinarith
  have h2 : |(x - m) / s' - (x - m) / s| ≤ 1.02 * e * |(x - m) / s| := by
    have : (x - m) / s' - (x - m) / s = (x - m) / s * ((s - s') / s') := by field_simp
    rw [this, abs_mul, mul_comm]
    refine mul_le_mul_of_nonneg_right ?_ (abs_nonneg _)
    rw [abs_div, abs_of_pos hs'pos, abs_sub_comm, div_le_iff₀ hs'pos]
    refine h.trans ?_
    rw [mul_comm (1.02 : ℝ), mul_assoc]
    refine mul_le_mul_of_nonneg_left ?_ he0
    norm_num at he ⊢
    nlinarith
  set q := (x - m) / s
  set q' := (x - m) / s'
  have h3 : |q'| ≤ (1 + 1.02 * e) * |q| := by
    have := abs_add_le (q' - q) q
    rw [sub_add_cancel] at this
    linarith
  have h4 : |R.fl (R.fl (x - m) / s') - q| ≤ (1.025 * e + 1.35 / 10 ^ 7) * |q| := by
    have := abs_add_le (R.fl (R.fl (x - m) / s') - q') (q' - q)
    rw [sub_add_sub_cancel] at this
    have h5 : 13 / 10 ^ 8 * |q'| ≤ 13 / 10 ^ 8 * ((1 + 1.02 * e) * |q|) := mul_le_mul_of_nonneg_left h3 (by norm_num)
    have hq := abs_nonneg q
    have h6 : e * |q| ≤ 1 / 100 * |q| := mul_le_mul_of_nonneg_right he hq
    have h7 : 0 ≤ e * |q| := mul_nonneg he0 hq
    have h8 := this.trans (add_le_add (h1.trans h5) h2)
    refine h8.trans ?_
    norm_num
    linarith
  have a1 := jaxTwFl_close R hu (R.fl (R.fl (x - m) / s'))
  have a2 := jaxTw_rel (by norm_num; linarith) (by norm_num at he ⊢; linarith) h4
  have a3 := abs_sub_le (R.jaxTw (R.fl (R.fl (x - m) / s'))) (jaxTw (R.fl (R.fl (x - m) / s'))) (jaxTw q)
  norm_num at a1 a2 a3 ⊢
  linarith

/-- Error of the weights of a bin. -/
theorem binFl_close {R : Rounding} (hu : R.u ≤ 2 ^ (-24 : ℤ)) {x s s' lo hi e : ℝ} (hs : 0 < s) (he0 : 0 ≤ e) (he : e ≤ 1 / 100)
    (h : |s' - s| ≤ e * s) :
    |R.twBinWeightLaxKern x s' lo hi - NdHist.twBinWeightLaxKern x s lo hi| ≤ 6 / 10 ^ 6 + 3.1 * e := by
  have h1 := abs_le.1 (cumlFl_close hu (x := x) (m := lo) hs he0 he h)
  have h2 := abs_le.1 (cumlFl_close hu (x := x) (m := hi) hs he0 he h)
  have hs0 := u_small hu
  have h0 := R.u_nonneg
  have h3 := R.err (R.twCumlLaxKern x lo s' - R.twCumlLaxKern x hi s')
  have j1 := jaxTw_nonneg ((x - lo) / s)
  have j2 := jaxTw_le_one ((x - lo) / s)
  have j3 := jaxTw_nonneg ((x - hi) / s)
  have j4 := jaxTw_le_one ((x - hi) / s)
  unfold Rounding.twBinWeightLaxKern NdHist.twBinWeightLaxKern
  simp only
  rw [ndTwCumlLax_eq] at h1 h2 ⊢
  rw [ndTwCumlLax_eq]
  have h4 : |R.twCumlLaxKern x lo s' - R.twCumlLaxKern x hi s'| ≤ 2 := by
    norm_num at h1 h2 he
    rw [abs_le]; constructor <;> linarith
  have h5 : R.u * |R.twCumlLaxKern x lo s' - R.twCumlLaxKern x hi s'| ≤ 6 / 10 ^ 8 * 2 :=
    mul_le_mul hs0 h4 (abs_nonneg _) (by norm_num)
  have h6 := abs_le.1 (h3.trans h5)
  norm_num at h1 h2 h6 ⊢
  rw [abs_le]; constructor <;> linarith

/-- Error of the weighted counts of a bin. -/
theorem count_close {R : Rounding} (hu : R.u ≤ 2 ^ (-24 : ℤ)) {n nb : ℕ} (hn : 0 < nb) (hnb : nb ≤ 1000) (hN : n ≤ 10 ^ 6)
    {bins : Fin (nb + 1) → ℝ} (hb : StrictMono bins) {sigma : ℝ} (hs : R.IsMeanDiff bins sigma) {x y : Fin n → ℝ}
    (hy : ∀ i, 0 ≤ y i) {counts : Fin nb → ℝ} (hc : R.IsHist bins sigma x y counts) (b : Fin nb) :
    let c := ∑ i, NdHist.twBinWeightLaxKern (x i) (PopLoss.meanDiff bins) (bins b.castSucc) (bins b.succ) * y i
    let d := (7 / 10 ^ 6 + 2.5 / 10 ^ 7 * (nb : ℝ)) * ∑ i, y i
    |counts b - c| ≤ d + 7 / 10 ^ 8 * n * (c + d) := by
  intro c d
  have hm := meanDiff_pos hb hn
  have hnb' : (nb : ℝ) ≤ 1000 := by exact_mod_cast hnb
  have hnb0 : (0 : ℝ) ≤ nb := Nat.cast_nonneg nb
  have hsig := isMeanDiff_close hu hn hnb hb hs
  set s := PopLoss.meanDiff bins
  have hs0 := u_small hu
  have h0 := R.u_nonneg
  have hw : ∀ i, |R.twBinWeightLaxKern (x i) sigma (bins b.castSucc) (bins b.succ) -
      NdHist.twBinWeightLaxKern (x i) s (bins b.castSucc) (bins b.succ)| ≤ 6 / 10 ^ 6 + 3.1 * (7 / 10 ^ 8 * (nb + 2)) := fun i =>
    binFl_close hu hm (by positivity) (by norm_num; linarith) hsig
  have hle : bins b.castSucc ≤ bins b.succ := (hb b.castSucc_lt_succ).le
  have hw0 : ∀ i, 0 ≤ NdHist.twBinWeightLaxKern (x i) s (bins b.castSucc) (bins b.succ) := fun i => ndBin_nonneg hm hle
  have hw1 : ∀ i, NdHist.twBinWeightLaxKern (x i) s (bins b.castSucc) (bins b.succ) ≤ 1 := fun i => ndBin_le_one _ _ _ _
  have ha : ∀ i, |R.fl (R.twBinWeightLaxKern (x i) sigma (bins b.castSucc) (bins b.succ) * y i) -
      NdHist.twBinWeightLaxKern (x i) s (bins b.castSucc) (bins b.succ) * y i| ≤ (7 / 10 ^ 6 + 2.5 / 10 ^ 7 * (nb : ℝ)) * y i := by
    intro i
    set w' := R.twBinWeightLaxKern (x i) sigma (bins b.castSucc) (bins b.succ)
    set w := NdHist.twBinWeightLaxKern (x i) s (bins b.castSucc) (bins b.succ)
    have g1 : |w' - w| ≤ 6 / 10 ^ 6 + 3.1 * (7 / 10 ^ 8 * (nb + 2)) := hw i
    have g2 : |w'| ≤ 2 := by
      have := abs_add_le (w' - w) w
      rw [sub_add_cancel, abs_of_nonneg (hw0 i)] at this
      have := hw1 i
      norm_num at g1
      linarith
    have g3 := R.err (w' * y i)
    rw [abs_mul, abs_of_nonneg (hy i)] at g3
    have g4 : R.u * (|w'| * y i) ≤ 12 / 10 ^ 8 * y i := by
      rw [← mul_assoc]
      refine mul_le_mul_of_nonneg_right ?_ (hy i)
      have := mul_le_mul hs0 g2 (abs_nonneg _) (by norm_num)
      norm_num at this ⊢
      linarith
    have g5 : |w' * y i - w * y i| ≤ (6 / 10 ^ 6 + 3.1 * (7 / 10 ^ 8 * (nb + 2))) * y i := by
      rw [← sub_mul, abs_mul, abs_of_nonneg (hy i)]
      exact mul_le_mul_of_nonneg_right g1 (hy i)
    have g6 := abs_add_le (R.fl (w' * y i) - w' * y i) (w' * y i - w * y i)
    rw [sub_add_sub_cancel] at g6
    have g7 : (6 / 10 ^ 6 + 3.1 * (7 / 10 ^ 8 * ((nb : ℝ) + 2))) * y i + 12 / 10 ^ 8 * y i ≤
        (7 / 10 ^ 6 + 2.5 / 10 ^ 7 * (nb : ℝ)) * y i := by
      rw [← add_mul]
      refine mul_le_mul_of_nonneg_right ?_ (hy i)
      norm_num
      linarith
    linarith
  have h1 := isSum_close (hc b)
  rw [Multiset.card_map, Multiset.map_map] at h1
  set a := fun i => R.fl (R.twBinWeightLaxKern (x i) sigma (bins b.castSucc) (bins b.succ) * y i) with hadef
  change |counts b - ∑ i, a i| ≤ ((1 + R.u) ^ (Fintype.card (Fin n)) - 1) * ∑ i, |a i| at h1
  rw [Fintype.card_fin] at h1
  have h2 : |∑ i, a i - c| ≤ d := by
    simp only [c, d]
    rw [← sum_sub_distrib, mul_sum]
    exact (abs_sum_le_sum_abs _ _).trans (sum_le_sum fun i _ => ha i)
  have h3 : ∑ i, |a i| ≤ c + d := by
    simp only [c, d]
    rw [mul_sum, ← sum_add_distrib]
    refine sum_le_sum fun i _ => ?_
    have := abs_add_le (a i - NdHist.twBinWeightLaxKern (x i) s (bins b.castSucc) (bins b.succ) * y i)
      (NdHist.twBinWeightLaxKern (x i) s (bins b.castSucc) (bins b.succ) * y i)
    rw [sub_add_cancel, abs_of_nonneg (mul_nonneg (hw0 i) (hy i))] at this
    linarith [ha i]
  have h4 := pow_u_le hu hN
  have h5 : 0 ≤ ∑ i, |a i| := sum_nonneg fun i _ => abs_nonneg _
  have h6 : ((1 + R.u) ^ n - 1) * ∑ i, |a i| ≤ 7 / 10 ^ 8 * n * (c + d) :=
    mul_le_mul h4 h3 h5 (by positivity)
  have h7 := abs_add_le (counts b - ∑ i, a i) (∑ i, a i - c)
  rw [sub_add_sub_cancel] at h7
  linarith

theorem meanDiff_telescope {nb : ℕ} (bins : Fin (nb + 1) → ℝ) :
    PopLoss.meanDiff bins = (bins (Fin.last nb) - bins 0) / nb := by
  unfold PopLoss.meanDiff
  congr 1
  have : ∀ (m : ℕ) (e : Fin (m + 1) → ℝ), ∑ j : Fin m, (e j.succ - e j.castSucc) = e (Fin.last m) - e 0 := by
    intro m
    induction m with
    | zero => intro e; simp
    | succ m ih =>
      intro e
      rw [Fin.sum_univ_castSucc]
      have := ih (fun j => e j.castSucc)
      simp only [Fin.succ_castSucc, Fin.castSucc_zero] at this ⊢
      rw [this]
      simp
  exact this nb bins

/-- Error of a normalised histogram. -/
theorem normalised_fl {R : Rounding} (hu : R.u ≤ 2 ^ (-24 : ℤ)) {nb : ℕ} (hnb : nb ≤ 1000) {c c' : Fin nb → ℝ}
    {T W e : ℝ} (hW : 0 < W) (hc : ∀ b, 0 ≤ c b) (hcW : ∑ b, c b ≤ W) (hhalf : W ≤ 2 * ∑ b, c b) (he : 9 / 10 ^ 6 ≤ e)
    (he' : e ≤ 1 / 20) (h : ∑ b, |c' b - c b| ≤ (e - 8 / 10 ^ 8 * nb) * W) (hT : R.IsSum (univ.val.map c') T) :
    0 < T ∧ (∀ b, |R.fl (c' b / T) - c b / ∑ b, c b| ≤ 5 * e) ∧ |∑ b, R.fl (c' b / T) - 1| ≤ 2 / 10 ^ 7 * (nb + 1) := by
  have hs0 := u_small hu
  have h0 := R.u_nonneg
  have hnb0 : (0 : ℝ) ≤ nb := Nat.cast_nonneg nb
  set S := ∑ b, c b with hS
  have h1 := isSum_close hT
  rw [Multiset.card_map, Multiset.map_map] at h1
  change |T - ∑ b, c' b| ≤ ((1 + R.u) ^ (Fintype.card (Fin nb)) - 1) * ∑ b, |c' b| at h1
  rw [Fintype.card_fin] at h1
  have hA : ∑ b, |c' b| ≤ 1.05 * W := by
    have : ∑ b, |c' b| ≤ ∑ b, (|c' b - c b| + c b) := sum_le_sum fun b _ => by
      have := abs_add_le (c' b - c b) (c b)
      rwa [sub_add_cancel, abs_of_nonneg (hc b)] at this
    rw [sum_add_distrib] at this
    have : (e - 8 / 10 ^ 8 * nb) * W ≤ 1 / 20 * W := mul_le_mul_of_nonneg_right (by norm_num at he' ⊢; linarith) hW.le
    norm_num
    linarith
  have hA0 : 0 ≤ ∑ b, |c' b| := sum_nonneg fun b _ => abs_nonneg _
  have h2 : |T - ∑ b, c' b| ≤ 7 / 10 ^ 8 * nb * (1.05 * W) :=
    h1.trans (mul_le_mul (pow_u_le hu (by omega)) hA hA0 (by positivity))
  have h3 : |∑ b, c' b - S| ≤ (e - 8 / 10 ^ 8 * nb) * W := by
    rw [hS, ← sum_sub_distrib]
    exact (abs_sum_le_sum_abs _ _).trans h
  have h4 : |T - S| ≤ e * W := by
    have := abs_add_le (T - ∑ b, c' b) (∑ b, c' b - S)
    rw [sub_add_sub_cancel] at this
    norm_num at h2 h3
    nlinarith
  have h5 : 0.45 * W ≤ T := by
    have := (abs_le.1 h4).1
    have : e * W ≤ 1 / 20 * W := mul_le_mul_of_nonneg_right he' hW.le
    norm_num
    linarith
  have hTpos : 0 < T := lt_of_lt_of_le (by positivity) h5
  have hSpos : 0 < S := by linarith
  have hce : ∀ b, |c' b - c b| ≤ e * W := fun b => by
    have := single_le_sum (f := fun b => |c' b - c b|) (fun b _ => abs_nonneg _) (mem_univ b)
    have h6 : (e - 8 / 10 ^ 8 * nb) * W ≤ e * W := mul_le_mul_of_nonneg_right (by linarith) hW.le
    exact this.trans (h.trans h6)
  refine ⟨hTpos, fun b => ?_, ?_⟩
  · have q0 : c b / S ≤ 1 := (div_le_one hSpos).2 (single_le_sum (f := c) (fun b _ => hc b) (mem_univ b))
    have q0' : 0 ≤ c b / S := div_nonneg (hc b) hSpos.le
    have q1 : |c' b / T - c b / S| ≤ 2 * e * W / T := by
      have e1 : c' b / T - c b / S = ((c' b - c b) - (c b / S) * (T - S)) / T := by
        field_simp; ring
      rw [e1, abs_div, abs_of_pos hTpos]
      refine div_le_div_of_nonneg_right ?_ hTpos.le
      refine (abs_sub _ _).trans ?_
      rw [abs_mul, abs_of_nonneg q0']
      have := mul_le_mul q0 h4 (abs_nonneg _) zero_le_one
      linarith [hce b]
    have q2 : 2 * e * W / T ≤ 4.45 * e := by
      rw [div_le_iff₀ hTpos]
      have : 0 ≤ e := by norm_num at he; linarith
      have hp : 0 ≤ e * T := mul_nonneg this hTpos.le
      have := mul_le_mul_of_nonneg_left h5 this
      norm_num at this ⊢
      linarith
    have q3 := q1.trans q2
    have q4 := R.err (c' b / T)
    have q5 : |c' b / T| ≤ 2 := by
      have := abs_add_le (c' b / T - c b / S) (c b / S)
      rw [sub_add_cancel, abs_of_nonneg q0'] at this
      norm_num at q3 he'
      linarith
    have q6 : R.u * |c' b / T| ≤ 6 / 10 ^ 8 * 2 := mul_le_mul hs0 q5 (abs_nonneg _) (by norm_num)
    have q7 := abs_add_le (R.fl (c' b / T) - c' b / T) (c' b / T - c b / S)
    rw [sub_add_sub_cancel] at q7
    norm_num at q3 q6 he ⊢
    linarith
  · have r1 : |∑ b, R.fl (c' b / T) - ∑ b, c' b / T| ≤ R.u * (∑ b, |c' b| / T) := by
      rw [← sum_sub_distrib, mul_sum]
      refine (abs_sum_le_sum_abs _ _).trans (sum_le_sum fun b _ => ?_)
      have := R.err (c' b / T)
      rwa [abs_div, abs_of_pos hTpos] at this
    rw [← sum_div, ← sum_div] at r1
    have r2 : (∑ b, |c' b|) / T ≤ 2.34 := by
      rw [div_le_iff₀ hTpos]; norm_num at hA h5 ⊢; linarith
    have r3 : R.u * ((∑ b, |c' b|) / T) ≤ 6 / 10 ^ 8 * 2.34 := mul_le_mul hs0 r2 (div_nonneg hA0 hTpos.le) (by norm_num)
    have r4 : |(∑ b, c' b) / T - 1| ≤ 1.64 / 10 ^ 7 * nb := by
      rw [div_sub_one hTpos.ne', abs_div, abs_of_pos hTpos, div_le_iff₀ hTpos, abs_sub_comm]
      refine h2.trans ?_
      have hp : 0 ≤ (nb : ℝ) * T := mul_nonneg hnb0 hTpos.le
      have := mul_le_mul_of_nonneg_left h5 hnb0
      norm_num at this ⊢
      linarith
    have r5 := abs_add_le (∑ b, R.fl (c' b / T) - (∑ b, c' b) / T) ((∑ b, c' b) / T - 1)
    rw [sub_add_sub_cancel] at r5
    norm_num at r3 r4 ⊢
    linarith

theorem diffHistMstar_eq {n nb : ℕ} (bins : Fin (nb + 1) → ℝ) (logSmh weight : Fin n → ℝ) :
    PopLoss.diffHistMstar bins logSmh weight = PopLoss.normalise fun b : Fin nb =>
      ∑ i, NdHist.twBinWeightLaxKern (logSmh i) (PopLoss.meanDiff bins) (bins b.castSucc) (bins b.succ) * weight i := by
  unfold PopLoss.diffHistMstar
  simp only [add_zero]
  congr 1
  funext b
  simp [NdHist.twNdhistWeighted, NdHist.twNdhistWeightedKern, NdHist.twNdhistWeightedSumKern]

theorem mass_function_error (R : Rounding) (hu : R.u ≤ 2 ^ (-24 : ℤ)) {n nb : ℕ} (hn : 0 < nb)
    (bins : Fin (nb + 1) → ℝ) (hb : StrictMono bins) (logSmh weight : Fin n → ℝ) (hw : ∀ i, 0 ≤ weight i)
    (hpos : 0 < ∑ i, weight i)
    (hin : ∑ i, weight i ≤ 2 * ∑ b : Fin nb, ∑ i, weight i *
      NdHist.twBinWeightLaxKern (logSmh i) ((bins (Fin.last nb) - bins 0) / nb) (bins b.castSucc) (bins b.succ))
    (he : 9 / 10 ^ 6 * nb + 3 / 10 ^ 7 * nb ^ 2 + 1 / 10 ^ 7 * n ≤ (1 / 20 : ℝ)) {sigma total : ℝ} {counts : Fin nb → ℝ}
    (h1 : R.IsMeanDiff bins sigma) (h2 : R.IsHist bins sigma logSmh weight counts)
    (h3 : R.IsSum (univ.val.map counts) total) :
    0 < total ∧ ∃ f : Fin nb → ℝ, PopLoss.diffHistMstar bins logSmh weight = some f ∧
      (∀ b, |R.fl (counts b / total) - f b| ≤ 4.5 / 10 ^ 5 * nb + 1.5 / 10 ^ 6 * nb ^ 2 + 5 / 10 ^ 7 * n) ∧
      |∑ b, R.fl (counts b / total) - 1| ≤ 2 / 10 ^ 7 * (nb + 1) := by
  have hnbpos : (1 : ℝ) ≤ nb := by exact_mod_cast hn
  have hn0 : (0 : ℝ) ≤ n := Nat.cast_nonneg n
  have hnb : nb ≤ 1000 := by
    by_contra hc
    have : (1000 : ℝ) ≤ nb := by exact_mod_cast (not_le.1 hc).le
    nlinarith
  have hN : n ≤ 10 ^ 6 := by
    by_contra hc
    have : (10 ^ 6 : ℝ) ≤ n := by exact_mod_cast (not_le.1 hc).le
    nlinarith [sq_nonneg (nb : ℝ)]
  rw [← meanDiff_telescope] at hin
  have hm := meanDiff_pos hb hn
  set W := ∑ i, weight i with hW
  set c : Fin nb → ℝ := fun b =>
    ∑ i, NdHist.twBinWeightLaxKern (logSmh i) (PopLoss.meanDiff bins) (bins b.castSucc) (bins b.succ) * weight i with hc
  have hin' : W ≤ 2 * ∑ b, c b := by
    refine hin.trans (le_of_eq ?_)
    congr 1
    exact sum_congr rfl fun b _ => sum_congr rfl fun i _ => mul_comm _ _
  have hc0 : ∀ b, 0 ≤ c b := fun b => sum_nonneg fun i _ =>
    mul_nonneg (ndBin_nonneg hm (hb b.castSucc_lt_succ).le) (hw i)
  have hcW : ∑ b, c b ≤ W := by
    rw [hc, sum_comm]
    refine sum_le_sum fun i _ => ?_
    rw [← sum_mul]
    have := ndBin_sum_le_one (x := logSmh i) (s := PopLoss.meanDiff bins) nb bins
    calc _ ≤ 1 * weight i := mul_le_mul_of_nonneg_right this (hw i)
      _ = weight i := one_mul _
  set e : ℝ := 9 / 10 ^ 6 * nb + 3 / 10 ^ 7 * nb ^ 2 + 1 / 10 ^ 7 * n with hedef
  have herr : ∑ b, |counts b - c b| ≤ (e - 8 / 10 ^ 8 * nb) * W := by
    set δ : ℝ := 7 / 10 ^ 6 + 2.5 / 10 ^ 7 * (nb : ℝ) with hδ
    have a1 : ∑ b, |counts b - c b| ≤ ∑ b : Fin nb, (δ * W + 7 / 10 ^ 8 * n * (c b + δ * W)) :=
      sum_le_sum fun b _ => count_close hu hn hnb hN hb h1 hw h2 b
    rw [sum_add_distrib] at a1
    simp only [sum_const, card_univ, Fintype.card_fin, nsmul_eq_mul] at a1
    rw [← mul_sum, sum_add_distrib] at a1
    simp only [sum_const, card_univ, Fintype.card_fin, nsmul_eq_mul] at a1
    have a2 : (nb : ℝ) * δ ≤ 1 / 20 := by
      rw [hδ]; norm_num at he ⊢; nlinarith
    have a3 : ∑ b, c b + nb * (δ * W) ≤ W + (nb * δ) * W := by linarith
    have a4 : 7 / 10 ^ 8 * (n : ℝ) * (∑ b, c b + nb * (δ * W)) ≤ 7 / 10 ^ 8 * n * (1.05 * W) := by
      refine mul_le_mul_of_nonneg_left (a3.trans ?_) (by positivity)
      have := mul_le_mul_of_nonneg_right a2 hpos.le
      norm_num at this ⊢
      linarith
    have a5 : (nb : ℝ) * (δ * W) + 7 / 10 ^ 8 * n * (1.05 * W) = (nb * δ + 7 / 10 ^ 8 * n * 1.05) * W := by ring
    refine (a1.trans (add_le_add le_rfl a4)).trans ?_
    rw [a5]
    refine mul_le_mul_of_nonneg_right ?_ hpos.le
    rw [hedef, hδ]
    norm_num
    nlinarith
  obtain ⟨b1, b2, b3⟩ := normalised_fl hu hnb hpos hc0 hcW hin' (e := e) (by
      rw [hedef]; norm_num; nlinarith) he herr h3
  have hS : ∑ b, c b ≠ 0 := by linarith
  refine ⟨b1, fun b => c b / ∑ b, c b, ?_, fun b => (b2 b).trans (le_of_eq ?_), b3⟩
  · rw [diffHistMstar_eq]
    unfold PopLoss.normalise
    exact if_neg hS
  · rw [hedef]
    norm_num
    ring

/-- **C139**: in single precision (or better), whatever the order of the sums, the predicted stellar mass function of `n`
galaxies in `nb` bins is a number in every bin, correct to `4.5e-5 nb + 1.5e-6 nb^2 + 5e-7 n`, and sums to one up to
`2e-7 (nb + 1)`, if at least half of the galaxies (by weight) are inside the bins. -/
theorem C139_mass_function_partial (R : Rounding) (hu : R.u ≤ 2 ^ (-24 : ℤ)) {n nb : ℕ} (hn : 0 < nb)
    (bins : Fin (nb + 1) → ℝ) (hb : StrictMono bins) (logSmh weight : Fin n → ℝ) (hw : ∀ i, 0 ≤ weight i)
    (hpos : 0 < ∑ i, weight i)
    (hin : ∑ i, weight i ≤ 2 * ∑ b : Fin nb, ∑ i, weight i *
      NdHist.twBinWeightLaxKern (logSmh i) ((bins (Fin.last nb) - bins 0) / nb) (bins b.castSucc) (bins b.succ))
    (he : 9 / 10 ^ 6 * nb + 3 / 10 ^ 7 * nb ^ 2 + 1 / 10 ^ 7 * n ≤ (1 / 20 : ℝ)) (pdf : Option (Fin nb → ℝ))
    (h : R.IsDiffHistMstar bins logSmh weight pdf) :
    ∃ f g : Fin nb → ℝ, PopLoss.diffHistMstar bins logSmh weight = some f ∧ pdf = some g ∧
      (∀ b, |g b - f b| ≤ 4.5 / 10 ^ 5 * nb + 1.5 / 10 ^ 6 * nb ^ 2 + 5 / 10 ^ 7 * n) ∧
      |∑ b, g b - 1| ≤ 2 / 10 ^ 7 * (nb + 1) := by
  obtain ⟨sigma, counts, total, h1, h2, h3, rfl⟩ := h
  obtain ⟨g1, f, g2, g3⟩ := mass_function_error R hu hn bins hb logSmh weight hw hpos hin he h1 h2 h3
  exact ⟨f, _, g2, if_neg g1.ne', g3⟩

/-- Every array has a sum. -/
theorem isSum_exists (R : Rounding) (m : Multiset ℝ) : ∃ s, R.IsSum m s := by
  induction m using Multiset.induction_on with
  | empty => exact ⟨0, .zero⟩
  | cons x m ih =>
    obtain ⟨s, hs⟩ := ih
    by_cases hm : m = 0
    · subst hm
      exact ⟨x, .one x⟩
    · exact ⟨_, Rounding.IsSum.add (Multiset.singleton_ne_zero x) hm (.one x) hs⟩

/-- There always is a result. -/
theorem isDiffHistMstar_exists (R : Rounding) {n nb : ℕ} (bins : Fin (nb + 1) → ℝ) (logSmh weight : Fin n → ℝ) :
    ∃ pdf, R.IsDiffHistMstar bins logSmh weight pdf := by
  obtain ⟨S, hS⟩ := isSum_exists R (univ.val.map fun j : Fin nb => R.fl (bins j.succ - bins j.castSucc))
  choose counts hc using fun b : Fin nb => isSum_exists R (univ.val.map fun i =>
    R.fl (R.twBinWeightLaxKern (logSmh i) (R.fl (S / nb)) (bins b.castSucc) (bins b.succ) * weight i))
  obtain ⟨T, hT⟩ := isSum_exists R (univ.val.map counts)
  exact ⟨_, _, counts, T, ⟨S, hS, rfl⟩, hc, hT, rfl⟩

theorem isSum_neg {R : Rounding} (hu : R.u < 1) {m : Multiset ℝ} {s : ℝ} (h : R.IsSum m s) (hm : m ≠ 0)
    (hneg : ∀ x ∈ m, x < 0) : s < 0 := by
  induction h with
  | zero => exact absurd rfl hm
  | one x => exact hneg x (Multiset.mem_singleton_self x)
  | @add a b s t ha hb _ _ iha ihb =>
    have h1 := iha ha fun x hx => hneg x (Multiset.mem_add.2 (.inl hx))
    have h2 := ihb hb fun x hx => hneg x (Multiset.mem_add.2 (.inr hx))
    have := R.fl_pos hu (x := -(s + t)) (by linarith)
    rw [R.neg] at this
    linarith

theorem f32_nat {k : ℕ} (hk : k < 2 ^ 24) : float32.fl (k : ℝ) = k := by
  have := float32_exact k hk 0
  rwa [zpow_zero, mul_one] at this

/-- Ones are counted exactly. -/
theorem isSum_ones {m : Multiset ℝ} {s : ℝ} (h : float32.IsSum m s) (hm : ∀ x ∈ m, x = 1) (hc : Multiset.card m < 2 ^ 24) :
    s = Multiset.card m := by
  induction h with
  | zero => simp
  | one x => rw [hm x (Multiset.mem_singleton_self x)]; simp
  | @add a b s t ha hb _ _ iha ihb =>
    rw [Multiset.card_add] at hc ⊢
    rw [iha (fun x hx => hm x (Multiset.mem_add.2 (.inl hx))) (by omega),
      ihb (fun x hx => hm x (Multiset.mem_add.2 (.inr hx))) (by omega), ← Nat.cast_add, f32_nat hc]

theorem float32_u_lt : float32.u < 1 := by
  have : float32.u = 2 ^ (-24 : ℤ) := rfl
  rw [this]; norm_num

/-- Five edges of stellar mass bins, one dex apart. -/
theorem edges_strictMono : StrictMono (![8, 9, 10, 11, 12] : Fin (4 + 1) → ℝ) := by
  rw [Fin.strictMono_iff_lt_succ]
  intro i
  fin_cases i <;> simp <;> norm_num

theorem edges_sigma {sigma : ℝ} (h : float32.IsMeanDiff (![8, 9, 10, 11, 12] : Fin (4 + 1) → ℝ) sigma) : sigma = 1 := by
  obtain ⟨total, ht, rfl⟩ := h
  have h1 : ∀ x ∈ univ.val.map (fun j : Fin 4 => float32.fl ((![8, 9, 10, 11, 12] : Fin (4 + 1) → ℝ) j.succ -
      (![8, 9, 10, 11, 12] : Fin (4 + 1) → ℝ) j.castSucc)), x = 1 := by
    intro x hx
    obtain ⟨j, -, rfl⟩ := Multiset.mem_map.1 hx
    have : (![8, 9, 10, 11, 12] : Fin (4 + 1) → ℝ) j.succ - (![8, 9, 10, 11, 12] : Fin (4 + 1) → ℝ) j.castSucc = 1 := by
      fin_cases j <;> simp <;> norm_num
    rw [this, float32.one]
  have h2 := isSum_ones ht h1 (by rw [Multiset.card_map]; simp)
  rw [Multiset.card_map] at h2
  rw [h2]
  have : ((Multiset.card (univ : Finset (Fin 4)).val : ℕ) : ℝ) / ((4 : ℕ) : ℝ) = 1 := by simp
  rw [this, float32.one]

theorem f32_dyadic (m : ℕ) (hm : m < 2 ^ 24) (x : ℝ) (k : ℤ) (hx : m * 2 ^ k = x) : float32.fl x = x := by
  rw [← hx, float32_exact m hm k]

theorem edges_weight : float32.twBinWeightLaxKern (1027 / 128) 1 11 12 = -(2 ^ (-23 : ℤ)) := by
  have a1 : float32.fl (1027 / 128 - 11) = -(381 / 128) := by
    rw [show (1027 : ℝ) / 128 - 11 = -(381 / 128) by norm_num, float32.neg, f32_dyadic 381 (by norm_num) (381 / 128) (-7) (by norm_num)]
  have a2 : float32.fl (1027 / 128 - 12) = -(509 / 128) := by
    rw [show (1027 : ℝ) / 128 - 12 = -(509 / 128) by norm_num, float32.neg, f32_dyadic 509 (by norm_num) (509 / 128) (-7) (by norm_num)]
  unfold Rounding.twBinWeightLaxKern Rounding.twCumlLaxKern
  simp only
  rw [a1, a2, div_one, div_one, float32.neg, float32.neg, f32_dyadic 381 (by norm_num) (381 / 128) (-7) (by norm_num),
    f32_dyadic 509 (by norm_num) (509 / 128) (-7) (by norm_num), if_neg (by norm_num), if_neg (by norm_num),
    if_neg (by norm_num), if_pos (by norm_num), f32_twPoly, sub_zero, float32.neg]
  congr 1
  exact f32_dyadic 1 (by norm_num) _ (-23) (by norm_num)

theorem edges_inside : (1 : ℝ) / 2 ≤ ∑ b : Fin 4, NdHist.twBinWeightLaxKern (1027 / 128) 1
    ((![8, 9, 10, 11, 12] : Fin (4 + 1) → ℝ) b.castSucc) ((![8, 9, 10, 11, 12] : Fin (4 + 1) → ℝ) b.succ) := by
  rw [ndBin_sum]
  have h1 : jaxTw ((1027 / 128 - (![8, 9, 10, 11, 12] : Fin (4 + 1) → ℝ) (Fin.last 4)) / 1) = 0 := by
    apply jaxTw_lo
    simp [Fin.last]
    norm_num
  have h2 : 1 / 2 ≤ jaxTw ((1027 / 128 - (![8, 9, 10, 11, 12] : Fin (4 + 1) → ℝ) 0) / 1) := by
    have : jaxTw 0 = 1 / 2 := by rw [jaxTw_mid (by norm_num) (by norm_num)]; unfold twPoly; norm_num
    rw [← this]
    rcases lt_trichotomy (0 : ℝ) ((1027 / 128 - (![8, 9, 10, 11, 12] : Fin (4 + 1) → ℝ) 0) / 1) with h | h | h
    · exact ((jaxTw_lt_iff h).2 ⟨by linarith, by norm_num⟩).le
    · rw [← h]
    · simp at h; norm_num at h
  rw [h1]
  linarith

/-- **C139**: in single precision a predicted stellar mass function can be negative: for bins of one dex and galaxies with
a mass of `10**(8 + 3/128)`, whatever their number and weights and the order of the sums, the value of the bin from `10**11`
to `10**12` is negative. All numbers are floating-point numbers. -/
theorem C139_nonneg_violated {n : ℕ} (hn : 0 < n) (hN : n ≤ 100000) (weight : Fin n → ℝ) (hw : ∀ i, 0 < weight i)
    (pdf : Option (Fin 4 → ℝ))
    (h : float32.IsDiffHistMstar (![8, 9, 10, 11, 12] : Fin (4 + 1) → ℝ) (fun _ => 1027 / 128) weight pdf) :
    (∀ x ∈ [(8 : ℝ), 9, 10, 11, 12, 1027 / 128], float32.fl x = x) ∧ ∃ g, pdf = some g ∧ g 3 < 0 := by
  refine ⟨?_, ?_⟩
  · intro x hx
    simp only [List.mem_cons, List.not_mem_nil, or_false] at hx
    rcases hx with rfl | rfl | rfl | rfl | rfl | rfl
    · exact_mod_cast f32_nat (k := 8) (by norm_num)
    · exact_mod_cast f32_nat (k := 9) (by norm_num)
    · exact_mod_cast f32_nat (k := 10) (by norm_num)
    · exact_mod_cast f32_nat (k := 11) (by norm_num)
    · exact_mod_cast f32_nat (k := 12) (by norm_num)
    · exact f32_dyadic 1027 (by norm_num) _ (-7) (by norm_num)
  · obtain ⟨sigma, counts, total, h1, h2, h3, rfl⟩ := h
    have hs := edges_sigma h1
    have : Nonempty (Fin n) := ⟨⟨0, hn⟩⟩
    have hpos : 0 < ∑ i, weight i := sum_pos (fun i _ => hw i) univ_nonempty
    have hsig : ((![8, 9, 10, 11, 12] : Fin (4 + 1) → ℝ) (Fin.last 4) - (![8, 9, 10, 11, 12] : Fin (4 + 1) → ℝ) 0) / ((4 : ℕ) : ℝ) = 1 := by
      simp [Fin.last]; norm_num
    have hN' : (n : ℝ) ≤ 100000 := by exact_mod_cast hN
    obtain ⟨g1, -⟩ := mass_function_error float32 (le_of_eq rfl) (by norm_num) _ edges_strictMono (fun _ => 1027 / 128) weight
      (fun i => (hw i).le) hpos (by
        rw [hsig, sum_comm]
        simp_rw [← mul_sum]
        rw [← sum_mul]
        have := mul_le_mul_of_nonneg_left edges_inside hpos.le
        linarith) (by norm_num; linarith) h1 h2 h3
    refine ⟨_, if_neg g1.ne', ?_⟩
    have hneg : counts 3 < 0 := by
      refine isSum_neg float32_u_lt (h2 3) ?_ ?_
      · rw [Ne, Multiset.map_eq_zero]
        exact fun hc => univ_nonempty.ne_empty (Finset.val_eq_zero.1 hc)
      · intro x hx
        obtain ⟨i, -, rfl⟩ := Multiset.mem_map.1 hx
        have e : float32.twBinWeightLaxKern (1027 / 128) sigma ((![8, 9, 10, 11, 12] : Fin (4 + 1) → ℝ) (Fin.castSucc 3))
            ((![8, 9, 10, 11, 12] : Fin (4 + 1) → ℝ) (Fin.succ 3)) = -(2 ^ (-23 : ℤ)) := by
          rw [hs]; exact edges_weight
        rw [e, neg_mul, float32.neg]
        have := float32.fl_pos float32_u_lt (x := 2 ^ (-23 : ℤ) * weight i) (mul_pos (by positivity) (hw i))
        linarith
    have := float32.fl_pos float32_u_lt (x := -(counts 3 / total)) (by
      rw [neg_pos]; exact div_neg_of_neg_of_pos hneg g1)
    rw [float32.neg] at this
    linarith

/-- **C139**: given the predictions, the loss of `n` predicted values has a relative error of at most `7e-8 (n + 5)`. -/
theorem C139_loss_rounding (R : Rounding) (hu : R.u ≤ 2 ^ (-24 : ℤ)) {ι : Type} [Fintype ι] (hn : Fintype.card ι ≤ 100000)
    (pred target : ι → ℝ) (loss : ℝ) (h : R.IsLoss pred target loss) :
    let exact := 1000 * ((∑ i, (pred i - target i) ^ 2) / Fintype.card ι)
    |loss - exact| ≤ 7 / 10 ^ 8 * (Fintype.card ι + 5) * exact := by
  intro exact
  obtain ⟨total, ht, rfl⟩ := h
  have h1 : ∀ i, R.Approx 3 ((pred i - target i) ^ 2) (R.fl (R.fl (pred i - target i) * R.fl (pred i - target i)))
      ((pred i - target i) ^ 2) := by
    intro i
    have a := (Rounding.Approx.exact (R := R) (pred i - target i)).round
    have := (a.mul a).round
    rwa [abs_mul_abs_self, ← pow_two (pred i - target i)] at this
  have h2 := (((isSum_approx h1 ht).div_const (Fintype.card ι)).round.mul (Rounding.Approx.exact (R := R) 1000)).round
  rw [abs_of_nonneg (Nat.cast_nonneg _), abs_of_pos (by norm_num : (0 : ℝ) < 1000)] at h2
  have e : (∑ i, (pred i - target i) ^ 2) / (Fintype.card ι : ℝ) * 1000 = exact := by simp only [exact]; ring
  rw [e] at h2
  refine h2.2.trans (mul_le_mul_of_nonneg_right ?_ ?_)
  · refine (pow_u_le hu (by omega)).trans (le_of_eq ?_)
    push_cast
    ring
  · simp only [exact]
    exact mul_nonneg (by norm_num) (div_nonneg (sum_nonneg fun i _ => sq_nonneg _) (Nat.cast_nonneg _))

/-- The hypotheses hold for one galaxy with a mass of `10**(8 + 3/128)` in single precision. -/
example : float32.u ≤ 2 ^ (-24 : ℤ) ∧ (0 : ℝ) < ∑ _i : Fin 1, (1 : ℝ) ∧
    ∑ _i : Fin 1, (1 : ℝ) ≤ 2 * ∑ b : Fin 4, ∑ _i : Fin 1, 1 * NdHist.twBinWeightLaxKern (1027 / 128)
      (((![8, 9, 10, 11, 12] : Fin (4 + 1) → ℝ) (Fin.last 4) - (![8, 9, 10, 11, 12] : Fin (4 + 1) → ℝ) 0) / ((4 : ℕ) : ℝ))
      ((![8, 9, 10, 11, 12] : Fin (4 + 1) → ℝ) b.castSucc) ((![8, 9, 10, 11, 12] : Fin (4 + 1) → ℝ) b.succ) ∧
    (9 / 10 ^ 6 * (4 : ℕ) + 3 / 10 ^ 7 * (4 : ℕ) ^ 2 + 1 / 10 ^ 7 * (1 : ℕ) ≤ (1 / 20 : ℝ)) ∧
    ∃ pdf, float32.IsDiffHistMstar (![8, 9, 10, 11, 12] : Fin (4 + 1) → ℝ) (fun _ : Fin 1 => 1027 / 128) (fun _ => 1) pdf := by
  have hsig : ((![8, 9, 10, 11, 12] : Fin (4 + 1) → ℝ) (Fin.last 4) - (![8, 9, 10, 11, 12] : Fin (4 + 1) → ℝ) 0) / ((4 : ℕ) : ℝ) = 1 := by
    simp [Fin.last]; norm_num
  refine ⟨le_of_eq rfl, by simp, ?_, by norm_num, isDiffHistMstar_exists _ _ _ _⟩
  rw [hsig]
  have := edges_inside
  simp only [univ_unique, sum_const, card_singleton, one_smul, one_mul]
  linarith

/-- There always is a loss. -/
example (R : Rounding) (pred target : Fin 2 × Fin 3 → ℝ) : ∃ loss, R.IsLoss pred target loss := by
  obtain ⟨s, hs⟩ := isSum_exists R (univ.val.map fun i => R.fl (R.fl (pred i - target i) * R.fl (pred i - target i)))
  exact ⟨_, s, hs, rfl⟩

end Diffstar.Props
