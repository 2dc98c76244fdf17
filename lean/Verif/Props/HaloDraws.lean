import Verif.Props.HaloErrors
import Verif.Props.PopAutoDiff
import Verif.Lemmas.Line

/-! How the galaxies drawn for a halo depend on the halo's peak mass and peak time (C147). -/

namespace Diffstar.Props

open Diffstar Diffstar.Spec Diffstar.Pop

theorem swish_hasDeriv (k a x : ℝ) : HasDerivAt (fun x => (x - a) * nnSigmoid (k * (x - a)))
    (nnSigmoid (k * (x - a)) + k * (x - a) * nnSigmoid (k * (x - a)) * nnSigmoid (-(k * (x - a)))) x := by
  have h1 : HasDerivAt (fun x : ℝ => x - a) 1 x := (hasDerivAt_id x).sub_const a
  have h2 : HasDerivAt (fun x : ℝ => k * (x - a)) k x := by simpa using h1.const_mul k
  have h3 := (Diffstar.Trace.hasDerivAt_nnSigmoid (k * (x - a))).comp x h2
  refine (h1.mul h3).congr_deriv ?_
  rw [nnSigmoid_neg]
  simp only [Function.comp]
  ring

/-- The clipped line follows the line with slope at most 1.3. -/
theorem clipOf_lip {D U y0 : ℝ} (hD : 0 < D) (hU : 0 < U) (Y Y' : ℝ) : |clipOf D U y0 Y - clipOf D U y0 Y'| ≤ 1.3 * |Y - Y'| := by
  set k := 2000 / D with hk
  set L := y0 - 0.99 * D with hL
  set H := y0 + 0.99 * U with hH
  have hk0 : 0 < k := by positivity
  have hLH : L < H := by rw [hL, hH]; linarith
  have hd : ∀ Y, HasDerivAt (clipOf D U y0)
      ((nnSigmoid (k * (Y - L)) + k * (Y - L) * nnSigmoid (k * (Y - L)) * nnSigmoid (-(k * (Y - L)))) * nnSigmoid (-(k * (Y - H))) +
        k * (H - (L + (Y - L) * nnSigmoid (k * (Y - L)))) * nnSigmoid (k * (Y - H)) * nnSigmoid (-(k * (Y - H)))) Y := by
    intro Y
    have h1 := (swish_hasDeriv k L Y).const_add L
    have h2 : HasDerivAt (fun x : ℝ => k * (x - H)) k Y := by simpa using ((hasDerivAt_id Y).sub_const H).const_mul k
    have h3 := (Diffstar.Trace.hasDerivAt_nnSigmoid (k * (Y - H))).comp Y h2
    have h4 := h1.add ((h1.const_sub H).mul h3)
    refine (h4.congr_deriv ?_ : HasDerivAt (clipOf D U y0) _ Y)
    rw [nnSigmoid_neg (k * (Y - H))]
    simp only [Function.comp]
    ring
  have hb : ∀ Y, |(nnSigmoid (k * (Y - L)) + k * (Y - L) * nnSigmoid (k * (Y - L)) * nnSigmoid (-(k * (Y - L)))) * nnSigmoid (-(k * (Y - H))) +
        k * (H - (L + (Y - L) * nnSigmoid (k * (Y - L)))) * nnSigmoid (k * (Y - H)) * nnSigmoid (-(k * (Y - H)))| ≤ 1.3 := by
    intro Y
    have e : k * (H - (L + (Y - L) * nnSigmoid (k * (Y - L)))) = k * (Y - L) * nnSigmoid (-(k * (Y - L))) - k * (Y - H) := by
      rw [nnSigmoid_neg]; ring
    rw [e]
    have hzw : k * (Y - H) ≤ k * (Y - L) := mul_le_mul_of_nonneg_left (by linarith) hk0.le
    generalize k * (Y - L) = w at *
    generalize k * (Y - H) = z at *
    have a1 := swish_ge w
    have a2 := swish_le w
    have b1 := swish_ge (-z)
    have b2 := swish_le (-z)
    have c := mul_nnSigmoid_neg_le_sharp w
    have s0 := nnSigmoid_pos z
    have s1 := nnSigmoid_lt_one z
    have w0 := nnSigmoid_pos w
    have w1 := nnSigmoid_lt_one w
    rw [neg_neg] at b1 b2
    have hs : nnSigmoid (-z) = 1 - nnSigmoid z := nnSigmoid_neg z
    have hw : nnSigmoid (-w) = 1 - nnSigmoid w := nnSigmoid_neg w
    have q : nnSigmoid z * nnSigmoid (-z) ≤ 1 / 4 := by rw [hs]; nlinarith [sq_nonneg (nnSigmoid z - 1 / 2)]
    have q0 : 0 ≤ nnSigmoid z * nnSigmoid (-z) := by rw [hs]; nlinarith
    have t0 : 0 < nnSigmoid (-z) := by rw [hs]; linarith
    have t1 : nnSigmoid (-z) < 1 := by rw [hs]; linarith
    have x0 : 0 < nnSigmoid (-w) := by rw [hw]; linarith
    have x1 : nnSigmoid (-w) < 1 := by rw [hw]; linarith
    have u1 : w * nnSigmoid (-w) * (nnSigmoid z * nnSigmoid (-z)) ≤ 0.0704 := by
      rcases le_total w 0 with h | h
      · have : w * nnSigmoid (-w) * (nnSigmoid z * nnSigmoid (-z)) ≤ 0 := mul_nonpos_of_nonpos_of_nonneg (mul_nonpos_of_nonpos_of_nonneg h x0.le) q0
        linarith
      · have := mul_le_mul c q q0 (by norm_num)
        norm_num at this ⊢
        linarith
    have l1 : -z * nnSigmoid (-z) * nnSigmoid z = -z * (nnSigmoid z * nnSigmoid (-z)) := by ring
    rw [l1] at b1 b2
    have fin : (nnSigmoid w + w * nnSigmoid w * nnSigmoid (-w)) * nnSigmoid (-z) + (w * nnSigmoid (-w) - z) * nnSigmoid z * nnSigmoid (-z) =
        (nnSigmoid w + w * nnSigmoid w * nnSigmoid (-w) - 1) * nnSigmoid (-z) + (nnSigmoid (-z) + -z * (nnSigmoid z * nnSigmoid (-z))) +
          w * nnSigmoid (-w) * (nnSigmoid z * nnSigmoid (-z)) := by ring
    rw [fin, abs_le]
    generalize nnSigmoid w + w * nnSigmoid w * nnSigmoid (-w) = g at *
    have g2 : (g - 1) * nnSigmoid (-z) ≤ 0.1 := by norm_num at *; nlinarith
    constructor
    · rcases le_total w 0 with h | h
      · have : 0 ≤ (w * nnSigmoid (-w) - z) * (nnSigmoid z * nnSigmoid (-z)) := by
          refine mul_nonneg ?_ q0
          nlinarith
        have : -0.1 ≤ g * nnSigmoid (-z) := by norm_num at *; nlinarith
        norm_num at *
        nlinarith
      · have : 0 ≤ w * nnSigmoid (-w) * (nnSigmoid z * nnSigmoid (-z)) := mul_nonneg (mul_nonneg h x0.le) q0
        have : -1.1 ≤ (g - 1) * nnSigmoid (-z) := by norm_num at *; nlinarith
        norm_num at *
        linarith
    · norm_num at *
      linarith
  have h := Convex.norm_image_sub_le_of_norm_hasDerivWithin_le (s := Set.univ) (x := Y') (y := Y) (C := 1.3)
    (fun y _ => (hd y).hasDerivWithinAt) (fun y _ => by rw [Real.norm_eq_abs]; exact hb y) convex_univ (Set.mem_univ _) (Set.mem_univ _)
  simpa only [Real.norm_eq_abs] using h

theorem line_lip {x x' y0 m v v' : ℝ} {b : ℝ × ℝ} (h1 : b.1 < y0) (h2 : y0 < b.2) (hv : lineModel x y0 m b = some v) (hv' : lineModel x' y0 m b = some v')
    {M : ℝ} (hm : |m| ≤ M) : |v - v'| ≤ 1.3 * M * |x - x'| := by
  have hm0 : m ≠ 0 := by
    rintro rfl
    rw [lineModel_zero] at hv
    cases hv
  rw [lineModel, smoothlyClippedLine_eq hm0 h1] at hv hv'
  cases hv
  cases hv'
  refine (clipOf_lip (by linarith) (by linarith) _ _).trans ?_
  rw [show y0 + m * (x - LGM_X0) - (y0 + m * (x' - LGM_X0)) = m * (x - x') by ring, abs_mul, mul_assoc]
  exact mul_le_mul_of_nonneg_left (mul_le_mul_of_nonneg_right hm (abs_nonneg _)) (by norm_num)

theorem mcrit_lip {x x' xtp ytp lo hi B : ℝ} (h1 : |lo| ≤ B) (h2 : |hi| ≤ B) :
    |mcritModel x xtp ytp lo hi - mcritModel x' xtp ytp lo hi| ≤ 1.2 * B * |x - x'| := by
  have hd : ∀ y, HasDerivAt (fun x => mcritModel x xtp ytp lo hi)
      (lo + (hi - lo) * (nnSigmoid (3 * (y - xtp)) + 3 * (y - xtp) * nnSigmoid (3 * (y - xtp)) * nnSigmoid (-(3 * (y - xtp))))) y := by
    intro y
    have h := (((hasDerivAt_id y).sub_const xtp).const_mul lo).add ((swish_hasDeriv 3 xtp y).const_mul (hi - lo)) |>.const_add ytp
    refine (h.congr_of_eventuallyEq (Filter.Eventually.of_forall fun x => ?_)).congr_deriv ?_
    · simp only [mcritModel, sigSlope, sigmoid, id, Pi.add_apply]
      ring
    · ring
  have h := Convex.norm_image_sub_le_of_norm_hasDerivWithin_le (s := Set.univ) (x := x') (y := x) (C := 1.2 * B)
    (fun y _ => (hd y).hasDerivWithinAt) (fun y _ => by
      rw [Real.norm_eq_abs]
      have a := swish_ge (3 * (y - xtp))
      have b := swish_le (3 * (y - xtp))
      generalize nnSigmoid (3 * (y - xtp)) + 3 * (y - xtp) * nnSigmoid (3 * (y - xtp)) * nnSigmoid (-(3 * (y - xtp))) = w at a b
      have l := abs_le.1 h1
      have r := abs_le.1 h2
      have hB : 0 ≤ B := (abs_nonneg _).trans h1
      rw [show lo + (hi - lo) * w = lo * (1 - w) + hi * w by ring, abs_le]
      norm_num at a b ⊢
      constructor <;> rcases le_total w 0 with c | c <;> rcases le_total w 1 with d | d <;> nlinarith) convex_univ (Set.mem_univ _) (Set.mem_univ _)
  simpa only [Real.norm_eq_abs] using h

theorem abs_le_of_field {p : PF → ℝ} (hp : InPBounds p) (f : PF) {a b B : ℝ} (h : PF.bounds f = (a, b)) (h1 : -B ≤ a) (h2 : b ≤ B) : |p f| ≤ B := by
  have := field_mem hp f h
  rw [abs_le]
  constructor <;> linarith

/-- A mean or standard deviation that follows a clipped line in halo mass. -/
theorem line_field {p : PF → ℝ} (hp : InPBounds p) (a b : QF) {lo hi M : ℝ} (ha : PF.bounds (.inl a) = (lo, hi)) (hb : PF.bounds (.inl b) = (-M, M))
    {x x' v v' : ℝ} (hv : lineModel x (p (.inl a)) (p (.inl b)) (lo, hi) = some v) (hv' : lineModel x' (p (.inl a)) (p (.inl b)) (lo, hi) = some v') :
    |v - v'| ≤ 1.3 * M * |x - x'| :=
  line_lip (field_mem hp (.inl a) ha).1 (field_mem hp (.inl a) ha).2 hv hv' (abs_le_of_field hp _ hb le_rfl le_rfl)

theorem std_field {p : PF → ℝ} (hp : InPBounds p) (a b : QF) {hi : ℝ} (ha : PF.bounds (.inl a) = (0.01, hi)) (hb : PF.bounds (.inl b) = (-1, 1))
    {x x' v v' : ℝ} (hv : lineModel x (p (.inl a)) (p (.inl b)) (0.01, hi) = some v) (hv' : lineModel x' (p (.inl a)) (p (.inl b)) (0.01, hi) = some v') :
    0 < v ∧ 0 < v' ∧ |v - v'| ≤ 1.3 * |x - x'| := by
  have f := field_mem hp (.inl a) ha
  have hm : p (.inl b) ≠ 0 := by
    intro h
    rw [h, lineModel_zero] at hv
    cases hv
  have pos : ∀ x v, lineModel x (p (.inl a)) (p (.inl b)) (0.01, hi) = some v → 0 < v := by
    intro x v h
    obtain ⟨w, h1, h2⟩ := lineModel_some (x := x) (b := (0.01, hi)) hm f.1 f.2
    rw [h1] at h
    cases h
    exact lt_trans (by norm_num) h2
  refine ⟨pos _ _ hv, pos _ _ hv', ?_⟩
  simpa using line_field hp a b ha hb hv hv'

theorem mcrit_field {p : PF → ℝ} (hp : InPBounds p) (a b : QF) {l1 h1 l2 h2 B : ℝ} (ha : PF.bounds (.inl a) = (l1, h1))
    (hb : PF.bounds (.inl b) = (l2, h2)) (e1 : -B ≤ l1) (e2 : h1 ≤ B) (e3 : -B ≤ l2) (e4 : h2 ≤ B) (x x' xtp ytp : ℝ) :
    |mcritModel x xtp ytp (p (.inl a)) (p (.inl b)) - mcritModel x' xtp ytp (p (.inl a)) (p (.inl b))| ≤ 1.2 * B * |x - x'| :=
  mcrit_lip (abs_le_of_field hp _ ha e1 e2) (abs_le_of_field hp _ hb e3 e4)

section means

variable {p : PF → ℝ} (hp : InPBounds p) {m m' t t' : ℝ}

include hp

theorem meanMs_lip {mu mu' : Fin 4 → ℝ} (h : getMeanUParamsMseq (sfhPdfPart p) m = some mu) (h' : getMeanUParamsMseq (sfhPdfPart p) m' = some mu') :
    |mu 0 - mu' 0| ≤ 6 * |m - m'| ∧ |mu 1 - mu' 1| ≤ 6 * |m - m'| ∧ |mu 2 - mu' 2| ≤ 26 * |m - m'| ∧ |mu 3 - mu' 3| ≤ 26 * |m - m'| := by
  simp only [getMeanUParamsMseq, sfhPdfPart_apply, Option.bind_eq_bind, Option.bind_eq_some_iff, Option.pure_def, Option.some.injEq] at h h'
  obtain ⟨v1, e1, v2, e2, rfl⟩ := h
  obtain ⟨w1, f1, w2, f2, rfl⟩ := h'
  refine ⟨?_, ?_, ?_, ?_⟩
  · exact (mcrit_field hp .mean_ulgm_mseq_lo .mean_ulgm_mseq_hi (l1 := -1) (h1 := 5) (l2 := -5) (h2 := 1) (B := 5) bnd bnd (by norm_num) (by norm_num) (by norm_num) (by norm_num) _ _ _ _).trans_eq (by norm_num)
  · exact (mcrit_field hp .mean_ulgy_mseq_lo .mean_ulgy_mseq_hi (l1 := -1) (h1 := 5) (l2 := -5) (h2 := 1) (B := 5) bnd bnd (by norm_num) (by norm_num) (by norm_num) (by norm_num) _ _ _ _).trans_eq (by norm_num)
  · exact (line_field hp .mean_ul_mseq_int .mean_ul_mseq_slp (lo := -3) (hi := 5) (M := 20) bnd bnd e1 f1).trans_eq (by norm_num)
  · exact (line_field hp .mean_uh_mseq_int .mean_uh_mseq_slp (lo := -5) (hi := 3) (M := 20) bnd bnd e2 f2).trans_eq (by norm_num)

theorem deltaUqt_lip : |deltaUqt (sfhPdfPart p) m t - deltaUqt (sfhPdfPart p) m' t'| ≤ 0.1 * |m - m'| + 2.5 * |t - t'| := by
  simp only [deltaUqt, sfhPdfPart_apply]
  have k := field_mem hp (.inl .delta_uqt_k) (a := 0.01) (b := 5) bnd
  have l := field_mem hp (.inl .delta_uqt_ylo) (a := -1) (b := 1) bnd
  have u := field_mem hp (.inl .delta_uqt_yhi) (a := -1) (b := 1) bnd
  have s := abs_le_of_field hp (.inl .delta_uqt_slope) (a := -0.1) (b := 0.1) (B := 0.1) bnd (by norm_num) le_rfl
  have a := sigmoid_lip (x := t) (x' := t') (x0 := p (.inl .delta_uqt_x0)) (x0' := p (.inl .delta_uqt_x0)) (k := p (.inl .delta_uqt_k))
    (lo := p (.inl .delta_uqt_ylo)) (lo' := p (.inl .delta_uqt_ylo)) (hi := p (.inl .delta_uqt_yhi)) (hi' := p (.inl .delta_uqt_yhi)) (b := 0) (E := 0)
    (kmax := 5) (D := 2) ⟨le_trans (by norm_num) k.1.le, k.2.le⟩ le_rfl (by simp) (by simp) (by simp) ((width_le u l).trans (by norm_num))
  have b : |(m - m') * p (.inl .delta_uqt_slope)| ≤ 0.1 * |m - m'| := by
    rw [abs_mul, mul_comm]
    exact mul_le_mul_of_nonneg_right s (abs_nonneg _)
  generalize sigmoid t _ _ _ _ = x at *
  generalize sigmoid t' _ _ _ _ = x' at *
  rw [show x + (m - 12.5) * p (.inl .delta_uqt_slope) - (x' + (m' - 12.5) * p (.inl .delta_uqt_slope)) =
    (m - m') * p (.inl .delta_uqt_slope) + (x - x') by ring]
  refine (abs_add_le _ _).trans (add_le_add b (a.trans_eq ?_))
  ring

theorem meanQ_lip {mu mu' : Fin 8 → ℝ} (h : getMeanUParamsQseq (sfhPdfPart p) m t = some mu) (h' : getMeanUParamsQseq (sfhPdfPart p) m' t' = some mu') :
    |mu 0 - mu' 0| ≤ 6 * |m - m'| ∧ |mu 1 - mu' 1| ≤ 6 * |m - m'| ∧ |mu 2 - mu' 2| ≤ 26 * |m - m'| ∧ |mu 3 - mu' 3| ≤ 26 * |m - m'| ∧
      |mu 4 - mu' 4| ≤ 1.3 * |m - m'| + 2.5 * |t - t'| ∧ |mu 5 - mu' 5| ≤ 26 * |m - m'| ∧ |mu 6 - mu' 6| ≤ 26 * |m - m'| ∧
      |mu 7 - mu' 7| ≤ 26 * |m - m'| := by
  simp only [getMeanUParamsQseq, sfhPdfPart_apply, Option.bind_eq_bind, Option.bind_eq_some_iff, Option.pure_def, Option.some.injEq] at h h'
  obtain ⟨v1, e1, v2, e2, v3, e3, v4, e4, v5, e5, rfl⟩ := h
  obtain ⟨w1, f1, w2, f2, w3, f3, w4, f4, w5, f5, rfl⟩ := h'
  refine ⟨?_, ?_, ?_, ?_, ?_, ?_, ?_, ?_⟩
  · exact (mcrit_field hp .mean_ulgm_qseq_lo .mean_ulgm_qseq_hi (l1 := -1) (h1 := 5) (l2 := -5) (h2 := 1) (B := 5) bnd bnd (by norm_num) (by norm_num) (by norm_num) (by norm_num) _ _ _ _).trans_eq (by norm_num)
  · exact (mcrit_field hp .mean_ulgy_qseq_lo .mean_ulgy_qseq_hi (l1 := -1) (h1 := 5) (l2 := -5) (h2 := 1) (B := 5) bnd bnd (by norm_num) (by norm_num) (by norm_num) (by norm_num) _ _ _ _).trans_eq (by norm_num)
  · exact (line_field hp .mean_ul_qseq_int .mean_ul_qseq_slp (lo := -3) (hi := 5) (M := 20) bnd bnd e1 f1).trans_eq (by norm_num)
  · exact (line_field hp .mean_uh_qseq_int .mean_uh_qseq_slp (lo := -5) (hi := 3) (M := 20) bnd bnd e2 f2).trans_eq (by norm_num)
  · show |mcritModel m _ _ _ _ + deltaUqt _ _ _ - (mcritModel m' _ _ _ _ + deltaUqt _ _ _)| ≤ _
    have a := mcrit_field hp .mean_uqt_lo .mean_uqt_hi (l1 := -1) (h1 := 0) (l2 := -1) (h2 := 0) (B := 1) bnd bnd (by norm_num) (by norm_num) (by norm_num) (by norm_num) m m'
      (p (.inl .mean_uqt_xtp)) (p (.inl .mean_uqt_ytp))
    have b := deltaUqt_lip hp (m := m) (m' := m') (t := t) (t' := t')
    rw [add_sub_add_comm]
    refine (abs_add_le _ _).trans ((add_le_add a b).trans_eq ?_)
    ring
  · exact (line_field hp .mean_uqs_int .mean_uqs_slp (lo := -5) (hi := 2) (M := 20) bnd bnd e3 f3).trans_eq (by norm_num)
  · exact (line_field hp .mean_udrop_int .mean_udrop_slp (lo := -3) (hi := 2) (M := 20) bnd bnd e4 f4).trans_eq (by norm_num)
  · exact (line_field hp .mean_urej_int .mean_urej_slp (lo := -10) (hi := 2) (M := 20) bnd bnd e5 f5).trans_eq (by norm_num)

theorem covMs_lip {C C' : Matrix (Fin 4) (Fin 4) ℝ} (h : getCovarianceMseqMsBlock (sfhPdfPart p) m = some C) (h' : getCovarianceMseqMsBlock (sfhPdfPart p) m' = some C') :
    ∃ s s' : Fin 4 → ℝ, C = Matrix.diagonal (fun i => s i ^ 2) ∧ C' = Matrix.diagonal (fun i => s' i ^ 2) ∧
      ∀ i, 0 < s i ∧ 0 < s' i ∧ |s i - s' i| ≤ 1.3 * |m - m'| := by
  simp only [getCovarianceMseqMsBlock, getCovParamsMseqMsBlock, sfhPdfPart_apply, Option.bind_eq_bind, Option.map_eq_some_iff, Option.bind_eq_some_iff,
    Option.pure_def, Option.some.injEq] at h h'
  obtain ⟨_, ⟨v1, e1, v2, e2, v3, e3, v4, e4, rfl⟩, rfl⟩ := h
  obtain ⟨_, ⟨w1, f1, w2, f2, w3, f3, w4, f4, rfl⟩, rfl⟩ := h'
  refine ⟨![v1, v2, v3, v4], ![w1, w2, w3, w4], covarianceFromCovParams_zero _, covarianceFromCovParams_zero _, ?_⟩
  intro i
  fin_cases i
  · exact std_field hp .std_ulgm_mseq_int .std_ulgm_mseq_slp (hi := 1) bnd (by norm_num [PF.bounds, QF.bounds, QF.boundsQ]) e1 f1
  · exact std_field hp .std_ulgy_mseq_int .std_ulgy_mseq_slp (hi := 1) bnd (by norm_num [PF.bounds, QF.bounds, QF.boundsQ]) e2 f2
  · exact std_field hp .std_ul_mseq_int .std_ul_mseq_slp (hi := 3) bnd (by norm_num [PF.bounds, QF.bounds, QF.boundsQ]) e3 f3
  · exact std_field hp .std_uh_mseq_int .std_uh_mseq_slp (hi := 3) bnd (by norm_num [PF.bounds, QF.bounds, QF.boundsQ]) e4 f4

theorem covQms_lip {C C' : Matrix (Fin 4) (Fin 4) ℝ} (h : getCovarianceQseqMsBlock (sfhPdfPart p) m = some C) (h' : getCovarianceQseqMsBlock (sfhPdfPart p) m' = some C') :
    ∃ s s' : Fin 4 → ℝ, C = Matrix.diagonal (fun i => s i ^ 2) ∧ C' = Matrix.diagonal (fun i => s' i ^ 2) ∧
      ∀ i, 0 < s i ∧ 0 < s' i ∧ |s i - s' i| ≤ 1.3 * |m - m'| := by
  simp only [getCovarianceQseqMsBlock, getCovParamsQseqMsBlock, sfhPdfPart_apply, Option.bind_eq_bind, Option.map_eq_some_iff, Option.bind_eq_some_iff,
    Option.pure_def, Option.some.injEq] at h h'
  obtain ⟨_, ⟨v1, e1, v2, e2, v3, e3, v4, e4, rfl⟩, rfl⟩ := h
  obtain ⟨_, ⟨w1, f1, w2, f2, w3, f3, w4, f4, rfl⟩, rfl⟩ := h'
  refine ⟨![v1, v2, v3, v4], ![w1, w2, w3, w4], covarianceFromCovParams_zero _, covarianceFromCovParams_zero _, ?_⟩
  intro i
  fin_cases i
  · exact std_field hp .std_ulgm_qseq_int .std_ulgm_qseq_slp (hi := 1) bnd (by norm_num [PF.bounds, QF.bounds, QF.boundsQ]) e1 f1
  · exact std_field hp .std_ulgy_qseq_int .std_ulgy_qseq_slp (hi := 1) bnd (by norm_num [PF.bounds, QF.bounds, QF.boundsQ]) e2 f2
  · exact std_field hp .std_ul_qseq_int .std_ul_qseq_slp (hi := 3) bnd (by norm_num [PF.bounds, QF.bounds, QF.boundsQ]) e3 f3
  · exact std_field hp .std_uh_qseq_int .std_uh_qseq_slp (hi := 3) bnd (by norm_num [PF.bounds, QF.bounds, QF.boundsQ]) e4 f4

theorem covQ_lip {C C' : Matrix (Fin 4) (Fin 4) ℝ} (h : getCovarianceQseqQBlock (sfhPdfPart p) m = some C) (h' : getCovarianceQseqQBlock (sfhPdfPart p) m' = some C') :
    ∃ s s' : Fin 4 → ℝ, C = Matrix.diagonal (fun i => s i ^ 2) ∧ C' = Matrix.diagonal (fun i => s' i ^ 2) ∧
      ∀ i, 0 < s i ∧ 0 < s' i ∧ |s i - s' i| ≤ 1.3 * |m - m'| := by
  simp only [getCovarianceQseqQBlock, getCovParamsQseqQBlock, sfhPdfPart_apply, Option.bind_eq_bind, Option.map_eq_some_iff, Option.bind_eq_some_iff,
    Option.pure_def, Option.some.injEq] at h h'
  obtain ⟨_, ⟨v1, e1, v2, e2, v3, e3, v4, e4, rfl⟩, rfl⟩ := h
  obtain ⟨_, ⟨w1, f1, w2, f2, w3, f3, w4, f4, rfl⟩, rfl⟩ := h'
  refine ⟨![v1, v2, v3, v4], ![w1, w2, w3, w4], covarianceFromCovParams_zero _, covarianceFromCovParams_zero _, ?_⟩
  intro i
  fin_cases i
  · exact std_field hp .std_uqt_int .std_uqt_slp (hi := 0.5) bnd (by norm_num [PF.bounds, QF.bounds, QF.boundsQ]) e1 f1
  · exact std_field hp .std_uqs_int .std_uqs_slp (hi := 1) bnd (by norm_num [PF.bounds, QF.bounds, QF.boundsQ]) e2 f2
  · exact std_field hp .std_udrop_int .std_udrop_slp (hi := 2) bnd (by norm_num [PF.bounds, QF.bounds, QF.boundsQ]) e3 f3
  · exact std_field hp .std_urej_int .std_urej_slp (hi := 2) bnd (by norm_num [PF.bounds, QF.bounds, QF.boundsQ]) e4 f4

end means

/-- Draws with the same key. -/
theorem draw_lip {K : Type} {rng : Rng K} {z : K → Fin 4 → ℝ} (hr : Reparametrised rng z) (key : K) {mu mu' s s' : Fin 4 → ℝ} {d e : ℝ} (i : Fin 4)
    (hs : ∀ i, 0 < s i ∧ 0 < s' i ∧ |s i - s' i| ≤ d) (hm : |mu i - mu' i| ≤ e) :
    |rng.multivariateNormal key mu (Matrix.diagonal fun i => s i ^ 2) i - rng.multivariateNormal key mu' (Matrix.diagonal fun i => s' i ^ 2) i| ≤
      e + d * |z key i| := by
  rw [hr key mu _ fun i => pow_pos (hs i).1 2, hr key mu' _ fun i => pow_pos (hs i).2.1 2]
  beta_reduce
  rw [Real.sqrt_sq (hs i).1.le, Real.sqrt_sq (hs i).2.1.le,
    show mu i + s i * z key i - (mu' i + s' i * z key i) = (mu i - mu' i) + (s i - s' i) * z key i by ring]
  refine (abs_add_le _ _).trans (add_le_add hm ?_)
  rw [abs_mul]
  exact mul_le_mul_of_nonneg_right (hs i).2.2 (abs_nonneg _)

/-- The bounding transform contracts. -/
theorem sigmoid_contract {x x' x0 k lo hi : ℝ} (hk : 0 ≤ k) (hw : lo ≤ hi) (h : (hi - lo) * k ≤ 4) :
    |sigmoid x x0 k lo hi - sigmoid x' x0 k lo hi| ≤ |x - x'| := by
  have a := sigmoid_lip (x := x) (x' := x') (x0 := x0) (x0' := x0) (k := k) (lo := lo) (lo' := lo) (hi := hi) (hi' := hi) (b := 0) (E := 0)
    (kmax := k) (D := hi - lo) ⟨hk, le_rfl⟩ le_rfl (by simp) (by simp) (by simp) (abs_of_nonneg (sub_nonneg.2 hw)).le
  have := mul_le_mul_of_nonneg_right h (abs_nonneg (x - x'))
  nlinarith

theorem bounded_contract (u u' : DiffstarParams ℝ) : let q := getBoundedDiffstarParams u
    let q' := getBoundedDiffstarParams u'
    |q.lgmcrit - q'.lgmcrit| ≤ |u.lgmcrit - u'.lgmcrit| ∧ |q.lgyAtMcrit - q'.lgyAtMcrit| ≤ |u.lgyAtMcrit - u'.lgyAtMcrit| ∧
    |q.indxLo - q'.indxLo| ≤ |u.indxLo - u'.indxLo| ∧ |q.indxHi - q'.indxHi| ≤ |u.indxHi - u'.indxHi| ∧
    |q.lgQt - q'.lgQt| ≤ |u.lgQt - u'.lgQt| ∧ |q.qlglgdt - q'.qlglgdt| ≤ |u.qlglgdt - u'.qlglgdt| ∧
    |q.lgDrop - q'.lgDrop| ≤ |u.lgDrop - u'.lgDrop| ∧ |q.lgRejuv - q'.lgRejuv| ≤ |u.lgDrop - u'.lgDrop| + |u.lgRejuv - u'.lgRejuv| := by
  intro q q'
  have hb' := C01_bounded_params_in_bounds u'
  have hd : |q.lgDrop - q'.lgDrop| ≤ |u.lgDrop - u'.lgDrop| := by
    simp only [q, q', bounded_eq]
    exact sigmoid_contract (by norm_num) (by norm_num) (by norm_num)
  refine ⟨?_, ?_, ?_, ?_, ?_, ?_, hd, ?_⟩
  rotate_right
  · have hlo := hb'.lgDrop
    have e : ∀ v, (getBoundedDiffstarParams v).lgRejuv = sigmoid v.lgRejuv (-1.5) (4 / 3) (getBoundedDiffstarParams v).lgDrop 0 := by
      intro v
      simp only [bounded_eq]
    have a := sigmoid_lip (x := u.lgRejuv) (x' := u'.lgRejuv) (x0 := -1.5) (x0' := -1.5) (k := 4 / 3) (lo := q.lgDrop) (lo' := q'.lgDrop) (hi := 0) (hi' := 0)
      (b := 0) (kmax := 4 / 3) (D := 3) ⟨by norm_num, le_rfl⟩ le_rfl (by simp) hd (by simp) (by rw [abs_le]; constructor <;> linarith)
    rw [show q.lgRejuv = _ from e u, show q'.lgRejuv = _ from e u']
    refine a.trans_eq ?_
    ring
  all_goals
    simp only [q, q', bounded_eq]
    exact sigmoid_contract (by norm_num) (by norm_num) (by norm_num)

/-- **C147**, main sequence: two halos of peak masses `m` and `m'`, drawn with the same key. -/
theorem C147_params_ms {K : Type} {rng : Rng K} {z : K → Fin 4 → ℝ} (hr : Reparametrised rng z) (u : PF → ℝ) (m m' t t' : ℝ) (upid upid' : ℤ)
    (a a' b b' c c' : ℝ) (key : K) {q q' : DiffstarParams ℝ}
    (h : (mcDiffstarParamsSinglegal rng (getBoundedDiffstarpopParams u) m t upid a b c key).paramsMs = some q)
    (h' : (mcDiffstarParamsSinglegal rng (getBoundedDiffstarpopParams u) m' t' upid' a' b' c' key).paramsMs = some q') :
    let zm := fun i => |z (rng.split key 4 0) i|
    |q.lgmcrit - q'.lgmcrit| ≤ (6 + 1.3 * zm 0) * |m - m'| ∧ |q.lgyAtMcrit - q'.lgyAtMcrit| ≤ (6 + 1.3 * zm 1) * |m - m'| ∧
    |q.indxLo - q'.indxLo| ≤ (26 + 1.3 * zm 2) * |m - m'| ∧ |q.indxHi - q'.indxHi| ≤ (26 + 1.3 * zm 3) * |m - m'| ∧
    q.lgQt = q'.lgQt ∧ q.qlglgdt = q'.qlglgdt ∧ q.lgDrop = q'.lgDrop ∧ q.lgRejuv = q'.lgRejuv := by
  intro zm
  have hp := getBounded_in u
  simp only [mcDiffstarParamsSinglegal, mcDiffstarUParamsSinglegalKernel, diffstarpopMeansCovs, sfhPdfScalarKernel, drawMs, Option.map_eq_some_iff,
    Option.bind_eq_bind, Option.bind_eq_some_iff, Option.pure_def, Option.some.injEq] at h h'
  obtain ⟨v, ⟨mu, e1, C, e2, rfl⟩, rfl⟩ := h
  obtain ⟨v', ⟨mu', e1', C', e2', rfl⟩, rfl⟩ := h'
  obtain ⟨k0, k1, k2, k3⟩ := meanMs_lip hp e1 e1'
  obtain ⟨s, s', rfl, rfl, hs⟩ := covMs_lip hp e2 e2'
  obtain ⟨b0, b1, b2, b3, -, -, -, -⟩ := bounded_contract
    (DiffstarParams.join ⟨rng.multivariateNormal (rng.split key 4 0) mu (Matrix.diagonal fun i => s i ^ 2) 0,
      rng.multivariateNormal (rng.split key 4 0) mu (Matrix.diagonal fun i => s i ^ 2) 1,
      rng.multivariateNormal (rng.split key 4 0) mu (Matrix.diagonal fun i => s i ^ 2) 2,
      rng.multivariateNormal (rng.split key 4 0) mu (Matrix.diagonal fun i => s i ^ 2) 3⟩ DEFAULT_Q_U_PARAMS_UNQUENCHED)
    (DiffstarParams.join ⟨rng.multivariateNormal (rng.split key 4 0) mu' (Matrix.diagonal fun i => s' i ^ 2) 0,
      rng.multivariateNormal (rng.split key 4 0) mu' (Matrix.diagonal fun i => s' i ^ 2) 1,
      rng.multivariateNormal (rng.split key 4 0) mu' (Matrix.diagonal fun i => s' i ^ 2) 2,
      rng.multivariateNormal (rng.split key 4 0) mu' (Matrix.diagonal fun i => s' i ^ 2) 3⟩ DEFAULT_Q_U_PARAMS_UNQUENCHED)
  refine ⟨(b0.trans (draw_lip hr _ 0 hs k0)).trans_eq (by ring), (b1.trans (draw_lip hr _ 1 hs k1)).trans_eq (by ring),
    (b2.trans (draw_lip hr _ 2 hs k2)).trans_eq (by ring), (b3.trans (draw_lip hr _ 3 hs k3)).trans_eq (by ring), ?_⟩
  simp only [bounded_eq, DiffstarParams.join, and_self]

/-- **C147**, quenched sequence. -/
theorem C147_params_q {K : Type} {rng : Rng K} {z : K → Fin 4 → ℝ} (hr : Reparametrised rng z) (u : PF → ℝ) (m m' t t' : ℝ) (upid upid' : ℤ)
    (a a' b b' c c' : ℝ) (key : K) {q q' : DiffstarParams ℝ}
    (h : (mcDiffstarParamsSinglegal rng (getBoundedDiffstarpopParams u) m t upid a b c key).paramsQ = some q)
    (h' : (mcDiffstarParamsSinglegal rng (getBoundedDiffstarpopParams u) m' t' upid' a' b' c' key).paramsQ = some q') :
    let zm := fun i => |z (rng.split key 4 1) i|
    let zq := fun i => |z (rng.split key 4 2) i|
    |q.lgmcrit - q'.lgmcrit| ≤ (6 + 1.3 * zm 0) * |m - m'| ∧ |q.lgyAtMcrit - q'.lgyAtMcrit| ≤ (6 + 1.3 * zm 1) * |m - m'| ∧
    |q.indxLo - q'.indxLo| ≤ (26 + 1.3 * zm 2) * |m - m'| ∧ |q.indxHi - q'.indxHi| ≤ (26 + 1.3 * zm 3) * |m - m'| ∧
    |q.lgQt - q'.lgQt| ≤ (1.3 + 1.3 * zq 0) * |m - m'| + 2.5 * |t - t'| ∧ |q.qlglgdt - q'.qlglgdt| ≤ (26 + 1.3 * zq 1) * |m - m'| ∧
    |q.lgDrop - q'.lgDrop| ≤ (26 + 1.3 * zq 2) * |m - m'| ∧ |q.lgRejuv - q'.lgRejuv| ≤ (52 + 1.3 * zq 2 + 1.3 * zq 3) * |m - m'| := by
  intro zm zq
  have hp := getBounded_in u
  simp only [mcDiffstarParamsSinglegal, mcDiffstarUParamsSinglegalKernel, diffstarpopMeansCovs, sfhPdfScalarKernel, drawQ, Option.map_eq_some_iff,
    Option.bind_eq_bind, Option.bind_eq_some_iff, Option.pure_def, Option.some.injEq] at h h'
  obtain ⟨v, ⟨mu, e1, C, e2, E, e3, rfl⟩, rfl⟩ := h
  obtain ⟨v', ⟨mu', e1', C', e2', E', e3', rfl⟩, rfl⟩ := h'
  obtain ⟨k0, k1, k2, k3, k4, k5, k6, k7⟩ := meanQ_lip hp e1 e1'
  obtain ⟨s, s', rfl, rfl, hs⟩ := covQms_lip hp e2 e2'
  obtain ⟨r, r', rfl, rfl, hr'⟩ := covQ_lip hp e3 e3'
  have d0 := draw_lip hr (rng.split key 4 1) (mu := ![mu 0, mu 1, mu 2, mu 3]) (mu' := ![mu' 0, mu' 1, mu' 2, mu' 3]) 0 hs k0
  have d1 := draw_lip hr (rng.split key 4 1) (mu := ![mu 0, mu 1, mu 2, mu 3]) (mu' := ![mu' 0, mu' 1, mu' 2, mu' 3]) 1 hs k1
  have d2 := draw_lip hr (rng.split key 4 1) (mu := ![mu 0, mu 1, mu 2, mu 3]) (mu' := ![mu' 0, mu' 1, mu' 2, mu' 3]) 2 hs k2
  have d3 := draw_lip hr (rng.split key 4 1) (mu := ![mu 0, mu 1, mu 2, mu 3]) (mu' := ![mu' 0, mu' 1, mu' 2, mu' 3]) 3 hs k3
  have d4 := draw_lip hr (rng.split key 4 2) (mu := ![mu 4, mu 5, mu 6, mu 7]) (mu' := ![mu' 4, mu' 5, mu' 6, mu' 7]) 0 hr' k4
  have d5 := draw_lip hr (rng.split key 4 2) (mu := ![mu 4, mu 5, mu 6, mu 7]) (mu' := ![mu' 4, mu' 5, mu' 6, mu' 7]) 1 hr' k5
  have d6 := draw_lip hr (rng.split key 4 2) (mu := ![mu 4, mu 5, mu 6, mu 7]) (mu' := ![mu' 4, mu' 5, mu' 6, mu' 7]) 2 hr' k6
  have d7 := draw_lip hr (rng.split key 4 2) (mu := ![mu 4, mu 5, mu 6, mu 7]) (mu' := ![mu' 4, mu' 5, mu' 6, mu' 7]) 3 hr' k7
  generalize rng.multivariateNormal (rng.split key 4 1) ![mu 0, mu 1, mu 2, mu 3] _ = x at *
  generalize rng.multivariateNormal (rng.split key 4 1) ![mu' 0, mu' 1, mu' 2, mu' 3] _ = x' at *
  generalize rng.multivariateNormal (rng.split key 4 2) ![mu 4, mu 5, mu 6, mu 7] _ = y at *
  generalize rng.multivariateNormal (rng.split key 4 2) ![mu' 4, mu' 5, mu' 6, mu' 7] _ = y' at *
  obtain ⟨b0, b1, b2, b3, b4, b5, b6, b7⟩ := bounded_contract (DiffstarParams.join ⟨x 0, x 1, x 2, x 3⟩ ⟨y 0, y 1, y 2, y 3⟩)
    (DiffstarParams.join ⟨x' 0, x' 1, x' 2, x' 3⟩ ⟨y' 0, y' 1, y' 2, y' 3⟩)
  exact ⟨(b0.trans d0).trans_eq (by ring), (b1.trans d1).trans_eq (by ring), (b2.trans d2).trans_eq (by ring), (b3.trans d3).trans_eq (by ring),
    (b4.trans d4).trans_eq (by ring), (b5.trans d5).trans_eq (by ring), (b6.trans d6).trans_eq (by ring), (b7.trans (add_le_add d6 d7)).trans_eq (by ring)⟩

theorem nearBounds_bounded (u : DiffstarParams ℝ) : NearBounds (getBoundedDiffstarParams u) := by
  obtain ⟨-, -, a, b, -, -, c, d⟩ := C01_bounded_params_in_bounds u
  constructor <;> rw [abs_le] <;> norm_num <;> constructor <;> linarith

/-- Change of the star formation rate when both the halo history and the parameters change. -/
theorem sfr_both (logMah : MahParams ℝ → ℝ → ℝ → ℝ) (v v' : DiffstarParams ℝ) (mah mah' : MahParams ℝ) (tarr : List ℝ) (lgt0 fb : ℝ)
    (hfb : 0 < fb) (i : ℕ) (hi : i < tarr.length) (ht : 0 < tarr[i]) : let q := getBoundedDiffstarParams v
    let q' := getBoundedDiffstarParams v'
    ∃ s s', (calcSfhSinglegal logMah q mah tarr lgt0 fb)[i]? = some s ∧ (calcSfhSinglegal logMah q' mah' tarr lgt0 fb)[i]? = some s' ∧ 0 < s ∧ 0 < s' ∧
      |Real.logb 10 s - Real.logb 10 s'| ≤ 7 * |logMah mah tarr[i] lgt0 - logMah mah' tarr[i] lgt0| +
        (|q.lgyAtMcrit - q'.lgyAtMcrit| + 8.5 * |q.lgmcrit - q'.lgmcrit| +
        (|logMah mah' tarr[i] lgt0 - 11.25| + 2.25) * max |q.indxLo - q'.indxLo| |q.indxHi - q'.indxHi| +
        |q.lgDrop - q'.lgDrop| + |q.lgRejuv - q'.lgRejuv| + 14 * |q.lgQt - q'.lgQt| / (10 : ℝ) ^ q.qlglgdt +
        7 * ((10 : ℝ) ^ |q.qlglgdt - q'.qlglgdt| - 1)) := by
  intro q q'
  have hb := C01_bounded_params_in_bounds v
  obtain ⟨s, s1, e, e1, p0, p1, h1⟩ := C146_sfr logMah logMah q (A := 5) ⟨hb.indxLo.1.le, hb.indxLo.2.le⟩ ⟨hb.indxHi.1.le, hb.indxHi.2.le⟩ mah mah'
    tarr lgt0 lgt0 fb hfb i hi ht
  obtain ⟨s2, s', e2, e', h2⟩ := C113_sfr_stability logMah q q' (nearBounds_bounded v') mah' tarr lgt0 fb hfb i hi ht
  rw [e1] at e2
  cases e2
  obtain ⟨_, s3, _, e3, _, p3, -⟩ := C146_sfr logMah logMah q' (A := 5) (And.imp le_of_lt le_of_lt (C01_bounded_params_in_bounds v').indxLo)
    (And.imp le_of_lt le_of_lt (C01_bounded_params_in_bounds v').indxHi) mah mah' tarr lgt0 lgt0 fb hfb i hi ht
  rw [e'] at e3
  cases e3
  refine ⟨s, s', e, e', p0, p3, ?_⟩
  have h3 : |logMah mah' tarr[i] lgt0 - q.lgmcrit| ≤ |logMah mah' tarr[i] lgt0 - 11.25| + 2.25 := by
    refine (abs_sub_le _ 11.25 _).trans (add_le_add le_rfl ?_)
    have := hb.lgmcrit
    rw [abs_le]
    constructor
    · have := this.2
      norm_num at *
      linarith
    · have := this.1
      norm_num at *
      linarith
  have h4 := mul_le_mul_of_nonneg_right h3 (le_max_of_le_left (b := |q.indxLo - q'.indxLo|) (c := |q.indxHi - q'.indxHi|) (abs_nonneg (q.indxLo - q'.indxLo)))
  have h5 := abs_sub_le (Real.logb 10 s) (Real.logb 10 s1) (Real.logb 10 s')
  rw [show (1 + 1.2 * 5 : ℝ) = 7 by norm_num] at h1
  linarith

/-- **C147**, star formation rates on the main sequence: two halos drawn with the same key. -/
theorem C147_sfr_ms {K : Type} {rng : Rng K} {z : K → Fin 4 → ℝ} (hr : Reparametrised rng z) (logMah : MahParams ℝ → ℝ → ℝ → ℝ) (u : PF → ℝ)
    (mah mah' : MahParams ℝ) (m m' : ℝ) (upid upid' : ℤ) (a a' b b' c c' : ℝ) (key : K) (tarr : List ℝ) (lgt0 fb : ℝ) (hfb : 0 < fb) {l l' : List ℝ}
    (h : (mcDiffstarSfhSinglegal rng logMah (getBoundedDiffstarpopParams u) mah m upid a b c key tarr lgt0 fb).sfhMs = some l)
    (h' : (mcDiffstarSfhSinglegal rng logMah (getBoundedDiffstarpopParams u) mah' m' upid' a' b' c' key tarr lgt0 fb).sfhMs = some l')
    (i : ℕ) (hi : i < tarr.length) (ht : 0 < tarr[i]) :
    let zm := fun i => |z (rng.split key 4 0) i|
    ∃ s s', l[i]? = some s ∧ l'[i]? = some s' ∧ 0 < s ∧ 0 < s' ∧
      |Real.logb 10 s - Real.logb 10 s'| ≤ 7 * |logMah mah tarr[i] lgt0 - logMah mah' tarr[i] lgt0| +
        (57 + 11.05 * zm 0 + 1.3 * zm 1 + (|logMah mah' tarr[i] lgt0 - 11.25| + 2.25) * (26 + 1.3 * max (zm 2) (zm 3))) * |m - m'| := by
  intro zm
  simp only [mcDiffstarSfhSinglegal, Option.map_eq_some_iff] at h h'
  obtain ⟨q, e, rfl⟩ := h
  obtain ⟨q', e', rfl⟩ := h'
  obtain ⟨k0, k1, k2, k3, k4, k5, k6, k7⟩ := C147_params_ms hr u m m' _ _ upid upid' a a' b b' c c' key e e'
  change _ ≤ (6 + 1.3 * zm 0) * _ at k0
  change _ ≤ (6 + 1.3 * zm 1) * _ at k1
  change _ ≤ (26 + 1.3 * zm 2) * _ at k2
  change _ ≤ (26 + 1.3 * zm 3) * _ at k3
  clear_value zm
  have hq : ∃ v, q = getBoundedDiffstarParams v := by
    simp only [mcDiffstarParamsSinglegal, Option.map_eq_some_iff] at e
    obtain ⟨v, -, rfl⟩ := e
    exact ⟨v, rfl⟩
  have hq' : ∃ v, q' = getBoundedDiffstarParams v := by
    simp only [mcDiffstarParamsSinglegal, Option.map_eq_some_iff] at e'
    obtain ⟨v, -, rfl⟩ := e'
    exact ⟨v, rfl⟩
  obtain ⟨v, rfl⟩ := hq
  obtain ⟨v', rfl⟩ := hq'
  obtain ⟨s, s', f, f', p, p', hd⟩ := sfr_both logMah v v' mah mah' tarr lgt0 fb hfb i hi ht
  refine ⟨s, s', f, f', p, p', hd.trans ?_⟩
  rw [k4, k5, k6, k7]
  simp only [sub_self, abs_zero, mul_zero, zero_div, Real.rpow_zero, add_zero]
  have k23 : max |(getBoundedDiffstarParams v).indxLo - (getBoundedDiffstarParams v').indxLo|
      |(getBoundedDiffstarParams v).indxHi - (getBoundedDiffstarParams v').indxHi| ≤ (26 + 1.3 * max (zm 2) (zm 3)) * |m - m'| := by
    refine max_le (k2.trans ?_) (k3.trans ?_) <;> refine mul_le_mul_of_nonneg_right ?_ (abs_nonneg _) <;>
      have := le_max_left (zm 2) (zm 3) <;> have := le_max_right (zm 2) (zm 3) <;> norm_num
  have := mul_le_mul_of_nonneg_left k23 (show 0 ≤ |logMah mah' tarr[i] lgt0 - 11.25| + 2.25 by positivity)
  nlinarith

/-- **C147**, star formation rates on the quenched sequence: two halos drawn with the same key. -/
theorem C147_sfr_q {K : Type} {rng : Rng K} {z : K → Fin 4 → ℝ} (hr : Reparametrised rng z) (logMah : MahParams ℝ → ℝ → ℝ → ℝ) (u : PF → ℝ)
    (mah mah' : MahParams ℝ) (m m' : ℝ) (upid upid' : ℤ) (a a' b b' c c' : ℝ) (key : K) (tarr : List ℝ) (lgt0 fb : ℝ) (hfb : 0 < fb) {l l' : List ℝ}
    (h : (mcDiffstarSfhSinglegal rng logMah (getBoundedDiffstarpopParams u) mah m upid a b c key tarr lgt0 fb).sfhQ = some l)
    (h' : (mcDiffstarSfhSinglegal rng logMah (getBoundedDiffstarpopParams u) mah' m' upid' a' b' c' key tarr lgt0 fb).sfhQ = some l')
    (i : ℕ) (hi : i < tarr.length) (ht : 0 < tarr[i]) :
    let zm := fun i => |z (rng.split key 4 1) i|
    let zq := fun i => |z (rng.split key 4 2) i|
    ∃ q s s', (mcDiffstarSfhSinglegal rng logMah (getBoundedDiffstarpopParams u) mah m upid a b c key tarr lgt0 fb).paramsQ = some q ∧
      l[i]? = some s ∧ l'[i]? = some s' ∧ 0 < s ∧ 0 < s' ∧
      |Real.logb 10 s - Real.logb 10 s'| ≤ 7 * |logMah mah tarr[i] lgt0 - logMah mah' tarr[i] lgt0| +
        (135 + 11.05 * zm 0 + 1.3 * zm 1 + 2.6 * zq 2 + 1.3 * zq 3 +
          (|logMah mah' tarr[i] lgt0 - 11.25| + 2.25) * (26 + 1.3 * max (zm 2) (zm 3))) * |m - m'| +
        14 * ((1.3 + 1.3 * zq 0) * |m - m'| + 2.5 * |mah.tPeak - mah'.tPeak|) / (10 : ℝ) ^ q.qlglgdt +
        7 * ((10 : ℝ) ^ ((26 + 1.3 * zq 1) * |m - m'|) - 1) := by
  intro zm zq
  simp only [mcDiffstarSfhSinglegal, Option.map_eq_some_iff] at h h'
  obtain ⟨q, e, rfl⟩ := h
  obtain ⟨q', e', rfl⟩ := h'
  obtain ⟨k0, k1, k2, k3, k4, k5, k6, k7⟩ := C147_params_q hr u m m' _ _ upid upid' a a' b b' c c' key e e'
  change _ ≤ (6 + 1.3 * zm 0) * _ at k0
  change _ ≤ (6 + 1.3 * zm 1) * _ at k1
  change _ ≤ (26 + 1.3 * zm 2) * _ at k2
  change _ ≤ (26 + 1.3 * zm 3) * _ at k3
  change _ ≤ (1.3 + 1.3 * zq 0) * _ + _ at k4
  change _ ≤ (26 + 1.3 * zq 1) * _ at k5
  change _ ≤ (26 + 1.3 * zq 2) * _ at k6
  change _ ≤ (52 + 1.3 * zq 2 + 1.3 * zq 3) * _ at k7
  clear_value zm zq
  have hq : ∃ v, q = getBoundedDiffstarParams v := by
    have e2 := e
    simp only [mcDiffstarParamsSinglegal, Option.map_eq_some_iff] at e2
    obtain ⟨v, -, rfl⟩ := e2
    exact ⟨v, rfl⟩
  have hq' : ∃ v, q' = getBoundedDiffstarParams v := by
    simp only [mcDiffstarParamsSinglegal, Option.map_eq_some_iff] at e'
    obtain ⟨v, -, rfl⟩ := e'
    exact ⟨v, rfl⟩
  obtain ⟨v, rfl⟩ := hq
  obtain ⟨v', rfl⟩ := hq'
  obtain ⟨s, s', f, f', p, p', hd⟩ := sfr_both logMah v v' mah mah' tarr lgt0 fb hfb i hi ht
  refine ⟨_, s, s', e, f, f', p, p', hd.trans ?_⟩
  clear hd f f' e e'
  have k23 : max |(getBoundedDiffstarParams v).indxLo - (getBoundedDiffstarParams v').indxLo|
      |(getBoundedDiffstarParams v).indxHi - (getBoundedDiffstarParams v').indxHi| ≤ (26 + 1.3 * max (zm 2) (zm 3)) * |m - m'| := by
    refine max_le (k2.trans ?_) (k3.trans ?_) <;> refine mul_le_mul_of_nonneg_right ?_ (abs_nonneg _) <;>
      have := le_max_left (zm 2) (zm 3) <;> have := le_max_right (zm 2) (zm 3) <;> norm_num
  have h1 := mul_le_mul_of_nonneg_left k23 (show 0 ≤ |logMah mah' tarr[i] lgt0 - 11.25| + 2.25 by positivity)
  have h2 : 14 * |(getBoundedDiffstarParams v).lgQt - (getBoundedDiffstarParams v').lgQt| / (10 : ℝ) ^ (getBoundedDiffstarParams v).qlglgdt ≤
      14 * ((1.3 + 1.3 * zq 0) * |m - m'| + 2.5 * |mah.tPeak - mah'.tPeak|) / (10 : ℝ) ^ (getBoundedDiffstarParams v).qlglgdt :=
    div_le_div_of_nonneg_right (mul_le_mul_of_nonneg_left k4 (by norm_num)) (by positivity)
  have h3 : (10 : ℝ) ^ |(getBoundedDiffstarParams v).qlglgdt - (getBoundedDiffstarParams v').qlglgdt| ≤ (10 : ℝ) ^ ((26 + 1.3 * zq 1) * |m - m'|) :=
    Real.rpow_le_rpow_of_exponent_le (by norm_num) k5
  clear k4 k5 k23 k2 k3
  generalize 14 * |(getBoundedDiffstarParams v).lgQt - (getBoundedDiffstarParams v').lgQt| / (10 : ℝ) ^ (getBoundedDiffstarParams v).qlglgdt = y at *
  generalize 14 * ((1.3 + 1.3 * zq 0) * |m - m'| + 2.5 * |mah.tPeak - mah'.tPeak|) / (10 : ℝ) ^ (getBoundedDiffstarParams v).qlglgdt = y' at *
  generalize (10 : ℝ) ^ |(getBoundedDiffstarParams v).qlglgdt - (getBoundedDiffstarParams v').qlglgdt| = x at *
  generalize (10 : ℝ) ^ ((26 + 1.3 * zq 1) * |m - m'|) = x' at *
  nlinarith

/-- Two halos for which both sequences are drawn, with a generator of the assumed form. -/
example : Reparametrised oneSigmaRng (fun _ _ => 1) ∧ ∀ m : ℝ,
    (mcDiffstarParamsSinglegal oneSigmaRng (getBoundedDiffstarpopParams fun _ => 1) m 5 (-1) (-1) 12 2 ()).paramsMs ≠ none ∧
      (mcDiffstarParamsSinglegal oneSigmaRng (getBoundedDiffstarpopParams fun _ => 1) m 5 (-1) (-1) 12 2 ()).paramsQ ≠ none := by
  refine ⟨oneSigmaRng_reparametrised, fun m => ?_⟩
  obtain ⟨h1, h2⟩ := C94_nan_iff_zero_slope oneSigmaRng (fun _ => 1) m 5 (-1) (-1) 12 2 ()
  exact ⟨h1.not.2 (by simp), h2.not.2 (by simp)⟩

end Diffstar.Props
