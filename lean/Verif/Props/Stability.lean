import Verif.Props.FitTables
import Verif.Lemmas.Triweight

/-!
C113: stability of the star formation history under errors of the parameters.
-/

namespace Diffstar.Spec

/-- Parameters with indices and depths of the quenching event not much beyond the bounds. -/
structure NearBounds (p : DiffstarParams ℝ) : Prop where
  indxLo : |p.indxLo| ≤ 5.1
  indxHi : |p.indxHi| ≤ 5.1
  lgDrop : |p.lgDrop| ≤ 3.1
  lgRejuv : |p.lgDrop - p.lgRejuv| ≤ 3.1

end Diffstar.Spec

namespace Diffstar.Props

open Diffstar Diffstar.Spec

theorem twDensity_le (y : ℝ) : twDensity y ≤ 35 / 96 := by
  unfold twDensity
  split_ifs with h
  · have h9 : y ^ 2 ≤ 9 := by
      have := sq_le_sq' (abs_le.1 h).1 (abs_le.1 h).2
      linarith
    have : (1 - y ^ 2 / 9) ^ 3 ≤ 1 := pow_le_one₀ (by linarith) (by nlinarith [sq_nonneg y])
    linarith
  · norm_num

theorem jaxTw_lipschitz (a b : ℝ) : |jaxTw a - jaxTw b| ≤ 35 / 96 * |a - b| := by
  have := (convex_univ (𝕜 := ℝ) (E := ℝ)).norm_image_sub_le_of_norm_hasDerivWithin_le (f := jaxTw) (f' := twDensity)
    (C := 35 / 96) (x := b) (y := a) (fun x _ => (jaxTw_hasDerivAt x).hasDerivWithinAt)
    (fun x _ => by rw [Real.norm_eq_abs, abs_of_nonneg (twDensity_nonneg x)]; exact twDensity_le x)
    (Set.mem_univ _) (Set.mem_univ _)
  simpa only [Real.norm_eq_abs] using this

/-- The quenching exponent as a function of the time in units of a twelfth of the duration. -/
noncomputable def qShape (y drop rejuv : ℝ) : ℝ := drop * jaxTw (y + 3) - (drop - rejuv) * jaxTw (y - 3)

theorem qShape_lip_aux {y y' drop rejuv K : ℝ} (h1 : |drop| ≤ K) (h2 : |drop - rejuv| ≤ K) (h : y ≤ y') :
    |qShape y drop rejuv - qShape y' drop rejuv| ≤ K * (35 / 96) * |y - y'| := by
  have hK : 0 ≤ K := (abs_nonneg _).trans h1
  have left : ∀ a b : ℝ, a ≤ b → b ≤ 0 → |qShape a drop rejuv - qShape b drop rejuv| ≤ K * (35 / 96) * (b - a) := by
    intro a b hab hb
    unfold qShape
    rw [jaxTw_lo (y := a - 3) (by linarith), jaxTw_lo (y := b - 3) (by linarith)]
    have e : drop * jaxTw (a + 3) - (drop - rejuv) * 0 - (drop * jaxTw (b + 3) - (drop - rejuv) * 0) =
        drop * (jaxTw (a + 3) - jaxTw (b + 3)) := by ring
    rw [e, abs_mul]
    have l := jaxTw_lipschitz (a + 3) (b + 3)
    rw [show a + 3 - (b + 3) = -(b - a) by ring, abs_neg, abs_of_nonneg (by linarith : 0 ≤ b - a)] at l
    calc |drop| * |jaxTw (a + 3) - jaxTw (b + 3)| ≤ K * (35 / 96 * (b - a)) := mul_le_mul h1 l (abs_nonneg _) hK
      _ = _ := by ring
  have right : ∀ a b : ℝ, a ≤ b → 0 ≤ a → |qShape a drop rejuv - qShape b drop rejuv| ≤ K * (35 / 96) * (b - a) := by
    intro a b hab ha
    unfold qShape
    rw [jaxTw_hi (y := a + 3) (by linarith), jaxTw_hi (y := b + 3) (by linarith)]
    have e : drop * 1 - (drop - rejuv) * jaxTw (a - 3) - (drop * 1 - (drop - rejuv) * jaxTw (b - 3)) =
        -((drop - rejuv) * (jaxTw (a - 3) - jaxTw (b - 3))) := by ring
    rw [e, abs_neg, abs_mul]
    have l := jaxTw_lipschitz (a - 3) (b - 3)
    rw [show a - 3 - (b - 3) = -(b - a) by ring, abs_neg, abs_of_nonneg (by linarith : 0 ≤ b - a)] at l
    calc |drop - rejuv| * |jaxTw (a - 3) - jaxTw (b - 3)| ≤ K * (35 / 96 * (b - a)) := mul_le_mul h2 l (abs_nonneg _) hK
      _ = _ := by ring
  rw [show |y - y'| = y' - y by rw [abs_sub_comm, abs_of_nonneg (by linarith)]]
  rcases le_total y' 0 with h0 | h0
  · exact left _ _ h h0
  rcases le_total 0 y with h00 | h00
  · exact right _ _ h h00
  have a := left _ _ h00 le_rfl
  have b := right _ _ h0 le_rfl
  have c := abs_sub_le (qShape y drop rejuv) (qShape 0 drop rejuv) (qShape y' drop rejuv)
  linarith

theorem qShape_lip {y y' drop rejuv K : ℝ} (h1 : |drop| ≤ K) (h2 : |drop - rejuv| ≤ K) :
    |qShape y drop rejuv - qShape y' drop rejuv| ≤ K * (35 / 96) * |y - y'| := by
  rcases le_total y y' with h | h
  · exact qShape_lip_aux h1 h2 h
  · rw [abs_sub_comm, abs_sub_comm y y']
    exact qShape_lip_aux h1 h2 h

theorem qShape_params (y drop rejuv drop' rejuv' : ℝ) :
    |qShape y drop rejuv - qShape y drop' rejuv'| ≤ |drop - drop'| + |rejuv - rejuv'| := by
  have e : qShape y drop rejuv - qShape y drop' rejuv' =
      (drop - drop') * (jaxTw (y + 3) - jaxTw (y - 3)) + (rejuv - rejuv') * jaxTw (y - 3) := by
    unfold qShape; ring
  have m : jaxTw (y - 3) ≤ jaxTw (y + 3) := jaxTw_mono (by linarith)
  have a := jaxTw_nonneg (y - 3)
  have b := jaxTw_le_one (y + 3)
  have c := jaxTw_le_one (y - 3)
  rw [e]
  refine (abs_add_le _ _).trans (add_le_add ?_ ?_)
  · rw [abs_mul, abs_of_nonneg (by linarith : 0 ≤ jaxTw (y + 3) - jaxTw (y - 3))]
    exact mul_le_of_le_one_right (abs_nonneg _) (by linarith)
  · rw [abs_mul, abs_of_nonneg a]
    exact mul_le_of_le_one_right (abs_nonneg _) c

theorem qShape_hi {y drop rejuv : ℝ} (h : 6 ≤ y) : qShape y drop rejuv = rejuv := by
  unfold qShape
  rw [jaxTw_hi (y := y + 3) (by linarith), jaxTw_hi (y := y - 3) (by linarith)]; ring

theorem qShape_lo {y drop rejuv : ℝ} (h : y ≤ -6) : qShape y drop rejuv = 0 := by
  unfold qShape
  rw [jaxTw_lo (y := y + 3) (by linarith), jaxTw_lo (y := y - 3) (by linarith)]; ring

theorem qShape_scale {y r drop rejuv K : ℝ} (h1 : |drop| ≤ K) (h2 : |drop - rejuv| ≤ K) (hr : 1 ≤ r) :
    |qShape y drop rejuv - qShape (r * y) drop rejuv| ≤ K * (35 / 96) * (6 * (r - 1)) := by
  have hK : 0 ≤ K := (abs_nonneg _).trans h1
  have hpos : 0 ≤ K * (35 / 96) * (6 * (r - 1)) := by
    have : 0 ≤ r - 1 := by linarith
    positivity
  rcases le_total 6 y with h | h
  · rw [qShape_hi h, qShape_hi (by nlinarith), sub_self, abs_zero]; exact hpos
  rcases le_total y (-6) with h' | h'
  · rw [qShape_lo h', qShape_lo (by nlinarith), sub_self, abs_zero]; exact hpos
  refine (qShape_lip h1 h2).trans (mul_le_mul_of_nonneg_left ?_ (by positivity))
  rw [show y - r * y = -((r - 1) * y) by ring, abs_neg, abs_mul, abs_of_nonneg (by linarith : 0 ≤ r - 1), mul_comm]
  exact mul_le_mul_of_nonneg_right (abs_le.2 ⟨h', h⟩) (by linarith)

theorem qExp_duration {lgt qt a a' drop rejuv K : ℝ} (h1 : |drop| ≤ K) (h2 : |drop - rejuv| ≤ K) :
    |qExp lgt qt ((10 : ℝ) ^ a) drop rejuv - qExp lgt qt ((10 : ℝ) ^ a') drop rejuv| ≤
      K * (35 / 96) * (6 * ((10 : ℝ) ^ |a - a'| - 1)) := by
  have e : ∀ b : ℝ, qExp lgt qt ((10 : ℝ) ^ b) drop rejuv = qShape ((lgt - qt) / ((10 : ℝ) ^ b / 12)) drop rejuv :=
    fun _ => rfl
  have key : ∀ b c : ℝ, b ≤ c → (10 : ℝ) ^ (c - b) * ((lgt - qt) / ((10 : ℝ) ^ c / 12)) = (lgt - qt) / ((10 : ℝ) ^ b / 12) := by
    intro b c _
    rw [Real.rpow_sub (by norm_num)]
    have h1 : (0 : ℝ) < (10 : ℝ) ^ b := by positivity
    have h2 : (0 : ℝ) < (10 : ℝ) ^ c := by positivity
    field_simp
  rw [e, e]
  rcases le_total a a' with h | h
  · rw [show |a - a'| = a' - a by rw [abs_sub_comm, abs_of_nonneg (by linarith)], abs_sub_comm]
    rw [← key a a' h]
    exact qShape_scale h1 h2 (Real.one_le_rpow (by norm_num) (by linarith))
  · rw [abs_of_nonneg (by linarith : 0 ≤ a - a')]
    rw [← key a' a h]
    exact qShape_scale h1 h2 (Real.one_le_rpow (by norm_num) (by linarith))

theorem slope_deriv (lo hi x : ℝ) : HasDerivAt (fun x => (lo + (hi - lo) / (1 + Real.exp (-(9 * x)))) * x)
    (lo + (hi - lo) * nnSigmoid (9 * x) +
      (hi - lo) * (9 * x * nnSigmoid (9 * x) * nnSigmoid (-(9 * x)))) x := by
  have hE : HasDerivAt (fun x : ℝ => 1 + Real.exp (-(9 * x))) (Real.exp (-(9 * x)) * (-9)) x := by
    have := (((hasDerivAt_id x).const_mul 9).neg.exp).const_add 1
    simpa using this
  have hne : (1 + Real.exp (-(9 * x)) : ℝ) ≠ 0 := by positivity
  have h := (((hE.inv hne).const_mul (hi - lo)).const_add lo).mul (hasDerivAt_id x)
  have h' : HasDerivAt (fun x => (lo + (hi - lo) / (1 + Real.exp (-(9 * x)))) * x) _ x :=
    h.congr_of_eventuallyEq (Filter.Eventually.of_forall fun y => by simp [div_eq_mul_inv])
  refine h'.congr_deriv ?_
  rw [nnSigmoid_neg, nnSigmoid_eq]
  simp only [Pi.inv_apply, id]
  field_simp
  ring

theorem slope_lip {lo hi x x' : ℝ} (h1 : |lo| ≤ 5.1) (h2 : |hi| ≤ 5.1) :
    |(lo + (hi - lo) / (1 + Real.exp (-(9 * x)))) * x - (lo + (hi - lo) / (1 + Real.exp (-(9 * x')))) * x'| ≤
      8.5 * |x - x'| := by
  have := (convex_univ (𝕜 := ℝ) (E := ℝ)).norm_image_sub_le_of_norm_hasDerivWithin_le
    (f := fun x => (lo + (hi - lo) / (1 + Real.exp (-(9 * x)))) * x)
    (C := 8.5) (x := x') (y := x) (fun z _ => (slope_deriv lo hi z).hasDerivWithinAt) ?_ (Set.mem_univ _) (Set.mem_univ _)
  · simpa only [Real.norm_eq_abs] using this
  · intro z _
    rw [Real.norm_eq_abs]
    rw [abs_le] at h1 h2
    have s0 := nnSigmoid_pos (9 * z)
    have s1 := nnSigmoid_lt_one (9 * z)
    have n0 := nnSigmoid_pos (-(9 * z))
    have n1 := nnSigmoid_lt_one (-(9 * z))
    have b1 := mul_nnSigmoid_neg_le (9 * z)
    have b2 := mul_nnSigmoid_ge (9 * z)
    set S := nnSigmoid (9 * z)
    set N := nnSigmoid (-(9 * z))
    have c1 : 9 * z * S * N ≤ 1 / 3 := by
      rcases le_total 0 z with hz | hz
      · have : 9 * z * S * N = S * (9 * z * N) := by ring
        rw [this]
        have : 0 ≤ 9 * z * N := by positivity
        nlinarith
      · have : 9 * z * S * N ≤ 0 := mul_nonpos_of_nonpos_of_nonneg
          (mul_nonpos_of_nonpos_of_nonneg (by linarith) s0.le) n0.le
        linarith
    have c2 : -(1 / 3) ≤ 9 * z * S * N := by
      rcases le_total 0 z with hz | hz
      · have : 0 ≤ 9 * z * S * N := by positivity
        linarith
      · have h0 : 9 * z * S ≤ 0 := mul_nonpos_of_nonpos_of_nonneg (by linarith) s0.le
        nlinarith
    have d1 : |lo + (hi - lo) * S| ≤ 5.1 := by
      rw [abs_le]
      constructor <;> nlinarith
    have d2 : |(hi - lo) * (9 * z * S * N)| ≤ 3.4 := by
      rw [abs_mul]
      have a : |hi - lo| ≤ 10.2 := abs_le.2 ⟨by linarith, by linarith⟩
      have b : |9 * z * S * N| ≤ 1 / 3 := abs_le.2 ⟨c2, c1⟩
      calc |hi - lo| * |9 * z * S * N| ≤ 10.2 * (1 / 3) := mul_le_mul a b (abs_nonneg _) (by norm_num)
        _ = 3.4 := by norm_num
    refine (abs_add_le _ _).trans ?_
    linarith

theorem slope_params (lo hi lo' hi' x : ℝ) :
    |(lo + (hi - lo) / (1 + Real.exp (-(9 * x)))) * x - (lo' + (hi' - lo') / (1 + Real.exp (-(9 * x)))) * x| ≤
      |x| * max |lo - lo'| |hi - hi'| := by
  have s0 := nnSigmoid_pos (9 * x)
  have s1 := nnSigmoid_lt_one (9 * x)
  have e : (lo + (hi - lo) / (1 + Real.exp (-(9 * x)))) * x - (lo' + (hi' - lo') / (1 + Real.exp (-(9 * x)))) * x =
      x * ((lo - lo') * (1 - nnSigmoid (9 * x)) + (hi - hi') * nnSigmoid (9 * x)) := by
    rw [nnSigmoid_eq]; ring
  rw [e, abs_mul]
  refine mul_le_mul_of_nonneg_left ((abs_add_le _ _).trans ?_) (abs_nonneg _)
  rw [abs_mul, abs_mul, abs_of_nonneg s0.le, abs_of_nonneg (by linarith : 0 ≤ 1 - nnSigmoid (9 * x))]
  have a := le_max_left |lo - lo'| |hi - hi'|
  have b := le_max_right |lo - lo'| |hi - hi'|
  set m := max |lo - lo'| |hi - hi'|
  nlinarith

theorem logb_max_lip {f a b : ℝ} (hf : 0 < f) (ha : 0 < a) (hb : 0 < b) :
    |Real.logb 10 (max f a) - Real.logb 10 (max f b)| ≤ |Real.logb 10 a - Real.logb 10 b| := by
  have hm : MonotoneOn (Real.logb 10) (Set.Ioi 0) := (Real.strictMonoOn_logb (by norm_num)).monotoneOn
  rw [hm.map_max hf ha, hm.map_max hf hb, max_comm, max_comm (Real.logb 10 f)]
  exact abs_max_sub_max_le_abs _ _ _

theorem logb_sfr (p : DiffstarParams ℝ) {fb : ℝ} (hfb : 0 < fb) (q m : ℝ) :
    Real.logb 10 ((10 : ℝ) ^ q * msSfr p fb m) = q + (Real.logb 10 fb + m + msLogEfficiency p m) := by
  unfold msSfr
  have h10 : ∀ x : ℝ, (0 : ℝ) < (10 : ℝ) ^ x := fun x => by positivity
  rw [Real.logb_mul (h10 _).ne' (mul_pos (mul_pos hfb (h10 _)) (h10 _)).ne',
    Real.logb_mul (mul_pos hfb (h10 _)).ne' (h10 _).ne', Real.logb_mul hfb.ne' (h10 _).ne', Real.logb_rpow (by norm_num)
    (by norm_num), Real.logb_rpow (by norm_num) (by norm_num), Real.logb_rpow (by norm_num) (by norm_num)]

/-- **C113.** For two parameter sets (one of them near the bounds) and the same halo, the decadic logarithms of the star formation rates
at any time differ by at most a fixed multiple of the parameter differences. -/
theorem C113_sfr_stability {M : Type*} (logMah : M → ℝ → ℝ → ℝ) (p p' : DiffstarParams ℝ) (hp' : NearBounds p') (mah : M) (tarr : List ℝ) (lgt0 fb : ℝ) (hfb : 0 < fb) (i : ℕ) (hi : i < tarr.length)
    (_ht : 0 < tarr[i]) :
    ∃ s s', (calcSfhSinglegal logMah p mah tarr lgt0 fb)[i]? = some s ∧
      (calcSfhSinglegal logMah p' mah tarr lgt0 fb)[i]? = some s' ∧
      |Real.logb 10 s - Real.logb 10 s'| ≤ |p.lgyAtMcrit - p'.lgyAtMcrit| + 8.5 * |p.lgmcrit - p'.lgmcrit| +
        |logMah mah tarr[i] lgt0 - p.lgmcrit| * max |p.indxLo - p'.indxLo| |p.indxHi - p'.indxHi| +
        |p.lgDrop - p'.lgDrop| + |p.lgRejuv - p'.lgRejuv| + 14 * |p.lgQt - p'.lgQt| / (10 : ℝ) ^ p.qlglgdt +
        7 * ((10 : ℝ) ^ |p.qlglgdt - p'.qlglgdt| - 1) := by
  refine ⟨_, _, by rw [calcSfhSinglegal_eq, List.getElem?_map, List.getElem?_eq_getElem hi]; rfl,
    by rw [calcSfhSinglegal_eq, List.getElem?_map, List.getElem?_eq_getElem hi]; rfl, ?_⟩
  beta_reduce
  set m := logMah mah tarr[i] lgt0
  set lgt := Real.logb 10 tarr[i]
  have hpos : ∀ (q : DiffstarParams ℝ) (x : ℝ), 0 < (10 : ℝ) ^ x * msSfr q fb m := by
    intro q x
    unfold msSfr
    positivity
  refine (logb_max_lip (by positivity) (hpos _ _) (hpos _ _)).trans ?_
  rw [logb_sfr p hfb, logb_sfr p' hfb]
  have kd := hp'.lgDrop
  have kr := hp'.lgRejuv
  -- the quenching exponent
  have q1 : |qExp lgt p.lgQt ((10 : ℝ) ^ p.qlglgdt) p.lgDrop p.lgRejuv -
      qExp lgt p.lgQt ((10 : ℝ) ^ p.qlglgdt) p'.lgDrop p'.lgRejuv| ≤ |p.lgDrop - p'.lgDrop| + |p.lgRejuv - p'.lgRejuv| :=
    qShape_params _ _ _ _ _
  have q2 : |qExp lgt p.lgQt ((10 : ℝ) ^ p.qlglgdt) p'.lgDrop p'.lgRejuv -
      qExp lgt p'.lgQt ((10 : ℝ) ^ p.qlglgdt) p'.lgDrop p'.lgRejuv| ≤ 14 * |p.lgQt - p'.lgQt| / (10 : ℝ) ^ p.qlglgdt := by
    have h0 : (0 : ℝ) < (10 : ℝ) ^ p.qlglgdt := by positivity
    refine (qShape_lip (y := (lgt - p.lgQt) / ((10 : ℝ) ^ p.qlglgdt / 12))
      (y' := (lgt - p'.lgQt) / ((10 : ℝ) ^ p.qlglgdt / 12)) kd kr).trans ?_
    have e : (lgt - p.lgQt) / ((10 : ℝ) ^ p.qlglgdt / 12) - (lgt - p'.lgQt) / ((10 : ℝ) ^ p.qlglgdt / 12) =
        -(12 * (p.lgQt - p'.lgQt) / (10 : ℝ) ^ p.qlglgdt) := by
      field_simp
      ring
    rw [e, abs_neg, abs_div, abs_mul, abs_of_pos h0, abs_of_pos (by norm_num : (0 : ℝ) < 12), ← mul_div_assoc,
      div_le_div_iff_of_pos_right h0]
    have := abs_nonneg (p.lgQt - p'.lgQt)
    nlinarith
  have q3 : |qExp lgt p'.lgQt ((10 : ℝ) ^ p.qlglgdt) p'.lgDrop p'.lgRejuv -
      qExp lgt p'.lgQt ((10 : ℝ) ^ p'.qlglgdt) p'.lgDrop p'.lgRejuv| ≤
      7 * ((10 : ℝ) ^ |p.qlglgdt - p'.qlglgdt| - 1) := by
    refine (qExp_duration kd kr).trans ?_
    have : (1 : ℝ) ≤ (10 : ℝ) ^ |p.qlglgdt - p'.qlglgdt| := Real.one_le_rpow (by norm_num) (abs_nonneg _)
    nlinarith
  -- the efficiency
  have e1 := slope_params p.indxLo p.indxHi p'.indxLo p'.indxHi (m - p.lgmcrit)
  have e2 := slope_lip (x := m - p.lgmcrit) (x' := m - p'.lgmcrit) hp'.indxLo hp'.indxHi
  rw [show m - p.lgmcrit - (m - p'.lgmcrit) = -(p.lgmcrit - p'.lgmcrit) by ring, abs_neg] at e2
  have ed : msLogEfficiency p m - msLogEfficiency p' m = (p.lgyAtMcrit - p'.lgyAtMcrit) +
      ((p.indxLo + (p.indxHi - p.indxLo) / (1 + Real.exp (-(9 * (m - p.lgmcrit))))) * (m - p.lgmcrit) -
        (p'.indxLo + (p'.indxHi - p'.indxLo) / (1 + Real.exp (-(9 * (m - p.lgmcrit))))) * (m - p.lgmcrit)) +
      ((p'.indxLo + (p'.indxHi - p'.indxLo) / (1 + Real.exp (-(9 * (m - p.lgmcrit))))) * (m - p.lgmcrit) -
        (p'.indxLo + (p'.indxHi - p'.indxLo) / (1 + Real.exp (-(9 * (m - p'.lgmcrit))))) * (m - p'.lgmcrit)) := by
    unfold msLogEfficiency
    ring
  have e3 : |msLogEfficiency p m - msLogEfficiency p' m| ≤ |p.lgyAtMcrit - p'.lgyAtMcrit| +
      |m - p.lgmcrit| * max |p.indxLo - p'.indxLo| |p.indxHi - p'.indxHi| + 8.5 * |p.lgmcrit - p'.lgmcrit| := by
    rw [ed]
    exact (abs_add_le _ _).trans (add_le_add ((abs_add_le _ _).trans (add_le_add le_rfl e1)) e2)
  set Q := qExp lgt p.lgQt ((10 : ℝ) ^ p.qlglgdt) p.lgDrop p.lgRejuv
  set Q1 := qExp lgt p.lgQt ((10 : ℝ) ^ p.qlglgdt) p'.lgDrop p'.lgRejuv
  set Q2 := qExp lgt p'.lgQt ((10 : ℝ) ^ p.qlglgdt) p'.lgDrop p'.lgRejuv
  set Q3 := qExp lgt p'.lgQt ((10 : ℝ) ^ p'.qlglgdt) p'.lgDrop p'.lgRejuv
  have t : Q + (Real.logb 10 fb + m + msLogEfficiency p m) - (Q3 + (Real.logb 10 fb + m + msLogEfficiency p' m)) =
      (Q - Q1) + (Q1 - Q2) + (Q2 - Q3) + (msLogEfficiency p m - msLogEfficiency p' m) := by ring
  rw [t]
  have u := abs_add_le ((Q - Q1) + (Q1 - Q2) + (Q2 - Q3)) (msLogEfficiency p m - msLogEfficiency p' m)
  have v := abs_add_le ((Q - Q1) + (Q1 - Q2)) (Q2 - Q3)
  have w := abs_add_le (Q - Q1) (Q1 - Q2)
  linarith

example : NearBounds ⟨12, -10, 1, -1, 1, -0.5, -1, -0.2⟩ ∧ NearBounds ⟨13.4, -8.1, 4.9, -4.9, 1, -2.9, -2.9, -0.1⟩ := by
  constructor <;> constructor <;> norm_num [abs_le]

theorem close_real {f4 : Fit.F → Fit.F} {x : ℝ} {v : Fit.F}
    (hf4 : ∃ y : ℝ, f4 (some (x : EReal)) = some (y : EReal) ∧ |y - x| ≤ 1 / 10 ^ 7 * |x| + 1 / 10 ^ 40)
    (hv : Spec.Close v (f4 (some (x : EReal)))) :
    ∃ z : ℝ, v = some (z : EReal) ∧ |z - x| ≤ 5.2 / 10 ^ 6 * |x| + 1 / 10 ^ 30 := by
  obtain ⟨y, hy, hyx⟩ := hf4
  rw [hy] at hv
  rcases hv with ⟨_, h⟩ | ⟨_, h⟩ | ⟨_, h⟩ | ⟨z, y', h1, h2, h3⟩
  · cases h
  · exact absurd (Option.some.inj h) (EReal.coe_ne_top y)
  · exact absurd (Option.some.inj h) (EReal.coe_ne_bot y)
  · have e : y' = y := (EReal.coe_injective (Option.some.inj h2)).symm
    subst e
    refine ⟨z, h1, ?_⟩
    have a : |y'| ≤ |x| + |y' - x| := by
      have := abs_add_le x (y' - x)
      rwa [add_sub_cancel] at this
    have b := abs_sub_le z y' x
    have c := abs_nonneg x
    nlinarith

theorem near_of_log {s s' : ℝ} (hs : 0 < s) (hs' : 0 < s') (h : |Real.logb 10 s - Real.logb 10 s'| ≤ 0.0032) :
    |s' - s| ≤ 0.01 * s := by
  have k2 : |Real.log s - Real.log s'| ≤ 0.0032 * Real.log 10 := by
    have l0 : 0 < Real.log 10 := Real.log_pos (by norm_num)
    have : Real.logb 10 s - Real.logb 10 s' = (Real.log s - Real.log s') / Real.log 10 := by
      unfold Real.logb; ring
    rwa [this, abs_div, abs_of_pos l0, div_le_iff₀ l0] at h
  have l3 := log_ten_lt_three
  have k3 := abs_le.1 k2
  have u1 : Real.log 0.99 ≤ -0.01 := by
    have := Real.log_le_sub_one_of_pos (by norm_num : (0 : ℝ) < 0.99)
    linarith
  have u2 : 0.0099 ≤ Real.log 1.01 := by
    have := Real.log_le_sub_one_of_pos (by norm_num : (0 : ℝ) < (1.01 : ℝ)⁻¹)
    rw [Real.log_inv] at this
    norm_num at this ⊢
    linarith
  have v1 : s' ≤ 1.01 * s := by
    rw [← Real.log_le_log_iff hs' (by positivity), Real.log_mul (by norm_num) hs.ne']
    linarith
  have v2 : 0.99 * s ≤ s' := by
    rw [← Real.log_le_log_iff (by positivity) hs', Real.log_mul (by norm_num) hs.ne']
    linarith
  rw [abs_le]
  constructor <;> linarith

theorem ten_pow_small {x : ℝ} (h0 : 0 ≤ x) (h : x ≤ 1.57 / 10 ^ 5) : (10 : ℝ) ^ x - 1 ≤ 9.5 / 10 ^ 5 := by
  rw [Real.rpow_def_of_pos (by norm_num)]
  have l3 := log_ten_lt_three
  have l0 : 0 < Real.log 10 := Real.log_pos (by norm_num)
  have g : Real.log 10 * x ≤ 4.71 / 10 ^ 5 := by nlinarith
  have g' : 0 ≤ Real.log 10 * x := by positivity
  have := Real.abs_exp_sub_one_le (x := Real.log 10 * x) (by
    rw [abs_of_nonneg g']; linarith)
  rw [abs_of_nonneg g'] at this
  have := (abs_le.1 this).2
  linarith

theorem err_le {a b B : ℝ} (h : |a - b| ≤ 5.2 / 10 ^ 6 * |b| + 1 / 10 ^ 30) (h1 : -B ≤ b) (h2 : b ≤ B) :
    |b - a| ≤ 5.2 / 10 ^ 6 * B + 1 / 10 ^ 30 := by
  have := abs_le.2 ⟨h1, h2⟩
  rw [abs_sub_comm]
  linarith

theorem near_le {a b e B C : ℝ} (h : |b - a| ≤ e) (h1 : -B ≤ b) (h2 : b ≤ B) (hC : B + e ≤ C) : |a| ≤ C := by
  have := abs_le.1 h
  rw [abs_le]
  constructor <;> linarith

/-- **C113**, rounding: parameters stored with relative accuracy `5.2e-6` reproduce the star formation rate to
`0.0017 + 0.00015 / duration` dex, which is less than one per cent for events longer than 0.1 dex. -/
theorem C113_rounded_parameters_partial {M : Type*} (logMah : M → ℝ → ℝ → ℝ) (p p' : DiffstarParams ℝ) (hp : InBounds p)
    (hr : ∀ f ∈ ([DiffstarParams.lgmcrit, DiffstarParams.lgyAtMcrit, DiffstarParams.indxLo, DiffstarParams.indxHi,
      DiffstarParams.lgQt, DiffstarParams.qlglgdt, DiffstarParams.lgDrop, DiffstarParams.lgRejuv] :
        List (DiffstarParams ℝ → ℝ)), |f p' - f p| ≤ 5.2 / 10 ^ 6 * |f p| + 1 / 10 ^ 30)
    (mah : M) (tarr : List ℝ) (lgt0 fb : ℝ) (hfb : 0 < fb) (i : ℕ) (hi : i < tarr.length) (ht : 0 < tarr[i])
    (hm : |logMah mah tarr[i] lgt0 - p.lgmcrit| ≤ 12) :
    ∃ s s', (calcSfhSinglegal logMah p mah tarr lgt0 fb)[i]? = some s ∧
      (calcSfhSinglegal logMah p' mah tarr lgt0 fb)[i]? = some s' ∧
      |Real.logb 10 s - Real.logb 10 s'| ≤ 0.0017 + 0.00015 / (10 : ℝ) ^ p.qlglgdt ∧
      (-1 ≤ p.qlglgdt → |s' - s| ≤ 0.01 * s) := by
  simp only [List.mem_cons, List.not_mem_nil, or_false, forall_eq_or_imp, forall_eq] at hr
  obtain ⟨r1, r2, r3, r4, r5, r6, r7, r8⟩ := hr
  obtain ⟨⟨a1, a1'⟩, ⟨a2, a2'⟩, ⟨a3, a3'⟩, ⟨a4, a4'⟩, ⟨a5, a5'⟩, ⟨a6, a6'⟩, ⟨a7, a7'⟩, ⟨a8, a8'⟩⟩ := hp
  have c1 := err_le (B := 13.5) r1 (by linarith only [a1]) (by linarith only [a1'])
  have c2 := err_le (B := 12) r2 (by linarith only [a2]) (by linarith only [a2'])
  have c3 := err_le (B := 5) r3 (by linarith only [a3]) (by linarith only [a3'])
  have c4 := err_le (B := 5) r4 (by linarith only [a4]) (by linarith only [a4'])
  have c5 := err_le (B := 2) r5 (by linarith only [a5]) (by linarith only [a5'])
  have c6 := err_le (B := 3) r6 (by linarith only [a6]) (by linarith only [a6'])
  have c7 := err_le (B := 3) r7 (by linarith only [a7]) (by linarith only [a7'])
  have c8 := err_le (B := 3) r8 (by linarith only [a7, a8]) (by linarith only [a8'])
  have nb : NearBounds p' := by
    refine ⟨near_le (B := 5) c3 (by linarith only [a3]) (by linarith only [a3']) (by norm_num),
      near_le (B := 5) c4 (by linarith only [a4]) (by linarith only [a4']) (by norm_num),
      near_le (B := 3) c7 (by linarith only [a7]) (by linarith only [a7']) (by norm_num), ?_⟩
    have d7 := abs_le.1 c7
    have d8 := abs_le.1 c8
    rw [abs_le]
    constructor <;> linarith only [d7.1, d7.2, d8.1, d8.2, a7, a7', a8, a8']
  obtain ⟨s, s', h1, h2, h3⟩ := C113_sfr_stability logMah p p' nb mah tarr lgt0 fb hfb i hi ht
  have hdt : (0 : ℝ) < (10 : ℝ) ^ p.qlglgdt := by positivity
  have key : |Real.logb 10 s - Real.logb 10 s'| ≤ 0.0017 + 0.00015 / (10 : ℝ) ^ p.qlglgdt := by
    refine h3.trans ?_
    have e1 : |logMah mah tarr[i] lgt0 - p.lgmcrit| * max |p.indxLo - p'.indxLo| |p.indxHi - p'.indxHi| ≤
        12 * (5.2 / 10 ^ 6 * 5 + 1 / 10 ^ 30) :=
      mul_le_mul hm (max_le c3 c4) (le_max_of_le_left (abs_nonneg _)) (by norm_num)
    have e2 : 14 * |p.lgQt - p'.lgQt| / (10 : ℝ) ^ p.qlglgdt ≤ 0.00015 / (10 : ℝ) ^ p.qlglgdt := by
      rw [div_le_div_iff_of_pos_right hdt]
      linarith only [c5]
    have e3 := ten_pow_small (abs_nonneg (p.qlglgdt - p'.qlglgdt)) (by linarith only [c6])
    linarith only [e1, e2, e3, c1, c2, c7, c8]
  have hs : ∀ (q : DiffstarParams ℝ) (x : ℝ), (calcSfhSinglegal logMah q mah tarr lgt0 fb)[i]? = some x → 0 < x := by
    intro q x hx
    rw [calcSfhSinglegal_eq, List.getElem?_map, List.getElem?_eq_getElem hi] at hx
    rw [← Option.some.inj hx]
    exact lt_max_of_lt_left (by norm_num)
  refine ⟨s, s', h1, h2, key, fun hq => near_of_log (hs _ _ h1) (hs _ _ h2) (key.trans ?_)⟩
  have k1 : 0.00015 / (10 : ℝ) ^ p.qlglgdt ≤ 0.0015 := by
    have : (10 : ℝ) ^ (-1 : ℝ) ≤ (10 : ℝ) ^ p.qlglgdt := Real.rpow_le_rpow_of_exponent_le (by norm_num) hq
    rw [Real.rpow_neg_one] at this
    rw [div_le_iff₀ hdt]
    linarith only [this]
  linarith only [k1]

/-- **C113**, catalogue: the numbers read back from a fit catalogue (C111) for a galaxy fitted with in-bounds parameters
reproduce its star formation rates, for every cast `f4` with the accuracy of single precision. -/
theorem C113_catalogue_partial (f4 : Fit.F → Fit.F)
    (hf4 : ∀ x : ℝ, ∃ y : ℝ, f4 (some (x : EReal)) = some (y : EReal) ∧ |y - x| ≤ 1 / 10 ^ 7 * |x| + 1 / 10 ^ 40)
    (out : Scripts.FitColumns) (j : ℕ) (row : Load.MahRow) (p : DiffstarParams ℝ) (hp : InBounds p)
    (hrow : Spec.RowOf f4 out j row ⟨some p.lgmcrit, some p.lgyAtMcrit, some p.indxLo, some p.indxHi, some p.lgQt,
      some p.qlglgdt, some p.lgDrop, some p.lgRejuv⟩) :
    ∃ q : DiffstarParams ℝ, (out.sfh.lgmcrit[j]? = some (some (q.lgmcrit : EReal)) ∧
        out.sfh.lgyAtMcrit[j]? = some (some (q.lgyAtMcrit : EReal)) ∧ out.sfh.indxLo[j]? = some (some (q.indxLo : EReal)) ∧
        out.sfh.indxHi[j]? = some (some (q.indxHi : EReal)) ∧ out.sfh.lgQt[j]? = some (some (q.lgQt : EReal)) ∧
        out.sfh.qlglgdt[j]? = some (some (q.qlglgdt : EReal)) ∧ out.sfh.lgDrop[j]? = some (some (q.lgDrop : EReal)) ∧
        out.sfh.lgRejuv[j]? = some (some (q.lgRejuv : EReal))) ∧
      ∀ (logMah : MahParams ℝ → ℝ → ℝ → ℝ) (tarr : List ℝ) (lgt0 fb : ℝ), 0 < fb → ∀ (i : ℕ) (hi : i < tarr.length),
        0 < tarr[i] → |logMah row.par tarr[i] lgt0 - p.lgmcrit| ≤ 12 →
        ∃ s s', (calcSfhSinglegal logMah p row.par tarr lgt0 fb)[i]? = some s ∧
          (calcSfhSinglegal logMah q row.par tarr lgt0 fb)[i]? = some s' ∧
          |Real.logb 10 s - Real.logb 10 s'| ≤ 0.0017 + 0.00015 / (10 : ℝ) ^ p.qlglgdt ∧
          (-1 ≤ p.qlglgdt → |s' - s| ≤ 0.01 * s) := by
  obtain ⟨-, -, -, -, -, ⟨x1, g1, k1⟩, ⟨x2, g2, k2⟩, ⟨x3, g3, k3⟩, ⟨x4, g4, k4⟩, ⟨x5, g5, k5⟩, ⟨x6, g6, k6⟩, ⟨x7, g7, k7⟩,
    ⟨x8, g8, k8⟩⟩ := hrow
  obtain ⟨z1, rfl, e1⟩ := close_real (hf4 _) k1
  obtain ⟨z2, rfl, e2⟩ := close_real (hf4 _) k2
  obtain ⟨z3, rfl, e3⟩ := close_real (hf4 _) k3
  obtain ⟨z4, rfl, e4⟩ := close_real (hf4 _) k4
  obtain ⟨z5, rfl, e5⟩ := close_real (hf4 _) k5
  obtain ⟨z6, rfl, e6⟩ := close_real (hf4 _) k6
  obtain ⟨z7, rfl, e7⟩ := close_real (hf4 _) k7
  obtain ⟨z8, rfl, e8⟩ := close_real (hf4 _) k8
  refine ⟨⟨z1, z2, z3, z4, z5, z6, z7, z8⟩, ⟨g1, g2, g3, g4, g5, g6, g7, g8⟩, fun logMah tarr lgt0 fb hfb i hi ht hm => ?_⟩
  refine C113_rounded_parameters_partial logMah p _ hp ?_ row.par tarr lgt0 fb hfb i hi ht hm
  simp only [List.mem_cons, List.not_mem_nil, or_false, forall_eq_or_imp, forall_eq]
  exact ⟨e1, e2, e3, e4, e5, e6, e7, e8⟩

/-- The cast without rounding has the required accuracy. -/
example : ∀ x : ℝ, ∃ y : ℝ, (id : Fit.F → Fit.F) (some (x : EReal)) = some (y : EReal) ∧
    |y - x| ≤ 1 / 10 ^ 7 * |x| + 1 / 10 ^ 40 := fun x => ⟨x, rfl, by
  rw [sub_self, abs_zero]
  positivity⟩

/-- **C113**, violated for short quenching events: `lg_qt = 1.000004` is written as `1.00000e+00`; for an event of duration
`10**-2.9` dex the star formation rate from the stored value is more than five per cent below the fitted one, a quarter
of the duration before 10 Gyr. -/
theorem C113_short_events_violated :
    Text.parseFloat (Text.fmtF (some ((1.000004 : ℝ) : EReal))) = some (some ((1 : ℝ) : EReal)) ∧
    InBounds ⟨12, -10, 1, -1, 1.000004, -2.9, -2.5, -1⟩ ∧
    ∃ t s s' : ℝ, 0 < t ∧
      calcSfhSinglegal (M := Unit) (fun _ _ _ => 12) ⟨12, -10, 1, -1, 1.000004, -2.9, -2.5, -1⟩ () [t] 1.14 0.156 = [s] ∧
      calcSfhSinglegal (M := Unit) (fun _ _ _ => 12) ⟨12, -10, 1, -1, 1, -2.9, -2.5, -1⟩ () [t] 1.14 0.156 = [s'] ∧
      1.05 * s' < s := by
  refine ⟨?_, by constructor <;> norm_num, (10 : ℝ) ^ (1 - (10 : ℝ) ^ (-2.9 : ℝ) / 4), ?_⟩
  · have hm : Text.mantExp 1.000004 = (100000, 0) := by
      have hl : Int.log 10 (1.000004 : ℝ) = 0 := log_eq_of_mem (by norm_num) (by norm_num)
      unfold Text.mantExp
      rw [if_neg (by norm_num), abs_of_pos (by norm_num), hl]
      have hr : Text.roundHalfEven (1.000004 * (10 : ℝ) ^ (5 - (0 : ℤ))) = 100000 := by
        have hf : ⌊(1.000004 * (10 : ℝ) ^ (5 - (0 : ℤ)))⌋ = 100000 := by
          rw [Int.floor_eq_iff]
          norm_num
        unfold Text.roundHalfEven
        rw [hf, if_pos]
        norm_num
      simp only [hr]
      rfl
    have hf : Text.fmtF (some ((1.000004 : ℝ) : EReal)) = Text.fmtE5 1.000004 := by
      unfold Text.fmtF
      simp only [EReal.coe_ne_top, EReal.coe_ne_bot, if_false, EReal.toReal_coe]
    rw [hf, Text.parseFloat_fmtE5, hm, if_neg (by norm_num)]
    norm_num
  · have hdt0 : (0 : ℝ) < (10 : ℝ) ^ (-2.9 : ℝ) := by positivity
    have hdt : (10 : ℝ) ^ (-2.9 : ℝ) < 0.0013 := by
      have h : ((10 : ℝ) ^ (-2.9 : ℝ)) ^ (10 : ℕ) < (0.0013 : ℝ) ^ (10 : ℕ) := by
        rw [← Real.rpow_natCast ((10 : ℝ) ^ (-2.9 : ℝ)), ← Real.rpow_mul (by norm_num)]
        norm_num
      exact lt_of_pow_lt_pow_left₀ 10 (by positivity) h
    rw [calcSfhSinglegal_eq, calcSfhSinglegal_eq]
    refine ⟨_, _, by positivity, rfl, rfl, ?_⟩
    simp only []
    rw [Real.logb_rpow (by norm_num) (by norm_num)]
    set D := (10 : ℝ) ^ (-2.9 : ℝ)
    have y1 : (1 - D / 4 - 1) / (D / 12) = -3 := by field_simp; ring
    have y2 : (1 - D / 4 - 1.000004) / (D / 12) ≤ -3.036 := by
      rw [div_le_iff₀ (by positivity)]
      linarith
    have q1 : qExp (1 - D / 4) 1 D (-2.5) (-1) = -1.25 := by
      unfold qExp
      rw [y1, jaxTw_mid (by norm_num) (by norm_num), jaxTw_lo (by norm_num)]
      norm_num [twPoly]
    have q2 : -1.2173 ≤ qExp (1 - D / 4) 1.000004 D (-2.5) (-1) := by
      unfold qExp
      rw [jaxTw_lo (y := _ - 3) (by linarith)]
      have := jaxTw_mono (show (1 - D / 4 - 1.000004) / (D / 12) + 3 ≤ -0.036 by linarith)
      rw [jaxTw_mid (y := -0.036) (by norm_num) (by norm_num)] at this
      have e : twPoly (-0.036) ≤ 0.48689 := by norm_num [twPoly]
      linarith
    rw [q1]
    set q := qExp (1 - D / 4) 1.000004 D (-2.5) (-1)
    have ms : ∀ a, msSfr ⟨12, -10, 1, -1, a, -2.9, -2.5, -1⟩ 0.156 12 = 15.6 := by
      intro a
      norm_num [msSfr, msLogEfficiency]
    rw [ms, ms]
    have f1 : (10 : ℝ) ^ (-2 : ℝ) ≤ (10 : ℝ) ^ (-1.25 : ℝ) := Real.rpow_le_rpow_of_exponent_le (by norm_num) (by norm_num)
    have f2 : (10 : ℝ) ^ (-2 : ℝ) = 0.01 := by norm_num [Real.rpow_neg]
    have f3 : (10 : ℝ) ^ (-1.2173 : ℝ) ≤ (10 : ℝ) ^ q := Real.rpow_le_rpow_of_exponent_le (by norm_num) q2
    have f4 : 1.05 * (10 : ℝ) ^ (-1.25 : ℝ) < (10 : ℝ) ^ (-1.2173 : ℝ) := by
      have l2 : 2 < Real.log 10 := by
        rw [Real.lt_log_iff_exp_lt (by norm_num)]
        have e := Real.exp_one_lt_d9
        have : Real.exp 2 = Real.exp 1 * Real.exp 1 := by rw [← Real.exp_add]; norm_num
        rw [this]
        nlinarith [Real.exp_pos 1]
      have : (10 : ℝ) ^ (-1.2173 : ℝ) = (10 : ℝ) ^ (0.0327 : ℝ) * (10 : ℝ) ^ (-1.25 : ℝ) := by
        rw [← Real.rpow_add (by norm_num)]
        norm_num
      rw [this]
      apply mul_lt_mul_of_pos_right _ (by positivity)
      rw [Real.rpow_def_of_pos (by norm_num)]
      have := Real.add_one_le_exp (Real.log 10 * 0.0327)
      linarith
    rw [max_eq_right, max_eq_right]
    · linarith
    · rw [f2] at f1
      norm_num at f1 ⊢
      linarith
    · rw [f2] at f1
      norm_num at f1 ⊢
      linarith

end Diffstar.Props
