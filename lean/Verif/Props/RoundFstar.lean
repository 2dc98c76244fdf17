import Verif.Lemmas.RoundInterp
import Verif.Props.RoundSfr

/-!
Error of the mass differences behind the time-averaged star formation rates (used for C141).
-/

namespace Diffstar.Props

open Diffstar Diffstar.Spec

/-- Increments that agree up to a relative error. -/
theorem drop_chain {Y' Y : ℕ → ℝ} {δ : ℝ} {i : ℕ} (h : ∀ k, k + 1 ≤ i → |(Y' (k + 1) - Y' k) - (Y (k + 1) - Y k)| ≤ δ * (Y (k + 1) - Y k)) :
    ∀ j k, j ≤ k → k ≤ i → |(Y' k - Y' j) - (Y k - Y j)| ≤ δ * (Y k - Y j) := by
  intro j k hjk
  induction hjk with
  | refl => intro _; simp
  | @step m hm ih =>
    intro hk
    have h1 := ih (by omega)
    have h2 := h m hk
    rw [show Y' (m + 1) - Y' j - (Y (m + 1) - Y j) = (Y' m - Y' j - (Y m - Y j)) + (Y' (m + 1) - Y' m - (Y (m + 1) - Y m)) by ring]
    refine (abs_add_le _ _).trans ((add_le_add h1 h2).trans (le_of_eq ?_))
    ring

/-- The drop back to an earlier abscissa inherits the relative error of the increments. -/
theorem drop_rel {t y y' : List ℝ} (hinc : Increasing t) (hl : y.length = t.length) (hl' : y'.length = t.length) {δ : ℝ} {i : ℕ}
    (hi : i < t.length) {x : ℝ} (hx : x ≤ t.getD i 0)
    (h : ∀ k, k + 1 ≤ i → |(y'.getD (k + 1) 0 - y'.getD k 0) - (y.getD (k + 1) 0 - y.getD k 0)| ≤
      δ * (y.getD (k + 1) 0 - y.getD k 0)) :
    |(y'.getD i 0 - npInterp x t y') - (y.getD i 0 - npInterp x t y)| ≤ δ * (y.getD i 0 - npInterp x t y) := by
  have hc := drop_chain (Y' := fun k => y'.getD k 0) (Y := fun k => y.getD k 0) h
  rcases npInterp_bracket t hinc x i hi hx with ⟨-, f⟩ | ⟨k, hk, h1, h2, f⟩
  · rw [f y hl, f y' hl']
    exact hc 0 i (Nat.zero_le _) le_rfl
  · rw [f y hl, f y' hl']
    have b1 := hc (k + 1) i hk le_rfl
    have b2 := h k hk
    have hD : 0 < t.getD (k + 1) 0 - t.getD k 0 := by linarith
    have hθ : ∀ a b : ℝ, b - (a + (b - a) / (t.getD (k + 1) 0 - t.getD k 0) * (x - t.getD k 0)) =
        (t.getD (k + 1) 0 - x) / (t.getD (k + 1) 0 - t.getD k 0) * (b - a) := by
      intro a b; field_simp; ring
    have hθ0 : 0 ≤ (t.getD (k + 1) 0 - x) / (t.getD (k + 1) 0 - t.getD k 0) := div_nonneg (by linarith) hD.le
    have e1 := hθ (y.getD k 0) (y.getD (k + 1) 0)
    have e2 := hθ (y'.getD k 0) (y'.getD (k + 1) 0)
    generalize (t.getD (k + 1) 0 - x) / (t.getD (k + 1) 0 - t.getD k 0) = θ at *
    generalize y.getD k 0 + (y.getD (k + 1) 0 - y.getD k 0) / (t.getD (k + 1) 0 - t.getD k 0) * (x - t.getD k 0) = z at *
    generalize y'.getD k 0 + (y'.getD (k + 1) 0 - y'.getD k 0) / (t.getD (k + 1) 0 - t.getD k 0) * (x - t.getD k 0) = z' at *
    rw [show y'.getD i 0 - z' - (y.getD i 0 - z) = (y'.getD i 0 - y'.getD (k + 1) 0 - (y.getD i 0 - y.getD (k + 1) 0)) +
      θ * (y'.getD (k + 1) 0 - y'.getD k 0 - (y.getD (k + 1) 0 - y.getD k 0)) by linarith]
    refine (abs_add_le _ _).trans ?_
    rw [abs_mul, abs_of_nonneg hθ0]
    have b3 := mul_le_mul_of_nonneg_left b2 hθ0
    refine (add_le_add b1 b3).trans (le_of_eq ?_)
    rw [show y.getD i 0 - z = (y.getD i 0 - y.getD (k + 1) 0) + θ * (y.getD (k + 1) 0 - y.getD k 0) by linarith]
    ring

/-- Interpolation in perturbed ordinates. -/
theorem interp_perturb {t y y' : List ℝ} (hinc : Increasing t) (hl : y.length = t.length) (hl' : y'.length = t.length) {E : ℝ}
    {i : ℕ} (hi : i < t.length) {x : ℝ} (hx : x ≤ t.getD i 0) (h : ∀ k, k ≤ i → |y'.getD k 0 - y.getD k 0| ≤ E) :
    |npInterp x t y' - npInterp x t y| ≤ E := by
  rcases npInterp_bracket t hinc x i hi hx with ⟨-, f⟩ | ⟨k, hk, h1, h2, f⟩
  · rw [f y hl, f y' hl']
    exact h 0 (Nat.zero_le _)
  · rw [f y hl, f y' hl']
    have b1 := h k (by omega)
    have b2 := h (k + 1) hk
    have hD : 0 < t.getD (k + 1) 0 - t.getD k 0 := by linarith
    have hθ0 : 0 ≤ (x - t.getD k 0) / (t.getD (k + 1) 0 - t.getD k 0) := div_nonneg (by linarith) hD.le
    have hθ1 : (x - t.getD k 0) / (t.getD (k + 1) 0 - t.getD k 0) ≤ 1 := (div_le_one hD).2 (by linarith)
    have e : ∀ a b : ℝ, a + (b - a) / (t.getD (k + 1) 0 - t.getD k 0) * (x - t.getD k 0) =
        (1 - (x - t.getD k 0) / (t.getD (k + 1) 0 - t.getD k 0)) * a + (x - t.getD k 0) / (t.getD (k + 1) 0 - t.getD k 0) * b := by
      intro a b; ring
    rw [e, e]
    generalize (x - t.getD k 0) / (t.getD (k + 1) 0 - t.getD k 0) = θ at *
    rw [show (1 - θ) * y'.getD k 0 + θ * y'.getD (k + 1) 0 - ((1 - θ) * y.getD k 0 + θ * y.getD (k + 1) 0) =
      (1 - θ) * (y'.getD k 0 - y.getD k 0) + θ * (y'.getD (k + 1) 0 - y.getD (k + 1) 0) by ring]
    refine (abs_add_le _ _).trans ?_
    rw [abs_mul, abs_mul, abs_of_nonneg hθ0, abs_of_nonneg (sub_nonneg.2 hθ1)]
    nlinarith [mul_le_mul_of_nonneg_left b1 (sub_nonneg.2 hθ1), mul_le_mul_of_nonneg_left b2 hθ0]

/-- Slopes along a table. -/
theorem slope_chain {T Y : ℕ → ℝ} {L : ℝ} {i : ℕ} (h : ∀ k, k + 1 ≤ i → 0 ≤ Y (k + 1) - Y k ∧ Y (k + 1) - Y k ≤ L * (T (k + 1) - T k)) :
    ∀ j k, j ≤ k → k ≤ i → 0 ≤ Y k - Y j ∧ Y k - Y j ≤ L * (T k - T j) := by
  intro j k hjk
  induction hjk with
  | refl => intro _; simp
  | @step m hm ih =>
    intro hk
    have h1 := ih (by omega)
    have h2 := h m hk
    constructor
    · show 0 ≤ Y (m + 1) - Y j; linarith
    · show Y (m + 1) - Y j ≤ L * (T (m + 1) - T j); linarith

/-- The interpolated function is Lipschitz. -/
theorem interp_lip {t y : List ℝ} (hinc : Increasing t) (hl : y.length = t.length) {L : ℝ} (hL : 0 ≤ L) {i : ℕ} (hi : i < t.length)
    (h : ∀ k, k + 1 ≤ i → 0 ≤ y.getD (k + 1) 0 - y.getD k 0 ∧
      y.getD (k + 1) 0 - y.getD k 0 ≤ L * (t.getD (k + 1) 0 - t.getD k 0)) {x x' : ℝ} (hxx : x ≤ x') (hx : x' ≤ t.getD i 0) :
    |npInterp x' t y - npInterp x t y| ≤ L * (x' - x) := by
  have hc := slope_chain (T := fun k => t.getD k 0) (Y := fun k => y.getD k 0) h
  rcases npInterp_bracket t hinc x' i hi hx with ⟨g, f'⟩ | ⟨k', hk', h1', h2', f'⟩
  · rcases npInterp_bracket t hinc x i hi (hxx.trans hx) with ⟨-, f⟩ | ⟨k, hk, h1, h2, f⟩
    · rw [f y hl, f' y hl, sub_self, abs_zero]; exact mul_nonneg hL (by linarith)
    · exfalso
      rcases Nat.eq_zero_or_pos k with rfl | hk0
      · linarith
      · linarith [increasing_getD hinc hk0 (by omega)]
  · rw [f' y hl]
    have hD' : 0 < t.getD (k' + 1) 0 - t.getD k' 0 := by linarith
    have sl0' : 0 ≤ (y.getD (k' + 1) 0 - y.getD k' 0) / (t.getD (k' + 1) 0 - t.getD k' 0) := div_nonneg (h k' hk').1 hD'.le
    have sl1' : (y.getD (k' + 1) 0 - y.getD k' 0) / (t.getD (k' + 1) 0 - t.getD k' 0) ≤ L := (div_le_iff₀ hD').2 (h k' hk').2
    rcases npInterp_bracket t hinc x i hi (hxx.trans hx) with ⟨g, f⟩ | ⟨k, hk, h1, h2, f⟩
    · rw [f y hl]
      have c := hc 0 k' (Nat.zero_le _) (by omega)
      generalize (y.getD (k' + 1) 0 - y.getD k' 0) / (t.getD (k' + 1) 0 - t.getD k' 0) = m' at *
      have d1 : 0 ≤ m' * (x' - t.getD k' 0) := mul_nonneg sl0' (by linarith)
      have d2 : m' * (x' - t.getD k' 0) ≤ L * (x' - t.getD k' 0) := mul_le_mul_of_nonneg_right sl1' (by linarith)
      have d3 : L * (t.getD k' 0 - t.getD 0 0) ≤ L * (t.getD k' 0 - x) := mul_le_mul_of_nonneg_left (by linarith) hL
      rw [abs_of_nonneg (by linarith)]
      linarith
    · rw [f y hl]
      have hD : 0 < t.getD (k + 1) 0 - t.getD k 0 := by linarith
      have sl0 : 0 ≤ (y.getD (k + 1) 0 - y.getD k 0) / (t.getD (k + 1) 0 - t.getD k 0) := div_nonneg (h k hk).1 hD.le
      have sl1 : (y.getD (k + 1) 0 - y.getD k 0) / (t.getD (k + 1) 0 - t.getD k 0) ≤ L := (div_le_iff₀ hD).2 (h k hk).2
      have hkk : k ≤ k' := by
        by_contra hn
        rcases Nat.eq_or_lt_of_le (Nat.succ_le_of_lt (not_le.1 hn)) with h' | h'
        · rw [← h'] at h1; linarith
        · linarith [increasing_getD hinc h' (by omega)]
      rcases Nat.eq_or_lt_of_le hkk with rfl | hlt
      · generalize (y.getD (k + 1) 0 - y.getD k 0) / (t.getD (k + 1) 0 - t.getD k 0) = m at *
        rw [show y.getD k 0 + m * (x' - t.getD k 0) - (y.getD k 0 + m * (x - t.getD k 0)) = m * (x' - x) by ring,
          abs_of_nonneg (mul_nonneg sl0 (by linarith))]
        exact mul_le_mul_of_nonneg_right sl1 (by linarith)
      · have e : y.getD k 0 + (y.getD (k + 1) 0 - y.getD k 0) / (t.getD (k + 1) 0 - t.getD k 0) * (x - t.getD k 0) =
            y.getD (k + 1) 0 - (y.getD (k + 1) 0 - y.getD k 0) / (t.getD (k + 1) 0 - t.getD k 0) * (t.getD (k + 1) 0 - x) := by
          field_simp; ring
        rw [e]
        have c := hc (k + 1) k' hlt (by omega)
        generalize (y.getD (k' + 1) 0 - y.getD k' 0) / (t.getD (k' + 1) 0 - t.getD k' 0) = m' at *
        generalize (y.getD (k + 1) 0 - y.getD k 0) / (t.getD (k + 1) 0 - t.getD k 0) = m at *
        have d1 : 0 ≤ m' * (x' - t.getD k' 0) := mul_nonneg sl0' (by linarith)
        have d2 : m' * (x' - t.getD k' 0) ≤ L * (x' - t.getD k' 0) := mul_le_mul_of_nonneg_right sl1' (by linarith)
        have d3 : 0 ≤ m * (t.getD (k + 1) 0 - x) := mul_nonneg sl0 (by linarith)
        have d4 : m * (t.getD (k + 1) 0 - x) ≤ L * (t.getD (k + 1) 0 - x) := mul_le_mul_of_nonneg_right sl1 (by linarith)
        rw [abs_of_nonneg (by linarith)]
        linarith

/-- Powers of `1 + u`. -/
theorem pow_u_small {u : ℝ} (h0 : 0 ≤ u) (hu : u ≤ 2 ^ (-24 : ℤ)) {k : ℕ} (hk : k ≤ 1010) : (1 + u) ^ k - 1 ≤ 1.001 * (k * u) := by
  have h1 : (1 + u) ^ k ≤ Real.exp u ^ k := pow_le_pow_left₀ (by linarith) (by linarith [Real.add_one_le_exp u]) _
  rw [← Real.exp_nat_mul] at h1
  have hk' : (k : ℝ) ≤ 1010 := by exact_mod_cast hk
  have hx0 : 0 ≤ (k : ℝ) * u := by positivity
  have hx1 : (k : ℝ) * u ≤ 0.0001 := by
    refine (mul_le_mul hk' hu h0 (by norm_num)).trans (by norm_num)
  have h2 := Real.exp_bound_div_one_sub_of_interval hx0 (by norm_num at hx1 ⊢; linarith)
  have h3 : 1 / (1 - (k : ℝ) * u) ≤ 1 + 1.001 * (k * u) := by
    rw [div_le_iff₀ (by norm_num at hx1 ⊢; linarith)]
    nlinarith
  linarith

/-! ### The masses -/

section masses

variable {t s : List ℝ}

theorem cmf_step (hs : s.length = t.length) {k : ℕ} (hk : k + 1 < t.length) :
    (cumulativeMstarFormed t s).getD (k + 1) 0 - (cumulativeMstarFormed t s).getD k 0 =
      10 ^ 9 * ((t.getD (k + 1) 0 - t.getD k 0) * (s.getD (k + 1) 0 + s.getD k 0) / 2) := by
  obtain ⟨m, m', h1, h2, h3⟩ := C13_increment_local t s hs k hk
  rw [List.getD_eq_getElem?_getD, List.getD_eq_getElem?_getD, h1, h2, List.getD_eq_getElem _ _ hk,
    List.getD_eq_getElem t 0 (by omega : k < t.length), List.getD_eq_getElem _ _ (by omega), List.getD_eq_getElem s 0 (by omega : k < s.length)]
  exact h3

theorem getD_nonneg (h0 : ∀ y ∈ s, 0 ≤ y) (k : ℕ) : 0 ≤ s.getD k 0 := by
  rcases lt_or_ge k s.length with h | h
  · rw [List.getD_eq_getElem _ _ h]; exact h0 _ (List.getElem_mem h)
  · rw [List.getD_eq_default _ _ h]

theorem cmf_nonneg (hs : s.length = t.length) (hinc : Increasing (0.001 :: t)) (h0 : ∀ y ∈ s, 0 ≤ y) (k : ℕ) :
    0 ≤ (cumulativeMstarFormed t s).getD k 0 :=
  getD_nonneg (fun m hm => ((C12_smh_increasing t s hs hinc).2 h0).1 m hm) k

theorem cmfFl_err (R : Rounding) (hu : R.u ≤ 2 ^ (-24 : ℤ)) (hs : s.length = t.length) (hinc : Increasing (0.002 :: t))
    (h0 : ∀ y ∈ s, 0 ≤ y) {k : ℕ} (hk : k < t.length) (hn : k ≤ 1000) :
    |(R.cumulativeMstarFormed t s).getD k 0 - (cumulativeMstarFormed t s).getD k 0| ≤
      1.001 * ((k + 9 : ℝ) * R.u) * (cumulativeMstarFormed t s).getD k 0 := by
  have hinc1 : Increasing (0.001 :: t) := by
    have := List.pairwise_cons.1 hinc
    exact List.pairwise_cons.2 ⟨fun x hx => lt_trans (by norm_num) (this.1 x hx), this.2⟩
  obtain ⟨f, hf⟩ := exists_linInterp (0.001 :: t) (1 / 10 ^ 14 :: s) hinc1
  obtain ⟨m, e1, e2⟩ := C124_relative_error R t s hs hinc h0 f hf k hk
  have e3 := C11_smh_is_integral t s hs hinc1 f hf k hk
  have hp := cmf_nonneg hs hinc1 h0 k
  rw [List.getD_eq_getElem?_getD, List.getD_eq_getElem?_getD, e1]
  rw [List.getD_eq_getElem?_getD, e3] at hp
  rw [e3]
  simp only [Option.getD_some] at hp ⊢
  refine e2.trans (mul_le_mul_of_nonneg_right ?_ hp)
  have := pow_u_small R.u_nonneg hu (k := k + 9) (by omega)
  push_cast at this
  exact this

theorem cmfFl_mono (R : Rounding) (hu : R.u ≤ 2 ^ (-24 : ℤ)) (hs : s.length = t.length) (hinc : Increasing (0.002 :: t))
    (h0 : ∀ y ∈ s, 0 ≤ y) : (R.cumulativeMstarFormed t s).length = t.length ∧ 0 ≤ (R.cumulativeMstarFormed t s).getD 0 0 ∧
      ∀ k, k + 1 < t.length → (R.cumulativeMstarFormed t s).getD k 0 ≤ (R.cumulativeMstarFormed t s).getD (k + 1) 0 := by
  have hu1 : R.u < 1 := lt_of_le_of_lt hu (by norm_num)
  have hc := List.pairwise_cons.1 hinc
  have h1 : R.fl 0.001 ≤ 0.002 := by
    have := (abs_le.1 (R.err 0.001)).2
    rw [abs_of_pos (by norm_num)] at this
    norm_num at this ⊢
    linarith
  obtain ⟨a, b, c⟩ := C124_masses_never_decrease R hu1 t s hs (List.pairwise_cons.2 ⟨fun x hx => lt_of_le_of_lt h1 (hc.1 x hx), hc.2⟩) h0
  refine ⟨a, getD_nonneg (fun m hm => (b m hm).le) 0, fun k hk => ?_⟩
  rw [List.getD_eq_getElem _ _ (by omega), List.getD_eq_getElem _ _ (by omega)]
  exact List.pairwise_iff_getElem.1 c k (k + 1) (by omega) (by omega) (by omega)

theorem cmf_rel {s' : List ℝ} (hs : s.length = t.length) (hs' : s'.length = t.length) (hinc : Increasing (0.001 :: t)) {δ : ℝ} (hδ : 0 ≤ δ)
    (hrel : ∀ k, k < t.length → |s'.getD k 0 - s.getD k 0| ≤ δ * s.getD k 0) {k : ℕ} (hk : k < t.length) :
    |(cumulativeMstarFormed t s').getD k 0 - (cumulativeMstarFormed t s).getD k 0| ≤ δ * (cumulativeMstarFormed t s).getD k 0 := by
  have h2 : List.Forall₂ (fun x' x => |x' - x| ≤ δ * x) s' s := by
    rw [List.forall₂_iff_get]
    refine ⟨by omega, fun i h1 h2 => ?_⟩
    have := hrel i (by omega)
    rwa [List.getD_eq_getElem _ _ h1, List.getD_eq_getElem _ _ h2] at this
  have hrel : List.Forall₂ (fun x' x => |x' - x| ≤ δ * x) (cumulativeMstarFormed t s') (cumulativeMstarFormed t s) := by
    rw [cmf_eq, cmf_eq, List.forall₂_map_left_iff, List.forall₂_map_right_iff]
    refine (trapFrom_rel δ t s s' 0.001 (1 / 10 ^ 14) (1 / 10 ^ 14) 0 0 (by rw [sub_self, abs_zero]; positivity)
      (by simp) hinc h2).imp ?_
    intro a b h
    rw [← sub_mul, abs_mul, abs_of_pos (by norm_num : (0 : ℝ) < 10 ^ 9), ← mul_assoc]
    exact mul_le_mul_of_nonneg_right h (by norm_num)
  have l1 := cmf_length t s hs
  have l2 := cmf_length t s' hs'
  have := (List.forall₂_iff_get.1 hrel).2 k (by omega) (by omega)
  rw [List.getD_eq_getElem _ _ (by omega), List.getD_eq_getElem _ _ (by omega)]
  exact this

end masses

/-- The difference of the two masses, before the divisions. -/
theorem fstar_diff_err (R : Rounding) (hu : R.u ≤ 2 ^ (-24 : ℤ)) {t s s' : List ℝ} (hs : s.length = t.length)
    (hs' : s'.length = t.length) (hinc : Increasing (0.002 :: t)) (hfl : ∀ x ∈ t, R.fl x = x)
    (hgap : ∀ k, k + 1 < t.length → 1 / 10 ^ 13 ≤ t.getD (k + 1) 0 - t.getD k 0) (h0 : ∀ y ∈ s, 0 ≤ y) {δ : ℝ} (hδ0 : 0 ≤ δ)
    (hδ1 : δ ≤ 0.1) (hrel : ∀ k, k < t.length → |s'.getD k 0 - s.getD k 0| ≤ δ * s.getD k 0) {τ : ℝ} (hτ : 0 < τ) {i : ℕ}
    (hi : i < t.length) (hn : i ≤ 1000) {S : ℝ} (hS : ∀ k, k ≤ i → s.getD k 0 ≤ S) :
    let m := cumulativeMstarFormed t s
    let D := m.getD i 0 - npInterp (t.getD i 0 - τ) t m
    0 ≤ D ∧ |((R.cumulativeMstarFormed t s').getD i 0 -
        R.interp (R.fl (t.getD i 0 - τ)) t (R.cumulativeMstarFormed t s')) - D| ≤
      δ * D + (2.21 * (i + 13) * R.u * m.getD i 0 + 1.1 * 10 ^ 9 * R.u * t.getD i 0 * S) := by
  intro m D
  have hu0 := R.u_nonneg
  have hcons := List.pairwise_cons.1 hinc
  have hinc1 : Increasing (0.001 :: t) := List.pairwise_cons.2 ⟨fun x hx => lt_trans (by norm_num) (hcons.1 x hx), hcons.2⟩
  have hti : t.getD i 0 ∈ t := by rw [List.getD_eq_getElem _ _ hi]; exact List.getElem_mem hi
  have ht0 : t.getD 0 0 ∈ t := by rw [List.getD_eq_getElem _ _ (by omega)]; exact List.getElem_mem _
  have h0' : ∀ y ∈ s', 0 ≤ y := by
    intro y hy
    obtain ⟨k, hk, rfl⟩ := List.getElem_of_mem hy
    have h1 := hrel k (by omega)
    have h2 := getD_nonneg h0 k
    rw [List.getD_eq_getElem _ _ hk] at h1
    have := (abs_le.1 h1).1
    norm_num at hδ1
    nlinarith
  have hp := cmf_nonneg hs hinc1 h0
  have hp' := cmf_nonneg hs' hinc1 h0'
  have hxi : t.getD i 0 - τ ≤ t.getD i 0 := by linarith
  have hlm : m.length = t.length := cmf_length t s hs
  have hlm' := cmf_length t s' hs'
  obtain ⟨hl2, hz2, hmono2⟩ := cmfFl_mono R hu hs' hinc h0'
  -- increments
  have hstep : ∀ k, k + 1 ≤ i → 0 ≤ m.getD (k + 1) 0 - m.getD k 0 := by
    intro k hk
    rw [cmf_step hs (by omega)]
    have a := increasing_getD hcons.2 (Nat.lt_succ_self k) (by omega)
    have := getD_nonneg h0 k
    have := getD_nonneg h0 (k + 1)
    have : 0 ≤ t.getD (k + 1) 0 - t.getD k 0 := by linarith
    positivity
  have hincr : ∀ k, k + 1 ≤ i → |((cumulativeMstarFormed t s').getD (k + 1) 0 - (cumulativeMstarFormed t s').getD k 0) -
      (m.getD (k + 1) 0 - m.getD k 0)| ≤ δ * (m.getD (k + 1) 0 - m.getD k 0) := by
    intro k hk
    rw [cmf_step hs (by omega), cmf_step hs' (by omega)]
    have a := increasing_getD hcons.2 (Nat.lt_succ_self k) (by omega)
    have b1 := hrel k (by omega)
    have b2 := hrel (k + 1) (by omega)
    have ha : 0 < t.getD (k + 1) 0 - t.getD k 0 := by linarith
    generalize t.getD (k + 1) 0 - t.getD k 0 = w at *
    rw [show (10 : ℝ) ^ 9 * (w * (s'.getD (k + 1) 0 + s'.getD k 0) / 2) - 10 ^ 9 * (w * (s.getD (k + 1) 0 + s.getD k 0) / 2) =
      10 ^ 9 * w / 2 * ((s'.getD (k + 1) 0 - s.getD (k + 1) 0) + (s'.getD k 0 - s.getD k 0)) by ring,
      abs_mul, abs_of_nonneg (by positivity)]
    refine (mul_le_mul_of_nonneg_left ((abs_add_le _ _).trans (add_le_add b2 b1)) (by positivity)).trans (le_of_eq ?_)
    ring
  have hd := drop_rel hcons.2 hlm hlm' hi hxi hincr
  have hD : 0 ≤ D := by
    have := drop_rel (y' := m) (δ := 1) hcons.2 hlm hlm hi hxi (fun k hk => by rw [sub_self, abs_zero, one_mul]; exact hstep k hk)
    rw [sub_self, abs_zero, one_mul] at this
    exact this
  refine ⟨hD, ?_⟩
  have hS0 : 0 ≤ S := (getD_nonneg h0 0).trans (hS 0 (Nat.zero_le _))
  -- slopes of the perturbed masses
  have hslope : ∀ k, k + 1 ≤ i → 0 ≤ (cumulativeMstarFormed t s').getD (k + 1) 0 - (cumulativeMstarFormed t s').getD k 0 ∧
      (cumulativeMstarFormed t s').getD (k + 1) 0 - (cumulativeMstarFormed t s').getD k 0 ≤
        1.1 * 10 ^ 9 * S * (t.getD (k + 1) 0 - t.getD k 0) := by
    intro k hk
    rw [cmf_step hs' (by omega)]
    have a := increasing_getD hcons.2 (Nat.lt_succ_self k) (by omega)
    have ha : 0 < t.getD (k + 1) 0 - t.getD k 0 := by linarith
    have c1 := getD_nonneg h0' k
    have c2 := getD_nonneg h0' (k + 1)
    have up : ∀ j, j ≤ i → s'.getD j 0 ≤ 1.1 * S := by
      intro j hj
      have h1 := (abs_le.1 (hrel j (by omega))).2
      have h2 := hS j hj
      have h3 := getD_nonneg h0 j
      have h4 : δ * s.getD j 0 ≤ 0.1 * s.getD j 0 := mul_le_mul_of_nonneg_right hδ1 h3
      linarith only [h1, h2, h4]
    have u1 := up k (by omega)
    have u2 := up (k + 1) hk
    generalize t.getD (k + 1) 0 - t.getD k 0 = w at *
    refine ⟨by positivity, ?_⟩
    have := mul_le_mul_of_nonneg_left (add_le_add u2 u1) ha.le
    norm_num at this ⊢
    linarith
  -- the abscissa
  have hx' : R.fl (t.getD i 0 - τ) ≤ t.getD i 0 := by
    rw [← hfl _ hti]
    refine R.mono ?_
    rw [hfl _ hti]
    exact hxi
  have hlip : |npInterp (R.fl (t.getD i 0 - τ)) t (cumulativeMstarFormed t s') -
      npInterp (t.getD i 0 - τ) t (cumulativeMstarFormed t s')| ≤ 1.1 * 10 ^ 9 * R.u * t.getD i 0 * S := by
    have hti0 : 0 < t.getD i 0 := lt_trans (by norm_num) (hcons.1 _ hti)
    have ht00 : 0 < t.getD 0 0 := lt_trans (by norm_num) (hcons.1 _ ht0)
    rcases le_or_gt (t.getD i 0) τ with h | h
    · have hx0 : R.fl (t.getD i 0 - τ) ≤ 0 := by
        have := R.mono (show t.getD i 0 - τ ≤ 0 by linarith)
        rwa [R.fl_zero] at this
      have e : ∀ x, x ≤ 0 → npInterp x t (cumulativeMstarFormed t s') = (cumulativeMstarFormed t s').getD 0 0 := by
        intro x hx
        rcases npInterp_bracket t hcons.2 x i hi (by linarith) with ⟨-, f⟩ | ⟨k, hk, h1, h2, f⟩
        · exact f _ hlm'
        · exfalso
          rcases Nat.eq_zero_or_pos k with rfl | hk0
          · linarith
          · linarith [increasing_getD hcons.2 hk0 (by omega)]
      rw [e _ hx0, e _ (by linarith), sub_self, abs_zero]
      positivity
    · have herr := R.err (t.getD i 0 - τ)
      rw [abs_of_pos (show 0 < t.getD i 0 - τ by linarith)] at herr
      have key : |npInterp (R.fl (t.getD i 0 - τ)) t (cumulativeMstarFormed t s') -
          npInterp (t.getD i 0 - τ) t (cumulativeMstarFormed t s')| ≤ 1.1 * 10 ^ 9 * S * |R.fl (t.getD i 0 - τ) - (t.getD i 0 - τ)| := by
        rcases le_total (R.fl (t.getD i 0 - τ)) (t.getD i 0 - τ) with hle | hle
        · rw [abs_sub_comm, abs_sub_comm (R.fl _), abs_of_nonneg (sub_nonneg.2 hle)]
          exact interp_lip hcons.2 hlm' (by positivity) hi hslope hle hxi
        · rw [abs_of_nonneg (sub_nonneg.2 hle)]
          exact interp_lip hcons.2 hlm' (by positivity) hi hslope hle hx'
      refine key.trans ?_
      have : |R.fl (t.getD i 0 - τ) - (t.getD i 0 - τ)| ≤ R.u * t.getD i 0 :=
        herr.trans (mul_le_mul_of_nonneg_left hxi hu0)
      refine (mul_le_mul_of_nonneg_left this (by positivity)).trans (le_of_eq ?_)
      ring
  -- the masses
  have hm' : (cumulativeMstarFormed t s').getD i 0 ≤ 1.1 * m.getD i 0 := by
    have h1 := (abs_le.1 (cmf_rel hs hs' hinc1 hδ0 hrel hi)).2
    have h2 : δ * m.getD i 0 ≤ 0.1 * m.getD i 0 := mul_le_mul_of_nonneg_right hδ1 (hp i)
    linarith only [h1, h2]
  have hmono' : ∀ k, k ≤ i → (cumulativeMstarFormed t s').getD k 0 ≤ (cumulativeMstarFormed t s').getD i 0 := by
    intro k hk
    have := (slope_chain (T := fun k => t.getD k 0) (Y := fun k => (cumulativeMstarFormed t s').getD k 0) hslope k i hk le_rfl).1
    linarith
  have hE : ∀ k, k ≤ i → |(R.cumulativeMstarFormed t s').getD k 0 - (cumulativeMstarFormed t s').getD k 0| ≤
      1.001 * ((i + 9 : ℝ) * R.u) * (cumulativeMstarFormed t s').getD i 0 := by
    intro k hk
    have hki : (k : ℝ) ≤ i := by exact_mod_cast hk
    refine (cmfFl_err R hu hs' hinc h0' (by omega) (by omega)).trans ?_
    have := hmono' k hk
    have := hp' k
    gcongr
  have hint := R.interp_err hu t (R.cumulativeMstarFormed t s') hcons.2 hl2 _ i hi hx' (fun k hk => le_trans (by norm_num) (hgap k (by omega)))
    hz2 (fun k hk => hmono2 k (by omega))
  have hpert := interp_perturb hcons.2 hlm' hl2 hi hx' hE
  have hEi := hE i le_rfl
  have hmi := hp' i
  have hmi0 := hp i
  have hin : (0 : ℝ) ≤ i := Nat.cast_nonneg i
  have hin1 : (i : ℝ) ≤ 1000 := by exact_mod_cast hn
  change 0 ≤ m.getD i 0 at hmi0
  generalize (R.cumulativeMstarFormed t s').getD i 0 = a2 at *
  generalize (cumulativeMstarFormed t s').getD i 0 = a1 at *
  generalize R.interp (R.fl (t.getD i 0 - τ)) t (R.cumulativeMstarFormed t s') = b4 at *
  generalize npInterp (R.fl (t.getD i 0 - τ)) t (R.cumulativeMstarFormed t s') = b3 at *
  generalize npInterp (R.fl (t.getD i 0 - τ)) t (cumulativeMstarFormed t s') = b2 at *
  generalize npInterp (t.getD i 0 - τ) t (cumulativeMstarFormed t s') = b1 at *
  change |a1 - b1 - D| ≤ δ * D at hd
  generalize m.getD i 0 = M at *
  generalize 1.1 * 10 ^ 9 * R.u * t.getD i 0 * S = Z at *
  have hua : 0 ≤ R.u * a1 := mul_nonneg hu0 hmi
  have huM : R.u * a1 ≤ R.u * (1.1 * M) := mul_le_mul_of_nonneg_left hm' hu0
  have hu1 : R.u ≤ 1 / 10 ^ 7 := hu.trans (by norm_num)
  have ha2 : R.u * a2 ≤ 1.001 * (R.u * a1) := by
    have h1 := (abs_le.1 hEi).2
    have h2 : ((i : ℝ) + 9) * R.u ≤ 1009 * (1 / 10 ^ 7) := mul_le_mul (by linarith) hu1 hu0 (by norm_num)
    have h3 : 1.001 * (((i : ℝ) + 9) * R.u) * a1 ≤ 0.001 * a1 := mul_le_mul_of_nonneg_right (by norm_num at h2 ⊢; linarith) hmi
    have h4 : a2 ≤ 1.001 * a1 := by norm_num at h3 h1 ⊢; linarith
    have := mul_le_mul_of_nonneg_left h4 hu0
    norm_num at this ⊢
    linarith
  have hsum : |a2 - b4 - D| ≤ |a2 - a1| + |b4 - b3| + |b3 - b2| + |b2 - b1| + |a1 - b1 - D| := by
    rw [show a2 - b4 - D = (a2 - a1) + (-(b4 - b3)) + (-(b3 - b2)) + (-(b2 - b1)) + (a1 - b1 - D) by ring]
    have h1 := abs_add_le ((a2 - a1) + (-(b4 - b3)) + (-(b3 - b2)) + (-(b2 - b1))) (a1 - b1 - D)
    have h2 := abs_add_le ((a2 - a1) + (-(b4 - b3)) + (-(b3 - b2))) (-(b2 - b1))
    have h3 := abs_add_le ((a2 - a1) + (-(b4 - b3))) (-(b3 - b2))
    have h4 := abs_add_le (a2 - a1) (-(b4 - b3))
    rw [abs_neg] at h2 h3 h4
    linarith
  have hfin : 2 * (1.001 * (((i : ℝ) + 9) * R.u) * a1) + 7 * R.u * a2 ≤ 2.21 * (i + 13) * R.u * M := by
    have h1 : 2 * (1.001 * (((i : ℝ) + 9) * R.u) * a1) = 2.002 * (i + 9) * (R.u * a1) := by ring
    rw [h1]
    have h2 := mul_le_mul_of_nonneg_left huM (show (0 : ℝ) ≤ 2.002 * (i + 9) + 7.007 by positivity)
    have h3 : 0 ≤ R.u * M := mul_nonneg hu0 hmi0
    have h4 : 0 ≤ i * (R.u * M) := mul_nonneg hin h3
    norm_num at h2 ha2 ⊢
    nlinarith
  linarith

end Diffstar.Props
