import Verif.Lemmas.Fstar
import Mathlib.Data.List.GetD

/-!
Properties of the time-averaged SFR (`compute_fstar`) and of table interpolation: C21, C22, C41.
-/

namespace Diffstar.Props

open Diffstar.Spec MeasureTheory

/-! ### C21 -/

/-- **C21** (bounds): for an SFH with values in `[0, S]`, every time-averaged SFR lies in `[0, S]`, and it
is the mass gained over the window divided by the window, i.e. the clip at zero never acts. -/
theorem C21_fstar_between_zero_and_max (t s : List ℝ) (hs : s.length = t.length) (ht : Increasing t)
    (S : ℝ) (h0 : ∀ x ∈ s, 0 ≤ x) (hS : ∀ x ∈ s, x ≤ S) (τ : ℝ) (hτ : 0 < τ) :
    (computeFstar t (cumulativeMstarFormed t s) τ).length = t.length ∧
    ∀ i (hi : i < t.length) (h : i < (computeFstar t (cumulativeMstarFormed t s) τ).length)
      (h' : i < (cumulativeMstarFormed t s).length),
      0 ≤ (computeFstar t (cumulativeMstarFormed t s) τ)[i] ∧
      (computeFstar t (cumulativeMstarFormed t s) τ)[i] ≤ S ∧
      (computeFstar t (cumulativeMstarFormed t s) τ)[i] * τ * 10 ^ 9 =
        (cumulativeMstarFormed t s)[i] -
          npInterp (t[i] - τ) t (cumulativeMstarFormed t s) := by
  have hlen := cmf_length t s hs
  refine ⟨computeFstar_length _ _ hlen _, ?_⟩
  intro i hi h h'
  match t, s, hs with
  | [], _, _ => simp at hi
  | b :: t, sb :: s, hs =>
    have hS0 : 0 ≤ S := (h0 sb (by simp)).trans (hS sb (by simp))
    have hsl : SlopesIn (S * 10 ^ 9) (b :: t) (cumulativeMstarFormed (b :: t) (sb :: s)) := by
      rw [cmf_eq]
      exact SlopesIn_smul (by norm_num) _ _ (trapFrom_slopes _ _ _ _ _ hs ht h0 hS)
    obtain ⟨y0, ys, hy⟩ : ∃ y0 ys, cumulativeMstarFormed (b :: t) (sb :: s) = y0 :: ys := by
      rw [cmf_eq]; exact ⟨_, _, rfl⟩
    rw [computeFstar_getElem _ _ _ _ h hi h']
    simp only [hy] at hsl hlen h' ⊢
    obtain ⟨a1, a2⟩ := npInterp_lipschitz (by positivity) b y0 t ys (by simpa using hlen) ht hsl
      ((b :: t)[i] - τ) i hi h' (by linarith)
    set D := (y0 :: ys)[i] - npInterp ((b :: t)[i] - τ) (b :: t) (y0 :: ys) with hD
    have hD1 : D ≤ S * 10 ^ 9 * τ := by
      have : (b :: t)[i] - ((b :: t)[i] - τ) = τ := by ring
      rwa [this] at a2
    have e : (if D / τ / 10 ^ 9 > 0 then D / τ / 10 ^ 9 else 0) = D / τ / 10 ^ 9 := by
      split_ifs with hc
      · rfl
      · exact (le_antisymm (not_lt.1 hc) (by positivity)).symm
    rw [e]
    refine ⟨by positivity, ?_, by field_simp⟩
    rw [div_div, div_le_iff₀ (by positivity)]
    linarith

/-- **C21** (constant SFH): if the SFR is constantly `c`, every average whose window starts inside the
table is exactly `c`. -/
theorem C21_fstar_of_constant (t : List ℝ) (ht : Increasing t) (c : ℝ) (hc : 0 ≤ c) (τ : ℝ)
    (hτ : 0 < τ) (i : ℕ) (hi : i < t.length) (hwin : t[0] ≤ t[i] - τ)
    (h : i < (computeFstar t (cumulativeMstarFormed t (List.replicate t.length c)) τ).length) :
    (computeFstar t (cumulativeMstarFormed t (List.replicate t.length c)) τ)[i] = c := by
  match t with
  | [] => simp at hi
  | b :: t =>
    have hm : cumulativeMstarFormed (b :: t) (List.replicate (b :: t).length c) =
        (b :: t).map fun x =>
          ((0 + (b - 0.001) * (c + 1 / 10 ^ 14) / 2 - c * b) * 10 ^ 9) + (c * 10 ^ 9) * x := by
      rw [cmf_eq, List.length_cons, trapFrom_const, List.map_map]
      apply List.map_congr_left
      intro x _
      simp only [Function.comp]
      ring
    rw [computeFstar_getElem _ _ _ _ h hi (by rw [hm]; simpa using hi)]
    simp only [hm]
    rw [npInterp_affine _ _ b t ht ((b :: t)[i] - τ) hwin
      ⟨(b :: t)[i], List.getElem_mem _, by linarith⟩]
    simp only [List.getElem_map]
    have e : ∀ A x : ℝ, (A + c * 10 ^ 9 * x - (A + c * 10 ^ 9 * (x - τ))) / τ / 10 ^ 9 = c := by
      intro A x
      field_simp
      ring
    rw [e]
    split_ifs with h1
    · rfl
    · linarith [not_lt.1 h1]

/-- **C21** (meaning): when the window starts at a table time, the reported value is the true time average
`(1/τ) ∫ SFR` of the linearly interpolated SFH. -/
theorem C21_fstar_is_window_average (t s : List ℝ) (hs : s.length = t.length) (ht : Increasing t)
    (h0 : ∀ x ∈ s, 0 ≤ x) (hb : ∀ x ∈ t, 0.001 < x) (i j : ℕ) (hi : i < t.length) (hji : j < i)
    (f : ℝ → ℝ) (hf : IsLinInterp (0.001 :: t) (1 / 10 ^ 14 :: s) f)
    (h : i < (computeFstar t (cumulativeMstarFormed t s) (t[i] - t[j])).length) :
    (computeFstar t (cumulativeMstarFormed t s) (t[i] - t[j]))[i] =
      (∫ x in t[j]..t[i], f x) / (t[i] - t[j]) := by
  have hlt : t[j] < t[i] := List.pairwise_iff_getElem.1 ht j i (by omega) hi hji
  have hlen := cmf_length t s hs
  have hinc : Increasing (0.001 :: t) := List.pairwise_cons.2 ⟨hb, ht⟩
  obtain ⟨ii, ei⟩ := trapFrom_integral 0.001 (1 / 10 ^ 14) 0 t s hs hinc f hf i hi
  obtain ⟨ij, ej⟩ := trapFrom_integral 0.001 (1 / 10 ^ 14) 0 t s hs hinc f hf j (by omega)
  obtain ⟨-, hC21⟩ := C21_fstar_between_zero_and_max t s hs ht (s.sum) h0
    (fun x hx => List.single_le_sum h0 x hx) (t[i] - t[j]) (by linarith)
  obtain ⟨-, -, hval⟩ := hC21 i hi h (by omega)
  have hgrid : npInterp (t[i] - (t[i] - t[j])) t (cumulativeMstarFormed t s) =
      (cumulativeMstarFormed t s)[j]'(by omega) := by
    have e : t[i] - (t[i] - t[j]) = t[j] := by ring
    rw [e]
    have key : ∀ (t m : List ℝ) (_ : m.length = t.length) (_ : Increasing t) (hj : j < t.length)
        (hj' : j < m.length), npInterp t[j] t m = m[j] := by
      intro t m hl ht hj hj'
      match t, m, hl with
      | b :: t, y :: m, hl => exact npInterp_grid b y t m (by simpa using hl) ht j hj hj'
    exact key _ _ hlen ht _ _
  rw [hgrid] at hval
  have mi : (cumulativeMstarFormed t s)[i]'(by omega) = (0 + ∫ x in 0.001..t[i], f x) * 10 ^ 9 := by
    obtain ⟨hx, hxe⟩ := List.getElem?_eq_some_iff.1 ei
    simp only [cmf_eq, List.getElem_map, hxe]
  have mj : (cumulativeMstarFormed t s)[j]'(by omega) = (0 + ∫ x in 0.001..t[j], f x) * 10 ^ 9 := by
    obtain ⟨hx, hxe⟩ := List.getElem?_eq_some_iff.1 ej
    simp only [cmf_eq, List.getElem_map, hxe]
  rw [mi, mj] at hval
  have hsub : (∫ x in (0.001)..t[i], f x) - ∫ x in (0.001)..t[j], f x = ∫ x in t[j]..t[i], f x :=
    intervalIntegral.integral_interval_sub_left ii ij
  rw [eq_div_iff (by linarith), ← hsub]
  nlinarith [hval]

example : Increasing ([1, 2, 4] : List ℝ) ∧ (∀ x ∈ ([1, 2, 4] : List ℝ), 0.001 < x) ∧
    (∀ x ∈ ([3, 0, 7] : List ℝ), 0 ≤ x) ∧ (∀ x ∈ ([3, 0, 7] : List ℝ), x ≤ 7) ∧
    ([1, 2, 4] : List ℝ)[0] ≤ ([1, 2, 4] : List ℝ)[2] - 3 := by
  unfold Increasing; norm_num

/-! ### C22 -/

/-- **C22** is false as documented: the first entry of every table is exactly zero, whatever the SFH. -/
theorem C22_fstar_positive_violated (t m : List ℝ) (hm : m.length = t.length) (hn : t ≠ []) (τ : ℝ)
    (hτ : 0 < τ) : (computeFstar t m τ).head? = some 0 := by
  match t, m, hm with
  | b :: t, y :: m, hm =>
    have e : npInterp (b - τ) (b :: t) (y :: m) = y :=
      npInterp_lower _ _ _ _ _ (by linarith) (by simpa using hm)
    simp [computeFstar, e]

/-- **C22**, the part that holds: for a positive SFH every entry after the first is positive.
Missing: the first entry (which is zero, see `C22_fstar_positive_violated`). -/
theorem C22_fstar_positive_partial (t s : List ℝ) (hs : s.length = t.length) (ht : Increasing t)
    (hpos : ∀ x ∈ s, 0 < x) (τ : ℝ) (hτ : 0 < τ) (i : ℕ) (hi : i + 1 < t.length)
    (h : i + 1 < (computeFstar t (cumulativeMstarFormed t s) τ).length) :
    0 < (computeFstar t (cumulativeMstarFormed t s) τ)[i + 1] := by
  have hlen := cmf_length t s hs
  rw [computeFstar_getElem _ _ _ _ h hi (by omega)]
  match t, s, hs with
  | b :: t, sb :: s, hs =>
    have hmono : Increasing (cumulativeMstarFormed (b :: t) (sb :: s)) := by
      rw [cmf_eq]
      unfold Increasing
      rw [List.pairwise_map]
      have ht' := List.pairwise_cons.1 ht
      have := trapFrom_strictMono b sb (0 + (b - 0.001) * (sb + 1 / 10 ^ 14) / 2) (t.zip s)
        (hpos sb (by simp)) (fun p hp => ht'.1 p.1 (List.of_mem_zip hp).1)
        (by
          have h1 : (t.zip s).Pairwise fun p q => p.1 < q.1 := by
            rw [← List.pairwise_map (f := Prod.fst) (R := (· < ·)), List.map_fst_zip (by simp at hs; omega)]
            exact ht'.2
          exact h1)
        (fun p hp => hpos p.2 (by simp [(List.of_mem_zip hp).2]))
      have h2 : (trapFrom 0.001 (1 / 10 ^ 14) 0 ((b :: t).zip (sb :: s))).Pairwise (· < ·) := by
        rw [List.zip_cons_cons, trapFrom_cons]
        exact List.pairwise_cons.2 this
      exact h2.imp fun {x y} hxy => by nlinarith
    obtain ⟨y0, ys, hy⟩ : ∃ y0 ys, cumulativeMstarFormed (b :: t) (sb :: s) = y0 :: ys := by
      rw [cmf_eq]; exact ⟨_, _, rfl⟩
    simp only [hy] at hmono hlen ⊢
    simp only [List.getElem_cons_succ]
    have := npInterp_lt b y0 t ys (by simpa using hlen) ht hmono (t[i]'(by simpa using hi) - τ) i
      (by simpa using hi) (by simp at hlen hi; omega) (by linarith)
    have hp : 0 < (ys[i]'(by simp at hlen hi; omega) -
        npInterp (t[i]'(by simpa using hi) - τ) (b :: t) (y0 :: ys)) / τ / 10 ^ 9 := by
      have := sub_pos.2 this
      positivity
    rw [if_pos hp]
    exact hp

example : Increasing ([1, 2, 4] : List ℝ) ∧ (∀ x ∈ ([3, 1, 7] : List ℝ), 0 < x) := by
  unfold Increasing; norm_num

/-! ### C41 -/

/-- **C41** is false outside the table: to the right of the last abscissa the JAX version is undefined
(zero divided by zero) while `np.interp` returns the last ordinate. -/
theorem C41_jax_interp_violated_right (x x0 x1 y0 y1 : ℝ) (h : x0 < x1) (hx : x1 < x) :
    jaxNpInterp x [x0, x1] [y0, y1] (searchsortedLeft [x0, x1] x) = none ∧
      npInterp x [x0, x1] [y0, y1] = y1 := by
  have h0 : x0 < x := h.trans hx
  constructor
  · simp [jaxNpInterp, searchsortedLeft, h0, hx, jaxIndex]
  · simp [npInterp, not_le.2 h0, not_le.2 hx]

/-- **C41** is false outside the table: to the left of the first abscissa the JAX version extrapolates
along the chord through the first and *last* table points; concrete disagreement with `np.interp`. -/
theorem C41_jax_interp_violated_left :
    jaxNpInterp (-1) [0, 1, 2] [0, 5, 2] (searchsortedLeft [0, 1, 2] (-1)) = some (-1) ∧
      npInterp (-1) [0, 1, 2] [0, 5, 2] = 0 := by
  constructor
  · have e : Int.toNat 2 = 2 := rfl
    norm_num [jaxNpInterp, searchsortedLeft, jaxIndex]
    simp only [e]
    norm_num
  · norm_num [npInterp]

/-- **C41**, the part that holds: inside the table range (ends included) the two agree, for strictly
increasing tables with at least two points. Missing: abscissae outside the table. -/
theorem C41_jax_interp_partial (xt yt : List ℝ) (hl : yt.length = xt.length) (h2 : 2 ≤ xt.length)
    (hinc : Increasing xt) (x : ℝ) (hlo : xt[0] ≤ x) (hhi : x ≤ xt[xt.length - 1]) :
    jaxNpInterp x xt yt (searchsortedLeft xt x) = some (npInterp x xt yt) := by
  match xt, yt, hl, h2 with
  | x0 :: xs, y0 :: ys, hl, h2 =>
    simp only [List.getElem_cons_zero] at hlo
    have hmono := List.pairwise_iff_getElem.1 hinc
    rcases hlo.lt_or_eq with hlt | heq
    · have hmem : ∃ z ∈ xs, x ≤ z := by
        have h3 : (x0 :: xs).length - 1 = (xs.length - 1) + 1 := by simp at h2 ⊢; omega
        simp only [h3, List.getElem_cons_succ] at hhi
        exact ⟨_, List.getElem_mem _, hhi⟩
      obtain ⟨k, hk, hk', hs, he⟩ := npInterp_eq_chord x0 y0 xs ys (by simpa using hl) hinc x hlt hmem
      rw [hs, he]
      have e1 : ((k + 1 : ℕ) : ℤ) - 1 = (k : ℕ) := by push_cast; ring
      have hne : (x0 :: xs)[k + 1] - (x0 :: xs)[k] ≠ 0 :=
        (sub_pos.2 (hmono k (k + 1) (by omega) hk (by omega))).ne'
      simp only [jaxNpInterp, e1, jaxIndex_nat hk, jaxIndex_nat (show k < (x0 :: xs).length by omega)]
      simp only [List.getD_eq_getElem _ _ hk, List.getD_eq_getElem _ _ hk',
        List.getD_eq_getElem (x0 :: xs) _ (show k < (x0 :: xs).length by omega),
        List.getD_eq_getElem (y0 :: ys) _ (show k < (y0 :: ys).length by omega)]
      rw [if_neg hne]
    · subst heq
      rw [searchsorted_cons_ge le_rfl, npInterp_lower _ _ _ _ _ le_rfl (by simpa using hl)]
      have hn : xs.length < (x0 :: xs).length := by simp
      have hn' : xs.length < (y0 :: ys).length := by rw [hl]; simp
      have e1 : jaxIndex (x0 :: xs).length (((0 : ℕ) : ℤ) - 1) = xs.length := by
        simp [jaxIndex]
      have hne : x0 - (x0 :: xs)[xs.length] ≠ 0 := by
        have := hmono 0 xs.length (by simp) (by simp) (by simp at h2; omega)
        simp only [List.getElem_cons_zero] at this
        exact (sub_neg.2 this).ne
      simp only [jaxNpInterp, e1, jaxIndex_nat (show 0 < (x0 :: xs).length by simp)]
      simp only [List.getD_eq_getElem _ _ hn, List.getD_eq_getElem _ _ hn', List.getD_cons_zero]
      rw [if_neg hne]
      congr 1
      field_simp
      ring

example : Increasing ([0, 1, 2] : List ℝ) ∧ 2 ≤ ([0, 1, 2] : List ℝ).length ∧
    ([0, 1, 2] : List ℝ)[0] ≤ 1.5 ∧ (1.5 : ℝ) ≤ ([0, 1, 2] : List ℝ)[2] := by
  unfold Increasing; norm_num

end Diffstar.Props
