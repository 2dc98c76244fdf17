import Verif.Lemmas.Rounding
import Verif.Props.Smh
import Mathlib.Analysis.SpecialFunctions.Exponential

/-!
C124: stellar masses in floating-point arithmetic.
-/

namespace Diffstar.Props

open Diffstar.Spec

/-- Running masses in floating point. -/
noncomputable abbrev trapFl (R : Rounding) (a fa c : ℝ) (l : List (ℝ × ℝ)) : List ℝ :=
  scanOut R.cumtrapzScanFunc (a, fa, c) l

theorem trapFl_cons (R : Rounding) (a fa c b fb : ℝ) (l : List (ℝ × ℝ)) :
    trapFl R a fa c ((b, fb) :: l) = R.fl (c + R.fl (R.fl (R.fl (b - a) * R.fl (fb + fa)) / 2)) ::
      trapFl R b fb (R.fl (c + R.fl (R.fl (R.fl (b - a) * R.fl (fb + fa)) / 2))) l := rfl

theorem cmfFl_eq (R : Rounding) (t s : List ℝ) :
    R.cumulativeMstarFormed t s =
      (trapFl R (R.fl 0.001) (R.fl (1 / 10 ^ 14)) 0 (t.zip s)).map fun m => R.fl (m * R.fl (10 ^ 9)) := by
  simp [Rounding.cumulativeMstarFormed, Rounding.cumtrapz, T_BIRTH_MIN, SFR_MIN, YEAR_PER_GYR, scanOut,
    Rounding.cumtrapzScanFunc, R.fl_zero]

theorem trapFl_length (R : Rounding) (a fa c : ℝ) (l : List (ℝ × ℝ)) : (trapFl R a fa c l).length = l.length := by
  induction l generalizing a fa c with
  | nil => rfl
  | cons x l ih => obtain ⟨b, fb⟩ := x; rw [trapFl_cons, List.length_cons, ih, List.length_cons]

theorem trapFl_mono (R : Rounding) (a fa c : ℝ) (l : List (ℝ × ℝ)) (hc : R.fl c = c) (hfa : 0 ≤ fa)
    (ha : ∀ p ∈ l, a ≤ p.1) (hl : l.Pairwise fun p q => p.1 ≤ q.1) (hp : ∀ p ∈ l, 0 ≤ p.2) :
    (∀ m ∈ trapFl R a fa c l, c ≤ m) ∧ (trapFl R a fa c l).Pairwise (· ≤ ·) := by
  induction l generalizing a fa c with
  | nil => simp [trapFl, scanOut]
  | cons x l ih =>
    obtain ⟨b, fb⟩ := x
    have hab : a ≤ b := ha (b, fb) List.mem_cons_self
    have hfb : 0 ≤ fb := hp (b, fb) List.mem_cons_self
    rw [List.pairwise_cons] at hl
    have hinc : 0 ≤ R.fl (R.fl (R.fl (b - a) * R.fl (fb + fa)) / 2) :=
      R.fl_nonneg (div_nonneg (R.fl_nonneg (mul_nonneg (R.fl_nonneg (by linarith)) (R.fl_nonneg (by linarith)))) (by norm_num))
    rw [trapFl_cons]
    generalize R.fl (R.fl (R.fl (b - a) * R.fl (fb + fa)) / 2) = d at hinc
    obtain ⟨h1, h2⟩ := ih b fb (R.fl (c + d)) (R.idem _) hfb (fun p hpm => hl.1 p hpm) hl.2
      (fun p hpm => hp p (List.mem_cons_of_mem _ hpm))
    have hcd : c ≤ R.fl (c + d) := by
      have := R.mono (show c ≤ c + d by linarith)
      rwa [hc] at this
    refine ⟨?_, List.pairwise_cons.2 ⟨h1, h2⟩⟩
    intro m hm
    rcases List.mem_cons.1 hm with rfl | hm
    · exact hcd
    · exact hcd.trans (h1 m hm)

/-- **C124**: with rounding to any precision computed masses are positive and never decrease. -/
theorem C124_masses_never_decrease (R : Rounding) (hu : R.u < 1) (t s : List ℝ) (hs : s.length = t.length)
    (hinc : (R.fl 0.001 :: t).Pairwise (· < ·)) (hpos : ∀ y ∈ s, 0 ≤ y) :
    (R.cumulativeMstarFormed t s).length = t.length ∧ (∀ m ∈ R.cumulativeMstarFormed t s, 0 < m) ∧
      (R.cumulativeMstarFormed t s).Pairwise (· ≤ ·) := by
  have h9 : 0 < R.fl (10 ^ 9) := R.fl_pos hu (by norm_num)
  have h14 : 0 < R.fl (1 / 10 ^ 14) := R.fl_pos hu (by norm_num)
  rw [cmfFl_eq]
  refine ⟨by rw [List.length_map, trapFl_length, List.length_zip, hs, min_self], ?_, ?_⟩
  · rw [List.pairwise_cons] at hinc
    cases t with
    | nil => simp [trapFl, scanOut]
    | cons b t =>
      cases s with
      | nil => simp at hs
      | cons y s =>
        rw [List.zip_cons_cons, trapFl_cons]
        have hb := hinc.1 b List.mem_cons_self
        have hy := hpos y List.mem_cons_self
        have hd : 0 < R.fl (R.fl (R.fl (b - R.fl 0.001) * R.fl (y + R.fl (1 / 10 ^ 14))) / 2) :=
          R.fl_pos hu (div_pos (R.fl_pos hu (mul_pos (R.fl_pos hu (by linarith)) (R.fl_pos hu (by linarith)))) (by norm_num))
        generalize R.fl (R.fl (R.fl (b - R.fl 0.001) * R.fl (y + R.fl (1 / 10 ^ 14))) / 2) = d at hd
        have h0 : 0 < R.fl (0 + d) := R.fl_pos hu (by linarith)
        obtain ⟨h1, -⟩ := trapFl_mono R b y (R.fl (0 + d)) (t.zip s) (R.idem _) hy
          (fun p hp => ((List.pairwise_cons.1 hinc.2).1 _ (mem_zip_fst hp)).le)
          ((pairwise_zip (List.pairwise_cons.1 hinc.2).2 s).imp fun h => h.le)
          (fun p hp => hpos _ (List.mem_cons_of_mem _ (mem_zip_snd hp)))
        intro m hm
        obtain ⟨c, hc, rfl⟩ := List.mem_map.1 hm
        refine R.fl_pos hu (mul_pos ?_ h9)
        rcases List.mem_cons.1 hc with rfl | hc
        · exact h0
        · exact h0.trans_le (h1 c hc)
  · rw [List.pairwise_cons] at hinc
    obtain ⟨-, h2⟩ := trapFl_mono R (R.fl 0.001) (R.fl (1 / 10 ^ 14)) 0 (t.zip s) R.fl_zero h14.le
      (fun p hp => (hinc.1 _ (mem_zip_fst hp)).le) ((pairwise_zip hinc.2 s).imp fun h => h.le)
      (fun p hp => hpos _ (mem_zip_snd hp))
    rw [List.pairwise_map]
    exact h2.imp fun h => R.mono (mul_le_mul_of_nonneg_right h h9.le)

open Rounding in
theorem trapFl_error (R : Rounding) (a fa c c' : ℝ) (k : ℕ) (l : List (ℝ × ℝ)) (hk : 4 ≤ k) (hc : R.Approx k c c' c) (hfa : 0 ≤ fa)
    (ha : ∀ p ∈ l, a ≤ p.1) (hl : l.Pairwise fun p q => p.1 ≤ q.1) (hp : ∀ p ∈ l, 0 ≤ p.2) (i : ℕ) (hi : i < l.length) :
    ∃ m m', (trapFrom a fa c l)[i]? = some m ∧ (trapFl R a fa c' l)[i]? = some m' ∧ R.Approx (k + i + 1) m m' m := by
  induction l generalizing a fa c c' k i with
  | nil => simp at hi
  | cons x l ih =>
    obtain ⟨b, fb⟩ := x
    have hab : a ≤ b := ha (b, fb) List.mem_cons_self
    have hfb : 0 ≤ fb := hp (b, fb) List.mem_cons_self
    rw [List.pairwise_cons] at hl
    have hterm := ((((Approx.exact (R := R) (b - a)).round).mul ((Approx.exact (R := R) (fb + fa)).round)).round.div_const 2).round
    rw [abs_of_nonneg (sub_nonneg.2 hab), abs_of_nonneg (add_nonneg hfb hfa), abs_of_pos (by norm_num : (0 : ℝ) < 2)] at hterm
    have hsum := ((hc.add hterm).round).mono (show max k 4 + 1 ≤ k + 1 by omega) le_rfl
    rw [trapFrom_cons, trapFl_cons]
    cases i with
    | zero => exact ⟨_, _, rfl, rfl, hsum⟩
    | succ i =>
      obtain ⟨m, m', h1, h2, h3⟩ := ih b fb _ _ (k + 1) (by omega) hsum hfb (fun p hpm => hl.1 p hpm) hl.2
        (fun p hpm => hp p (List.mem_cons_of_mem _ hpm)) i (by simpa using hi)
      exact ⟨m, m', h1, h2, h3.mono (by omega) le_rfl⟩

open Rounding in
/-- **C124**: computed masses have a relative error of a few unit roundoffs, and one more for each time of the table. -/
theorem C124_relative_error (R : Rounding) (t s : List ℝ) (hs : s.length = t.length) (hinc : Increasing (0.002 :: t))
    (hpos : ∀ y ∈ s, 0 ≤ y) (f : ℝ → ℝ) (hf : IsLinInterp (0.001 :: t) (1 / 10 ^ 14 :: s) f) (i : ℕ) (hi : i < t.length) :
    let mass := 10 ^ 9 * ∫ x in (0.001 : ℝ)..t[i], f x
    ∃ m, (R.cumulativeMstarFormed t s)[i]? = some m ∧ |m - mass| ≤ ((1 + R.u) ^ (i + 9) - 1) * mass := by
  intro mass
  unfold Increasing at hinc
  rw [List.pairwise_cons] at hinc
  have hinc' : Increasing (0.001 :: t) := List.pairwise_cons.2 ⟨fun x hx => lt_trans (by norm_num) (hinc.1 x hx), hinc.2⟩
  have hex := C11_smh_is_integral t s hs hinc' f hf i hi
  change _ = some mass at hex
  rw [cmf_eq] at hex
  rw [cmfFl_eq]
  cases t with
  | nil => simp at hi
  | cons b t =>
    cases s with
    | nil => simp at hs
    | cons y s =>
      have hb := hinc.1 b List.mem_cons_self
      have hy := hpos y List.mem_cons_self
      -- the first interval
      have h1 : R.Approx 1 (b - 0.001) (b - R.fl 0.001) (b - 0.001) := by
        refine ⟨by rw [abs_of_nonneg]; norm_num at hb ⊢; linarith, ?_⟩
        have h := R.err 0.001
        rw [show b - R.fl 0.001 - (b - 0.001) = -(R.fl 0.001 - 0.001) by ring, abs_neg]
        refine h.trans ?_
        rw [abs_of_pos (by norm_num), pow_one, add_sub_cancel_left]
        refine mul_le_mul_of_nonneg_left ?_ R.u_nonneg
        norm_num at hb ⊢
        linarith
      have h2 : R.Approx 1 (y + 1 / 10 ^ 14) (y + R.fl (1 / 10 ^ 14)) (y + 1 / 10 ^ 14) := by
        have := (Approx.exact (R := R) y).add ((Approx.exact (R := R) (1 / 10 ^ 14)).round)
        rw [abs_of_nonneg hy, abs_of_pos (by norm_num)] at this
        exact this
      have hterm := ((h1.round.mul h2.round).round.div_const 2).round
      have hsum := ((Approx.exact (R := R) 0).add hterm).round
      rw [abs_zero, abs_of_pos (by norm_num : (0 : ℝ) < 2)] at hsum
      rw [List.zip_cons_cons, trapFl_cons]
      rw [List.zip_cons_cons, trapFrom_cons] at hex
      have h9 := (Approx.exact (R := R) (10 ^ 9)).round
      rw [abs_of_pos (by norm_num : (0 : ℝ) < 10 ^ 9)] at h9
      have hlast : ∀ {k : ℕ} {m m' : ℝ}, R.Approx k m m' m → k ≤ i + 7 → m * 10 ^ 9 = mass →
          |R.fl (m' * R.fl (10 ^ 9)) - mass| ≤ ((1 + R.u) ^ (i + 9) - 1) * mass := by
        intro k m m' h hk he
        have := ((h.mul h9).round).mono (show k + (0 + 1) + 1 ≤ i + 9 by omega) le_rfl
        rw [he] at this
        exact this.2
      cases i with
      | zero =>
        rw [List.map_cons, List.getElem?_cons_zero, Option.some.injEq] at hex
        exact ⟨_, rfl, hlast hsum (by norm_num) hex⟩
      | succ i =>
        obtain ⟨m, m', e1, e2, e3⟩ := trapFl_error R b y _ _ 7 (t.zip s) (by norm_num) hsum hy
          (fun p hp => ((List.pairwise_cons.1 hinc.2).1 _ (mem_zip_fst hp)).le)
          ((pairwise_zip (List.pairwise_cons.1 hinc.2).2 s).imp fun h => h.le)
          (fun p hp => hpos _ (List.mem_cons_of_mem _ (mem_zip_snd hp))) i
          (by simp at hs hi ⊢; omega)
        rw [List.map_cons, List.getElem?_cons_succ, List.getElem?_map, e1, Option.map_some, Option.some.injEq] at hex
        refine ⟨R.fl (m' * R.fl (10 ^ 9)), ?_, hlast e3 (by omega) hex⟩
        rw [List.map_cons, List.getElem?_cons_succ, List.getElem?_map, e2, Option.map_some]

/-- **C124**: in single precision masses are correct to one part in 10⁴ for tables of up to 1000 times. -/
theorem C124_single_precision (t s : List ℝ) (hs : s.length = t.length) (hinc : Increasing (0.002 :: t))
    (hpos : ∀ y ∈ s, 0 ≤ y) (f : ℝ → ℝ) (hf : IsLinInterp (0.001 :: t) (1 / 10 ^ 14 :: s) f) (hn : t.length ≤ 1000)
    (i : ℕ) (hi : i < t.length) :
    let mass := 10 ^ 9 * ∫ x in (0.001 : ℝ)..t[i], f x
    ∃ m, (float32.cumulativeMstarFormed t s)[i]? = some m ∧ |m - mass| ≤ mass / 10 ^ 4 := by
  intro mass
  obtain ⟨m, h1, h2⟩ := C124_relative_error float32 t s hs hinc hpos f hf i hi
  refine ⟨m, h1, h2.trans ?_⟩
  have hinc' : Increasing (0.001 :: t) := by
    unfold Increasing at hinc ⊢
    rw [List.pairwise_cons] at hinc ⊢
    exact ⟨fun x hx => lt_trans (by norm_num) (hinc.1 x hx), hinc.2⟩
  have hm : 0 ≤ mass := by
    have hex := C11_smh_is_integral t s hs hinc' f hf i hi
    exact ((C12_smh_increasing t s hs hinc').2 hpos).1 _ (List.mem_of_getElem? hex)
  have hu : float32.u = 2 ^ (-24 : ℤ) := rfl
  have hpow : (1 + float32.u) ^ (i + 9) - 1 ≤ 1 / 10 ^ 4 := by
    have h3 : (1 + float32.u) ^ (i + 9) ≤ (1 + float32.u) ^ 1009 :=
      pow_le_pow_right₀ (by linarith [float32.u_nonneg]) (by omega)
    have h4 : (1 + float32.u) ^ 1009 ≤ Real.exp (float32.u) ^ 1009 :=
      pow_le_pow_left₀ (by linarith [float32.u_nonneg]) (by linarith [Real.add_one_le_exp float32.u]) _
    rw [← Real.exp_nat_mul] at h4
    have h5 := Real.exp_bound_div_one_sub_of_interval (x := ((1009 : ℕ) : ℝ) * float32.u) (mul_nonneg (by norm_num) float32.u_nonneg) (by rw [hu]; norm_num)
    have h6 : 1 / (1 - ((1009 : ℕ) : ℝ) * float32.u) ≤ 1 + 1 / 10 ^ 4 := by rw [hu]; norm_num
    linarith only [h3.trans (h4.trans (h5.trans h6))]
  rw [div_eq_mul_one_div, mul_comm mass]
  exact mul_le_mul_of_nonneg_right hpow hm

/-- **C124**: in single precision masses need not grow, though every rate is above the floor of `1e-14`: what is formed is lost
in rounding. -/
theorem C124_growth_can_stall : ∃ t s : List ℝ, s.length = t.length ∧ Increasing (0.002 :: t) ∧
    (∀ x ∈ t ++ s, float32.fl x = x) ∧ (∀ y ∈ s, 1 / 10 ^ 14 ≤ y) ∧
    ¬ Increasing (float32.cumulativeMstarFormed t s) := by
  have ex : ∀ (m : ℕ) (k : ℤ) (x : ℝ), x = m * 2 ^ k → m < 2 ^ 24 → float32.fl x = x := by
    intro m k x hx hm
    rw [hx]
    exact float32_exact m hm k
  have f1 : float32.fl 1 = 1 := float32.one
  have f64 : float32.fl 64 = 64 := ex 1 6 _ (by norm_num) (by norm_num)
  have f32 : float32.fl 32 = 32 := ex 1 5 _ (by norm_num) (by norm_num)
  have f16 : float32.fl 16 = 16 := ex 1 4 _ (by norm_num) (by norm_num)
  have f2 : float32.fl 2 = 2 := ex 1 1 _ (by norm_num) (by norm_num)
  have f3 : float32.fl 3 = 3 := ex 3 0 _ (by norm_num) (by norm_num)
  have fh : float32.fl (1 / 2) = 1 / 2 := ex 1 (-1) _ (by norm_num) (by norm_num)
  have fs : float32.fl (2 ^ (-46 : ℤ)) = 2 ^ (-46 : ℤ) := ex 1 (-46) _ (by norm_num) (by norm_num)
  have ft : float32.fl (2 ^ (-45 : ℤ)) = 2 ^ (-45 : ℤ) := ex 1 (-45) _ (by norm_num) (by norm_num)
  refine ⟨[1, 2, 3], [64, 2 ^ (-46 : ℤ), 2 ^ (-46 : ℤ)], rfl, by unfold Increasing; norm_num, ?_, ?_, ?_⟩
  · intro x hx
    simp only [List.cons_append, List.nil_append, List.mem_cons, List.not_mem_nil, or_false] at hx
    rcases hx with rfl | rfl | rfl | rfl | rfl | rfl <;> assumption
  · intro y hy
    simp only [List.mem_cons, List.not_mem_nil, or_false] at hy
    rcases hy with rfl | rfl | rfl <;> norm_num
  · rw [cmfFl_eq]
    simp only [List.zip_cons_cons, List.zip_nil_right, trapFl_cons]
    -- the first mass
    have h1 : (1 : ℝ) / 2 ≤ float32.fl (1 - float32.fl 0.001) := by
      have : float32.fl 0.001 ≤ 1 / 2 := by
        have := float32.mono (show (0.001 : ℝ) ≤ 1 / 2 by norm_num)
        rwa [fh] at this
      have := float32.mono (show (1 : ℝ) / 2 ≤ 1 - float32.fl 0.001 by linarith)
      rwa [fh] at this
    have h2 : (64 : ℝ) ≤ float32.fl (64 + float32.fl (1 / 10 ^ 14)) := by
      have := float32.mono (show (64 : ℝ) ≤ 64 + float32.fl (1 / 10 ^ 14) by
        linarith [float32.fl_nonneg (show (0 : ℝ) ≤ 1 / 10 ^ 14 by norm_num)])
      rwa [f64] at this
    have h3 : (32 : ℝ) ≤ float32.fl (float32.fl (1 - float32.fl 0.001) * float32.fl (64 + float32.fl (1 / 10 ^ 14))) := by
      have := float32.mono (show (32 : ℝ) ≤ float32.fl (1 - float32.fl 0.001) * float32.fl (64 + float32.fl (1 / 10 ^ 14)) by
        nlinarith)
      rwa [f32] at this
    have h4 : (16 : ℝ) ≤ float32.fl (0 + float32.fl (float32.fl (float32.fl (1 - float32.fl 0.001) *
        float32.fl (64 + float32.fl (1 / 10 ^ 14))) / 2)) := by
      rw [zero_add, float32.idem]
      have := float32.mono (show (16 : ℝ) ≤ float32.fl (float32.fl (1 - float32.fl 0.001) *
        float32.fl (64 + float32.fl (1 / 10 ^ 14))) / 2 by linarith)
      rwa [f16] at this
    generalize float32.fl (0 + float32.fl (float32.fl (float32.fl (1 - float32.fl 0.001) *
        float32.fl (64 + float32.fl (1 / 10 ^ 14))) / 2)) = c1 at h4
    -- the second mass
    have h5 : (1 : ℝ) ≤ float32.fl (c1 + float32.fl (float32.fl (float32.fl (2 - 1) * float32.fl (2 ^ (-46 : ℤ) + 64)) / 2)) := by
      have h0 : (0 : ℝ) ≤ float32.fl (float32.fl (float32.fl (2 - 1) * float32.fl (2 ^ (-46 : ℤ) + 64)) / 2) :=
        float32.fl_nonneg (div_nonneg (float32.fl_nonneg (mul_nonneg (float32.fl_nonneg (by norm_num))
          (float32.fl_nonneg (by positivity)))) (by norm_num))
      have := float32.mono (show (1 : ℝ) ≤ c1 + float32.fl (float32.fl (float32.fl (2 - 1) * float32.fl (2 ^ (-46 : ℤ) + 64)) / 2) by
        linarith)
      rwa [f1] at this
    have h6 := float32.idem (c1 + float32.fl (float32.fl (float32.fl (2 - 1) * float32.fl (2 ^ (-46 : ℤ) + 64)) / 2))
    generalize float32.fl (c1 + float32.fl (float32.fl (float32.fl (2 - 1) * float32.fl (2 ^ (-46 : ℤ) + 64)) / 2)) = c2 at h5 h6
    -- the third mass
    have h7 : float32.fl (float32.fl (float32.fl (3 - 2) * float32.fl (2 ^ (-46 : ℤ) + 2 ^ (-46 : ℤ))) / 2) = 2 ^ (-46 : ℤ) := by
      have e1 : (3 : ℝ) - 2 = 1 := by norm_num
      have e2 : (2 : ℝ) ^ (-46 : ℤ) + 2 ^ (-46 : ℤ) = 2 ^ (-45 : ℤ) := by norm_num
      have e3 : (2 : ℝ) ^ (-45 : ℤ) / 2 = 2 ^ (-46 : ℤ) := by norm_num
      rw [e1, e2, f1, ft, one_mul, ft, e3, fs]
    rw [h7, float32_absorb h6 h5 (by positivity) (by norm_num)]
    unfold Increasing
    simp

/-- Six irregular times and rates. -/
example : ∃ f, Increasing (0.002 :: [1, 2, 5, 5.5, 9, 13.8]) ∧
    IsLinInterp (0.001 :: [1, 2, 5, 5.5, 9, 13.8]) (1 / 10 ^ 14 :: [3, 10, 2, 0.5, 0, 7]) f ∧ float32.u < 1 ∧
    (float32.fl 0.001 :: [1, 2, 5, 5.5, 9, 13.8]).Pairwise (· < ·) := by
  have h : Increasing ((0.001 : ℝ) :: [1, 2, 5, 5.5, 9, 13.8]) := by unfold Increasing; norm_num
  obtain ⟨f, hf⟩ := exists_linInterp (0.001 :: [1, 2, 5, 5.5, 9, 13.8]) (1 / 10 ^ 14 :: [3, 10, 2, 0.5, 0, 7]) h
  have hu : float32.u = 2 ^ (-24 : ℤ) := rfl
  have h2 : float32.fl 0.001 < 1 := by
    have := abs_le.1 (float32.err 0.001)
    rw [hu] at this
    norm_num at this ⊢
    linarith [this.2]
  refine ⟨f, by unfold Increasing; norm_num, hf, by rw [hu]; norm_num, List.pairwise_cons.2 ⟨fun x hx => ?_, by norm_num⟩⟩
  simp only [List.mem_cons, List.not_mem_nil, or_false] at hx
  rcases hx with rfl | rfl | rfl | rfl | rfl | rfl <;> norm_num <;> linarith

end Diffstar.Props
