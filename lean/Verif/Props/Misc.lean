import Verif.Model.Utils
import Mathlib.Analysis.SpecialFunctions.Pow.Real

/-!
Properties of small helpers of `diffstar/utils.py`: C60 (`get_1d_arrays`), C62 (`sigmoid_poly`).
-/

namespace Diffstar.Props

/-! ### C60 -/

/-- **C60** (success): if every argument is a scalar (one entry) or has the common length `n ≥ 1`, with at
least one argument of length `n`, all outputs have length `n`: scalars are repeated, full arrays are
returned unchanged, in argument order. -/
theorem C60_broadcast (args : List (List ℝ)) (n : ℕ) (hn : 1 ≤ n) (hex : ∃ a ∈ args, a.length = n)
    (hall : ∀ a ∈ args, a.length = 1 ∨ a.length = n) :
    ∃ out, get1dArrays args = some out ∧ ∃ hl : out.length = args.length,
      ∀ k (hk : k < args.length), (out[k]).length = n ∧
        (args[k].length = n → out[k] = args[k]) ∧
        (∀ v, args[k] = [v] → out[k] = List.replicate n v) := by
  have hmax : ∀ (l : List (List ℝ)), (∀ a ∈ l, a.length = 1 ∨ a.length = n) →
      (l.map List.length).foldr max 0 ≤ n := by
    intro l
    induction l with
    | nil => intro _; simp
    | cons a l ih =>
      intro h
      simp only [List.map_cons, List.foldr_cons]
      apply max_le
      · rcases h a (by simp) with h | h <;> omega
      · exact ih fun b hb => h b (by simp [hb])
  have hge : ∀ (l : List (List ℝ)), ∀ a ∈ l, a.length ≤ (l.map List.length).foldr max 0 := by
    intro l
    induction l with
    | nil => simp
    | cons b l ih =>
      intro a ha
      simp only [List.map_cons, List.foldr_cons]
      rcases List.mem_cons.1 ha with rfl | ha
      · exact le_max_left _ _
      · exact (ih a ha).trans (le_max_right _ _)
  obtain ⟨a0, ha0, hlen0⟩ := hex
  have hnp : (args.map List.length).foldr max 0 = n :=
    le_antisymm (hmax args hall) (hlen0 ▸ hge args a0 ha0)
  have hne : args ≠ [] := by rintro rfl; simp at ha0
  obtain ⟨b, l, rfl⟩ := List.exists_cons_of_ne_nil hne
  refine ⟨(b :: l).map (addZeros n), ?_, by simp, ?_⟩
  · simp only [get1dArrays, hnp]
    rw [if_pos hall]
  · intro k hk
    simp only [List.getElem_map]
    generalize hg : (b :: l)[k] = a
    have ha : a.length = 1 ∨ a.length = n := hg ▸ hall _ (List.getElem_mem _)
    match a, ha with
    | [v], _ =>
      refine ⟨by simp [addZeros], fun h => ?_, fun w hw => by rw [List.singleton_inj.1 hw]; rfl⟩
      have : n = 1 := by simpa using h.symm
      subst this; rfl
    | [], ha => simp at ha; omega
    | x :: y :: r, ha =>
      rcases ha with ha | ha
      · simp at ha
      · exact ⟨ha, fun _ => rfl, fun w hw => by simp at hw⟩

/-- **C60** (failure): the helper raises exactly when called without arguments, or when some argument is
neither a scalar nor as long as the longest one. -/
theorem C60_broadcast_raises (args : List (List ℝ)) :
    get1dArrays args = none ↔
      args = [] ∨ ∃ a ∈ args, a.length ≠ 1 ∧ ∃ b ∈ args, a.length < b.length := by
  have hge : ∀ (l : List (List ℝ)), ∀ a ∈ l, a.length ≤ (l.map List.length).foldr max 0 := by
    intro l
    induction l with
    | nil => simp
    | cons b l ih =>
      intro a ha
      simp only [List.map_cons, List.foldr_cons]
      rcases List.mem_cons.1 ha with rfl | ha
      · exact le_max_left _ _
      · exact (ih a ha).trans (le_max_right _ _)
  have hatt : ∀ (l : List (List ℝ)), l ≠ [] → ∃ a ∈ l, a.length = (l.map List.length).foldr max 0 := by
    intro l
    induction l with
    | nil => intro h; exact absurd rfl h
    | cons b l ih =>
      intro _
      simp only [List.map_cons, List.foldr_cons]
      by_cases hl : l = []
      · subst hl; exact ⟨b, by simp, by simp⟩
      · obtain ⟨a, ha, he⟩ := ih hl
        rcases le_total b.length ((l.map List.length).foldr max 0) with h | h
        · exact ⟨a, by simp [ha], by rw [max_eq_right h, he]⟩
        · exact ⟨b, by simp, by rw [max_eq_left h]⟩
  match args with
  | [] => simp [get1dArrays]
  | b :: l =>
    obtain ⟨m, hm, hme⟩ := hatt (b :: l) (by simp)
    simp only [get1dArrays, ← hme, reduceCtorEq, false_or]
    split_ifs with h
    · simp only [false_iff, not_exists, not_and]
      intro a ha h1 c hc hlt
      have := hge (b :: l) c hc
      rw [← hme] at this
      rcases h a ha with h | h
      · exact h1 h
      · omega
    · simp only [true_iff]
      push Not at h
      obtain ⟨a, ha, h1, h2⟩ := h
      have := hge (b :: l) a ha
      rw [← hme] at this
      exact ⟨a, ha, h1, m, hm, by omega⟩

example : get1dArrays [[1, 2, 3], [5]] = some [[1, 2, 3], [5, 5, 5]] ∧
    get1dArrays [[1, 2, 3], [5, 6]] = none := by
  constructor <;> simp [get1dArrays, addZeros, List.replicate]

/-! ### C62 -/

/-- `a / sqrt(1 + a²)` is strictly increasing. -/
theorem algSigmoid_strictMono : StrictMono fun a : ℝ => a / Real.sqrt (1 + a ^ 2) := by
  intro a b hab
  have pa : 0 < Real.sqrt (1 + a ^ 2) := Real.sqrt_pos.2 (by positivity)
  have pb : 0 < Real.sqrt (1 + b ^ 2) := Real.sqrt_pos.2 (by positivity)
  have sa : Real.sqrt (1 + a ^ 2) ^ 2 = 1 + a ^ 2 := Real.sq_sqrt (by positivity)
  have sb : Real.sqrt (1 + b ^ 2) ^ 2 = 1 + b ^ 2 := Real.sq_sqrt (by positivity)
  simp only
  rw [div_lt_div_iff₀ pa pb]
  set u := Real.sqrt (1 + a ^ 2)
  set w := Real.sqrt (1 + b ^ 2)
  -- compare `a w` with `b u` through their squares `a² + a²b²`, `b² + a²b²`
  rcases le_or_gt 0 a with h | h
  · have hb : 0 < b := lt_of_le_of_lt h hab
    have : (a * w) ^ 2 < (b * u) ^ 2 := by nlinarith
    exact lt_of_pow_lt_pow_left₀ 2 (by positivity) this
  · rcases le_or_gt b 0 with hb | hb
    · have : (-b * u) ^ 2 < (-a * w) ^ 2 := by nlinarith
      have := lt_of_pow_lt_pow_left₀ 2 (by nlinarith) this
      linarith
    · have h1 : a * w < 0 := mul_neg_of_neg_of_pos h pb
      have h2 : 0 < b * u := mul_pos hb pa
      linarith

/-- **C62**: for `ymin < ymax` the algebraic sigmoid is strictly between its limits, equal to the midpoint
at `x0`, antisymmetric about it, and strictly increasing for `k > 0`. -/
theorem C62_sigmoid_poly (x0 k ymin ymax : ℝ) (h : ymin < ymax) :
    (∀ x, ymin < sigmoidPoly x x0 k ymin ymax ∧ sigmoidPoly x x0 k ymin ymax < ymax) ∧
    sigmoidPoly x0 x0 k ymin ymax = (ymin + ymax) / 2 ∧
    (∀ d, sigmoidPoly (x0 + d) x0 k ymin ymax + sigmoidPoly (x0 - d) x0 k ymin ymax = ymin + ymax) ∧
    (0 < k → StrictMono fun x => sigmoidPoly x x0 k ymin ymax) := by
  refine ⟨?_, ?_, ?_, ?_⟩
  · intro x
    simp only [sigmoidPoly]
    set a := k * (x - x0)
    have pa : 0 < Real.sqrt (1 + a ^ 2) := Real.sqrt_pos.2 (by positivity)
    have habs : |a| < Real.sqrt (1 + a ^ 2) := by
      rw [← Real.sqrt_sq_eq_abs]
      exact Real.sqrt_lt_sqrt (by positivity) (by linarith)
    obtain ⟨h1, h2⟩ := abs_lt.1 habs
    have b1 : -0.5 < 0.5 * a / Real.sqrt (1 + a ^ 2) := by rw [lt_div_iff₀ pa]; linarith
    have b2 : 0.5 * a / Real.sqrt (1 + a ^ 2) < 0.5 := by rw [div_lt_iff₀ pa]; linarith
    constructor <;> nlinarith
  · simp [sigmoidPoly]; ring
  · intro d
    simp only [sigmoidPoly]
    have e1 : k * (x0 + d - x0) = k * d := by ring
    have e2 : k * (x0 - d - x0) = -(k * d) := by ring
    rw [e1, e2, neg_sq]
    ring
  · intro hk x x' hx
    simp only [sigmoidPoly]
    have := algSigmoid_strictMono (show k * (x - x0) < k * (x' - x0) from
      mul_lt_mul_of_pos_left (by linarith) hk)
    simp only at this
    rw [mul_div_assoc 0.5, mul_div_assoc 0.5]
    have := mul_lt_mul_of_pos_left this (show 0 < 0.5 * (ymax - ymin) by linarith)
    linarith

example : (0 : ℝ) < 1 ∧ sigmoidPoly 3 3 2 0 1 = 1 / 2 := by
  constructor
  · norm_num
  · simp [sigmoidPoly]; norm_num

end Diffstar.Props
