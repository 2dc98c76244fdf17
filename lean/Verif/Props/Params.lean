import Verif.Spec
import Verif.Lemmas.Sigmoid

/-! C01, C02, C03: parameter bounding. -/

namespace Diffstar.Props

open Diffstar Diffstar.Spec

/-- Common unfolding of the bounded parameters to plain sigmoids with numeric constants. -/
theorem bounded_eq (u : DiffstarParams ℝ) :
    getBoundedDiffstarParams u =
      ⟨sigmoid u.lgmcrit 11.25 (4 / 4.5) 9 13.5, sigmoid u.lgyAtMcrit (-10) 1 (-12) (-8),
       sigmoid u.indxLo 2.5 0.8 0 5, sigmoid u.indxHi (-2.5) 0.8 (-5) 0,
       sigmoid u.lgQt 1.05 (4 / 1.9) 0.1 2, sigmoid u.qlglgdt (-1.505) (4 / 2.99) (-3) (-0.01),
       sigmoid u.lgDrop (-1.5) (4 / 3) (-3) 0,
       sigmoid u.lgRejuv (-1.5) (4 / 3) (sigmoid u.lgDrop (-1.5) (4 / 3) (-3) 0) 0⟩ := by
  simp only [getBoundedDiffstarParams, getBoundedSfrParams, getBoundedQParams, getBoundedLgRejuv,
    sigmoidB, MS_BOUNDING_SIGMOID, Q_BOUNDING_SIGMOID, calculateSigmoidBounds, MS_PARAM_BOUNDS,
    Q_PARAM_BOUNDS, DiffstarParams.join, DiffstarParams.ms, DiffstarParams.q]
  norm_num [abs_of_pos]

theorem unbounded_eq (p : DiffstarParams ℝ) :
    getUnboundedDiffstarParams p =
      ⟨inverseSigmoid p.lgmcrit 11.25 (4 / 4.5) 9 13.5, inverseSigmoid p.lgyAtMcrit (-10) 1 (-12) (-8),
       inverseSigmoid p.indxLo 2.5 0.8 0 5, inverseSigmoid p.indxHi (-2.5) 0.8 (-5) 0,
       inverseSigmoid p.lgQt 1.05 (4 / 1.9) 0.1 2,
       inverseSigmoid p.qlglgdt (-1.505) (4 / 2.99) (-3) (-0.01),
       inverseSigmoid p.lgDrop (-1.5) (4 / 3) (-3) 0,
       inverseSigmoid p.lgRejuv (-1.5) (4 / 3) p.lgDrop 0⟩ := by
  simp only [getUnboundedDiffstarParams, getUnboundedSfrParams, getUnboundedQParams,
    getUnboundedQrejuv, inverseSigmoidB, MS_BOUNDING_SIGMOID, Q_BOUNDING_SIGMOID,
    calculateSigmoidBounds, MS_PARAM_BOUNDS, Q_PARAM_BOUNDS, DiffstarParams.join, DiffstarParams.ms,
    DiffstarParams.q]
  norm_num [abs_of_pos]

/-- **C01**: the bounded parameters lie strictly inside the documented box, whatever the unbounded
vector. -/
theorem C01_bounded_params_in_bounds (u : DiffstarParams ℝ) :
    InBounds (getBoundedDiffstarParams u) := by
  rw [bounded_eq]
  have hd : sigmoid u.lgDrop (-1.5) (4 / 3) (-3) 0 < 0 := sigmoid_lt (by norm_num)
  refine ⟨?_, ?_, ?_, ?_, ?_, ?_, ?_, ⟨sigmoid_gt hd, sigmoid_lt hd⟩⟩ <;>
  exact ⟨sigmoid_gt (by norm_num), sigmoid_lt (by norm_num)⟩

/-- **C02** (first half): unbounding undoes bounding for every real 8-vector. -/
theorem C02_unbounded_of_bounded (u : DiffstarParams ℝ) :
    getUnboundedDiffstarParams (getBoundedDiffstarParams u) = u := by
  have hd : sigmoid u.lgDrop (-1.5) (4 / 3) (-3) 0 < 0 := sigmoid_lt (by norm_num)
  rw [unbounded_eq, bounded_eq]
  simp only
  rw [inverseSigmoid_sigmoid (by norm_num) (by norm_num),
    inverseSigmoid_sigmoid (by norm_num) (by norm_num),
    inverseSigmoid_sigmoid (by norm_num) (by norm_num),
    inverseSigmoid_sigmoid (by norm_num) (by norm_num),
    inverseSigmoid_sigmoid (by norm_num) (by norm_num),
    inverseSigmoid_sigmoid (by norm_num) (by norm_num),
    inverseSigmoid_sigmoid (by norm_num) (by norm_num),
    inverseSigmoid_sigmoid (by norm_num) hd.ne]

/-- **C02** (second half): bounding undoes unbounding for every in-bounds vector. -/
theorem C02_bounded_of_unbounded (p : DiffstarParams ℝ) (h : InBounds p) :
    getBoundedDiffstarParams (getUnboundedDiffstarParams p) = p := by
  rw [bounded_eq, unbounded_eq]
  simp only
  rw [sigmoid_inverseSigmoid (by norm_num) h.lgmcrit.1 h.lgmcrit.2,
    sigmoid_inverseSigmoid (by norm_num) h.lgyAtMcrit.1 h.lgyAtMcrit.2,
    sigmoid_inverseSigmoid (by norm_num) h.indxLo.1 h.indxLo.2,
    sigmoid_inverseSigmoid (by norm_num) h.indxHi.1 h.indxHi.2,
    sigmoid_inverseSigmoid (by norm_num) h.lgQt.1 h.lgQt.2,
    sigmoid_inverseSigmoid (by norm_num) h.qlglgdt.1 h.qlglgdt.2,
    sigmoid_inverseSigmoid (by norm_num) h.lgDrop.1 h.lgDrop.2,
    sigmoid_inverseSigmoid (by norm_num) h.lgRejuv.1 h.lgRejuv.2]

/-- The shipped default parameters satisfy the hypothesis of `C02_bounded_of_unbounded`. -/
theorem default_params_in_bounds : InBounds DEFAULT_DIFFSTAR_PARAMS := by
  constructor <;>
  norm_num [DEFAULT_DIFFSTAR_PARAMS, DEFAULT_MS_PARAMS, DEFAULT_Q_PARAMS, DiffstarParams.join]

example : getBoundedDiffstarParams (getUnboundedDiffstarParams DEFAULT_DIFFSTAR_PARAMS)
    = DEFAULT_DIFFSTAR_PARAMS := C02_bounded_of_unbounded _ default_params_in_bounds

/-- Consequence of C01 and C02: bounding is a bijection from all real 8-vectors onto the open box. -/
theorem C02_bounded_bijective_onto_box :
    Function.Injective getBoundedDiffstarParams ∧
      ∀ p, InBounds p ↔ ∃ u, getBoundedDiffstarParams u = p := by
  refine ⟨Function.LeftInverse.injective C02_unbounded_of_bounded, fun p => ⟨fun h =>
    ⟨_, C02_bounded_of_unbounded p h⟩, ?_⟩⟩
  rintro ⟨u, rfl⟩
  exact C01_bounded_params_in_bounds u

/-- **C03**: seven bounded parameters are strictly increasing functions of their own unbounded
counterpart alone; `lg_rejuv` is strictly increasing in `u_lg_rejuv` at fixed `u_lg_drop` and in
`u_lg_drop` at fixed `u_lg_rejuv`. (`↔` with `<` in both orders also gives equality when the coordinate
is equal, i.e. independence from the other coordinates.) -/
theorem C03_bounding_strictly_monotone (u v : DiffstarParams ℝ) :
    let p := getBoundedDiffstarParams u
    let q := getBoundedDiffstarParams v
    (p.lgmcrit < q.lgmcrit ↔ u.lgmcrit < v.lgmcrit) ∧
    (p.lgyAtMcrit < q.lgyAtMcrit ↔ u.lgyAtMcrit < v.lgyAtMcrit) ∧
    (p.indxLo < q.indxLo ↔ u.indxLo < v.indxLo) ∧
    (p.indxHi < q.indxHi ↔ u.indxHi < v.indxHi) ∧
    (p.lgQt < q.lgQt ↔ u.lgQt < v.lgQt) ∧
    (p.qlglgdt < q.qlglgdt ↔ u.qlglgdt < v.qlglgdt) ∧
    (p.lgDrop < q.lgDrop ↔ u.lgDrop < v.lgDrop) ∧
    (u.lgDrop = v.lgDrop → (p.lgRejuv < q.lgRejuv ↔ u.lgRejuv < v.lgRejuv)) ∧
    (u.lgRejuv = v.lgRejuv → (p.lgRejuv < q.lgRejuv ↔ u.lgDrop < v.lgDrop)) := by
  have hd : ∀ x, sigmoid x (-1.5) (4 / 3) (-3) 0 < 0 := fun x => sigmoid_lt (by norm_num)
  have hm : StrictMono fun x => sigmoid x (-1.5) (4 / 3) (-3) 0 :=
    sigmoid_strictMono (by norm_num) (by norm_num)
  simp only [bounded_eq]
  refine ⟨(sigmoid_strictMono (by norm_num) (by norm_num)).lt_iff_lt,
    (sigmoid_strictMono (by norm_num) (by norm_num)).lt_iff_lt,
    (sigmoid_strictMono (by norm_num) (by norm_num)).lt_iff_lt,
    (sigmoid_strictMono (by norm_num) (by norm_num)).lt_iff_lt,
    (sigmoid_strictMono (by norm_num) (by norm_num)).lt_iff_lt,
    (sigmoid_strictMono (by norm_num) (by norm_num)).lt_iff_lt, hm.lt_iff_lt, ?_, ?_⟩
  · intro e
    rw [e]
    exact (sigmoid_strictMono (by norm_num) (hd _)).lt_iff_lt
  · intro e
    rw [e]
    constructor
    · intro h
      by_contra hc
      rcases (not_lt.1 hc).lt_or_eq with hc | hc
      · exact absurd (sigmoid_strictMono_ymin (x := v.lgRejuv) (x0 := -1.5) (k := 4 / 3) (ymax := 0)
          (hm hc)) (not_lt.2 h.le)
      · rw [hc] at h; exact lt_irrefl _ h
    · intro h
      exact sigmoid_strictMono_ymin (hm h)

/-- Two distinct vectors to which all clauses of C03 apply non-trivially. -/
example : (⟨0, 0, 0, 0, 0, 0, 0, 1⟩ : DiffstarParams ℝ).lgDrop = (⟨1, 1, 1, 1, 1, 1, 0, 2⟩ : DiffstarParams ℝ).lgDrop
    ∧ (0 : ℝ) < 1 := by norm_num

end Diffstar.Props
