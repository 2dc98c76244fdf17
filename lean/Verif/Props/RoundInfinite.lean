import Verif.Props.RoundSpecial
import Verif.Props.RoundRangeBounds

/-!
C160: infinite unbounded parameters, as `get_unbounded_diffstar_params` returns them for parameters on their bounds.
-/

namespace Diffstar.Spec

/-- Parameters none of which is NaN. -/
def NoNan (u : DiffstarParams Special) : Prop :=
  u.lgmcrit ≠ .nan ∧ u.lgyAtMcrit ≠ .nan ∧ u.indxLo ≠ .nan ∧ u.indxHi ≠ .nan ∧ u.lgQt ≠ .nan ∧ u.qlglgdt ≠ .nan ∧ u.lgDrop ≠ .nan ∧
    u.lgRejuv ≠ .nan

/-- Parameters that are numbers, as results of IEEE arithmetic. -/
def numbers (p : DiffstarParams ℝ) : DiffstarParams Special :=
  ⟨.num p.lgmcrit, .num p.lgyAtMcrit, .num p.indxLo, .num p.indxHi, .num p.lgQt, .num p.qlglgdt, .num p.lgDrop, .num p.lgRejuv⟩

end Diffstar.Spec

namespace Diffstar.Props

open Diffstar Diffstar.Spec

theorem special_range (R : Rounding) (exp : ℝ → ℝ) (hexp : ∀ x, 0 ≤ exp x) {x : Special} (hx : x ≠ .nan) (x0 k lo hi : ℝ) (hlo : R.fl lo = lo)
    (hle : lo ≤ hi) : ∃ y, R.sigmoidSpecial exp x x0 k lo hi = .num y ∧ lo ≤ y ∧ y ≤ R.fl (lo + R.fl (hi - lo)) ∧ R.fl y = y := by
  have hd : 0 ≤ R.fl (hi - lo) := R.fl_nonneg (by linarith)
  have key : ∀ s, 0 ≤ s → s ≤ 1 → lo ≤ R.fl (lo + R.fl (R.fl (hi - lo) * s)) ∧
      R.fl (lo + R.fl (R.fl (hi - lo) * s)) ≤ R.fl (lo + R.fl (hi - lo)) := by
    intro s h0 h1
    have ha : 0 ≤ R.fl (R.fl (hi - lo) * s) := R.fl_nonneg (mul_nonneg hd h0)
    have hb : R.fl (R.fl (hi - lo) * s) ≤ R.fl (hi - lo) := by
      have := R.mono (show R.fl (hi - lo) * s ≤ R.fl (hi - lo) from mul_le_of_le_one_right hd h1)
      rwa [R.idem] at this
    constructor
    · have := R.mono (show lo ≤ lo + R.fl (R.fl (hi - lo) * s) by linarith)
      rwa [hlo] at this
    · exact R.mono (by linarith)
  cases x with
  | num x =>
    have h := sigmoidFl_range R exp hexp x x0 k lo hi hlo hle
    exact ⟨_, rfl, h.1, h.2, R.idem _⟩
  | posInf => exact ⟨_, rfl, (key 1 (by norm_num) le_rfl).1, (key 1 (by norm_num) le_rfl).2, R.idem _⟩
  | negInf => exact ⟨_, rfl, (key 0 le_rfl (by norm_num)).1, (key 0 le_rfl (by norm_num)).2, R.idem _⟩
  | nan => exact absurd rfl hx

theorem specialB_range (exp : ℝ → ℝ) (hexp : ∀ x, 0 ≤ exp x) {x : Special} (hx : x ≠ .nan) (b : ℝ × ℝ) {lo hi top : ℝ}
    (hlo : float32.fl b.1 = lo) (hhi : float32.fl b.2 = hi) (hle : lo ≤ hi) (htop : float32.fl (lo + float32.fl (hi - lo)) = top) :
    ∃ y, float32.sigmoidBSpecial exp x (calculateSigmoidBounds b) = .num y ∧ lo ≤ y ∧ y ≤ top ∧ float32.fl y = y := by
  have := special_range float32 exp hexp hx (float32.fl (calculateSigmoidBounds b).1) (float32.fl (calculateSigmoidBounds b).2.1) lo hi
    (by rw [← hlo, float32.idem]) hle
  rw [htop] at this
  unfold Rounding.sigmoidBSpecial
  rw [show float32.fl (calculateSigmoidBounds b).2.2.1 = lo from hlo, show float32.fl (calculateSigmoidBounds b).2.2.2 = hi from hhi]
  exact this

/-- **C160**: for numbers the transform with infinities is the transform in single precision. -/
theorem C160_finite (R : Rounding) (exp : ℝ → ℝ) (u : DiffstarParams ℝ) :
    R.getBoundedSpecial exp (numbers u) = numbers (R.getBoundedDiffstarParams exp u) := rfl

/-- **C160**: in single precision unbounded parameters that are numbers or infinite give bounded parameters that are numbers in the closed ranges,
and finite star formation histories. -/
theorem C160_infinite {L : Rounding.MathLib} (A : Machine float32 L) (hL : Accurate L) (hlog : ∀ t, float32.fl (L.log10 t) = L.log10 t)
    (hpow : ∀ x, |x| ≤ 1 / 10 ^ 17 → L.pow10 x = 1) (u : DiffstarParams Special) (hu : NoNan u) :
    ∃ p, float32.getBoundedSpecial L.exp u = numbers p ∧ ClosedFloat p ∧
      ∀ {M : Type*} (logMah : M → ℝ → ℝ → ℝ) (mah : M) (tarr : List ℝ) (lgt0 fb : ℝ), 1 / 10 ^ 10 ≤ fb ∧ fb ≤ 1 →
        (∀ t ∈ tarr, 0.01 ≤ t ∧ t ≤ 100) → (tarr.Pairwise fun a b => a + 1 / 10 ^ 6 ≤ b) → tarr.length ≤ 1000 →
        (∀ t ∈ tarr, float32.fl (logMah mah t lgt0) = logMah mah t lgt0) →
        (∀ t ∈ tarr, -0.1 ≤ logMah mah t lgt0 ∧ logMah mah t lgt0 ≤ 20.1) →
        A.calcSfhSinglegalSmh logMah p mah tarr lgt0 fb = some (float32.calcSfhSinglegalSmh L logMah p mah tarr lgt0 fb) := by
  have he : ∀ x, 0 ≤ L.exp x := fun x => by
    have h1 := abs_le.mp (hL.exp x)
    have h2 := Real.exp_pos x
    linarith [h1.1]
  obtain ⟨u1, u2, u3, u4, u5, u6, u7, u8⟩ := hu
  have z : float32.fl 0 = 0 := float32.fl_zero
  have f9 : float32.fl 9 = 9 := f32_exact' 9 0 _ (by norm_num) (by norm_num)
  have f135 : float32.fl 13.5 = 13.5 := f32_exact' 27 (-1) _ (by norm_num) (by norm_num)
  have f45 : float32.fl 4.5 = 4.5 := f32_exact' 9 (-1) _ (by norm_num) (by norm_num)
  have f12 : float32.fl (-12) = -12 := f32_exact_neg 12 0 _ (by norm_num) (by norm_num)
  have f8 : float32.fl (-8) = -8 := f32_exact_neg 8 0 _ (by norm_num) (by norm_num)
  have f4 : float32.fl 4 = 4 := f32_exact' 4 0 _ (by norm_num) (by norm_num)
  have f5 : float32.fl 5 = 5 := f32_exact' 5 0 _ (by norm_num) (by norm_num)
  have f5' : float32.fl (-5) = -5 := f32_exact_neg 5 0 _ (by norm_num) (by norm_num)
  have f2 : float32.fl 2 = 2 := f32_exact' 2 0 _ (by norm_num) (by norm_num)
  have f3 : float32.fl 3 = 3 := f32_exact' 3 0 _ (by norm_num) (by norm_num)
  have f3' : float32.fl (-3) = -3 := f32_exact_neg 3 0 _ (by norm_num) (by norm_num)
  have fq : float32.fl (float32.fl 0.1 + float32.fl (2 - float32.fl 0.1)) = 2 := by
    rw [f32_qt_range, f32_tenth]
    have := float32_eq (x := 13421773 * 2 ^ (-27 : ℤ) + 15938355 * 2 ^ (-23 : ℤ)) 16777216 (-23) (by norm_num) (by norm_num)
      (by rw [abs_lt]; norm_num)
    rw [this]
    norm_num
  obtain ⟨y1, e1, a1, b1, c1⟩ := specialB_range L.exp he u1 (9, 13.5) f9 f135 (by norm_num) (top := 13.5)
    (by rw [show (13.5 : ℝ) - 9 = 4.5 by norm_num, f45, show (9 : ℝ) + 4.5 = 13.5 by norm_num, f135])
  obtain ⟨y2, e2, a2, b2, c2⟩ := specialB_range L.exp he u2 (-12, -8) f12 f8 (by norm_num) (top := -8)
    (by rw [show (-8 : ℝ) - -12 = 4 by norm_num, f4, show (-12 : ℝ) + 4 = -8 by norm_num, f8])
  obtain ⟨y3, e3, a3, b3, c3⟩ := specialB_range L.exp he u3 (0, 5) z f5 (by norm_num) (top := 5)
    (by rw [show (5 : ℝ) - 0 = 5 by norm_num, f5, zero_add, f5])
  obtain ⟨y4, e4, a4, b4, c4⟩ := specialB_range L.exp he u4 (-5, 0) f5' z (by norm_num) (top := 0)
    (by rw [show (0 : ℝ) - -5 = 5 by norm_num, f5, show (-5 : ℝ) + 5 = 0 by norm_num, z])
  obtain ⟨y5, e5, a5, b5, c5⟩ := specialB_range L.exp he u5 (0.1, 2) rfl f2 (by rw [f32_tenth]; norm_num) fq
  obtain ⟨y6, e6, a6, b6, c6⟩ := specialB_range L.exp he u6 (-3, -0.01) f3' rfl (by rw [f32_hundredth]; norm_num) f32_duration
  obtain ⟨y7, e7, a7, b7, c7⟩ := specialB_range L.exp he u7 (-3, 0) f3' z (by norm_num) (top := 0)
    (by rw [show (0 : ℝ) - -3 = 3 by norm_num, f3, show (-3 : ℝ) + 3 = 0 by norm_num, z])
  obtain ⟨y8, e8, a8, b8, c8⟩ := special_range float32 L.exp he u8 (float32.fl ((-3 + 0) / 2)) (float32.fl |4 / (0 - -3)|) y7 0 c7 b7
  rw [zero_sub, float32.neg, c7, add_neg_cancel, z] at b8
  have hb : ClosedFloat ⟨y1, y2, y3, y4, y5, y6, y7, y8⟩ := ⟨⟨a1, b1⟩, ⟨a2, b2⟩, ⟨a3, b3⟩, ⟨a4, b4⟩, ⟨a5, b5⟩, ⟨a6, b6⟩, ⟨a7, b7⟩, ⟨a8, b8⟩⟩
  refine ⟨⟨y1, y2, y3, y4, y5, y6, y7, y8⟩, ?_, hb, fun logMah mah tarr lgt0 fb hfb ht hstep hn hmf hm =>
    C156_no_effect A hL logMah _ ⟨⟨a1, b1⟩, ⟨a2, b2⟩, ⟨a3, b3⟩, ⟨a4, b4⟩, ⟨le_trans (by rw [f32_tenth]; norm_num) a5, b5⟩,
      ⟨a6, b6.trans_lt (by norm_num)⟩, ⟨a7, b7⟩, ⟨a8, b8⟩⟩ ⟨c1, c2, c3, c4, c5, c7, hlog, hpow⟩ mah tarr lgt0 fb hfb ht hstep hn hmf hm⟩
  have e : float32.getBoundedSpecial L.exp u =
      ⟨float32.sigmoidBSpecial L.exp u.lgmcrit (calculateSigmoidBounds (9, 13.5)),
        float32.sigmoidBSpecial L.exp u.lgyAtMcrit (calculateSigmoidBounds (-12, -8)),
        float32.sigmoidBSpecial L.exp u.indxLo (calculateSigmoidBounds (0, 5)),
        float32.sigmoidBSpecial L.exp u.indxHi (calculateSigmoidBounds (-5, 0)),
        float32.sigmoidBSpecial L.exp u.lgQt (calculateSigmoidBounds (0.1, 2)),
        float32.sigmoidBSpecial L.exp u.qlglgdt (calculateSigmoidBounds (-3, -0.01)),
        float32.sigmoidBSpecial L.exp u.lgDrop (calculateSigmoidBounds (-3, 0)),
        match float32.sigmoidBSpecial L.exp u.lgDrop (calculateSigmoidBounds (-3, 0)) with
        | .num d => float32.sigmoidSpecial L.exp u.lgRejuv (float32.fl ((-3 + 0) / 2)) (float32.fl |4 / (0 - -3)|) d (float32.fl 0)
        | _ => .nan⟩ := rfl
  rw [e, e1, e2, e3, e4, e5, e6, e7]
  dsimp only
  rw [z, e8]
  rfl

/-- **C160**: infinite unbounded parameters give the bounds: the bounded value of plus infinity is the one of every large number. -/
theorem C160_limit (exp : ℝ → ℝ) (hexp : ∀ x, |exp x - Real.exp x| ≤ Real.exp x / 2) (hpos : ∀ x, 0 ≤ exp x) (b : ℝ × ℝ)
    (hb : b ∈ [(9, 13.5), (-12, -8), (0, 5), (-5, 0), (0.1, 2), (-3, -0.01), ((-3, 0) : ℝ × ℝ)]) (x : ℝ) (hx : 60 ≤ x) :
    float32.sigmoidBSpecial exp (.num x) (calculateSigmoidBounds b) = float32.sigmoidBSpecial exp .posInf (calculateSigmoidBounds b) := by
  have h : ∀ m : ℝ, m ≤ 16 → float32.fl m ≤ 16 := fun m hm => by
    have := float32.mono hm
    rwa [f32_exact' 1 4 16 (by norm_num) (by norm_num)] at this
  have key : ∀ b : ℝ × ℝ, 0 < b.2 - b.1 ∧ b.2 - b.1 ≤ 5 → (b.1 + b.2) / 2 ≤ 16 →
      float32.sigmoidBSpecial exp (.num x) (calculateSigmoidBounds b) = float32.sigmoidBSpecial exp .posInf (calculateSigmoidBounds b) := by
    intro b hw hm
    have := f32_saturated exp hexp hpos x b hw (by linarith [h _ hm])
    have e : float32.sigmoidBSpecial exp (.num x) (calculateSigmoidBounds b) = .num (float32.sigmoidB exp x (calculateSigmoidBounds b)) := rfl
    rw [e, this]
    unfold Rounding.sigmoidBSpecial Rounding.sigmoidSpecial calculateSigmoidBounds
    dsimp only
    rw [mul_one, float32.idem]
  simp only [List.mem_cons, List.not_mem_nil, or_false] at hb
  rcases hb with rfl | rfl | rfl | rfl | rfl | rfl | rfl <;> exact key _ (by norm_num) (by norm_num)

theorem special_nan (R : Rounding) (exp : ℝ → ℝ) (x : Special) (x0 k lo hi : ℝ) : R.sigmoidSpecial exp x x0 k lo hi = .nan ↔ x = .nan := by
  cases x <;> simp [Rounding.sigmoidSpecial]

/-- **C160**: NaN is neither produced nor lost: a bounded parameter is NaN exactly if its unbounded parameter is, and the rejuvenation also if the
drop is. -/
theorem C160_nan (R : Rounding) (exp : ℝ → ℝ) (u : DiffstarParams Special) :
    let p := R.getBoundedSpecial exp u
    (p.lgmcrit = .nan ↔ u.lgmcrit = .nan) ∧ (p.lgyAtMcrit = .nan ↔ u.lgyAtMcrit = .nan) ∧ (p.indxLo = .nan ↔ u.indxLo = .nan) ∧
      (p.indxHi = .nan ↔ u.indxHi = .nan) ∧ (p.lgQt = .nan ↔ u.lgQt = .nan) ∧ (p.qlglgdt = .nan ↔ u.qlglgdt = .nan) ∧
      (p.lgDrop = .nan ↔ u.lgDrop = .nan) ∧ (p.lgRejuv = .nan ↔ u.lgRejuv = .nan ∨ u.lgDrop = .nan) := by
  refine ⟨special_nan .., special_nan .., special_nan .., special_nan .., special_nan .., special_nan .., special_nan .., ?_⟩
  unfold Rounding.getBoundedSpecial Rounding.sigmoidBSpecial
  dsimp only
  cases h : u.lgDrop <;> simp [Rounding.sigmoidSpecial.eq_def R exp (Special.num _), Rounding.sigmoidSpecial.eq_def R exp Special.posInf,
    Rounding.sigmoidSpecial.eq_def R exp Special.negInf, Rounding.sigmoidSpecial.eq_def R exp Special.nan, special_nan]

/-- Infinite unbounded parameters of both signs meet the hypotheses. -/
example : NoNan ⟨.posInf, .negInf, .negInf, .posInf, .num 1, .negInf, .negInf, .posInf⟩ := by
  simp [NoNan]

end Diffstar.Props
