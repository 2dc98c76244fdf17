import Verif.Lemmas.Smooth
import Verif.Lemmas.Line
import Verif.Lemmas.Pop
import Verif.Model.PopLoss
import Mathlib.Analysis.Calculus.ContDiff.Operations

/-! Smoothness of the population kernels in the unbounded population parameters; NaN is `none`. -/

namespace Diffstar.Pop

instance : Fintype QF := ⟨QF.fields.toFinset, fun f => by cases f <;> decide⟩

instance : Fintype SF := ⟨SF.fields.toFinset, fun f => by cases f <;> decide⟩

end Diffstar.Pop

namespace Diffstar

open Set Filter Topology Diffstar.Pop

section

variable {E X Y : Type*} [NormedAddCommGroup E] [NormedSpace ℝ E] [NormedAddCommGroup X] [NormedSpace ℝ X]
  [NormedAddCommGroup Y] [NormedSpace ℝ Y] {n : WithTop ℕ∞} {u : E}

/-- Near `u` the value is not NaN and `n` times continuously differentiable. -/
def SmoothOpt (n : WithTop ℕ∞) (F : E → Option X) (u : E) : Prop :=
  ∃ g : E → X, ContDiffAt ℝ n g u ∧ ∀ᶠ v in 𝓝 u, F v = some (g v)

theorem SmoothOpt.map {F : E → Option X} (h : SmoothOpt n F u) {φ : X → Y}
    (hφ : ∀ x, F u = some x → ContDiffAt ℝ n φ x) : SmoothOpt n (fun v => (F v).map φ) u := by
  obtain ⟨g, hg, he⟩ := h
  refine ⟨fun v => φ (g v), (hφ _ he.self_of_nhds).comp u hg, ?_⟩
  filter_upwards [he] with v hv
  rw [hv, Option.map_some]

theorem SmoothOpt.congr {F G : E → Option X} (h : SmoothOpt n F u) (hfg : ∀ᶠ v in 𝓝 u, G v = F v) :
    SmoothOpt n G u := by
  obtain ⟨g, hg, he⟩ := h
  exact ⟨g, hg, by filter_upwards [he, hfg] with v h1 h2; rw [h2, h1]⟩

theorem ContDiffAt.sigm {x x0 k lo hi : E → ℝ} (h1 : ContDiffAt ℝ n x u) (h2 : ContDiffAt ℝ n x0 u)
    (h3 : ContDiffAt ℝ n k u) (h4 : ContDiffAt ℝ n lo u) (h5 : ContDiffAt ℝ n hi u) :
    ContDiffAt ℝ n (fun v => sigmoid (x v) (x0 v) (k v) (lo v) (hi v)) u := by
  unfold sigmoid
  have h : ContDiffAt ℝ n (fun v => nnSigmoid (k v * (x v - x0 v))) u :=
    (contDiff_nnSigmoid.contDiffAt).comp u (h3.mul (h1.sub h2))
  exact h4.add ((h5.sub h4).mul h)

theorem contDiffAt_vec4 {a b c d : E → ℝ} (h1 : ContDiffAt ℝ n a u) (h2 : ContDiffAt ℝ n b u)
    (h3 : ContDiffAt ℝ n c u) (h4 : ContDiffAt ℝ n d u) :
    ContDiffAt ℝ n (fun v => (![a v, b v, c v, d v] : Fin 4 → ℝ)) u := by
  rw [contDiffAt_pi]
  intro i
  fin_cases i
  · exact h1
  · exact h2
  · exact h3
  · exact h4

theorem contDiffAt_vec8 {a b c d a' b' c' d' : E → ℝ} (h1 : ContDiffAt ℝ n a u) (h2 : ContDiffAt ℝ n b u)
    (h3 : ContDiffAt ℝ n c u) (h4 : ContDiffAt ℝ n d u) (h5 : ContDiffAt ℝ n a' u) (h6 : ContDiffAt ℝ n b' u)
    (h7 : ContDiffAt ℝ n c' u) (h8 : ContDiffAt ℝ n d' u) :
    ContDiffAt ℝ n (fun v => (![a v, b v, c v, d v, a' v, b' v, c' v, d' v] : Fin 8 → ℝ)) u := by
  rw [contDiffAt_pi]
  intro i
  fin_cases i
  · exact h1
  · exact h2
  · exact h3
  · exact h4
  · exact h5
  · exact h6
  · exact h7
  · exact h8

theorem smoothlyClippedLine_eq' {x x0 y0 m yLo yHi : ℝ} (hm : m ≠ 0) (hlo : y0 ≠ yLo) :
    smoothlyClippedLine x x0 y0 m yLo yHi =
      some (clipOf (y0 - yLo) (yHi - y0) y0 (y0 + m * (x - x0))) := by
  have hD : y0 - yLo ≠ 0 := sub_ne_zero.2 hlo
  have hne : ¬ (m = 0 ∨ y0 = yLo) := by
    rintro (h | h)
    · exact hm h
    · exact hlo h
  simp only [smoothlyClippedLine, if_neg hne, clipOf, sigmoid]
  have e1 : y0 + m * ((yLo - y0) / m + x0 + (x0 - ((yLo - y0) / m + x0)) / 100 - x0) =
      y0 - 0.99 * (y0 - yLo) := by field_simp; ring
  have e2 : y0 + m * ((yHi - y0) / m + x0 - ((yHi - y0) / m + x0 - x0) / 100 - x0) =
      y0 + 0.99 * (yHi - y0) := by field_simp; ring
  have e0 : (x0 - ((yLo - y0) / m + x0)) / 100 = (y0 - yLo) / (100 * m) := by field_simp; ring
  have e3 : 20 / ((x0 - ((yLo - y0) / m + x0)) / 100) *
      (x - ((yLo - y0) / m + x0 + (x0 - ((yLo - y0) / m + x0)) / 100)) =
      2000 / (y0 - yLo) * (y0 + m * (x - x0) - (y0 - 0.99 * (y0 - yLo))) := by
    rw [e0]; field_simp; ring
  have e4 : 20 / ((x0 - ((yLo - y0) / m + x0)) / 100) *
      (x - ((yHi - y0) / m + x0 - ((yHi - y0) / m + x0 - x0) / 100)) =
      2000 / (y0 - yLo) * (y0 + m * (x - x0) - (y0 + 0.99 * (yHi - y0))) := by
    rw [e0]; field_simp; ring
  rw [e1, e2, e3, e4]

theorem smoothOpt_line {y m : E → ℝ} (hy : ContDiffAt ℝ n y u) (hm : ContDiffAt ℝ n m u) {x : ℝ} {b : ℝ × ℝ}
    (h : (lineModel x (y u) (m u) b).isSome) : SmoothOpt n (fun v => lineModel x (y v) (m v) b) u := by
  have hne : m u ≠ 0 ∧ y u ≠ b.1 := by
    constructor
    · intro h0; rw [h0, lineModel_zero] at h; simp at h
    · intro h0; simp [lineModel, smoothlyClippedLine, h0] at h
  refine ⟨fun v => clipOf (y v - b.1) (b.2 - y v) (y v) (y v + m v * (x - LGM_X0)), ?_, ?_⟩
  · unfold clipOf
    have hk : ContDiffAt ℝ n (fun v => 2000 / (y v - b.1)) u :=
      contDiffAt_const.div (hy.sub contDiffAt_const) (sub_ne_zero.2 hne.2)
    have h1 : ContDiffAt ℝ n (fun v => nnSigmoid (2000 / (y v - b.1) *
        (y v + m v * (x - LGM_X0) - (y v - 0.99 * (y v - b.1))))) u :=
      contDiff_nnSigmoid.contDiffAt.comp u (hk.mul (by fun_prop))
    have h2 : ContDiffAt ℝ n (fun v => nnSigmoid (2000 / (y v - b.1) *
        (y v + m v * (x - LGM_X0) - (y v + 0.99 * (b.2 - y v))))) u :=
      contDiff_nnSigmoid.contDiffAt.comp u (hk.mul (by fun_prop))
    simp only
    fun_prop
  · filter_upwards [hm.continuousAt.eventually_ne hne.1, hy.continuousAt.eventually_ne hne.2] with v h1 h2
    exact smoothlyClippedLine_eq' h1 h2

end

section

variable {n : WithTop ℕ∞} {u : PF → ℝ}

theorem contDiffAt_bounded (f : PF) : ContDiffAt ℝ n (fun v => getBoundedDiffstarpopParams v f) u := by
  simp only [getBounded_apply]
  exact ContDiffAt.sigm (contDiff_apply ℝ ℝ f).contDiffAt contDiffAt_const contDiffAt_const contDiffAt_const
    contDiffAt_const

end

end Diffstar
