import Verif.Lemmas.Triweight
import Verif.Model.PopUtils
import Verif.Model.NdHist
import Mathlib.Algebra.BigOperators.Ring.Finset
import Mathlib.Algebra.Order.BigOperators.Group.Finset
import Mathlib.Algebra.Order.BigOperators.Ring.Finset

/-! Facts about the triweight bin weights and histograms. -/

namespace Diffstar

theorem twCumlLax_eq (x m h : ℝ) : twCumlLaxKern x m h = jaxTw ((x - m) / h) := by
  unfold twCumlLaxKern jaxTw
  norm_num

theorem ndTwCumlLax_eq (x m h : ℝ) : NdHist.twCumlLaxKern x m h = jaxTw ((x - m) / h) := by
  unfold NdHist.twCumlLaxKern jaxTw
  norm_num

theorem jaxTw_lt_iff {a b : ℝ} (hab : b < a) : jaxTw b < jaxTw a ↔ -3 < a ∧ b < 3 := by
  constructor
  · intro h
    by_contra hc
    rw [not_and_or, not_lt, not_lt] at hc
    rcases hc with hc | hc
    · rw [jaxTw_lo hc, jaxTw_lo (by linarith)] at h; exact lt_irrefl _ h
    · rw [jaxTw_hi hc, jaxTw_hi (by linarith)] at h; exact lt_irrefl _ h
  · rintro ⟨h1, h2⟩
    have e1 : jaxTw b = jaxTw (max b (-3)) := by
      rcases le_total b (-3) with h | h
      · rw [max_eq_right h, jaxTw_lo h, jaxTw_lo le_rfl]
      · rw [max_eq_left h]
    have e2 : jaxTw a = jaxTw (min a 3) := by
      rcases le_total a 3 with h | h
      · rw [min_eq_left h]
      · rw [min_eq_right h, jaxTw_hi h, jaxTw_hi le_rfl]
    rw [e1, e2]
    apply jaxTw_strictMonoOn
    · exact ⟨le_max_right _ _, max_le h2.le (by norm_num)⟩
    · exact ⟨le_min h1.le (by norm_num), min_le_right _ _⟩
    · exact max_lt (lt_min hab h2) (lt_min h1 (by norm_num))

theorem ndBin_eq (x s lo hi : ℝ) :
    NdHist.twBinWeightLaxKern x s lo hi = jaxTw ((x - lo) / s) - jaxTw ((x - hi) / s) := by
  simp [NdHist.twBinWeightLaxKern, ndTwCumlLax_eq]

theorem ndBin_nonneg {x s lo hi : ℝ} (hs : 0 < s) (h : lo ≤ hi) :
    0 ≤ NdHist.twBinWeightLaxKern x s lo hi := by
  rw [ndBin_eq]
  exact sub_nonneg.2 (jaxTw_mono (div_le_div_of_nonneg_right (by linarith) hs.le))

theorem ndBin_le_one (x s lo hi : ℝ) : NdHist.twBinWeightLaxKern x s lo hi ≤ 1 := by
  rw [ndBin_eq]
  linarith [jaxTw_le_one ((x - lo) / s), jaxTw_nonneg ((x - hi) / s)]

theorem ndBin_pos_iff {x s lo hi : ℝ} (hs : 0 < s) (h : lo < hi) :
    0 < NdHist.twBinWeightLaxKern x s lo hi ↔ lo < x + 3 * s ∧ x - 3 * s < hi := by
  rw [ndBin_eq, sub_pos, jaxTw_lt_iff (div_lt_div_of_pos_right (by linarith) hs), lt_div_iff₀ hs,
    div_lt_iff₀ hs]
  constructor <;> rintro ⟨a, b⟩ <;> constructor <;> linarith

/-- Telescoping over contiguous bins. -/
theorem ndBin_sum (x s : ℝ) : ∀ (n : ℕ) (e : Fin (n + 1) → ℝ),
    ∑ j : Fin n, NdHist.twBinWeightLaxKern x s (e j.castSucc) (e j.succ) =
      jaxTw ((x - e 0) / s) - jaxTw ((x - e (Fin.last n)) / s) := by
  intro n
  induction n with
  | zero => intro e; simp
  | succ n ih =>
    intro e
    rw [Fin.sum_univ_castSucc]
    have := ih fun j => e j.castSucc
    simp only [Fin.succ_castSucc] at *
    rw [this, ndBin_eq]
    simp

theorem ndBin_sum_le_one {x s : ℝ} (n : ℕ) (e : Fin (n + 1) → ℝ) :
    ∑ j : Fin n, NdHist.twBinWeightLaxKern x s (e j.castSucc) (e j.succ) ≤ 1 := by
  rw [ndBin_sum]
  linarith [jaxTw_le_one ((x - e 0) / s), jaxTw_nonneg ((x - e (Fin.last n)) / s)]

theorem ndBin_sum_eq_one {x s : ℝ} (hs : 0 < s) (n : ℕ) (e : Fin (n + 1) → ℝ)
    (h0 : e 0 ≤ x - 3 * s) (h1 : x + 3 * s ≤ e (Fin.last n)) :
    ∑ j : Fin n, NdHist.twBinWeightLaxKern x s (e j.castSucc) (e j.succ) = 1 := by
  rw [ndBin_sum, jaxTw_hi (by rw [le_div_iff₀ hs]; linarith),
    jaxTw_lo (by rw [div_le_iff₀ hs]; linarith)]
  norm_num

end Diffstar
