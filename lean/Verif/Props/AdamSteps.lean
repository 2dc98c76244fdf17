import Verif.Model.Adam
import Verif.Props.PopFit
import Verif.Props.PopTraceNan
import Verif.Props.FitDrivers
import Mathlib.Tactic.FieldSimp

/-!
C137: how far the Adam steps of the two drivers can go.
-/

namespace Diffstar.Spec

open Diffstar.AdamStep

/-- State of one component after the updates with the gradients `gs`, at the step numbers `is`. -/
noncomputable def adamRun (stepSize x0 : ℝ) (i : ℕ → ℕ) (g : ℕ → ℝ) : ℕ → Cell
  | 0 => cellInit x0
  | n + 1 => cellUpdate stepSize (i n) (g n) (adamRun stepSize x0 i g n)

end Diffstar.Spec

namespace Diffstar.Props

open Diffstar.AdamStep Diffstar.PopFit

/-- The invariant of a component after at most `n` updates. -/
structure AdamNear (B x0 : ℝ) (n : ℕ) (c : Cell) : Prop where
  v_nonneg : 0 ≤ c.v
  m_sq : c.m ^ 2 ≤ 52.9 * c.v
  dist : |c.x - x0| ≤ B * n

theorem adam_m_sq {m v g : ℝ} (hm : m ^ 2 ≤ 52.9 * v) :
    ((1 - B1) * g + B1 * m) ^ 2 ≤ 52.9 * ((1 - B2) * g ^ 2 + B2 * v) := by
  unfold B1 B2
  nlinarith [sq_nonneg (g - 2.1 * m), sq_nonneg (g - 2.2 * m), sq_nonneg (g - 2 * m), sq_nonneg (g - 2.106 * m)]

theorem adam_corr (i : ℕ) : 0 < 1 - B1 ^ (i + 1) ∧ 0 < 1 - B2 ^ (i + 1) ∧ 1 - B2 ^ (i + 1) ≤ (1 - B1 ^ (i + 1)) ^ 2 := by
  have h1 : B1 ^ (i + 1) ≤ B1 := by
    unfold B1; exact pow_le_of_le_one (by norm_num) (by norm_num) (by omega)
  have h2 : B2 ^ (i + 1) ≤ B2 := by
    unfold B2; exact pow_le_of_le_one (by norm_num) (by norm_num) (by omega)
  have h0 : 0 < B1 ^ (i + 1) := by unfold B1; positivity
  have key : 2 * B1 ^ (i + 1) ≤ B2 ^ (i + 1) + (B1 ^ (i + 1)) ^ 2 := by
    induction i with
    | zero => unfold B1 B2; norm_num
    | succ i ih =>
      have h1' : B1 ^ (i + 1) ≤ B1 := by
        unfold B1; exact pow_le_of_le_one (by norm_num) (by norm_num) (by omega)
      have h0' : 0 < B1 ^ (i + 1) := by unfold B1; positivity
      have ih := ih h1' (by unfold B2; exact pow_le_of_le_one (by norm_num) (by norm_num) (by omega)) h0'
      rw [pow_succ B1 (i + 1), pow_succ B2 (i + 1)]
      generalize B1 ^ (i + 1) = a at *
      generalize B2 ^ (i + 1) = b at *
      unfold B1 B2 at *
      nlinarith
  refine ⟨?_, ?_, by nlinarith⟩
  · have : B1 < 1 := by unfold B1; norm_num
    linarith
  · have : B2 < 1 := by unfold B2; norm_num
    linarith

theorem adam_move {stepSize : ℝ} (hs : 0 ≤ stepSize) {c : Cell} (hv : 0 ≤ c.v) (hm : c.m ^ 2 ≤ 52.9 * c.v) (i : ℕ) (g : ℝ) :
    |(cellUpdate stepSize i g c).x - c.x| ≤ 7.28 * stepSize := by
  obtain ⟨h1, h2, h3⟩ := adam_corr i
  have hv' : 0 ≤ (1 - B2) * g ^ 2 + B2 * c.v := by unfold B2; nlinarith [sq_nonneg g]
  have hm' := adam_m_sq (g := g) hm
  simp only [cellUpdate]
  generalize (1 - B1) * g + B1 * c.m = m at *
  generalize (1 - B2) * g ^ 2 + B2 * c.v = v at *
  generalize 1 - B1 ^ (i + 1) = a at *
  generalize 1 - B2 ^ (i + 1) = b at *
  have hsq : 0 ≤ Real.sqrt (v / b) := Real.sqrt_nonneg _
  have he : 0 < EPS := by unfold EPS; norm_num
  have hle : |m / a| ≤ 7.28 * Real.sqrt (v / b) := by
    rw [← Real.sqrt_sq (show (0 : ℝ) ≤ 7.28 by norm_num), ← Real.sqrt_mul (by norm_num), ← Real.sqrt_sq_eq_abs]
    apply Real.sqrt_le_sqrt
    rw [div_pow, div_le_iff₀ (by positivity)]
    have : v / b * a ^ 2 ≥ v := by
      rw [ge_iff_le, div_mul_eq_mul_div, le_div_iff₀ h2]
      exact mul_le_mul_of_nonneg_left h3 hv'
    nlinarith
  rw [sub_sub_cancel_left, abs_neg, mul_div_assoc, abs_mul, abs_of_nonneg hs, abs_div, abs_of_pos (by linarith : 0 < Real.sqrt (v / b) + EPS),
    mul_comm]
  refine mul_le_mul_of_nonneg_right ?_ hs
  rw [div_le_iff₀ (by linarith)]
  nlinarith

theorem adam_near_succ {stepSize x0 : ℝ} (hs : 0 ≤ stepSize) {n : ℕ} {c : Cell} (h : AdamNear (7.28 * stepSize) x0 n c)
    (i : ℕ) (g : ℝ) : AdamNear (7.28 * stepSize) x0 (n + 1) (cellUpdate stepSize i g c) := by
  refine ⟨?_, adam_m_sq h.m_sq, ?_⟩
  · have := h.v_nonneg
    simp only [cellUpdate]
    unfold B2
    nlinarith [sq_nonneg g]
  · have h1 := adam_move hs h.v_nonneg h.m_sq i g
    have h2 := h.dist
    have h3 := abs_sub_le (cellUpdate stepSize i g c).x c.x x0
    push_cast
    linarith

theorem AdamNear.mono {B x0 : ℝ} (hB : 0 ≤ B) {n m : ℕ} {c : Cell} (h : AdamNear B x0 n c) (hn : n ≤ m) : AdamNear B x0 m c :=
  ⟨h.v_nonneg, h.m_sq, h.dist.trans (mul_le_mul_of_nonneg_left (by exact_mod_cast hn) hB)⟩

theorem adam_near_init (B x : ℝ) : AdamNear B x 0 (cellInit x) := by
  refine ⟨le_rfl, ?_, ?_⟩ <;> simp [cellInit]

theorem adamRun_near {stepSize : ℝ} (hs : 0 ≤ stepSize) (x0 : ℝ) (i : ℕ → ℕ) (g : ℕ → ℝ) (n : ℕ) :
    AdamNear (7.28 * stepSize) x0 n (Diffstar.Spec.adamRun stepSize x0 i g n) := by
  induction n with
  | zero => exact adam_near_init _ _
  | succ n ih => exact adam_near_succ hs ih _ _

/-- **C137**: whatever the gradients, no Adam step changes a parameter by more than 7.28 step sizes, and after `n` steps it is
within `7.28 * n` step sizes of the start. -/
theorem C137_step_bound (stepSize : ℝ) (hs : 0 ≤ stepSize) (x0 : ℝ) (i : ℕ → ℕ) (g : ℕ → ℝ) (n : ℕ) :
    |(Diffstar.Spec.adamRun stepSize x0 i g (n + 1)).x - (Diffstar.Spec.adamRun stepSize x0 i g n).x| ≤ 7.28 * stepSize ∧
    |(Diffstar.Spec.adamRun stepSize x0 i g n).x - x0| ≤ 7.28 * stepSize * n :=
  ⟨adam_move hs (adamRun_near hs x0 i g n).v_nonneg (adamRun_near hs x0 i g n).m_sq _ _, (adamRun_near hs x0 i g n).dist⟩

/-- **C137**: while the gradient of a parameter is constant, the parameter moves against its sign with constant speed,
`|g| / (|g| + 1e-8)` step sizes per step. In particular this is the first step of every run. -/
theorem C137_constant_gradient (stepSize x0 g : ℝ) (n : ℕ) :
    (Diffstar.Spec.adamRun stepSize x0 id (fun _ => g) n).x = x0 - n * (stepSize * (g / (|g| + 1e-8))) := by
  have key : ∀ n : ℕ, (Diffstar.Spec.adamRun stepSize x0 id (fun _ => g) n).m = (1 - B1 ^ n) * g ∧
      (Diffstar.Spec.adamRun stepSize x0 id (fun _ => g) n).v = (1 - B2 ^ n) * g ^ 2 ∧
      (Diffstar.Spec.adamRun stepSize x0 id (fun _ => g) n).x = x0 - n * (stepSize * (g / (|g| + 1e-8))) := by
    intro n
    induction n with
    | zero => simp [Diffstar.Spec.adamRun, cellInit]
    | succ n ih =>
      obtain ⟨hm, hv, hx⟩ := ih
      obtain ⟨h1, h2, -⟩ := adam_corr n
      have em : (1 - B1) * g + B1 * ((1 - B1 ^ n) * g) = (1 - B1 ^ (n + 1)) * g := by ring
      have ev : (1 - B2) * g ^ 2 + B2 * ((1 - B2 ^ n) * g ^ 2) = (1 - B2 ^ (n + 1)) * g ^ 2 := by ring
      simp only [Diffstar.Spec.adamRun, cellUpdate, id, hm, hv, hx]
      rw [em, ev, mul_div_cancel_left₀ _ h1.ne', mul_div_cancel_left₀ _ h2.ne', Real.sqrt_sq_eq_abs]
      refine ⟨rfl, rfl, ?_⟩
      unfold EPS
      push_cast
      ring
  exact (key n).2.2

/-- **C137**: a parameter on which the loss does not depend is not moved. -/
theorem C137_zero_gradient (stepSize x0 : ℝ) (i : ℕ → ℕ) (n : ℕ) :
    (Diffstar.Spec.adamRun stepSize x0 i (fun _ => 0) n).x = x0 := by
  have key : (Diffstar.Spec.adamRun stepSize x0 i (fun _ => 0) n) = ⟨x0, 0, 0⟩ := by
    induction n with
    | zero => rfl
    | succ n ih => simp [Diffstar.Spec.adamRun, ih, cellUpdate]
  rw [key]

/-- **C137**: a step can be larger than the step size. If the gradient of a parameter is zero for 999 steps and one in the
last, this step moves the parameter by more than 2.5 step sizes. -/
theorem C137_larger_step (stepSize x0 : ℝ) (hs : 0 < stepSize) :
    (Diffstar.Spec.adamRun stepSize x0 id (fun j => if j < 999 then 0 else 1) 1000).x < x0 - 2.5 * stepSize := by
  have key : ∀ n ≤ 999, (Diffstar.Spec.adamRun stepSize x0 id (fun j => if j < 999 then 0 else 1) n) = ⟨x0, 0, 0⟩ := by
    intro n
    induction n with
    | zero => intro _; rfl
    | succ n ih =>
      intro hn
      rw [Diffstar.Spec.adamRun, ih (by omega)]
      simp [show n < 999 by omega, cellUpdate]
  rw [Diffstar.Spec.adamRun, key 999 le_rfl]
  simp only [cellUpdate, lt_irrefl, if_false, id]
  have h1 : (0 : ℝ) < 1 - B1 ^ (999 + 1) ∧ 1 - B1 ^ (999 + 1) ≤ 1 := by
    have := adam_corr 999
    refine ⟨this.1, ?_⟩
    have : (0 : ℝ) < B1 ^ (999 + 1) := by unfold B1; positivity
    linarith
  have h2 : (0.63 : ℝ) ≤ 1 - B2 ^ (999 + 1) := by
    have e : B2 ^ (999 + 1) = (B2 ^ 100) ^ 10 := by rw [← pow_mul]
    have e1 : B2 ^ 100 ≤ (0.9049 : ℝ) := by unfold B2; norm_num
    have e2 : (B2 ^ 100) ^ 10 ≤ (0.9049 : ℝ) ^ 10 := pow_le_pow_left₀ (by unfold B2; positivity) e1 10
    have e3 : (0.9049 : ℝ) ^ 10 ≤ 0.37 := by norm_num
    rw [e]
    linarith
  generalize 1 - B1 ^ (999 + 1) = a at *
  generalize 1 - B2 ^ (999 + 1) = b at *
  have hm : (0.1 : ℝ) ≤ ((1 - B1) * 1 + B1 * 0) / a := by
    rw [le_div_iff₀ h1.1]
    unfold B1
    nlinarith [h1.2]
  have hv : Real.sqrt (((1 - B2) * 1 ^ 2 + B2 * 0) / b) ≤ 0.0399 := by
    rw [Real.sqrt_le_left (by norm_num), div_le_iff₀ (by linarith)]
    unfold B2
    nlinarith
  have hv0 := Real.sqrt_nonneg (((1 - B2) * 1 ^ 2 + B2 * 0) / b)
  generalize ((1 - B1) * 1 + B1 * 0) / a = m at *
  generalize Real.sqrt (((1 - B2) * 1 ^ 2 + B2 * 0) / b) = r at *
  have hd : (0 : ℝ) < r + EPS := by unfold EPS; linarith
  have : 2.5 * stepSize < stepSize * m / (r + EPS) := by
    rw [lt_div_iff₀ hd]
    have : 2.5 * (r + EPS) < m := by unfold EPS; linarith
    nlinarith
  linarith

/-! ### The population fit -/

theorem popAdam_inv {P : ℕ → ℕ → Cell → Prop} {stepSize : ℝ} {n i : ℕ} {s : List (Option Cell)} {g : Vec}
    (hl : g.length = s.length) (hg : allFinite g = true)
    (h : ∀ k (hk : k < s.length), ∃ c, s[k] = some c ∧ P n k c)
    (hP : ∀ k (hk : k < g.length) c x, g[k] = some x → P n k c → P (n + 1) k (cellUpdate stepSize i x c)) :
    ((popAdam stepSize).update i g s).length = s.length ∧
    ∀ k (hk : k < ((popAdam stepSize).update i g s).length), ∃ c, ((popAdam stepSize).update i g s)[k] = some c ∧ P (n + 1) k c := by
  have e : (popAdam stepSize).update i g s = List.zipWith (cellUpdate? stepSize i) g s := rfl
  rw [e]
  refine ⟨by simp [hl], fun k hk => ?_⟩
  rw [List.length_zipWith] at hk
  obtain ⟨c, hc, hp⟩ := h k (by omega)
  have hgk : ∃ x, g[k]'(by omega) = some x := by
    have := (List.all_eq_true.1 hg) (g[k]'(by omega)) (List.getElem_mem _)
    exact Option.isSome_iff_exists.1 this
  obtain ⟨x, hx⟩ := hgk
  refine ⟨cellUpdate stepSize i x c, ?_, hP k (by omega) c x hx hp⟩
  rw [List.getElem_zipWith, hx, hc]
  rfl

/-- What is known during the loop: the optimiser state satisfies `Inv` for the number of passes made, and every recorded point
belongs to a state that does. -/
structure LoopInv {S : Type} (o : Optimizer S) (kernel : Vec → Option ℝ × Vec) (Inv : ℕ → S → Prop) (Q : Vec → Prop) (a n : ℕ)
    (st : St S) : Prop where
  opt : Inv a st.opt
  grads : ∀ cg, st.currentGrads = some cg → allFinite cg = true ∧ ∃ q, Q q ∧ (kernel q).1.isSome = true ∧ cg = (kernel q).2
  len : st.lossArr.length = n ∧ st.paramsArr.length = n
  point : ∀ (j : ℕ) L, st.lossArr[j]? = some (some L) → ∃ s, Inv (j + 1) s ∧ st.paramsArr[j]? = some (o.params s)

theorem finishStep_loopInv {S : Type} {o : Optimizer S} {kernel : Vec → Option ℝ × Vec} {Inv : ℕ → S → Prop}
    {Q : Vec → Prop} (hup : ∀ n i s q, Inv n s → Q q → (kernel q).1.isSome = true → allFinite (kernel q).2 = true →
      Inv (n + 1) (o.update i (kernel q).2 s))
    (hmono : ∀ n s, Inv n s → Inv (n + 1) s) {a n : ℕ} (ha : a < n) {st : St S} (h : LoopInv o kernel Inv Q a n st) {s : S}
    (hs : Inv (a + 1) s) (hQ : Q (o.params s)) (hL : (kernel (o.params s)).1.isSome = true) :
    (∀ st', finishStep o a st (o.params s) (kernel (o.params s)).1 (kernel (o.params s)).2 = .next st' →
      LoopInv o kernel Inv Q (a + 1) n st' ∧ ∀ j ≠ a, st'.lossArr[j]? = st.lossArr[j]?) ∧
    (∀ st', finishStep o a st (o.params s) (kernel (o.params s)).1 (kernel (o.params s)).2 = .stop st' →
      st'.lossArr = st.lossArr ∧ st'.paramsArr = st.paramsArr) ∧
    finishStep o a st (o.params s) (kernel (o.params s)).1 (kernel (o.params s)).2 ≠ .unbound := by
  unfold finishStep
  by_cases hok : (allFinite (o.params s) && (kernel (o.params s)).1.isSome && allFinite (kernel (o.params s)).2) = true
  · obtain ⟨⟨hp, hL'⟩, hg⟩ : (allFinite (o.params s) = true ∧ (kernel (o.params s)).1.isSome = true) ∧
        allFinite (kernel (o.params s)).2 = true := by simpa using hok
    simp only [hp, hL, hg, Bool.and_self, if_true]
    refine ⟨?_, by simp, by simp⟩
    intro st' e
    rw [Outcome.next.injEq] at e
    subst e
    refine ⟨⟨hup _ _ _ _ h.opt hQ hL hg, ?_, by simpa using h.len, ?_⟩, ?_⟩
    · intro cg hcg
      simp only [Option.some.injEq] at hcg
      subst hcg
      exact ⟨hg, _, hQ, hL, rfl⟩
    · intro j L hj
      simp only [List.getElem?_set] at hj ⊢
      by_cases hij : a = j
      · subst hij
        refine ⟨s, hs, by rw [if_pos rfl, if_pos (by rw [h.len.2]; exact ha)]⟩
      · rw [if_neg hij] at hj ⊢
        exact h.point j L hj
    · intro j hj
      simp only [List.getElem?_set]
      rw [if_neg (Ne.symm hj)]
  · simp only [hok]
    by_cases hg : allFinite (kernel (o.params s)).2 = true
    · simp only [hg, if_true]
      refine ⟨?_, by simp, by simp⟩
      intro st' e
      rw [Outcome.next.injEq] at e
      subst e
      refine ⟨⟨hmono _ _ h.opt, ?_, h.len, h.point⟩, fun _ _ => rfl⟩
      intro cg hcg
      simp only [Option.some.injEq] at hcg
      subst hcg
      exact ⟨hg, _, hQ, hL, rfl⟩
    · simp only [hg]
      refine ⟨by simp, ?_, by simp⟩
      intro st' e
      simp only [Bool.false_eq_true, if_false, Outcome.stop.injEq] at e
      subst e
      exact ⟨rfl, rfl⟩

theorem step_loopInv {S : Type} {o : Optimizer S} {kernel : Vec → Option ℝ × Vec} {Inv : ℕ → S → Prop}
    {Q : Vec → Prop} (hup : ∀ n i s q, Inv n s → Q q → (kernel q).1.isSome = true → allFinite (kernel q).2 = true →
      Inv (n + 1) (o.update i (kernel q).2 s))
    (hmono : ∀ n s, Inv n s → Inv (n + 1) s) {a n : ℕ} (hQ : ∀ m ≤ n, ∀ s, Inv m s → Q (o.params s)) (ha : a < n) {st : St S} (h : LoopInv o kernel Inv Q a n st) :
    (∀ st', step o kernel a st = .next st' → LoopInv o kernel Inv Q (a + 1) n st' ∧ ∀ j ≠ a, st'.lossArr[j]? = st.lossArr[j]?) ∧
    (∀ st', step o kernel a st = .stop st' → st'.lossArr = st.lossArr ∧ st'.paramsArr = st.paramsArr) := by
  unfold step
  by_cases hL : (kernel (o.params st.opt)).1.isSome = true
  · simp only [hL, if_true]
    have := finishStep_loopInv hup hmono ha h (hmono _ _ h.opt) (hQ _ ha.le _ h.opt) hL
    exact ⟨this.1, this.2.1⟩
  · simp only [hL]
    rcases hcg : st.currentGrads with _ | cg
    · simp
    · obtain ⟨hf, q, hq, hqL, rfl⟩ := h.grads _ hcg
      simp only [Bool.false_eq_true, if_false]
      split_ifs with h2
      · have hi := hup _ a _ q h.opt hq hqL hf
        have h2' : (kernel (o.params (o.update a (kernel q).2 st.opt))).1.isSome = true := by
          simp only [Bool.and_eq_true] at h2
          exact h2.1.2
        have := finishStep_loopInv hup hmono ha h hi (hQ _ ha _ hi) h2'
        exact ⟨this.1, this.2.1⟩
      · refine ⟨?_, by simp⟩
        intro st' e
        rw [Outcome.next.injEq] at e
        subst e
        exact ⟨⟨hmono _ _ h.opt, h.grads, h.len, h.point⟩, fun _ _ => rfl⟩

theorem loop_loopInv {S : Type} {o : Optimizer S} {kernel : Vec → Option ℝ × Vec} {Inv : ℕ → S → Prop}
    {Q : Vec → Prop} (hup : ∀ n i s q, Inv n s → Q q → (kernel q).1.isSome = true → allFinite (kernel q).2 = true →
      Inv (n + 1) (o.update i (kernel q).2 s))
    (hmono : ∀ n s, Inv n s → Inv (n + 1) s) (n : ℕ) (hQ : ∀ m ≤ n, ∀ s, Inv m s → Q (o.params s)) : ∀ (m a : ℕ) (st st' : St S), a + m ≤ n → LoopInv o kernel Inv Q a n st →
    loop o kernel (List.range' a m) st = some st' →
    (st'.lossArr.length = n ∧ st'.paramsArr.length = n) ∧
    (∀ (j : ℕ) L, st'.lossArr[j]? = some (some L) → ∃ s, Inv (j + 1) s ∧ st'.paramsArr[j]? = some (o.params s)) ∧
    ∀ j < a, st'.lossArr[j]? = st.lossArr[j]? := by
  intro m
  induction m with
  | zero =>
    intro a st st' _ h e
    simp only [List.range'_zero, loop, Option.some.injEq] at e
    subst e
    exact ⟨h.len, h.point, fun _ _ => rfl⟩
  | succ m ih =>
    intro a st st' ham h e
    obtain ⟨h1, h2⟩ := step_loopInv hup hmono hQ (by omega : a < n) h
    rw [List.range'_succ] at e
    simp only [loop] at e
    rcases hstep : step o kernel a st with st1 | st1 | _
    · rw [hstep] at e
      obtain ⟨hi, hj⟩ := h1 st1 hstep
      obtain ⟨l, p, q⟩ := ih (a + 1) st1 st' (by omega) hi e
      exact ⟨l, p, fun j hja => by rw [q j (by omega), hj j (by omega)]⟩
    · rw [hstep] at e
      simp only [Option.some.injEq] at e
      subst e
      obtain ⟨e1, e2⟩ := h2 st1 hstep
      rw [e1, e2]
      exact ⟨h.len, h.point, fun _ _ => rfl⟩
    · rw [hstep] at e
      simp at e

/-- A run of the population fit that starts at a point with a finite loss and gradient saves the parameters of a state which
satisfies the invariant for at most `n` updates. -/
theorem runFit_inv {S : Type} {o : Optimizer S} {kernel : Vec → Option ℝ × Vec} {Inv : ℕ → S → Prop}
    {Q : Vec → Prop} (hup : ∀ n i s q, Inv n s → Q q → (kernel q).1.isSome = true → allFinite (kernel q).2 = true →
      Inv (n + 1) (o.update i (kernel q).2 s))
    (hmono : ∀ n s, Inv n s → Inv (n + 1) s) (n : ℕ) (hQ : ∀ m ≤ n, ∀ s, Inv m s → Q (o.params s)) (hn : 0 < n) (p0 : Vec) (hi : Inv 0 (o.init p0)) (L0 : ℝ)
    (h0 : Spec.FiniteAt kernel (o.params (o.init p0)) L0) (p : Vec) (hp : runFit o kernel n p0 = some p) :
    ∃ s, Inv n s ∧ p = o.params s := by
  obtain ⟨m, rfl⟩ : ∃ m, n = m + 1 := ⟨n - 1, by omega⟩
  have hmono' : ∀ a b s, a ≤ b → Inv a s → Inv b s := by
    intro a b s hab h
    induction hab with
    | refl => exact h
    | step _ ih => exact hmono _ _ ih
  have hpf : allFinite (o.params (o.init p0)) = true := (allFinite_iff _).2 h0.1
  have hgf : allFinite (kernel (o.params (o.init p0))).2 = true := (allFinite_iff _).2 h0.2.2
  unfold runFit at hp
  simp only [Option.bind_eq_bind, Option.pure_def] at hp
  obtain ⟨st, hst, hp⟩ := Option.bind_eq_some_iff.1 hp
  obtain ⟨i, hi', hp⟩ := Option.bind_eq_some_iff.1 hp
  rw [List.range_eq_range', List.range'_succ] at hst
  simp only [loop, step, finishStep, h0.2.1, hpf, hgf, Option.isSome_some, Bool.and_self, if_true] at hst
  obtain ⟨hlen, hpt, hl0⟩ := loop_loopInv hup hmono (m + 1) hQ m (0 + 1) _ st (by omega)
    ⟨hup 0 0 _ _ hi (hQ _ (Nat.zero_le _) _ hi) (by rw [h0.2.1]; rfl) hgf, by
      intro cg hcg
      simp only [Option.some.injEq] at hcg
      subst hcg
      exact ⟨hgf, _, hQ _ (Nat.zero_le _) _ hi, by rw [h0.2.1]; rfl, rfl⟩, by simp, by
      intro j L hj
      simp only [List.getElem?_set] at hj ⊢
      by_cases h : 0 = j
      · subst h
        exact ⟨o.init p0, hmono _ _ hi, by simp⟩
      · rw [if_neg h, List.getElem?_replicate] at hj
        split_ifs at hj
        simp at hj⟩ hst
  have hl : st.lossArr[0]? = some (some L0) := by rw [hl0 0 (by omega)]; simp
  obtain ⟨hilt, hmin, _⟩ := argmin_some hi'
  have hle := hmin (some L0) (List.mem_of_getElem? hl)
  have hge : st.lossArr[i]? = some (st.lossArr.getD i none) := by
    rw [List.getElem?_eq_getElem hilt, List.getD_eq_getElem _ _ hilt]
  obtain ⟨L, hL⟩ : ∃ L, st.lossArr.getD i none = some L := by
    cases h : st.lossArr.getD i none with
    | none => rw [h] at hle; exact absurd hle (by simp [lossLe])
    | some L => exact ⟨L, rfl⟩
  rw [hL] at hge
  obtain ⟨s, hs, hps⟩ := hpt i L hge
  refine ⟨s, hmono' _ _ _ (by omega) hs, ?_⟩
  rw [Option.some.injEq] at hp
  rw [← hp, List.getD_eq_getElem?_getD, hps]
  rfl

theorem popAdam_params_init (stepSize : ℝ) (p0 : Vec) : (popAdam stepSize).params ((popAdam stepSize).init p0) = p0 := by
  simp only [popAdam, List.map_map]
  conv_rhs => rw [← List.map_id p0]
  refine List.map_congr_left fun x _ => ?_
  cases x <;> rfl

/-- Every component of the state satisfies `P` for the number of updates. -/
def CellsInv (d : ℕ) (P : ℕ → ℕ → Cell → Prop) (n : ℕ) (s : List (Option Cell)) : Prop :=
  s.length = d ∧ ∀ k (hk : k < s.length), ∃ c, s[k] = some c ∧ P n k c

theorem runFit_cells {P : ℕ → ℕ → Cell → Prop} {Q : Vec → Prop} {stepSize : ℝ} (kernel : Vec → Option ℝ × Vec) (n : ℕ) (hn : 0 < n)
    (x0 : List ℝ) (hlen : ∀ q, (kernel q).2.length = x0.length) (L0 : ℝ) (h0 : Spec.FiniteAt kernel (x0.map some) L0)
    (hinit : ∀ k (hk : k < x0.length), P 0 k (cellInit x0[k]))
    (hQ : ∀ m ≤ n, ∀ s, CellsInv x0.length P m s → Q ((popAdam stepSize).params s))
    (hP : ∀ n i q k c (hk : k < x0.length) x, Q q → (kernel q).1.isSome = true → allFinite (kernel q).2 = true → ((kernel q).2[k]'(by rw [hlen]; exact hk)) = some x → P n k c →
      P (n + 1) k (cellUpdate stepSize i x c))
    (hmono : ∀ n k c, P n k c → P (n + 1) k c) :
    ∃ p L, runFit (popAdam stepSize) kernel n (x0.map some) = some p ∧ Spec.FiniteAt kernel p L ∧ L ≤ L0 ∧
      p.length = x0.length ∧ ∀ k (hk : k < p.length), ∃ c, p[k] = some c.x ∧ P n k c := by
  have h0' : Spec.FiniteAt kernel ((popAdam stepSize).params ((popAdam stepSize).init (x0.map some))) L0 := by
    rw [popAdam_params_init]; exact h0
  obtain ⟨p, L, hp, hfin, hL, -⟩ := C82_saved_no_worse_than_start_partial (popAdam stepSize) kernel n hn _ L0 h0'
  obtain ⟨s, ⟨hsl, hs⟩, rfl⟩ := runFit_inv (Inv := CellsInv x0.length P) (by
      intro n i s q ⟨hl, hc⟩ hq hL hf
      obtain ⟨e1, e2⟩ := popAdam_inv (P := P) (stepSize := stepSize) (n := n) (i := i) (by rw [hlen, hl]) hf hc
        (fun k hk c x hx hp => hP n i q k c (by rw [← hlen q]; exact hk) x hq hL hf hx hp)
      exact ⟨e1.trans hl, e2⟩) (by
      intro n s ⟨hl, hc⟩
      refine ⟨hl, fun k hk => ?_⟩
      obtain ⟨c, h1, h2⟩ := hc k hk
      exact ⟨c, h1, hmono _ _ _ h2⟩) n hQ hn _ (by
      refine ⟨by simp [popAdam], fun k hk => ?_⟩
      simp only [popAdam, List.length_map] at hk
      exact ⟨cellInit x0[k], by simp [popAdam], hinit k hk⟩) L0 h0' p hp
  refine ⟨_, L, hp, hfin, hL, by simp [popAdam, hsl], fun k hk => ?_⟩
  simp only [popAdam, List.length_map] at hk
  obtain ⟨c, h1, h2⟩ := hs k hk
  exact ⟨c, by simp [popAdam, h1], h2⟩

/-- **C137**: a population fit of `n` steps that starts where loss and gradient are finite saves finite parameters, none of
which is further than `0.0728 * n` from its start. A parameter whose gradient is zero throughout is saved as it was. -/
theorem C137_population_fit_range (kernel : Vec → Option ℝ × Vec) (n : ℕ) (hn : 0 < n)
    (x0 : List ℝ) (hlen : ∀ q, (kernel q).2.length = x0.length) (L0 : ℝ) (h0 : Spec.FiniteAt kernel (x0.map some) L0) :
    ∃ (p : List ℝ) (L : ℝ), runFit (popAdam POP_STEP_SIZE) kernel n (x0.map some) = some (p.map some) ∧
      Spec.FiniteAt kernel (p.map some) L ∧ L ≤ L0 ∧ p.length = x0.length ∧
      ∀ k (hk : k < x0.length) (hk' : k < p.length), |p[k] - x0[k]| ≤ 0.0728 * n ∧
        ((∀ q, allFinite (kernel q).2 = true → (kernel q).2[k]? = some (some 0)) → p[k] = x0[k]) := by
  obtain ⟨p, L, hp, hf, hL, hl, hc⟩ := runFit_cells (P := fun n k c => (∀ hk : k < x0.length, AdamNear 0.0728 x0[k] n c) ∧
      ∀ hk : k < x0.length, (∀ q, allFinite (kernel q).2 = true → (kernel q).2[k]? = some (some 0)) → c = ⟨x0[k], 0, 0⟩) (Q := fun _ => True) (stepSize := POP_STEP_SIZE)
    kernel n hn x0 hlen L0 h0 (fun k hk => ⟨fun _ => adam_near_init _ _, fun _ _ => rfl⟩)
    (fun _ _ _ _ => trivial)
    (by
      intro n i q k c hk x _ _ hfin hx ⟨h1, h2⟩
      refine ⟨fun hk => ?_, fun hk hz => ?_⟩
      · have e : (0.0728 : ℝ) = 7.28 * POP_STEP_SIZE := by unfold POP_STEP_SIZE; norm_num
        have := h1 hk
        rw [e] at this ⊢
        exact adam_near_succ (by unfold POP_STEP_SIZE; norm_num) this i x
      · have hx0 : x = 0 := by
          have h := hz q hfin
          rw [List.getElem?_eq_getElem (by rw [hlen]; exact hk), hx] at h
          simpa using h
        rw [h2 hk hz, hx0]
        simp [cellUpdate])
    (by
      intro n k c ⟨h1, h2⟩
      exact ⟨fun hk => (h1 hk).mono (by norm_num) (by omega), h2⟩)
  have hall : ∀ x ∈ p, ∃ y, x = some y := by
    intro x hx
    obtain ⟨k, hk, rfl⟩ := List.getElem_of_mem hx
    obtain ⟨c, h, -⟩ := hc k hk
    exact ⟨_, h⟩
  have hpe : p = (p.map fun x => x.getD 0).map some := by
    rw [List.map_map]
    conv_lhs => rw [← List.map_id p]
    refine List.map_congr_left fun x hx => ?_
    obtain ⟨y, rfl⟩ := hall x hx
    rfl
  refine ⟨p.map fun x => x.getD 0, L, by rw [← hpe]; exact hp, by rw [← hpe]; exact hf, hL, by simp [hl], ?_⟩
  intro k hk hk'
  obtain ⟨c, h, h1, h2⟩ := hc k (by rw [hl]; exact hk)
  simp only [List.getElem_map, h, Option.getD_some]
  exact ⟨(h1 hk).dist, fun hz => by rw [h2 hk hz]⟩

open Diffstar.Pop Diffstar.PopLoss Diffstar.Spec in
/-- **C137** for the fitting script with its own losses: from a start at which the loss is a number, `n` steps of Adam save 88
numbers, none further than `0.0728 * n` from its start, at which the loss is a number and not above that of the start. -/
theorem C137_script_fit {K : Type} {rng : Rng K} {z : K → Fin 4 → ℝ} (hr : Reparametrised rng z)
    (logMah : MahParams ℝ → ℝ → ℝ → ℝ) (l : ScriptLoss K) (hd : GoodData l) (nanCase : Vec → Option ℝ × Vec)
    (hnan : ∀ q, (nanCase q).2.length = 88) (flat : List ℝ) (u : PF → ℝ) (hu : makeUParams flat = some u) (L0 : ℝ)
    (h0 : scriptValue rng logMah u l = some L0) (n : ℕ) (hn : 0 < n) :
    ∃ (flat' : List ℝ) (p : List ℝ) (u' : PF → ℝ) (L : ℝ),
      runFit (popAdam POP_STEP_SIZE) (scriptKernel (Trace.gradWrapper (Trace.scriptLoss rng.split z logMah l)) nanCase) n
        (flat.map some) = some (flat'.map some) ∧ savedArrays flat' = some (p, flat') ∧ makeUParams flat' = some u' ∧
      scriptValue rng logMah u' l = some L ∧ L ≤ L0 ∧ flat'.length = 88 ∧
      ∀ k (hk : k < flat.length) (hk' : k < flat'.length), |flat'[k] - flat[k]| ≤ 0.0728 * n := by
  have hfl : flat.length = 88 := by
    have := hu
    unfold makeUParams at this
    split_ifs at this with h
    rw [fields_length] at h
    exact h
  obtain ⟨g, hw, hgl⟩ := scriptLoss_finite hr logMah l hd flat hfl u hu L0 h0
  have hk : scriptKernel (Trace.gradWrapper (Trace.scriptLoss rng.split z logMah l)) nanCase (flat.map some) =
      (some L0, g.map some) := by
    unfold scriptKernel
    rw [finiteVals_map, Option.bind_some, hw]
  have hlen : ∀ q, (scriptKernel (Trace.gradWrapper (Trace.scriptLoss rng.split z logMah l)) nanCase q).2.length = flat.length := by
    intro q
    rw [hfl]
    unfold scriptKernel
    rcases h : (finiteVals q).bind (Trace.gradWrapper (Trace.scriptLoss rng.split z logMah l)) with _ | r
    · exact hnan q
    · obtain ⟨v, -, hv⟩ := Option.bind_eq_some_iff.1 h
      unfold Trace.gradWrapper at hv
      obtain ⟨w, -, rfl⟩ := Option.map_eq_some_iff.1 hv
      simp only [List.length_map, fields_length]
  obtain ⟨flat', L, h1, h2, h3, h4, h5⟩ := C137_population_fit_range _ n hn flat hlen L0
    ⟨by simp, by rw [hk], by rw [hk]; simp⟩
  obtain ⟨p, u', e1, e2, e3⟩ := script_value_of_finite hr logMah l hd nanCase flat' (h4.trans hfl) L h2
  exact ⟨flat', p, u', L, h1, e1, e2, e3, h3, h4.trans hfl, fun k hk hk' => (h5 k hk hk').1⟩

/-- A loss of two parameters that depends on the first one only. -/
noncomputable def firstOnly : Vec → Option ℝ × Vec := fun q =>
  match q with
  | [some x, some _] => (some (x ^ 2), [some (2 * x), some 0])
  | _ => (none, [none, none])

example : (∀ q, (firstOnly q).2.length = [(3 : ℝ), 5].length) ∧ Spec.FiniteAt firstOnly ([(3 : ℝ), 5].map some) 9 ∧
    ∀ q, allFinite (firstOnly q).2 = true → (firstOnly q).2[1]? = some (some 0) := by
  have h : ∀ q, firstOnly q = (none, [none, none]) ∨ ∃ x, firstOnly q = (some (x ^ 2), [some (2 * x), some 0]) := by
    intro q
    unfold firstOnly
    split
    · exact Or.inr ⟨_, rfl⟩
    · exact Or.inl rfl
  refine ⟨fun q => ?_, ?_, fun q hq => ?_⟩
  · rcases h q with h | ⟨x, h⟩ <;> rw [h] <;> rfl
  · norm_num [Spec.FiniteAt, firstOnly]
    simp
  · rcases h q with h | ⟨x, h⟩
    · rw [h] at hq; simp [allFinite] at hq
    · rw [h]; rfl

open Diffstar.Pop Diffstar.PopLoss Diffstar.Spec in
/-- The data of `oneHalo_script` meets the hypotheses of `C137_script_fit`. -/
example : ∃ (l : ScriptLoss Unit) (flat : List ℝ) (u : PF → ℝ) (L : ℝ), GoodData l ∧ Reparametrised oneSigmaRng (fun _ _ => 1) ∧
    makeUParams flat = some u ∧ scriptValue oneSigmaRng (fun _ _ _ => 12) u l = some L := by
  obtain ⟨l, L, hd, hL⟩ := oneHalo_script
  refine ⟨l, PF.fields.map fun _ => 1, fun _ => 1, L, hd, oneSigmaRng_reparametrised, ?_, hL⟩
  rw [makeUParams_eq (by rw [List.length_map, fields_length])]
  congr 1
  funext f
  exact makeTuple_map PF.fields (fun _ => (1 : ℝ)) f (PF.mem_fields f)

/-! ### The backup of the fitter -/

theorem fitAdam_near {n : ℕ} {stepSize : ℝ} (hs : 0 ≤ stepSize) (lossGrad : (Fin n → ℝ) → Option (ℝ × (Fin n → ℝ)))
    (p : Fin n → ℝ) (j : ℕ) (k : Fin n) :
    AdamNear (7.28 * stepSize) (p k) j (Diffstar.Spec.traj (fitAdam stepSize lossGrad) p j k) := by
  induction j with
  | zero => exact adam_near_init _ _
  | succ j ih =>
    have key : ∀ s : Fin n → Cell, (∃ g, (fitAdam stepSize lossGrad).update j s k = cellUpdate stepSize j g (s k)) ∨
        (fitAdam stepSize lossGrad).update j s k = s k := by
      intro s
      simp only [fitAdam]
      rcases lossGrad fun k => (s k).x with _ | r
      · exact Or.inr rfl
      · exact Or.inl ⟨_, rfl⟩
    show AdamNear _ _ _ ((fitAdam stepSize lossGrad).update j (Diffstar.Spec.traj (fitAdam stepSize lossGrad) p j) k)
    rcases key (Diffstar.Spec.traj (fitAdam stepSize lossGrad) p j) with ⟨g, e⟩ | e
    · rw [e]; exact adam_near_succ hs ih j g
    · rw [e]; exact ih.mono (by positivity) (Nat.le_succ j)

theorem wrapper_is_iterate {S P : Type} [Zero P] (A : Fit.Adam S P) (p : P) (n : ℕ) (r : Fit.AdamResult P)
    (h : Fit.jaxAdamWrapper A p n = some r) : ∃ i < n, r.params = A.getParams (Diffstar.Spec.traj A p i) := by
  classical
  have hn : n ≠ 0 := by
    intro h0
    rw [(C45_raises_iff_no_steps A p n).2 h0] at h
    simp at h
  by_cases h0 : A.loss (A.init p) = none
  · rw [C45_first_step_fails A p n (by omega) h0, Option.some.injEq] at h
    subst h
    exact ⟨0, by omega, rfl⟩
  · let bad : ℕ → Prop := fun k => k = n ∨ A.loss (Diffstar.Spec.traj A p k) = none
    have hex : ∃ k, bad k := ⟨n, Or.inl rfl⟩
    have hmin : ∀ i < Nat.find hex, ¬ bad i := fun i hi => Nat.find_min hex hi
    have hle : Nat.find hex ≤ n := Nat.find_min' hex (Or.inl rfl)
    have hpos : 0 < Nat.find hex := by
      rw [Nat.find_pos]
      rintro (h1 | h1)
      · exact hn h1.symm
      · exact h0 h1
    obtain ⟨r', e, -, -, b, hb, hp, -⟩ := C45_reports_best_step A p (fun i => (A.loss (Diffstar.Spec.traj A p i)).getD 0) n
      (Nat.find hex) hpos hle (by
        intro i hi
        have := hmin i hi
        simp only [bad, not_or] at this
        cases hl : A.loss (Diffstar.Spec.traj A p i) with
        | none => exact absurd hl this.2
        | some L => rfl) (by
        intro hlt
        rcases Nat.find_spec hex with h1 | h1
        · omega
        · exact h1)
    rw [h, Option.some.injEq] at e
    subst e
    exact ⟨b, by omega, hp⟩

theorem wrapper_near {n : ℕ} {stepSize : ℝ} (hs : 0 ≤ stepSize) (lossGrad : (Fin n → ℝ) → Option (ℝ × (Fin n → ℝ)))
    (p : Fin n → ℝ) (m : ℕ) (r : Fit.AdamResult (Fin n → ℝ))
    (h : Fit.jaxAdamWrapper (fitAdam stepSize lossGrad) p (m + 1) = some r) (k : Fin n) :
    |r.params k - p k| ≤ 7.28 * stepSize * m := by
  obtain ⟨i, hi, e⟩ := wrapper_is_iterate _ _ _ _ h
  rw [e]
  exact ((fitAdam_near hs lossGrad p i k).mono (by positivity) (by omega : i ≤ m)).dist

/-- **C137**: if L-BFGS-B fails, the parameters returned by the backup run of `minimizer` with `n` steps are within
`7.28 * (4.9 + 0.01 * (n - 1))` of its start: two warm-up runs of 50 steps with five times the step size, and the main run. -/
theorem C137_backup_range {d : ℕ} (lossGrad : (Fin d → ℝ) → Option (ℝ × (Fin d → ℝ)))
    (scipy : (Fin d → ℝ) → Fit.ScipyResult (Fin d → ℝ)) (p : Fin d → ℝ) (n : ℕ) (hn : 0 < n)
    (hs : (scipy p).success = false) :
    ∃ q l flag, minimizerAdam lossGrad scipy p n = some (q, l, flag) ∧ (flag = 0 ∨ flag = -1) ∧
      ∀ k, |q k - p k| ≤ 7.28 * (4.9 + 0.01 * (n - 1)) := by
  obtain ⟨q, l, flag, h1, -, -, h2⟩ := C66_success_codes_partial (fitAdam warmupStepSize lossGrad) (fitAdam STEP_SIZE lossGrad)
    (fun _ => true) scipy p n hn
  obtain ⟨pw, hw, hf, -, r, hr, rfl, -⟩ := h2 hs
  obtain ⟨m, rfl⟩ : ∃ m, n = m + 1 := ⟨n - 1, by omega⟩
  refine ⟨_, l, flag, h1, hf, fun k => ?_⟩
  simp only [if_true] at hr
  have e3 := wrapper_near (by unfold STEP_SIZE; norm_num) lossGrad pw m r hr k
  simp only [Fit.adamWarmup] at hw
  obtain ⟨r1, hr1, hw⟩ := Option.bind_eq_some_iff.1 hw
  obtain ⟨r2, hr2, hw⟩ := Option.bind_eq_some_iff.1 hw
  rw [Option.some.injEq] at hw
  subst hw
  have e1 := wrapper_near (by unfold warmupStepSize STEP_SIZE; norm_num) lossGrad p 49 r1 hr1 k
  have e2 := wrapper_near (by unfold warmupStepSize STEP_SIZE; norm_num) lossGrad r1.params 49 r2 hr2 k
  have t1 := abs_sub_le (r.params k) (r2.params k) (p k)
  have t2 := abs_sub_le (r2.params k) (r1.params k) (p k)
  unfold warmupStepSize STEP_SIZE at *
  push_cast at *
  linarith

example : ∃ (lossGrad : (Fin 1 → ℝ) → Option (ℝ × (Fin 1 → ℝ))) (scipy : (Fin 1 → ℝ) → Fit.ScipyResult (Fin 1 → ℝ)),
    (scipy fun _ => 3).success = false ∧ lossGrad (fun _ => 3) = some (9, fun _ => 6) :=
  ⟨fun p => some (p 0 ^ 2, fun _ => 2 * p 0), fun p => ⟨p, none, false⟩, rfl, by norm_num⟩

end Diffstar.Props
