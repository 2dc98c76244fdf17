import Verif.Lemmas.TraceSens
import Verif.Props.PopTraceNan

/-!
How strongly the traced population losses depend on the satellite quenching parameters if all times since infall are at most
`-99`, as in the loss data.
-/

namespace Diffstar.Props

open Diffstar Diffstar.Spec Diffstar.Pop Diffstar.PopLoss Diffstar.Trace

variable {u : PF → ℝ} {k : PF}

local notation "B" => getBoundedDiffstarpopParams

theorem bounded_in (u : PF → ℝ) (f : PF) : (PF.bounds f).1 < B u f ∧ B u f < (PF.bounds f).2 := by
  have hb : (PF.bounds f).1 < (PF.bounds f).2 := by
    rcases f with f | f <;> cases f <;> norm_num [PF.bounds, QF.bounds, QF.boundsQ, SF.bounds, SF.boundsQ]
  rw [getBounded_apply]
  have h0 := nnSigmoid_pos (0.1 * (u f - 0.5 * ((PF.bounds f).1 + (PF.bounds f).2)))
  have h1 := nnSigmoid_lt_one (0.1 * (u f - 0.5 * ((PF.bounds f).1 + (PF.bounds f).2)))
  unfold Diffstar.sigmoid
  constructor <;> nlinarith

theorem sens_bounded (s : SF) : Sens u k (boundedPop (.inr s)) (B u (.inr s)) 1.5 := by
  have hw : |(PF.bounds (.inr s)).2 - (PF.bounds (.inr s)).1| ≤ 15 := by
    cases s <;> norm_num [PF.bounds, SF.bounds, SF.boundsQ, abs_le]
  set lo := (PF.bounds (.inr s)).1
  set hi := (PF.bounds (.inr s)).2
  have h := (Sens.const (u := u) (k := k) lo).add (((Sens.const hi).sub (Sens.const lo)).mul (((Sens.const 0.1).mul
    ((Sens.var (Sum.inr s)).sub (Sens.const (0.5 * (lo + hi))))).logistic))
  have h0 := nnSigmoid_pos (0.1 * (u (.inr s) - 0.5 * (lo + hi)))
  have h1 := nnSigmoid_lt_one (0.1 * (u (.inr s) - 0.5 * (lo + hi)))
  rw [getBounded_apply]
  refine h.mono ?_
  have : |(0.1 : ℝ)| = 0.1 := abs_of_pos (by norm_num)
  rw [this]
  nlinarith [abs_nonneg (hi - lo)]

theorem Sens.sigmoid_le {x0 lo hi : Expr PF} {v0 vl vh c0 cl ch w : ℝ} (t s : ℝ) (h0 : Sens u k x0 v0 c0) (hl : Sens u k lo vl cl)
    (hh : Sens u k hi vh ch) (hw : |vh - vl| ≤ w) :
    Sens u k (Trace.sigmoid (.const t) x0 (.const s) lo hi) (Diffstar.sigmoid t v0 s vl vh)
      (cl + ((ch + cl) + w * (|s| * c0))) := by
  refine (Sens.sigmoid t s h0 hl hh).mono ?_
  have n1 := nnSigmoid_pos (s * (t - v0))
  have n2 := nnSigmoid_lt_one (s * (t - v0))
  have := mul_nonneg (abs_nonneg s) h0.nonneg
  have a1 : |vh - vl| * (|s| * c0) ≤ w * (|s| * c0) := mul_le_mul_of_nonneg_right hw this
  have a2 : 0 ≤ |vh - vl| * (|s| * c0) := mul_nonneg (abs_nonneg _) this
  have a3 : 0 ≤ ch + cl := add_nonneg hh.nonneg hl.nonneg
  nlinarith

theorem nnSigmoid_tiny {z : ℝ} (h : z ≤ -470) : nnSigmoid z ≤ 1 / 10 ^ 141 := by
  unfold nnSigmoid
  apply one_div_le_one_div_of_le (by positivity)
  have e1 : (2 : ℝ) ≤ Real.exp 1 := by linarith [Real.exp_one_gt_d9]
  have e2 : Real.exp 470 ≤ Real.exp (-z) := Real.exp_le_exp.2 (by linarith)
  have e3 : (2 : ℝ) ^ 470 ≤ Real.exp 470 := by
    rw [show (470 : ℝ) = ((470 : ℕ) : ℝ) * 1 by norm_num, Real.exp_nat_mul]
    exact pow_le_pow_left₀ (by norm_num) e1 470
  have e4 : (10 : ℝ) ^ 141 ≤ 2 ^ 470 := by
    rw [show (141 : ℕ) = 3 * 47 from rfl, show (470 : ℕ) = 10 * 47 from rfl, pow_mul, pow_mul]
    exact pow_le_pow_left₀ (by positivity) (by norm_num) 47
  exact (e4.trans (e3.trans e2)).trans (le_add_of_nonneg_left zero_le_one)

/-- The probability of being quenched by infall, 99 Gyr before the infall, hardly depends on the parameters. -/
theorem sens_delta (mu mh t : ℝ) (ht : t ≤ -99) :
    ∃ δ, 0 < δ ∧ δ ≤ 1 / 10 ^ 141 ∧
      Sens u k (predictSatFracDeltaQprob (fun f => boundedPop (.inr f)) mu mh t) δ (1 / 10 ^ 138) := by
  have hp : InSBounds fun f => B u (.inr f) := fun f => bounded_in u (.inr f)
  have hb := fun s => sens_bounded (u := u) (k := k) s
  have h01 : ∀ f, SF.bounds f = (0, 1) → 0 < B u (.inr f) ∧ B u (.inr f) < 1 := fun f hf => sprob_field hp f hf
  have q1 := h01 .lgmu_lo_mh_lo (by norm_num [SF.bounds, SF.boundsQ])
  have q2 := h01 .lgmu_hi_mh_lo (by norm_num [SF.bounds, SF.boundsQ])
  have q3 := h01 .lgmu_lo_mh_hi (by norm_num [SF.bounds, SF.boundsQ])
  have q4 := h01 .lgmu_hi_mh_hi (by norm_num [SF.bounds, SF.boundsQ])
  have s1 := Sens.sigmoid_le (w := 1) mu LGMU_SPEED (hb .qphi_lgmu_crit) (hb .lgmu_lo_mh_lo) (hb .lgmu_hi_mh_lo)
    (abs_le.2 ⟨by linarith [q1.1, q1.2, q2.1, q2.2], by linarith [q1.1, q1.2, q2.1, q2.2]⟩)
  have s2 := Sens.sigmoid_le (w := 1) mu LGMU_SPEED (hb .qphi_lgmu_crit) (hb .lgmu_lo_mh_hi) (hb .lgmu_hi_mh_hi)
    (abs_le.2 ⟨by linarith [q3.1, q3.2, q4.1, q4.2], by linarith [q3.1, q3.2, q4.1, q4.2]⟩)
  have m1 := sigmoid_mem_Ioo (x := mu) (x0 := B u (.inr .qphi_lgmu_crit)) (k := LGMU_SPEED) q1 q2
  have m2 := sigmoid_mem_Ioo (x := mu) (x0 := B u (.inr .qphi_lgmu_crit)) (k := LGMU_SPEED) q3 q4
  have s3 := Sens.sigmoid_le (w := 1) mh DEFAULT_LGMH_K (hb .qp_lgmh_crit) s1 s2
    (abs_le.2 ⟨by linarith [m1.1, m1.2, m2.1, m2.2], by linarith [m1.1, m1.2, m2.1, m2.2]⟩)
  have d1 := hp .td_mlo
  have d2 := hp .td_mhi
  norm_num [SF.bounds, SF.boundsQ] at d1 d2
  have s4 := Sens.sigmoid_le (w := 15) mh DEFAULT_LGMH_K (hb .td_lgmhc) (hb .td_mlo) (hb .td_mhi)
    (abs_le.2 ⟨by linarith [d1.1, d1.2, d2.1, d2.2], by linarith [d1.1, d1.2, d2.1, d2.2]⟩)
  have m3 := sigmoid_mem_Ioo (x := mh) (x0 := B u (.inr .qp_lgmh_crit)) (k := DEFAULT_LGMH_K) m1 m2
  have m4 := sigmoid_mem_Ioo (x := mh) (x0 := B u (.inr .td_lgmhc)) (k := DEFAULT_LGMH_K) d1 d2
  have s5 := Sens.sigmoid t DEFAULT_Q_SPEED s4 (Sens.const 0) s3
  set Q := Diffstar.sigmoid mh (B u (.inr .qp_lgmh_crit)) DEFAULT_LGMH_K _ _
  set T := Diffstar.sigmoid mh (B u (.inr .td_lgmhc)) DEFAULT_LGMH_K _ _
  have n1 := nnSigmoid_pos (DEFAULT_Q_SPEED * (t - T))
  have n2 : nnSigmoid (DEFAULT_Q_SPEED * (t - T)) ≤ 1 / 10 ^ 141 :=
    nnSigmoid_tiny (by unfold DEFAULT_Q_SPEED; linarith [m4.1])
  refine ⟨_, ?_, ?_, s5.mono ?_⟩
  · unfold Diffstar.sigmoid
    nlinarith [m3.1]
  · unfold Diffstar.sigmoid
    nlinarith [m3.1, m3.2]
  · rw [sub_zero, abs_of_pos m3.1]
    have e1 : |DEFAULT_LGMH_K| = DEFAULT_LGMH_K := abs_of_pos (by unfold DEFAULT_LGMH_K; norm_num)
    have e2 : |LGMU_SPEED| = LGMU_SPEED := abs_of_pos (by unfold LGMU_SPEED; norm_num)
    have e3 : |DEFAULT_Q_SPEED| = DEFAULT_Q_SPEED := abs_of_pos (by unfold DEFAULT_Q_SPEED; norm_num)
    rw [e1, e2, e3]
    generalize nnSigmoid (DEFAULT_Q_SPEED * (t - T)) = σ at *
    have hQ0 := m3.1
    have hQ := m3.2
    generalize Q = q at *
    unfold DEFAULT_LGMH_K LGMU_SPEED DEFAULT_Q_SPEED
    calc _ ≤ 1000 * σ := by nlinarith [mul_pos hQ0 n1]
      _ ≤ 1000 * (1 / 10 ^ 141) := by linarith
      _ = _ := by norm_num

theorem sat_floor (f : QF) (hf : QF.bounds f = (0, 1)) (h : -1000 ≤ u (.inl f)) : 1 / 10 ^ 45 ≤ B u (.inl f) := by
  rw [getBounded_apply]
  have hb : PF.bounds (.inl f) = (0, 1) := hf
  rw [hb]
  unfold Diffstar.sigmoid nnSigmoid
  norm_num only
  have e1 : Real.exp 1 ≤ 2.7182818286 := Real.exp_one_lt_d9.le
  have e2 : Real.exp (-(1 / 10 * (u (.inl f) - 1 / 2))) ≤ Real.exp 101 := Real.exp_le_exp.2 (by linarith)
  have e3 : Real.exp 101 ≤ 2.7182818286 ^ 101 := by
    rw [show (101 : ℝ) = ((101 : ℕ) : ℝ) * 1 by norm_num, Real.exp_nat_mul]
    exact pow_le_pow_left₀ (Real.exp_pos _).le e1 101
  have e4 : (2.7182818286 : ℝ) ^ 101 ≤ 10 ^ 44 := by norm_num
  have : (1 : ℝ) / 10 ^ 45 ≤ 1 / (1 + Real.exp (-(1 / 10 * (u (.inl f) - 1 / 2)))) := by
    apply one_div_le_one_div_of_le (by positivity)
    have : (1 : ℝ) + 10 ^ 44 ≤ 10 ^ 45 := by norm_num
    linarith
  norm_num at this ⊢
  linarith

theorem sigmoid_ge {x x0 s lo hi a : ℝ} (h1 : a ≤ lo) (h2 : a ≤ hi) : a ≤ Diffstar.sigmoid x x0 s lo hi := by
  have n1 := nnSigmoid_pos (s * (x - x0))
  have n2 := nnSigmoid_lt_one (s * (x - x0))
  unfold Diffstar.sigmoid
  nlinarith

/-- The parameters of the quenched fraction of satellites that must not be extremely small. -/
structure SatFloor (u : PF → ℝ) : Prop where
  ylo_lo : -1000 ≤ u (.inl .frac_quench_sat_ylo_ylotpeak)
  ylo_hi : -1000 ≤ u (.inl .frac_quench_sat_ylo_yhitpeak)
  yhi : -1000 ≤ u (.inl .frac_quench_sat_yhi)

theorem eval_fracQuenchSat (m t : ℝ) : (Trace.fracQuenchSat (fun f => boundedPop (.inl f)) m t).eval u =
    some (Pop.fracQuenchSat (sfhPdfPart (B u)) m t) := by
  have hb := fun f : PF => Ad.bounded (u := u) (S := True) f
  have k : ∀ r : ℝ, Ad (.const r : Expr PF) (fun _ => r) u True := fun r => .const r
  have hsat : Ad (Trace.fracQuenchSat (fun f => boundedPop (.inl f)) m t)
      (fun v => Pop.fracQuenchSat (sfhPdfPart (B v)) m t) u True := by
    unfold Trace.fracQuenchSat Pop.fracQuenchSat
    simp only [sfhPdfPart_apply]
    exact (k _).sigmoid ((k _).sigmoid (hb _) (hb _) (hb _) (hb _)) (hb _) ((k _).sigmoid (hb _) (hb _) (hb _) (hb _)) (hb _)
  exact hsat.at

theorem eval_fracQuenchCen (m t : ℝ) : (Trace.fracQuenchCen (fun f => boundedPop (.inl f)) m t).eval u =
    some (Pop.fracQuenchCen (sfhPdfPart (B u)) m t) := by
  have hb := fun f : PF => Ad.bounded (u := u) (S := True) f
  have k : ∀ r : ℝ, Ad (.const r : Expr PF) (fun _ => r) u True := fun r => .const r
  have hsat : Ad (Trace.fracQuenchCen (fun f => boundedPop (.inl f)) m t)
      (fun v => Pop.fracQuenchCen (sfhPdfPart (B v)) m t) u True := by
    unfold Trace.fracQuenchCen Pop.fracQuenchCen
    simp only [sfhPdfPart_apply]
    exact (k _).sigmoid ((k _).sigmoid (hb _) (hb _) (hb _) (hb _)) (hb _) ((k _).sigmoid (hb _) (hb _) (hb _) (hb _)) (hb _)
  exact hsat.at

theorem fracQuenchCen_mem' {p : PF → ℝ} (hp : InPBounds p) (m t : ℝ) :
    0 < Pop.fracQuenchCen (sfhPdfPart p) m t ∧ Pop.fracQuenchCen (sfhPdfPart p) m t < 1 := by
  simp only [Pop.fracQuenchCen, sfhPdfPart_apply]
  refine sigmoid_mem_Ioo (sigmoid_mem_Ioo (prob_field hp _ ?_) (prob_field hp _ ?_))
    (prob_field hp _ ?_) <;> norm_num [PF.bounds, QF.bounds, QF.boundsQ]

/-- The quenched fraction of a galaxy. -/
theorem sens_fracQuench (hu : SatFloor u) (s : SF) (m tp : ℝ) (upid : ℤ) (mu mh t : ℝ) (ht : t ≤ -99) :
    ∃ f c, 0 < f ∧ f < 1 ∧ Sens u (.inr s) (Trace.fracQuench boundedPop m tp upid mu mh t) f c ∧ c ≤ 1 / 10 ^ 93 * f ∧
      c ≤ 1 / 10 ^ 93 * (1 - f) := by
  have hp : InPBounds (B u) := bounded_in u
  by_cases hup : upid = -1
  · obtain ⟨h0, h1⟩ := fracQuenchCen_mem' hp m tp
    refine ⟨_, 0, h0, h1, Sens.sel_true ?_ (Sens.of_free (free_fracQuenchCen (fun f => free_bounded f s) m tp)
      (eval_fracQuenchCen m tp)), by positivity, mul_nonneg (by positivity) (by linarith)⟩
    simp [Expr.eval, flt, hup]
  · obtain ⟨h0, h1⟩ := fracQuenchSat_mem hp m tp
    obtain ⟨δ, d0, d1, hδ⟩ := sens_delta (u := u) (k := .inr s) mu mh t ht
    have hq := Sens.of_free (u := u) (free_fracQuenchSat (fun f => free_bounded f s) m tp) (eval_fracQuenchSat m tp)
    have hS := hq.add (hδ.mul ((Sens.const 1).sub hq))
    have hfl : 1 / 10 ^ 45 ≤ Pop.fracQuenchSat (sfhPdfPart (B u)) m tp := by
      simp only [Pop.fracQuenchSat, sfhPdfPart_apply]
      refine sigmoid_ge (sigmoid_ge (sat_floor _ ?_ hu.ylo_lo) (sat_floor _ ?_ hu.ylo_hi)) (sat_floor _ ?_ hu.yhi) <;>
        norm_num [QF.bounds, QF.boundsQ]
    generalize Pop.fracQuenchSat (sfhPdfPart (B u)) m tp = q at *
    have hd : δ ≤ 1 / 2 := d1.trans (by norm_num)
    refine ⟨_, _, ?_, ?_, Sens.sel_false ?_ hS, ?_, ?_⟩
    · nlinarith
    · nlinarith
    · simp [Expr.eval, flt, hup]
    · rw [abs_of_pos (by linarith : 0 < 1 - q)]
      simp only [add_zero, zero_add, zero_mul]
      calc (1 / 10 ^ 138 : ℝ) * (1 - q) ≤ 1 / 10 ^ 138 * 1 := by gcongr; linarith
        _ = 1 / 10 ^ 93 * (1 / 10 ^ 45) := by norm_num
        _ ≤ 1 / 10 ^ 93 * (q + δ * (1 - q)) := by
          gcongr
          nlinarith
    · rw [abs_of_pos (by linarith : 0 < 1 - q)]
      simp only [add_zero, zero_add, zero_mul]
      have : 1 - q ≤ 2 * (1 - (q + δ * (1 - q))) := by nlinarith
      calc (1 / 10 ^ 138 : ℝ) * (1 - q) ≤ 1 / 10 ^ 138 * (2 * (1 - (q + δ * (1 - q)))) := by gcongr
        _ ≤ 1 / 10 ^ 93 * (1 - (q + δ * (1 - q))) := by
          rw [← mul_assoc]
          refine mul_le_mul_of_nonneg_right (by norm_num) (by linarith)

/-- A non-negative value whose derivative is at most `ε` times the value. -/
def Rel (u : PF → ℝ) (k : PF) (ε : ℝ) (e : Expr PF) (x : ℝ) : Prop := 0 ≤ x ∧ Sens u k e x (ε * x)

variable {ε : ℝ} {a b : Expr PF} {x y : ℝ}

theorem Rel.sum {m : ℕ} {f : Fin m → Expr PF} {x : Fin m → ℝ} (h : ∀ i, Rel u k ε (f i) (x i)) :
    Rel u k ε (Trace.sum f) (∑ i, x i) := by
  refine ⟨Finset.sum_nonneg fun i _ => (h i).1, ?_⟩
  rw [Finset.mul_sum]
  exact Sens.sum fun i => (h i).2

theorem Rel.free_mul (hf : Free k a) (ha : a.eval u = some x) (hx : 0 ≤ x) (hb : Rel u k ε b y) : Rel u k ε (.mul a b) (x * y) := by
  refine ⟨mul_nonneg hx hb.1, ((Sens.of_free hf ha).mul hb.2).mono (le_of_eq ?_)⟩
  rw [abs_of_nonneg hx]; ring

theorem Rel.mul_const (ha : Rel u k ε a x) {w : ℝ} (hw : 0 ≤ w) : Rel u k ε (.mul a (.const w)) (x * w) := by
  refine ⟨mul_nonneg ha.1 hw, (ha.2.mul (Sens.const w)).mono (le_of_eq ?_)⟩
  rw [abs_of_nonneg hw]; ring

theorem Rel.take {m : ℕ} {f : Fin m → Expr PF} (i : Fin m) (h : Rel u k ε (f i) x) : Rel u k ε (Trace.take f i) x :=
  ⟨h.1, Sens.take i h.2⟩

theorem Rel.div (ha : Rel u k ε a x) (hb : Rel u k ε b y) (hy : y ≠ 0) : Rel u k (2 * ε) (.div a b) (x / y) := by
  have hy0 : 0 < y := lt_of_le_of_ne hb.1 (Ne.symm hy)
  refine ⟨div_nonneg ha.1 hb.1, (ha.2.div hb.2 hy).mono (le_of_eq ?_)⟩
  rw [abs_of_pos hy0, abs_of_nonneg ha.1]
  field_simp
  ring

theorem eval_jaxTw {e : Expr PF} {v : ℝ} (h : e.eval u = some v) : (Trace.jaxTw e).eval u = some (Diffstar.jaxTw v) := by
  rw [← (Ad.jaxTw (Ad.const (u := u) (S := True) v)).at]
  simp only [Trace.jaxTw, Expr.eval]
  generalize Expr.eval u e = w at *
  subst h
  rfl

theorem eval_binWeight {e : Expr PF} {v s lo hi : ℝ} (h : e.eval u = some v) (hs : 0 < s) (hl : lo ≤ hi) :
    ∃ w, 0 ≤ w ∧ (Trace.twBinWeightLaxKern e s lo hi).eval u = some w := by
  have key : ∀ r, (Trace.twCumlLaxKern e r s).eval u = some (Diffstar.jaxTw ((v - r) / s)) := fun r => by
    refine eval_jaxTw ?_
    simp [Expr.eval, h, hs.ne']
  refine ⟨Diffstar.jaxTw ((v - lo) / s) - Diffstar.jaxTw ((v - hi) / s), ?_, ?_⟩
  · rw [← ndBin_eq]
    exact ndBin_nonneg hs hl
  · simp [Trace.twBinWeightLaxKern, Expr.eval, key]

theorem eval_prod_nonneg {m : ℕ} {f : Fin m → Expr PF} (h : ∀ i, ∃ w, 0 ≤ w ∧ (f i).eval u = some w) :
    ∃ w, 0 ≤ w ∧ (Trace.prod f).eval u = some w := by
  induction m with
  | zero => exact ⟨1, zero_le_one, by simp [Trace.prod, Expr.eval]⟩
  | succ m ih =>
    have e : Trace.prod f = .mul (f 0) (Trace.prod fun i => f i.succ) := by simp [Trace.prod, List.ofFn_succ]
    obtain ⟨w, hw, h1⟩ := h 0
    obtain ⟨v, hv, h2⟩ := ih fun i => h i.succ
    exact ⟨w * v, mul_nonneg hw hv, by rw [e]; simp [Expr.eval, h1, h2, fmul]⟩

theorem rel_hist {n d : ℕ} {x : Fin n → Fin d → Expr PF} {s : Fin d → ℝ} {y : Fin n → Expr PF} {lo hi : Fin d → ℝ}
    (hx : ∀ i j, (x i j).eval u ≠ none) (hf : ∀ i j, Free k (x i j)) (hs : ∀ j, 0 < s j) (hl : ∀ j, lo j ≤ hi j)
    (hy : ∀ i, ∃ w, Rel u k ε (y i) w) : ∃ w, Rel u k ε (Trace.twNdhistWeightedKern x s y lo hi) w := by
  have h1 : ∀ i, ∃ w, Rel u k ε (Expr.mul (Trace.prod fun j => Trace.twBinWeightLaxKern (x i j) (s j) (lo j) (hi j)) (y i)) w := by
    intro i
    obtain ⟨w, hw⟩ := hy i
    obtain ⟨p, hp, he⟩ := eval_prod_nonneg (u := u) (f := fun j => Trace.twBinWeightLaxKern (x i j) (s j) (lo j) (hi j)) fun j => by
      obtain ⟨v, hv⟩ := Option.ne_none_iff_exists'.1 (hx i j)
      exact eval_binWeight hv (hs j) (hl j)
    exact ⟨_, Rel.free_mul (free_prod fun j => free_binWeight (hf i j)) he hp hw⟩
  choose w hw using h1
  exact ⟨_, Rel.sum hw⟩

theorem rel_normalise {nb : ℕ} {w : Fin nb → Expr PF} {b : Fin nb} (hn : (Trace.normalise w b).eval u ≠ none)
    (h : ∀ b, (w b).eval u ≠ none → ∃ v, Rel u k ε (w b) v) :
    ∃ p : Fin nb → ℝ, (∀ b, Rel u k (2 * ε) (Trace.normalise w b) (p b)) ∧ ∑ b, p b = 1 := by
  obtain ⟨h1, h2, h3⟩ := traced_normalise hn
  choose v hv using fun b => h b (h1 b)
  have hS := Rel.sum hv
  have hne : ∑ b, v b ≠ 0 := by
    intro h0
    rw [hS.2.1, h0] at h3
    exact h3 rfl
  refine ⟨fun b => v b / ∑ b, v b, fun b => (hv b).div hS hne, ?_⟩
  rw [← Finset.sum_div, div_self hne]

theorem rel_branchWeights {n : ℕ} {f : Fin n → Expr PF} (h : ∀ i, ∃ v c, 0 < v ∧ v < 1 ∧ Sens u k (f i) v c ∧ c ≤ ε * v ∧
    c ≤ ε * (1 - v)) (i : Fin (n + n)) : ∃ w, Rel u k ε (Trace.branchWeights f i) w := by
  unfold Trace.branchWeights
  refine Fin.addCases (fun i => ?_) (fun i => ?_) i
  · rw [Fin.append_left]
    obtain ⟨v, c, h0, h1, hs, hc, hc'⟩ := h i
    refine ⟨1 * (1 - v), by linarith, ((Sens.const 1).mul ((Sens.const 1).sub hs)).mono ?_⟩
    simpa using hc'
  · rw [Fin.append_right]
    obtain ⟨v, c, h0, h1, hs, hc, hc'⟩ := h i
    refine ⟨1 * v, by linarith, ((Sens.const 1).mul hs).mono ?_⟩
    simpa using hc

variable {K : Type} {split : K → (m : ℕ) → Fin m → K} {z : K → Fin 4 → ℝ} {logMah : MahParams ℝ → ℝ → ℝ → ℝ}

theorem rel_mstarPdf (hu : SatFloor u) (s : SF) {n nb : ℕ} {h : HaloSample K n} (ht : ∀ i, h.gyrSinceInfall i ≤ -99) (lgt0 fb : ℝ)
    {bins : Fin (nb + 1) → ℝ} (hb : StrictMono bins) {b : Fin nb}
    (hn : (Trace.mstarPdf h.tobs (Trace.mcSample split z logMah boundedPop h lgt0 fb) bins b).eval u ≠ none) :
    ∃ p : Fin nb → ℝ, (∀ b, Rel u (.inr s) (2 * (1 / 10 ^ 93)) (Trace.mstarPdf h.tobs
      (Trace.mcSample split z logMah boundedPop h lgt0 fb) bins b) (p b)) ∧ ∑ b, p b = 1 := by
  have hnb : 0 < nb := Fin.pos b
  have hfr := fun i => free_history split z logMah h lgt0 fb i s
  have hw := rel_branchWeights (u := u) (k := .inr s) (f := fun i => (Trace.mcSample split z logMah boundedPop h lgt0 fb i).fracQ)
    fun i => sens_fracQuench hu s (h.logmp0 i) (h.mah.tPeak i) (h.upid i) (h.lgmuInfall i) (h.logmhostInfall i) _ (ht i)
  generalize Trace.mcSample split z logMah boundedPop h lgt0 fb = g at *
  refine rel_normalise hn fun b hb' => rel_hist (fun i j => (traced_hist hb' i j).1) ?_ ?_ ?_ hw
  · intro i j
    refine Fin.addCases (fun i => ?_) (fun i => ?_) i
    · simp only [Fin.append_left]
      exact free_logMass _ (hfr i).1
    · simp only [Fin.append_right]
      exact free_logMass _ (hfr i).2
  · intro _
    simpa using meanDiff_pos hb hnb
  · intro _
    exact (hb Fin.castSucc_lt_succ).le

theorem rel_mstarSsfrPdf (hu : SatFloor u) (s : SF) {n nms nsf : ℕ} {h : HaloSample K n} (ht : ∀ i, h.gyrSinceInfall i ≤ -99)
    (lgt0 fb : ℝ) {lo hi : Fin (nms * nsf) → Fin 2 → ℝ} {mb : Fin (nms + 1) → ℝ} {sb : Fin (nsf + 1) → ℝ}
    (hlh : ∀ b j, lo b j ≤ hi b j) (hmb : StrictMono mb) (hsb : StrictMono sb) (hms : 0 < nms) (hsf : 0 < nsf)
    {b : Fin (nms * nsf)} (hn : (Trace.mstarSsfrPdf h.tobs (Trace.mcSample split z logMah boundedPop h lgt0 fb) lo hi mb sb b).eval
      u ≠ none) :
    ∃ p : Fin (nms * nsf) → ℝ, (∀ b, Rel u (.inr s) (2 * (1 / 10 ^ 93)) (Trace.mstarSsfrPdf h.tobs
      (Trace.mcSample split z logMah boundedPop h lgt0 fb) lo hi mb sb b) (p b)) ∧ ∑ b, p b = 1 := by
  have hfr := fun i => free_history split z logMah h lgt0 fb i s
  have hw := rel_branchWeights (u := u) (k := .inr s) (f := fun i => (Trace.mcSample split z logMah boundedPop h lgt0 fb i).fracQ)
    fun i => sens_fracQuench hu s (h.logmp0 i) (h.mah.tPeak i) (h.upid i) (h.lgmuInfall i) (h.logmhostInfall i) _ (ht i)
  generalize Trace.mcSample split z logMah boundedPop h lgt0 fb = g at *
  refine rel_normalise hn fun b hb' => rel_hist (fun i j => (traced_hist hb' i j).1) ?_ ?_ (hlh b) hw
  · intro i j
    refine Fin.addCases (fun i => ?_) (fun i => ?_) i
    · fin_cases j
      · simp only [Fin.append_left]
        exact free_logMass _ (hfr i).1
      · simp only [Fin.append_left]
        exact free_logSsfr _ (hfr i).1
    · fin_cases j
      · simp only [Fin.append_right]
        exact free_logMass _ (hfr i).2
      · simp only [Fin.append_right]
        exact free_logSsfr _ (hfr i).2
  · intro j
    fin_cases j
    · simpa using meanDiff_pos hmb hms
    · simpa using meanDiff_pos hsb hsf

/-- The squared distance of a distribution from a target. -/
theorem sens_sq_dist {nb : ℕ} {e : Fin nb → Expr PF} {p t : Fin nb → ℝ} (he : 0 ≤ ε) (h : ∀ b, Rel u k ε (e b) (p b))
    (hp : ∑ b, p b = 1) (ht : ∀ b, 0 ≤ t b ∧ t b ≤ 1) :
    ∃ v, Sens u k (Trace.sum fun b => .pow (.sub (e b) (.const (t b))) 2) v (2 * ε) := by
  have hp1 : ∀ b, p b ≤ 1 := fun b => hp ▸ Finset.single_le_sum (f := p) (fun b _ => (h b).1) (Finset.mem_univ b)
  refine ⟨_, (Sens.sum fun b => ((h b).2.sub (Sens.const (t b))).sq).mono ?_⟩
  calc _ ≤ ∑ b, 2 * ε * p b := by
        refine Finset.sum_le_sum fun b _ => ?_
        have : |p b - t b| ≤ 1 := abs_le.2 ⟨by linarith [(h b).1, (ht b).2], by linarith [hp1 b, (ht b).1]⟩
        have h0 : 0 ≤ ε * p b := mul_nonneg he (h b).1
        nlinarith
    _ = 2 * ε := by rw [← Finset.mul_sum, hp, mul_one]

end Diffstar.Props
