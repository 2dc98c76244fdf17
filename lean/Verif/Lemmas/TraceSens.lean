import Verif.Lemmas.TraceBad

/-!
How strongly a traced expression depends on one variable, as reverse-mode differentiation sees it.
-/

namespace Diffstar.Trace

open Diffstar Diffstar.Pop Diffstar.PopLoss

variable {ι : Type} {u : ι → ℝ} {k : ι}

/-- The variable `k` does not occur in the expression. -/
def Free (k : ι) : Expr ι → Prop
  | .var i => k ≠ i
  | .const _ => True
  | .add a b => Free k a ∧ Free k b
  | .sub a b => Free k a ∧ Free k b
  | .mul a b => Free k a ∧ Free k b
  | .div a b => Free k a ∧ Free k b
  | .pow a _ => Free k a
  | .pow10 a => Free k a
  | .log10 a => Free k a
  | .logistic a => Free k a
  | .sqrt a => Free k a
  | .sel _ _ a b => Free k a ∧ Free k b
  | .max a b => Free k a ∧ Free k b
  | .min a b => Free k a ∧ Free k b

theorem Free.backward {e : Expr ι} (h : Free k e) : ∀ ct, e.backward u ct k = some 0 := by
  induction e with
  | var i => intro ct; rw [Expr.backward]; exact if_neg h
  | const c => intro ct; rfl
  | add a b iha ihb => intro ct; rw [Expr.backward]; beta_reduce; rw [iha h.1, ihb h.2]; simp [fadd]
  | sub a b iha ihb => intro ct; rw [Expr.backward]; beta_reduce; rw [iha h.1, ihb h.2]; simp [fadd]
  | mul a b iha ihb => intro ct; rw [Expr.backward]; beta_reduce; rw [iha h.1, ihb h.2]; simp [fadd]
  | div a b iha ihb => intro ct; rw [Expr.backward]; beta_reduce; rw [iha h.1, ihb h.2]; simp [fadd]
  | pow a m ih => intro ct; rw [Expr.backward]; exact ih h _
  | pow10 a ih => intro ct; rw [Expr.backward]; exact ih h _
  | log10 a ih => intro ct; rw [Expr.backward]; exact ih h _
  | logistic a ih => intro ct; rw [Expr.backward]; exact ih h _
  | sqrt a ih => intro ct; rw [Expr.backward]; exact ih h _
  | sel x y a b _ _ iha ihb => intro ct; rw [Expr.backward]; beta_reduce; rw [iha h.1, ihb h.2]; simp [fadd]
  | max a b iha ihb => intro ct; rw [Expr.backward]; beta_reduce; rw [iha h.1, ihb h.2]; simp [fadd]
  | min a b iha ihb => intro ct; rw [Expr.backward]; beta_reduce; rw [iha h.1, ihb h.2]; simp [fadd]

theorem fadd_eq_some {a b : F} {y : ℝ} (h : fadd a b = some y) : ∃ p q, a = some p ∧ b = some q ∧ y = p + q := by
  unfold fadd at h
  obtain ⟨p, hp, h⟩ := Option.bind_eq_some_iff.1 h
  obtain ⟨q, hq, h⟩ := Option.map_eq_some_iff.1 h
  exact ⟨p, q, hp, hq, h.symm⟩

/-- A zero (or NaN) cotangent of an expression cannot give a non-zero cotangent of a variable. -/
theorem backward_zero (e : Expr ι) : ∀ ct, (ct = none ∨ ct = some 0) → ∀ y, e.backward u ct k = some y → y = 0 := by
  have hm : ∀ (ct r : F), (ct = none ∨ ct = some 0) → (fmul ct r = none ∨ fmul ct r = some 0) := by
    rintro ct r (rfl | rfl)
    · exact Or.inl rfl
    · cases r
      · exact Or.inl rfl
      · right; simp [fmul]
  induction e with
  | var i =>
    intro ct hc y hy
    rw [Expr.backward] at hy
    beta_reduce at hy
    split_ifs at hy
    · rcases hc with rfl | rfl
      · cases hy
      · exact (Option.some.inj hy).symm
    · exact (Option.some.inj hy).symm
  | const c => intro ct _ y hy; exact (Option.some.inj hy).symm
  | add a b iha ihb =>
    intro ct hc y hy
    rw [Expr.backward] at hy
    beta_reduce at hy
    obtain ⟨p, q, hp, hq, rfl⟩ := fadd_eq_some hy
    rw [iha _ hc _ hp, ihb _ hc _ hq, add_zero]
  | sub a b iha ihb =>
    intro ct hc y hy
    rw [Expr.backward] at hy
    beta_reduce at hy
    obtain ⟨p, q, hp, hq, rfl⟩ := fadd_eq_some hy
    rw [iha _ hc _ hp, ihb _ (hm _ _ hc) _ hq, add_zero]
  | mul a b iha ihb =>
    intro ct hc y hy
    rw [Expr.backward] at hy
    beta_reduce at hy
    obtain ⟨p, q, hp, hq, rfl⟩ := fadd_eq_some hy
    rw [iha _ (hm _ _ hc) _ hp, ihb _ (hm _ _ hc) _ hq, add_zero]
  | div a b iha ihb =>
    intro ct hc y hy
    rw [Expr.backward] at hy
    beta_reduce at hy
    obtain ⟨p, q, hp, hq, rfl⟩ := fadd_eq_some hy
    rw [iha _ (hm _ _ hc) _ hp, ihb _ (hm _ _ hc) _ hq, add_zero]
  | pow a m ih => intro ct hc y hy; rw [Expr.backward] at hy; exact ih _ (hm _ _ hc) _ hy
  | pow10 a ih => intro ct hc y hy; rw [Expr.backward] at hy; exact ih _ (hm _ _ hc) _ hy
  | log10 a ih => intro ct hc y hy; rw [Expr.backward] at hy; exact ih _ (hm _ _ hc) _ hy
  | logistic a ih => intro ct hc y hy; rw [Expr.backward] at hy; exact ih _ (hm _ _ hc) _ hy
  | sqrt a ih => intro ct hc y hy; rw [Expr.backward] at hy; exact ih _ (hm _ _ hc) _ hy
  | sel x z a b _ _ iha ihb =>
    intro ct hc y hy
    rw [Expr.backward] at hy
    beta_reduce at hy
    obtain ⟨p, q, hp, hq, rfl⟩ := fadd_eq_some hy
    split_ifs at hp hq
    · rw [iha _ hc _ hp, ihb _ (Or.inr rfl) _ hq, add_zero]
    · rw [iha _ (Or.inr rfl) _ hp, ihb _ hc _ hq, add_zero]
  | max a b iha ihb =>
    intro ct hc y hy
    rw [Expr.backward] at hy
    beta_reduce at hy
    obtain ⟨p, q, hp, hq, rfl⟩ := fadd_eq_some hy
    rw [iha _ (hm _ _ hc) _ hp, ihb _ (hm _ _ hc) _ hq, add_zero]
  | min a b iha ihb =>
    intro ct hc y hy
    rw [Expr.backward] at hy
    beta_reduce at hy
    obtain ⟨p, q, hp, hq, rfl⟩ := fadd_eq_some hy
    rw [iha _ (hm _ _ hc) _ hp, ihb _ (hm _ _ hc) _ hq, add_zero]

/-- The expression has the value `x`, and its derivative with respect to the variable `k`, if it is a number, is at most `c`. -/
def Sens (u : ι → ℝ) (k : ι) (e : Expr ι) (x c : ℝ) : Prop :=
  e.eval u = some x ∧ ∃ g, |g| ≤ c ∧ ∀ ct y, e.backward u (some ct) k = some y → y = ct * g

variable {a b e : Expr ι} {x y c d : ℝ}

theorem Sens.mono (h : Sens u k e x c) (hc : c ≤ d) : Sens u k e x d := by
  obtain ⟨h0, g, hg, h⟩ := h
  exact ⟨h0, g, hg.trans hc, h⟩

theorem Sens.nonneg (h : Sens u k e x c) : 0 ≤ c := by
  obtain ⟨-, g, hg, -⟩ := h
  exact (abs_nonneg g).trans hg

theorem Sens.of_free (h : Free k e) (hx : e.eval u = some x) : Sens u k e x 0 :=
  ⟨hx, 0, by simp, fun ct y hy => by rw [h.backward] at hy; rw [mul_zero]; exact (Option.some.inj hy).symm⟩

theorem Sens.const (r : ℝ) : Sens u k (.const r) r 0 := .of_free trivial rfl

theorem Sens.var (i : ι) : Sens u k (.var i) (u i) 1 := by
  classical
  refine ⟨rfl, if k = i then 1 else 0, by split_ifs <;> simp, fun ct y hy => ?_⟩
  rw [Expr.backward] at hy
  beta_reduce at hy
  split_ifs at hy ⊢ <;> have := Option.some.inj hy <;> simp [← this]

theorem Sens.add (ha : Sens u k a x c) (hb : Sens u k b y d) : Sens u k (.add a b) (x + y) (c + d) := by
  obtain ⟨ea, g, hg, ha⟩ := ha
  obtain ⟨eb, f, hf, hb⟩ := hb
  refine ⟨by simp [Expr.eval, ea, eb, fadd], g + f, (abs_add_le g f).trans (add_le_add hg hf), fun ct r hr => ?_⟩
  rw [Expr.backward] at hr
  beta_reduce at hr
  obtain ⟨p, q, hp, hq, rfl⟩ := fadd_eq_some hr
  rw [ha _ _ hp, hb _ _ hq]; ring

theorem Sens.sub (ha : Sens u k a x c) (hb : Sens u k b y d) : Sens u k (.sub a b) (x - y) (c + d) := by
  obtain ⟨ea, g, hg, ha⟩ := ha
  obtain ⟨eb, f, hf, hb⟩ := hb
  refine ⟨by simp [Expr.eval, ea, eb], g - f, (abs_sub g f).trans (add_le_add hg hf), fun ct r hr => ?_⟩
  rw [Expr.backward] at hr
  beta_reduce at hr
  obtain ⟨p, q, hp, hq, rfl⟩ := fadd_eq_some hr
  rw [ha _ _ hp, hb _ _ hq]; ring

theorem Sens.mul (ha : Sens u k a x c) (hb : Sens u k b y d) : Sens u k (.mul a b) (x * y) (c * |y| + d * |x|) := by
  obtain ⟨ea, g, hg, ha⟩ := ha
  obtain ⟨eb, f, hf, hb⟩ := hb
  refine ⟨by simp [Expr.eval, ea, eb, fmul], g * y + f * x, ?_, fun ct r hr => ?_⟩
  · refine (abs_add_le _ _).trans ?_
    rw [abs_mul, abs_mul]
    gcongr
  rw [Expr.backward, ea, eb] at hr
  beta_reduce at hr
  obtain ⟨p, q, hp, hq, rfl⟩ := fadd_eq_some hr
  rw [ha _ _ hp, hb _ _ hq]; ring

theorem Sens.div (ha : Sens u k a x c) (hb : Sens u k b y d) (hy : y ≠ 0) :
    Sens u k (.div a b) (x / y) (c / |y| + d * (|x| / |y| / |y|)) := by
  obtain ⟨ea, g, hg, ha⟩ := ha
  obtain ⟨eb, f, hf, hb⟩ := hb
  refine ⟨by simp [Expr.eval, ea, eb, hy], g / y - f * (x / y / y), ?_, fun ct r hr => ?_⟩
  · refine (abs_sub _ _).trans ?_
    rw [abs_mul, abs_div, abs_div, abs_div]
    gcongr
  rw [Expr.backward, ea, eb] at hr
  beta_reduce at hr
  simp only [Expr.eval, Option.bind_some, if_neg hy] at hr
  obtain ⟨p, q, hp, hq, rfl⟩ := fadd_eq_some hr
  rw [ha _ _ hp, hb _ _ hq]; ring

theorem Sens.sq (ha : Sens u k a x c) : Sens u k (.pow a 2) (x ^ 2) (2 * |x| * c) := by
  obtain ⟨ea, g, hg, ha⟩ := ha
  refine ⟨by simp [Expr.eval, ea], 2 * x * g, ?_, fun ct r hr => ?_⟩
  · rw [abs_mul, abs_mul, abs_of_pos (by norm_num : (0 : ℝ) < 2)]
    gcongr
  rw [Expr.backward, ea] at hr
  rw [ha _ _ hr]; simp; ring

theorem Sens.logistic (ha : Sens u k a x c) : Sens u k (.logistic a) (nnSigmoid x) (nnSigmoid x * c) := by
  obtain ⟨ea, g, hg, ha⟩ := ha
  have h0 := nnSigmoid_pos x
  have h1 := nnSigmoid_lt_one x
  refine ⟨by simp [Expr.eval, ea], nnSigmoid x * (1 - nnSigmoid x) * g, ?_, fun ct r hr => ?_⟩
  · rw [abs_mul, abs_mul, abs_of_pos h0, abs_of_pos (by linarith), mul_assoc]
    refine mul_le_mul_of_nonneg_left ?_ h0.le
    nlinarith [abs_nonneg g]
  rw [Expr.backward, ea] at hr
  rw [ha _ _ hr]; ring

theorem Sens.sel_true {r s : Expr ι} (hc : flt (r.eval u) (s.eval u)) (ha : Sens u k a x c) : Sens u k (.sel r s a b) x c := by
  obtain ⟨ea, g, hg, ha⟩ := ha
  refine ⟨by rw [Expr.eval, if_pos hc]; exact ea, g, hg, fun ct y hy => ?_⟩
  rw [Expr.backward] at hy
  beta_reduce at hy
  rw [if_pos hc, if_pos hc] at hy
  obtain ⟨p, q, hp, hq, rfl⟩ := fadd_eq_some hy
  rw [ha _ _ hp, backward_zero _ _ (Or.inr rfl) _ hq, add_zero]

theorem Sens.sel_false {r s : Expr ι} (hc : ¬ flt (r.eval u) (s.eval u)) (hb : Sens u k b x c) : Sens u k (.sel r s a b) x c := by
  obtain ⟨eb, g, hg, hb⟩ := hb
  refine ⟨by rw [Expr.eval, if_neg hc]; exact eb, g, hg, fun ct y hy => ?_⟩
  rw [Expr.backward] at hy
  beta_reduce at hy
  rw [if_neg hc, if_neg hc] at hy
  obtain ⟨p, q, hp, hq, rfl⟩ := fadd_eq_some hy
  rw [hb _ _ hq, backward_zero _ _ (Or.inr rfl) _ hp, zero_add]

theorem Sens.sum {m : ℕ} {f : Fin m → Expr ι} {x c : Fin m → ℝ} (h : ∀ i, Sens u k (f i) (x i) (c i)) :
    Sens u k (Trace.sum f) (∑ i, x i) (∑ i, c i) := by
  induction m with
  | zero => simpa [Trace.sum] using Sens.const (u := u) (k := k) 0
  | succ m ih =>
    have e : Trace.sum f = .add (f 0) (Trace.sum fun i => f i.succ) := by simp [Trace.sum, List.ofFn_succ]
    rw [e, Fin.sum_univ_succ, Fin.sum_univ_succ]
    exact (h 0).add (ih fun i => h i.succ)

theorem Sens.take {m : ℕ} {f : Fin m → Expr ι} (i : Fin m) (h : Sens u k (f i) x c) : Sens u k (Trace.take f i) x c := by
  unfold Trace.take
  induction List.ofFn f with
  | nil => exact h
  | cons e l ih => exact Sens.sel_true (by simp [Expr.eval, flt]) ih

/-- `_sigmoid` with a constant abscissa and speed. -/
theorem Sens.sigmoid {x0 lo hi : Expr ι} {v0 vl vh c0 cl ch : ℝ} (t s : ℝ) (h0 : Sens u k x0 v0 c0) (hl : Sens u k lo vl cl)
    (hh : Sens u k hi vh ch) : Sens u k (Trace.sigmoid (.const t) x0 (.const s) lo hi) (Diffstar.sigmoid t v0 s vl vh)
      (cl + ((ch + cl) + |vh - vl| * (|s| * c0)) * nnSigmoid (s * (t - v0))) := by
  have h := hl.add ((hh.sub hl).mul (((Sens.const s).mul ((Sens.const t).sub h0)).logistic))
  have e : Diffstar.sigmoid t v0 s vl vh = vl + (vh - vl) * nnSigmoid (s * (t - v0)) := rfl
  rw [e]
  refine h.mono (le_of_eq ?_)
  rw [abs_of_pos (nnSigmoid_pos _)]
  ring

/-! ### Expressions without satellite parameters -/

theorem free_sigmoid {x x0 s lo hi : Expr ι} (h1 : Free k x) (h2 : Free k x0) (h3 : Free k s) (h4 : Free k lo) (h5 : Free k hi) :
    Free k (Trace.sigmoid x x0 s lo hi) := ⟨h4, ⟨h5, h4⟩, h3, h1, h2⟩

theorem free_sum {m : ℕ} {f : Fin m → Expr ι} (h : ∀ i, Free k (f i)) : Free k (Trace.sum f) := by
  induction m with
  | zero => simp [Trace.sum, Free]
  | succ m ih =>
    have e : Trace.sum f = .add (f 0) (Trace.sum fun i => f i.succ) := by simp [Trace.sum, List.ofFn_succ]
    rw [e]
    exact ⟨h 0, ih fun i => h i.succ⟩

theorem free_prod {m : ℕ} {f : Fin m → Expr ι} (h : ∀ i, Free k (f i)) : Free k (Trace.prod f) := by
  induction m with
  | zero => simp [Trace.prod, Free]
  | succ m ih =>
    have e : Trace.prod f = .mul (f 0) (Trace.prod fun i => f i.succ) := by simp [Trace.prod, List.ofFn_succ]
    rw [e]
    exact ⟨h 0, ih fun i => h i.succ⟩

theorem free_jaxTw (h : Free k e) : Free k (Trace.jaxTw e) := by
  simp [Trace.jaxTw, Free, h]

theorem free_line {y0 m : Expr ι} (t : ℝ) (bd : ℝ × ℝ) (h1 : Free k y0) (h2 : Free k m) : Free k (lineModel t y0 m bd) := by
  simp [lineModel, smoothlyClippedLine, Trace.sigmoid, Free, h1, h2]

theorem free_mcrit {p q r s : Expr ι} (t : ℝ) (h1 : Free k p) (h2 : Free k q) (h3 : Free k r) (h4 : Free k s) :
    Free k (mcritModel t p q r s) := by
  simp [mcritModel, Trace.sigmoid, Free, h1, h2, h3, h4]

theorem free_normal {z : Fin 4 → ℝ} {mean std : Fin 4 → Expr ι} (hm : ∀ i, Free k (mean i)) (hs : ∀ i, Free k (std i)) (i : Fin 4) :
    Free k (multivariateNormal z mean std i) := by
  refine ⟨hm i, free_sum fun j => ⟨?_, trivial⟩⟩
  split_ifs
  · exact ⟨⟨hs i, trivial⟩, hs i⟩
  · exact ⟨⟨hs i, trivial⟩, hs j⟩

theorem free_sfh {t lm fb : ℝ} {p : DiffstarParams (Expr ι)} (h1 : Free k p.lgmcrit) (h2 : Free k p.lgyAtMcrit)
    (h3 : Free k p.indxLo) (h4 : Free k p.indxHi) (h5 : Free k p.lgQt) (h6 : Free k p.qlglgdt) (h7 : Free k p.lgDrop)
    (h8 : Free k p.lgRejuv) : Free k (Trace.sfhSinglegalScalar t lm fb (Trace.getBoundedDiffstarParams p)) := by
  simp [Trace.sfhSinglegalScalar, Trace.getBoundedDiffstarParams, Trace.sfhMsKernel, Trace.sfrEffPlaw, Trace.quenchingKern,
    Trace.jaxPartialUTwKern, Trace.jaxTw, Trace.sigmoidB, Trace.sigmoid, Free, h1, h2, h3, h4, h5, h6, h7, h8]

theorem free_scan (l : List (ℝ × Expr ι)) (A : ℝ) (fa cc : Expr ι) (hfa : Free k fa) (hcc : Free k cc)
    (hl : ∀ e ∈ l, Free k e.2) : ∀ m ∈ scanOut Trace.cumtrapzScanFunc (A, fa, cc) l, Free k m := by
  induction l generalizing A fa cc with
  | nil => intro m hm; simp [scanOut] at hm
  | cons x l ih =>
    have hx := hl x List.mem_cons_self
    have hc : Free k (Expr.add cc (.div (.mul (.const (x.1 - A)) (.add x.2 fa)) (.const 2))) := ⟨hcc, ⟨trivial, hx, hfa⟩, trivial⟩
    intro m hm
    rcases List.mem_cons.1 hm with rfl | hm
    · exact hc
    · exact ih _ _ _ hx hc (fun e he => hl e (List.mem_cons_of_mem _ he)) m hm

theorem free_getLastD {l : List (Expr ι)} (h : ∀ e ∈ l, Free k e) : Free k (l.getLastD (.const 0)) := by
  rw [List.getLastD_eq_getLast?]
  cases hg : l.getLast? with
  | none => trivial
  | some m => exact h m (List.mem_of_getLast? hg)

theorem free_logMass (tobs : ℝ) {es : List (Expr ι)} (h : ∀ e ∈ es, Free k e) : Free k (Trace.logMass tobs es) := by
  refine free_getLastD fun m hm => ?_
  unfold Trace.cumulativeMstarFormed at hm
  obtain ⟨m', hm', rfl⟩ := List.mem_map.1 hm
  refine ⟨free_scan (k := k) _ T_BIRTH_MIN (.const SFR_MIN) (.const 0) trivial trivial (fun e he => ?_) m' (List.mem_of_mem_drop hm'), trivial⟩
  obtain ⟨e1, e2⟩ := e
  rcases List.mem_cons.1 (List.of_mem_zip he).2 with rfl | h'
  · trivial
  · exact h _ h'

theorem free_logSsfr (tobs : ℝ) {es : List (Expr ι)} (h : ∀ e ∈ es, Free k e) : Free k (Trace.logSsfr tobs es) :=
  ⟨⟨free_getLastD h, free_logMass tobs h⟩, trivial⟩

theorem free_binWeight {s lo hi : ℝ} (h : Free k e) : Free k (Trace.twBinWeightLaxKern e s lo hi) :=
  ⟨free_jaxTw ⟨⟨h, trivial⟩, trivial⟩, free_jaxTw ⟨⟨h, trivial⟩, trivial⟩⟩

section

variable {p : QF → Expr ι} (hp : ∀ f, Free k (p f))

include hp

theorem free_meanMseq (m : ℝ) (i : Fin 4) : Free k (meanMseq p m i) := by
  fin_cases i
  · exact free_mcrit m (hp _) (hp _) (hp _) (hp _)
  · exact free_mcrit m (hp _) (hp _) (hp _) (hp _)
  · exact free_line m _ (hp _) (hp _)
  · exact free_line m _ (hp _) (hp _)

theorem free_deltaUqt (m t : ℝ) : Free k (Trace.deltaUqt p m t) := by
  simp [Trace.deltaUqt, Trace.sigmoid, Free, hp]

theorem free_meanQseq (m t : ℝ) (i : Fin 8) : Free k (meanQseq p m t i) := by
  fin_cases i
  · exact free_mcrit m (hp _) (hp _) (hp _) (hp _)
  · exact free_mcrit m (hp _) (hp _) (hp _) (hp _)
  · exact free_line m _ (hp _) (hp _)
  · exact free_line m _ (hp _) (hp _)
  · exact ⟨free_mcrit m (hp _) (hp _) (hp _) (hp _), free_deltaUqt hp m t⟩
  · exact free_line m _ (hp _) (hp _)
  · exact free_line m _ (hp _) (hp _)
  · exact free_line m _ (hp _) (hp _)

theorem free_stdMseqMs (m : ℝ) (i : Fin 4) : Free k (stdMseqMs p m i) := by
  fin_cases i <;> exact free_line m _ (hp _) (hp _)

theorem free_stdQseqMs (m : ℝ) (i : Fin 4) : Free k (stdQseqMs p m i) := by
  fin_cases i <;> exact free_line m _ (hp _) (hp _)

theorem free_stdQseqQ (m : ℝ) (i : Fin 4) : Free k (stdQseqQ p m i) := by
  fin_cases i <;> exact free_line m _ (hp _) (hp _)

theorem free_fracQuenchCen (m t : ℝ) : Free k (Trace.fracQuenchCen p m t) := by
  simp [Trace.fracQuenchCen, Trace.sigmoid, Free, hp]

theorem free_fracQuenchSat (m t : ℝ) : Free k (Trace.fracQuenchSat p m t) := by
  simp [Trace.fracQuenchSat, Trace.sigmoid, Free, hp]

end

theorem free_bounded (f : QF) (s : SF) : Free (Sum.inr s : PF) (boundedPop (.inl f)) := by
  simp [boundedPop, Trace.sigmoid, Free]

theorem free_history {K : Type} {n : ℕ} (split : K → (m : ℕ) → Fin m → K) (z : K → Fin 4 → ℝ)
    (logMah : MahParams ℝ → ℝ → ℝ → ℝ) (h : HaloSample K n) (lgt0 fb : ℝ) (i : Fin n) (s : SF) :
    (∀ e ∈ (Trace.mcSample split z logMah boundedPop h lgt0 fb i).sfhMs, Free (Sum.inr s : PF) e) ∧
    ∀ e ∈ (Trace.mcSample split z logMah boundedPop h lgt0 fb i).sfhQ, Free (Sum.inr s : PF) e := by
  have hp := fun f => free_bounded f s
  have a1 := free_meanMseq hp (h.logmp0 i)
  have a2 := free_stdMseqMs hp (h.logmp0 i)
  have h1 := free_meanQseq hp (h.logmp0 i) (h.mah.tPeak i)
  have h2 := free_stdQseqMs hp (h.logmp0 i)
  have h3 := free_stdQseqQ hp (h.logmp0 i)
  unfold Trace.mcSample
  dsimp only
  generalize meanMseq (fun f => boundedPop (.inl f)) (h.logmp0 i) = mum at *
  generalize stdMseqMs (fun f => boundedPop (.inl f)) (h.logmp0 i) = stdm at *
  generalize meanQseq (fun f => boundedPop (.inl f)) (h.logmp0 i) (h.mah.tPeak i) = mu at *
  generalize stdQseqMs (fun f => boundedPop (.inl f)) (h.logmp0 i) = std at *
  generalize stdQseqQ (fun f => boundedPop (.inl f)) (h.logmp0 i) = std' at *
  constructor
  · intro e he
    obtain ⟨t, -, rfl⟩ := List.mem_map.1 he
    exact free_sfh (free_normal a1 a2 0) (free_normal a1 a2 1) (free_normal a1 a2 2) (free_normal a1 a2 3)
      trivial trivial trivial trivial
  · intro e he
    obtain ⟨t, -, rfl⟩ := List.mem_map.1 he
    have m1 : ∀ i, Free (Sum.inr s : PF) ((![mu 0, mu 1, mu 2, mu 3] : Fin 4 → Expr PF) i) := fun i => by
      fin_cases i <;> exact h1 _
    have m2 : ∀ i, Free (Sum.inr s : PF) ((![mu 4, mu 5, mu 6, mu 7] : Fin 4 → Expr PF) i) := fun i => by
      fin_cases i <;> exact h1 _
    exact free_sfh (free_normal m1 h2 0) (free_normal m1 h2 1) (free_normal m1 h2 2) (free_normal m1 h2 3)
      (free_normal m2 h3 0) (free_normal m2 h3 1) (free_normal m2 h3 2) (free_normal m2 h3 3)

end Diffstar.Trace
