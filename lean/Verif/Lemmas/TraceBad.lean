import Verif.Lemmas.TraceNan

/-! Expressions whose derivative by one variable is NaN for every cotangent, and expressions whose value does not change. -/

namespace Diffstar.Trace

open Diffstar Diffstar.Pop Diffstar.PopLoss

section

variable {ι : Type} {u : ι → ℝ} {k : ι} {a b c x y : Expr ι}

/-- The derivative by `k` is NaN whatever the cotangent. -/
def Bad (u : ι → ℝ) (k : ι) (e : Expr ι) : Prop := ∀ ct, e.backward u ct k = none

theorem fadd_none_left (b : F) : fadd none b = none := rfl

theorem fadd_none_right (a : F) : fadd a none = none := by cases a <;> rfl

theorem bad_add (h : Bad u k a ∨ Bad u k b) : Bad u k (.add a b) := fun ct => by
  rw [Expr.backward]
  beta_reduce
  rcases h with h | h
  · rw [h, fadd_none_left]
  · rw [h, fadd_none_right]

theorem bad_sub (h : Bad u k a ∨ Bad u k b) : Bad u k (.sub a b) := fun ct => by
  rw [Expr.backward]
  beta_reduce
  rcases h with h | h
  · rw [h, fadd_none_left]
  · rw [h, fadd_none_right]

theorem bad_mul (h : Bad u k a ∨ Bad u k b) : Bad u k (.mul a b) := fun ct => by
  rw [Expr.backward]
  beta_reduce
  rcases h with h | h
  · rw [h, fadd_none_left]
  · rw [h, fadd_none_right]

theorem bad_div (h : Bad u k a ∨ Bad u k b) : Bad u k (.div a b) := fun ct => by
  rw [Expr.backward]
  beta_reduce
  rcases h with h | h
  · rw [h, fadd_none_left]
  · rw [h, fadd_none_right]

theorem bad_sel (h : Bad u k a ∨ Bad u k b) : Bad u k (.sel x y a b) := fun ct => by
  rw [Expr.backward]
  beta_reduce
  rcases h with h | h
  · rw [h, fadd_none_left]
  · rw [h, fadd_none_right]

theorem bad_pow {m : ℕ} (h : Bad u k a) : Bad u k (.pow a m) := fun ct => by rw [Expr.backward, h]

theorem bad_pow10 (h : Bad u k a) : Bad u k (.pow10 a) := fun ct => by rw [Expr.backward, h]

theorem bad_log10 (h : Bad u k a) : Bad u k (.log10 a) := fun ct => by rw [Expr.backward, h]

theorem bad_logistic (h : Bad u k a) : Bad u k (.logistic a) := fun ct => by rw [Expr.backward, h]

theorem bad_foldr_add (l : List (Expr ι)) (h : ∃ e ∈ l, Bad u k e) (z : Expr ι) : Bad u k (l.foldr .add z) := by
  induction l with
  | nil => simp at h
  | cons e l ih =>
    obtain ⟨e', he, hn⟩ := h
    rcases List.mem_cons.1 he with rfl | he
    · exact bad_add (Or.inl hn)
    · exact bad_add (Or.inr (ih ⟨e', he, hn⟩))

theorem bad_foldr_mul (l : List (Expr ι)) (h : ∃ e ∈ l, Bad u k e) (z : Expr ι) : Bad u k (l.foldr .mul z) := by
  induction l with
  | nil => simp at h
  | cons e l ih =>
    obtain ⟨e', he, hn⟩ := h
    rcases List.mem_cons.1 he with rfl | he
    · exact bad_mul (Or.inl hn)
    · exact bad_mul (Or.inr (ih ⟨e', he, hn⟩))

theorem bad_sum {m : ℕ} {f : Fin m → Expr ι} (i : Fin m) (h : Bad u k (f i)) : Bad u k (sum f) :=
  bad_foldr_add _ ⟨f i, List.mem_ofFn.2 ⟨i, rfl⟩, h⟩ _

theorem bad_prod {m : ℕ} {f : Fin m → Expr ι} (i : Fin m) (h : Bad u k (f i)) : Bad u k (prod f) :=
  bad_foldr_mul _ ⟨f i, List.mem_ofFn.2 ⟨i, rfl⟩, h⟩ _

theorem bad_sigmoid {x0 kk lo hi : Expr ι} (h : Bad u k x ∨ Bad u k x0) : Bad u k (sigmoid x x0 kk lo hi) :=
  bad_add (Or.inr (bad_mul (Or.inr (bad_logistic (bad_mul (Or.inr (bad_sub h)))))))

theorem bad_jaxTw (h : Bad u k y) : Bad u k (jaxTw y) :=
  bad_sel (Or.inr (bad_sel (Or.inr (bad_add (Or.inl (bad_add (Or.inr (bad_div (Or.inl (bad_mul (Or.inr h)))))))))))

theorem bad_quenching {lgt qt dt drop rejuv : Expr ι} (h : Bad u k rejuv) : Bad u k (quenchingKern lgt qt dt drop rejuv) :=
  bad_pow10 (bad_sel (Or.inr (bad_sub (Or.inr (bad_mul (Or.inl (bad_sub (Or.inr h))))))))

theorem bad_sfh {t lm fb : ℝ} {p : DiffstarParams (Expr ι)} (h : Bad u k p.lgRejuv) :
    Bad u k (sfhSinglegalScalar t lm fb (getBoundedDiffstarParams p)) :=
  bad_sel (Or.inr (bad_mul (Or.inl (bad_quenching (bad_sigmoid (Or.inl h))))))

theorem bad_logMass (tobs : ℝ) (es : List (Expr ι)) (hl : es.length = (obsTimes tobs).length) (e : Expr ι)
    (he : es.getLast? = some e) (h : Bad u k e) : Bad u k (logMass tobs es) := by
  obtain ⟨x, A', fa', c', hm⟩ := mass_last (obsTimes tobs) es hl e he
  unfold logMass
  rw [hm]
  exact bad_log10 (bad_mul (Or.inl (bad_add (Or.inr (bad_div (Or.inl (bad_mul (Or.inr (bad_add (Or.inl h))))))))))

/-- A divisor that is zero. -/
theorem bad_div_zero (h : b.eval u = some 0) (hb : b.backward u none k = none) : Bad u k (.div a b) := fun ct => by
  rw [Expr.backward, h]
  beta_reduce
  have e1 : fmul ct ((a.eval u).bind fun x => (some (0 : ℝ)).bind fun y => if y = 0 then none else some (-(x / y) / y)) = none := by
    cases ct <;> cases a.eval u <;> simp [fmul]
  rw [e1, hb, fadd_none_right]

theorem bad_line {y0 m : Expr ι} (xv : ℝ) (bd : ℝ × ℝ) (h : m.eval u = some 0) (hm : m.backward u none k = none) :
    Bad u k (lineModel xv y0 m bd) :=
  bad_sigmoid (Or.inr (bad_sub (Or.inl (bad_add (Or.inl (bad_div_zero h hm))))))

end

section

variable {ι : Type} {u v : ι → ℝ} {a b c x y : Expr ι}

theorem same_foldr_add (l : List (Expr ι)) (h : ∀ e ∈ l, e.eval u = e.eval v) :
    (l.foldr Expr.add (Expr.const 0)).eval u = (l.foldr Expr.add (Expr.const 0)).eval v := by
  induction l with
  | nil => rfl
  | cons e l ih =>
    rw [List.foldr_cons, Expr.eval, Expr.eval, h e List.mem_cons_self, ih fun e' he => h e' (List.mem_cons_of_mem _ he)]

theorem same_foldr_mul (l : List (Expr ι)) (h : ∀ e ∈ l, e.eval u = e.eval v) :
    (l.foldr Expr.mul (Expr.const 1)).eval u = (l.foldr Expr.mul (Expr.const 1)).eval v := by
  induction l with
  | nil => rfl
  | cons e l ih =>
    rw [List.foldr_cons, Expr.eval, Expr.eval, h e List.mem_cons_self, ih fun e' he => h e' (List.mem_cons_of_mem _ he)]

theorem same_sum {m : ℕ} {f : Fin m → Expr ι} (h : ∀ i, (f i).eval u = (f i).eval v) : (sum f).eval u = (sum f).eval v :=
  same_foldr_add _ fun e he => by obtain ⟨i, rfl⟩ := List.mem_ofFn.1 he; exact h i

theorem same_prod {m : ℕ} {f : Fin m → Expr ι} (h : ∀ i, (f i).eval u = (f i).eval v) : (prod f).eval u = (prod f).eval v :=
  same_foldr_mul _ fun e he => by obtain ⟨i, rfl⟩ := List.mem_ofFn.1 he; exact h i

theorem same_normal {z : Fin 4 → ℝ} {mean std : Fin 4 → Expr ι} (i : Fin 4) (hm : (mean i).eval u = (mean i).eval v)
    (hs : ∀ j, (std j).eval u = (std j).eval v) :
    (multivariateNormal z mean std i).eval u = (multivariateNormal z mean std i).eval v := by
  unfold multivariateNormal
  rw [Expr.eval, Expr.eval, hm]
  congr 1
  refine same_sum fun j => ?_
  split_ifs <;> simp only [Expr.eval, hs]

theorem same_sel (hx : x.eval u = x.eval v) (hy : y.eval u = y.eval v) (ha : a.eval u = a.eval v) (hb : b.eval u = b.eval v) :
    (Expr.sel x y a b).eval u = (Expr.sel x y a b).eval v := by
  simp only [Expr.eval]
  rw [hx, hy, ha, hb]

theorem same_jaxTw (h : y.eval u = y.eval v) : (jaxTw y).eval u = (jaxTw y).eval v := by
  unfold jaxTw
  exact same_sel rfl h rfl (same_sel h rfl rfl (by simp only [Expr.eval, h]))

theorem same_sigmoid {x0 k lo hi : Expr ι} (h1 : x.eval u = x.eval v) (h2 : x0.eval u = x0.eval v) (h3 : k.eval u = k.eval v)
    (h4 : lo.eval u = lo.eval v) (h5 : hi.eval u = hi.eval v) : (sigmoid x x0 k lo hi).eval u = (sigmoid x x0 k lo hi).eval v := by
  unfold sigmoid
  simp only [Expr.eval, h1, h2, h3, h4, h5]

/-- Before the time of quenching the rejuvenation level does not enter. -/
theorem same_quenching {lgt : ℝ} {qt dt drop rejuv : Expr ι} (h1 : qt.eval u = qt.eval v) (h2 : dt.eval u = dt.eval v)
    (h3 : drop.eval u = drop.eval v) (hlt : ∀ s, qt.eval u = some s → lgt < s) (hpos : ∀ s, dt.eval u = some s → 0 < s) :
    (quenchingKern (.const lgt) qt dt drop rejuv).eval u = (quenchingKern (.const lgt) qt dt drop rejuv).eval v := by
  have hy : (Expr.div (Expr.sub (.const lgt) qt) (Expr.div dt (.const 12))).eval u =
      (Expr.div (Expr.sub (.const lgt) qt) (Expr.div dt (.const 12))).eval v := by
    simp only [Expr.eval, h1, h2]
  by_cases hn : qt.eval u = none ∨ dt.eval u = none ∨ drop.eval u = none
  · rw [nan_quenching hn, nan_quenching (u := v) (by rwa [← h1, ← h2, ← h3])]
  · push Not at hn
    obtain ⟨s, hs⟩ := Option.ne_none_iff_exists'.1 hn.1
    obtain ⟨t, ht⟩ := Option.ne_none_iff_exists'.1 hn.2.1
    have hys : (Expr.div (Expr.sub (.const lgt) qt) (Expr.div dt (.const 12))).eval u = some ((lgt - s) / (t / 12)) := by
      have : t / 12 ≠ 0 := by have := hpos t ht; positivity
      simp [Expr.eval, hs, ht, this]
    have hneg : (lgt - s) / (t / 12) < 0 :=
      div_neg_of_neg_of_pos (by linarith [hlt s hs]) (by have := hpos t ht; positivity)
    unfold quenchingKern jaxPartialUTwKern
    dsimp only
    rw [Expr.eval, Expr.eval]
    congr 1
    have hsel : ∀ (w : ι → ℝ) (a b : Expr ι), (Expr.div (Expr.sub (.const lgt) qt) (Expr.div dt (.const 12))).eval w =
        some ((lgt - s) / (t / 12)) → (Expr.sel (Expr.div (Expr.sub (.const lgt) qt) (Expr.div dt (.const 12))) (.const 0) a b).eval w
        = a.eval w := by
      intro w a b hw
      have hc : flt (some ((lgt - s) / (t / 12))) ((Expr.const 0 : Expr ι).eval w) := hneg
      rw [Expr.eval, hw, if_pos hc]
    rw [hsel u _ _ hys, hsel v _ _ (by rw [← hy, hys]), Expr.eval, Expr.eval, h3, same_jaxTw]
    rw [Expr.eval, Expr.eval, hy]
    rfl

theorem sigmoidB_range {e : Expr ι} {b : ℝ × ℝ × ℝ × ℝ} (hb : b.2.2.1 < b.2.2.2) {s : ℝ}
    (h : (sigmoidB e b).eval u = some s) : b.2.2.1 < s := by
  unfold sigmoidB sigmoid at h
  cases he : e.eval u with
  | none => simp [Expr.eval, he, fmul, fadd] at h
  | some w =>
    simp only [Expr.eval, he, fmul, fadd, Option.bind_some, Option.map_some, Option.some.injEq] at h
    rw [← h]
    have := nnSigmoid_pos (b.2.1 * (w - b.1))
    nlinarith

theorem same_sfh {t lm fb : ℝ} (ht : Real.logb 10 t ≤ 0.1) {p : DiffstarParams (Expr ι)} (h1 : p.lgmcrit.eval u = p.lgmcrit.eval v)
    (h2 : p.lgyAtMcrit.eval u = p.lgyAtMcrit.eval v) (h3 : p.indxLo.eval u = p.indxLo.eval v)
    (h4 : p.indxHi.eval u = p.indxHi.eval v) (h5 : p.lgQt.eval u = p.lgQt.eval v) (h6 : p.qlglgdt.eval u = p.qlglgdt.eval v)
    (h7 : p.lgDrop.eval u = p.lgDrop.eval v) :
    (sfhSinglegalScalar t lm fb (getBoundedDiffstarParams p)).eval u =
      (sfhSinglegalScalar t lm fb (getBoundedDiffstarParams p)).eval v := by
  have hs : ∀ {e : Expr ι} (c : ℝ × ℝ × ℝ × ℝ), e.eval u = e.eval v → (sigmoidB e c).eval u = (sigmoidB e c).eval v :=
    fun c h => same_sigmoid h rfl rfl rfl rfl
  have hq : (quenchingKern (.const (Real.logb 10 t)) (getBoundedDiffstarParams p).lgQt
      (.pow10 (getBoundedDiffstarParams p).qlglgdt) (getBoundedDiffstarParams p).lgDrop (getBoundedDiffstarParams p).lgRejuv).eval u
      = (quenchingKern (.const (Real.logb 10 t)) (getBoundedDiffstarParams p).lgQt
      (.pow10 (getBoundedDiffstarParams p).qlglgdt) (getBoundedDiffstarParams p).lgDrop (getBoundedDiffstarParams p).lgRejuv).eval v := by
    refine same_quenching (hs _ h5) ?_ (hs _ h7) (fun s h => ?_) (fun s h => ?_)
    · rw [Expr.eval, Expr.eval]
      exact congrArg _ (hs _ h6)
    · have := sigmoidB_range (by norm_num [Q_BOUNDING_SIGMOID, calculateSigmoidBounds, Q_PARAM_BOUNDS]) h
      norm_num [Q_BOUNDING_SIGMOID, calculateSigmoidBounds, Q_PARAM_BOUNDS] at this ht ⊢
      linarith
    · rw [Expr.eval] at h
      obtain ⟨w, -, rfl⟩ := Option.map_eq_some_iff.1 h
      positivity
  have hm : (sfhMsKernel lm fb (getBoundedDiffstarParams p)).eval u = (sfhMsKernel lm fb (getBoundedDiffstarParams p)).eval v := by
    unfold sfhMsKernel sfrEffPlaw sigmoid getBoundedDiffstarParams
    simp only [Expr.eval, hs MS_BOUNDING_SIGMOID.lgmcrit h1, hs MS_BOUNDING_SIGMOID.lgyAtMcrit h2,
      hs MS_BOUNDING_SIGMOID.indxLo h3, hs MS_BOUNDING_SIGMOID.indxHi h4]
  have hr := congrArg₂ fmul hq hm
  exact same_sel hr rfl rfl hr

theorem same_scan (l : List (ℝ × Expr ι)) (A : ℝ) (fa cc : Expr ι) (hfa : fa.eval u = fa.eval v) (hcc : cc.eval u = cc.eval v)
    (hl : ∀ e ∈ l, e.2.eval u = e.2.eval v) : ∀ m ∈ scanOut cumtrapzScanFunc (A, fa, cc) l, m.eval u = m.eval v := by
  induction l generalizing A fa cc with
  | nil => intro m hm; simp [scanOut] at hm
  | cons x l ih =>
    have hx := hl x List.mem_cons_self
    have hc : (Expr.add cc (.div (.mul (.const (x.1 - A)) (.add x.2 fa)) (.const 2))).eval u =
        (Expr.add cc (.div (.mul (.const (x.1 - A)) (.add x.2 fa)) (.const 2))).eval v := by
      simp only [Expr.eval, hx, hfa, hcc]
    intro m hm
    rcases List.mem_cons.1 hm with rfl | hm
    · exact hc
    · exact ih _ _ _ hx hc (fun e he => hl e (List.mem_cons_of_mem _ he)) m hm

theorem same_logMass (tobs : ℝ) (es : List (Expr ι)) (h : ∀ e ∈ es, e.eval u = e.eval v) :
    (logMass tobs es).eval u = (logMass tobs es).eval v := by
  have key : ∀ m ∈ cumulativeMstarFormed (obsTimes tobs) es, m.eval u = m.eval v := by
    intro m hm
    unfold cumulativeMstarFormed at hm
    obtain ⟨m', hm', rfl⟩ := List.mem_map.1 hm
    have := same_scan (u := u) (v := v) _ _ _ _ rfl rfl (fun e he => ?_) m' (List.mem_of_mem_drop hm')
    · simp only [Expr.eval, this]
    · obtain ⟨e1, e2⟩ := e
      rcases List.mem_cons.1 (List.of_mem_zip he).2 with rfl | h'
      · rfl
      · exact h _ h'
  unfold logMass
  rw [Expr.eval, Expr.eval]
  congr 1
  rw [List.getLastD_eq_getLast?]
  cases hg : (cumulativeMstarFormed (obsTimes tobs) es).getLast? with
  | none => rfl
  | some m => exact key m (List.mem_of_getLast? hg)

theorem same_hist {n d : ℕ} {x : Fin n → Fin d → Expr ι} {s : Fin d → ℝ} {y : Fin n → Expr ι} {lo hi : Fin d → ℝ}
    (hx : ∀ i k, (x i k).eval u = (x i k).eval v) (hy : ∀ i, (y i).eval u = (y i).eval v) :
    (twNdhistWeightedKern x s y lo hi).eval u = (twNdhistWeightedKern x s y lo hi).eval v := by
  unfold twNdhistWeightedKern
  refine same_sum fun i => ?_
  have hp := same_prod (u := u) (v := v) (f := fun k => twBinWeightLaxKern (x i k) (s k) (lo k) (hi k)) fun k => by
    have ht : ∀ m, (twCumlLaxKern (x i k) m (s k)).eval u = (twCumlLaxKern (x i k) m (s k)).eval v := fun m =>
      same_jaxTw (by simp only [Expr.eval, hx])
    unfold twBinWeightLaxKern
    simp only [Expr.eval, ht]
  rw [Expr.eval, Expr.eval, hy]
  exact congrArg (fmul · _) hp

end

section

variable {u v : PF → ℝ} {p : QF → Expr PF}

/-- Equal values. -/
abbrev SameV (u v : PF → ℝ) (e : Expr PF) : Prop := e.eval u = e.eval v

theorem same_line {y0 m : Expr PF} (x : ℝ) (bd : ℝ × ℝ) (h1 : SameV u v y0) (h2 : SameV u v m) : SameV u v (lineModel x y0 m bd) := by
  unfold SameV lineModel smoothlyClippedLine sigmoid
  simp only [Expr.eval, show y0.eval u = _ from h1, show m.eval u = _ from h2]

theorem same_mcrit {a b c d : Expr PF} (x : ℝ) (h1 : SameV u v a) (h2 : SameV u v b) (h3 : SameV u v c) (h4 : SameV u v d) :
    SameV u v (mcritModel x a b c d) := by
  unfold SameV mcritModel sigmoid
  simp only [Expr.eval, show a.eval u = _ from h1, show b.eval u = _ from h2, show c.eval u = _ from h3, show d.eval u = _ from h4]

variable (hp : ∀ f, f ≠ .mean_urej_slp → (p f).eval u = (p f).eval v)

include hp

theorem same_meanMseq (m : ℝ) (i : Fin 4) : SameV u v (meanMseq p m i) := by
  fin_cases i
  · exact same_mcrit m (hp _ (by decide)) (hp _ (by decide)) (hp _ (by decide)) (hp _ (by decide))
  · exact same_mcrit m (hp _ (by decide)) (hp _ (by decide)) (hp _ (by decide)) (hp _ (by decide))
  · exact same_line m _ (hp _ (by decide)) (hp _ (by decide))
  · exact same_line m _ (hp _ (by decide)) (hp _ (by decide))

theorem same_deltaUqt (m t : ℝ) : SameV u v (deltaUqt p m t) := by
  unfold SameV deltaUqt sigmoid
  simp only [Expr.eval, hp .delta_uqt_x0 (by decide), hp .delta_uqt_k (by decide), hp .delta_uqt_ylo (by decide),
    hp .delta_uqt_yhi (by decide), hp .delta_uqt_slope (by decide)]

theorem same_meanQseq (m t : ℝ) (i : Fin 8) (hi : i ≠ 7) : SameV u v (meanQseq p m t i) := by
  fin_cases i
  · exact same_mcrit m (hp _ (by decide)) (hp _ (by decide)) (hp _ (by decide)) (hp _ (by decide))
  · exact same_mcrit m (hp _ (by decide)) (hp _ (by decide)) (hp _ (by decide)) (hp _ (by decide))
  · exact same_line m _ (hp _ (by decide)) (hp _ (by decide))
  · exact same_line m _ (hp _ (by decide)) (hp _ (by decide))
  · exact congrArg₂ fadd (same_mcrit m (hp .mean_uqt_xtp (by decide)) (hp .mean_uqt_ytp (by decide)) (hp .mean_uqt_lo (by decide))
      (hp .mean_uqt_hi (by decide))) (same_deltaUqt hp m t)
  · exact same_line m _ (hp _ (by decide)) (hp _ (by decide))
  · exact same_line m _ (hp _ (by decide)) (hp _ (by decide))
  · exact absurd rfl hi

theorem same_stdMseqMs (m : ℝ) (i : Fin 4) : SameV u v (stdMseqMs p m i) := by
  fin_cases i <;> exact same_line m _ (hp _ (by decide)) (hp _ (by decide))

theorem same_stdQseqMs (m : ℝ) (i : Fin 4) : SameV u v (stdQseqMs p m i) := by
  fin_cases i <;> exact same_line m _ (hp _ (by decide)) (hp _ (by decide))

theorem same_stdQseqQ (m : ℝ) (i : Fin 4) : SameV u v (stdQseqQ p m i) := by
  fin_cases i <;> exact same_line m _ (hp _ (by decide)) (hp _ (by decide))

theorem same_fracQuenchCen (m t : ℝ) : SameV u v (fracQuenchCen p m t) := by
  unfold SameV fracQuenchCen sigmoid
  simp only [Expr.eval, hp .frac_quench_cen_x0_tpeak (by decide), hp .frac_quench_cen_k_tpeak (by decide),
    hp .frac_quench_cen_x0_ylotpeak (by decide), hp .frac_quench_cen_x0_yhitpeak (by decide),
    hp .frac_quench_cen_ylo_ylotpeak (by decide), hp .frac_quench_cen_ylo_yhitpeak (by decide),
    hp .frac_quench_cen_k (by decide), hp .frac_quench_cen_yhi (by decide)]

theorem same_fracQuenchSat (m t : ℝ) : SameV u v (fracQuenchSat p m t) := by
  unfold SameV fracQuenchSat sigmoid
  simp only [Expr.eval, hp .frac_quench_sat_x0_tpeak (by decide), hp .frac_quench_sat_k_tpeak (by decide),
    hp .frac_quench_sat_x0_ylotpeak (by decide), hp .frac_quench_sat_x0_yhitpeak (by decide),
    hp .frac_quench_sat_ylo_ylotpeak (by decide), hp .frac_quench_sat_ylo_yhitpeak (by decide),
    hp .frac_quench_sat_k (by decide), hp .frac_quench_sat_yhi (by decide)]

end

section

variable {u v : PF → ℝ}

theorem same_bounded (f : PF) (h : u f = v f) : (boundedPop f).eval u = (boundedPop f).eval v := by
  unfold boundedPop sigmoid
  simp only [Expr.eval, h]

theorem same_fracQuench (huv : ∀ f, f ≠ .inl .mean_urej_slp → u f = v f) (m t : ℝ) (upid : ℤ) (a b c : ℝ) :
    (fracQuench boundedPop m t upid a b c).eval u = (fracQuench boundedPop m t upid a b c).eval v := by
  have hp : ∀ f : QF, f ≠ .mean_urej_slp → (boundedPop (.inl f)).eval u = (boundedPop (.inl f)).eval v := fun f hf =>
    same_bounded _ (huv _ fun h => hf (Sum.inl.inj h))
  have hq : ∀ f : SF, (boundedPop (.inr f)).eval u = (boundedPop (.inr f)).eval v := fun f =>
    same_bounded _ (huv _ Sum.inr_ne_inl)
  have h2 := same_fracQuenchSat hp m t
  unfold SameV at h2
  refine same_sel rfl rfl (same_fracQuenchCen hp m t) ?_
  unfold getQprobSat predictSatFracDeltaQprob sigmoid
  simp only [Expr.eval, h2, hq]

theorem same_sfhMs {K : Type} {n : ℕ} (split : K → (m : ℕ) → Fin m → K) (z : K → Fin 4 → ℝ)
    (logMah : MahParams ℝ → ℝ → ℝ → ℝ) (h : HaloSample K n) (lgt0 fb : ℝ) (i : Fin n)
    (huv : ∀ f, f ≠ .inl .mean_urej_slp → u f = v f) (ht : ∀ t ∈ obsTimes h.tobs, Real.logb 10 t ≤ 0.1) :
    ∀ e ∈ (mcSample split z logMah boundedPop h lgt0 fb i).sfhMs, e.eval u = e.eval v := by
  have hp : ∀ f : QF, f ≠ .mean_urej_slp → (boundedPop (.inl f)).eval u = (boundedPop (.inl f)).eval v := fun f hf =>
    same_bounded _ (huv _ fun h => hf (Sum.inl.inj h))
  have h1 := same_meanMseq hp (h.logmp0 i)
  have h2 := same_stdMseqMs hp (h.logmp0 i)
  intro e he
  unfold mcSample at he
  dsimp only at he
  generalize meanMseq (fun f => boundedPop (.inl f)) (h.logmp0 i) = mu at *
  generalize stdMseqMs (fun f => boundedPop (.inl f)) (h.logmp0 i) = std at *
  obtain ⟨t, htm, rfl⟩ := List.mem_map.1 he
  exact same_sfh (ht t htm) (same_normal 0 (h1 0) h2) (same_normal 1 (h1 1) h2) (same_normal 2 (h1 2) h2)
    (same_normal 3 (h1 3) h2) rfl rfl rfl

theorem same_sfhQ {K : Type} {n : ℕ} (split : K → (m : ℕ) → Fin m → K) (z : K → Fin 4 → ℝ)
    (logMah : MahParams ℝ → ℝ → ℝ → ℝ) (h : HaloSample K n) (lgt0 fb : ℝ) (i : Fin n)
    (huv : ∀ f, f ≠ .inl .mean_urej_slp → u f = v f) (ht : ∀ t ∈ obsTimes h.tobs, Real.logb 10 t ≤ 0.1) :
    ∀ e ∈ (mcSample split z logMah boundedPop h lgt0 fb i).sfhQ, e.eval u = e.eval v := by
  have hp : ∀ f : QF, f ≠ .mean_urej_slp → (boundedPop (.inl f)).eval u = (boundedPop (.inl f)).eval v := fun f hf =>
    same_bounded _ (huv _ fun h => hf (Sum.inl.inj h))
  have h1 := same_meanQseq hp (h.logmp0 i) (h.mah.tPeak i)
  have h2 := same_stdQseqMs hp (h.logmp0 i)
  have h3 := same_stdQseqQ hp (h.logmp0 i)
  intro e he
  unfold mcSample at he
  dsimp only at he
  generalize meanQseq (fun f => boundedPop (.inl f)) (h.logmp0 i) (h.mah.tPeak i) = mu at *
  generalize stdQseqMs (fun f => boundedPop (.inl f)) (h.logmp0 i) = std at *
  generalize stdQseqQ (fun f => boundedPop (.inl f)) (h.logmp0 i) = std' at *
  obtain ⟨t, htm, rfl⟩ := List.mem_map.1 he
  exact same_sfh (ht t htm) (same_normal 0 (h1 0 (by decide)) h2) (same_normal 1 (h1 1 (by decide)) h2)
    (same_normal 2 (h1 2 (by decide)) h2) (same_normal 3 (h1 3 (by decide)) h2) (same_normal 0 (h1 4 (by decide)) h3)
    (same_normal 1 (h1 5 (by decide)) h3) (same_normal 2 (h1 6 (by decide)) h3)

/-- The last rate of the quenched history has a NaN derivative by the slope. -/
theorem bad_sfhQ {K : Type} {n : ℕ} (split : K → (m : ℕ) → Fin m → K) (z : K → Fin 4 → ℝ)
    (logMah : MahParams ℝ → ℝ → ℝ → ℝ) (h : HaloSample K n) (lgt0 fb : ℝ) (i : Fin n) (hne : obsTimes h.tobs ≠ [])
    (h0 : u (.inl .mean_urej_slp) = 0) :
    Bad u (.inl .mean_urej_slp) (logMass h.tobs (mcSample split z logMah boundedPop h lgt0 fb i).sfhQ) := by
  have hbad : Bad u (.inl .mean_urej_slp) (meanQseq (fun f => boundedPop (.inl f)) (h.logmp0 i) (h.mah.tPeak i) 7) := by
    refine bad_line _ _ ?_ ?_
    · rw [eval_bounded, getBounded_apply]
      simp only [PF.bounds, QF.bounds, h0]
      norm_num [QF.boundsQ, Diffstar.sigmoid, nnSigmoid_zero]
    · unfold boundedPop sigmoid
      simp [Expr.backward, Expr.eval, fmul, fadd]
  unfold mcSample
  dsimp only
  generalize meanQseq (fun f => boundedPop (.inl f)) (h.logmp0 i) (h.mah.tPeak i) = mu at *
  generalize stdQseqMs (fun f => boundedPop (.inl f)) (h.logmp0 i) = std at *
  generalize stdQseqQ (fun f => boundedPop (.inl f)) (h.logmp0 i) = std' at *
  refine bad_logMass _ _ (by simp) _ (by rw [List.getLast?_map, List.getLast?_eq_some_getLast hne]; rfl) (bad_sfh ?_)
  exact bad_add (Or.inl hbad)

end

end Diffstar.Trace
