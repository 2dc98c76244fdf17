import Verif.Lemmas.PopAutoDiff

/-! Propagation of NaN through the traced population kernels. -/

namespace Diffstar.Trace

open Diffstar Diffstar.Pop Diffstar.PopLoss

set_option linter.unusedSectionVars false

section

variable {ι : Type} {u : ι → ℝ} {a b c x y : Expr ι}

theorem nan_add (h : a.eval u = none ∨ b.eval u = none) : (Expr.add a b).eval u = none := by
  rcases h with h | h <;> cases ha : a.eval u <;> simp_all [Expr.eval, fadd]

theorem nan_sub (h : a.eval u = none ∨ b.eval u = none) : (Expr.sub a b).eval u = none := by
  rcases h with h | h <;> cases ha : a.eval u <;> simp_all [Expr.eval]

theorem nan_mul (h : a.eval u = none ∨ b.eval u = none) : (Expr.mul a b).eval u = none := by
  rcases h with h | h <;> cases ha : a.eval u <;> simp_all [Expr.eval, fmul]

theorem nan_div (h : a.eval u = none ∨ b.eval u = none ∨ b.eval u = some 0) : (Expr.div a b).eval u = none := by
  rcases h with h | h | h <;> cases ha : a.eval u <;> simp_all [Expr.eval]

theorem nan_max (h : a.eval u = none ∨ b.eval u = none) : (Expr.max a b).eval u = none := by
  rcases h with h | h <;> cases ha : a.eval u <;> simp_all [Expr.eval]

theorem nan_pow {k : ℕ} (h : a.eval u = none) : (Expr.pow a k).eval u = none := by simp [Expr.eval, h]

theorem nan_pow10 (h : a.eval u = none) : (Expr.pow10 a).eval u = none := by simp [Expr.eval, h]

theorem nan_log10 (h : a.eval u = none) : (Expr.log10 a).eval u = none := by simp [Expr.eval, h]

theorem nan_sqrt (h : a.eval u = none) : (Expr.sqrt a).eval u = none := by simp [Expr.eval, h]

theorem nan_logistic (h : a.eval u = none) : (Expr.logistic a).eval u = none := by simp [Expr.eval, h]

theorem nan_sel_left (h : x.eval u = none) (hb : b.eval u = none) : (Expr.sel x y a b).eval u = none := by
  simp [Expr.eval, h, flt, hb]

theorem nan_sel_right (h : y.eval u = none) (hb : b.eval u = none) : (Expr.sel x y a b).eval u = none := by
  cases hx : x.eval u <;> simp [Expr.eval, h, hx, flt, hb]

theorem nan_sel_both (ha : a.eval u = none) (hb : b.eval u = none) : (Expr.sel x y a b).eval u = none := by
  simp [Expr.eval, ha, hb]

theorem nan_sigmoid {x0 k lo hi : Expr ι} (h : x.eval u = none ∨ x0.eval u = none ∨ k.eval u = none ∨ lo.eval u = none ∨
    hi.eval u = none) : (sigmoid x x0 k lo hi).eval u = none := by
  refine nan_add ?_
  rcases h with h | h | h | h | h
  · exact Or.inr (nan_mul (Or.inr (nan_logistic (nan_mul (Or.inr (nan_sub (Or.inl h)))))))
  · exact Or.inr (nan_mul (Or.inr (nan_logistic (nan_mul (Or.inr (nan_sub (Or.inr h)))))))
  · exact Or.inr (nan_mul (Or.inr (nan_logistic (nan_mul (Or.inl h)))))
  · exact Or.inl h
  · exact Or.inr (nan_mul (Or.inl (nan_sub (Or.inl h))))

theorem nan_foldr_add (l : List (Expr ι)) (h : ∃ e ∈ l, e.eval u = none) (z : Expr ι) : (l.foldr .add z).eval u = none := by
  induction l with
  | nil => simp at h
  | cons e l ih =>
    obtain ⟨e', he, hn⟩ := h
    rcases List.mem_cons.1 he with rfl | he
    · exact nan_add (Or.inl hn)
    · exact nan_add (Or.inr (ih ⟨e', he, hn⟩))

theorem nan_foldr_mul (l : List (Expr ι)) (h : ∃ e ∈ l, e.eval u = none) (z : Expr ι) : (l.foldr .mul z).eval u = none := by
  induction l with
  | nil => simp at h
  | cons e l ih =>
    obtain ⟨e', he, hn⟩ := h
    rcases List.mem_cons.1 he with rfl | he
    · exact nan_mul (Or.inl hn)
    · exact nan_mul (Or.inr (ih ⟨e', he, hn⟩))

theorem nan_sum {m : ℕ} {f : Fin m → Expr ι} (i : Fin m) (h : (f i).eval u = none) : (sum f).eval u = none :=
  nan_foldr_add _ ⟨f i, List.mem_ofFn.2 ⟨i, rfl⟩, h⟩ _

theorem nan_prod {m : ℕ} {f : Fin m → Expr ι} (i : Fin m) (h : (f i).eval u = none) : (prod f).eval u = none :=
  nan_foldr_mul _ ⟨f i, List.mem_ofFn.2 ⟨i, rfl⟩, h⟩ _

theorem eval_take {m : ℕ} (f : Fin m → Expr ι) (i : Fin m) : (take f i).eval u = (f i).eval u := by
  unfold take
  generalize List.ofFn f = l
  induction l with
  | nil => rfl
  | cons e l ih => simpa [Expr.eval, flt] using ih

theorem nan_jaxTw (h : y.eval u = none) : (jaxTw y).eval u = none := by
  unfold jaxTw
  dsimp only
  exact nan_sel_right h (nan_sel_left h (nan_add (Or.inl (nan_add (Or.inr (nan_div (Or.inl (nan_mul (Or.inr h)))))))))

theorem nan_line {y0 m : Expr ι} (xv : ℝ) (bd : ℝ × ℝ) (h : m.eval u = some 0) : (lineModel xv y0 m bd).eval u = none := by
  unfold lineModel smoothlyClippedLine
  dsimp only
  refine nan_sigmoid (Or.inr (Or.inl (nan_sub (Or.inl (nan_add (Or.inl (nan_div (Or.inr (Or.inr h)))))))))

theorem nan_quenching {lgt qt dt drop rejuv : Expr ι} (h : qt.eval u = none ∨ dt.eval u = none ∨ drop.eval u = none) :
    (quenchingKern lgt qt dt drop rejuv).eval u = none := by
  unfold quenchingKern jaxPartialUTwKern
  dsimp only
  refine nan_pow10 ?_
  rcases or_assoc.2 h with h | h
  · have hy : (Expr.div (Expr.sub lgt qt) (Expr.div dt (.const 12))).eval u = none := by
      rcases h with h | h
      · exact nan_div (Or.inl (nan_sub (Or.inr h)))
      · exact nan_div (Or.inr (Or.inl (nan_div (Or.inl h))))
    exact nan_sel_left hy (nan_sub (Or.inr (nan_mul (Or.inr (nan_jaxTw (nan_sub (Or.inl hy)))))))
  · exact nan_sel_both (nan_mul (Or.inl h)) (nan_sub (Or.inl h))

/-- A star formation rate is NaN if a parameter other than the rejuvenation level is. -/
theorem nan_sfh {t lm fb : ℝ} {p : DiffstarParams (Expr ι)} (h : p.lgmcrit.eval u = none ∨ p.lgyAtMcrit.eval u = none ∨
    p.indxLo.eval u = none ∨ p.indxHi.eval u = none ∨ p.lgQt.eval u = none ∨ p.qlglgdt.eval u = none ∨
    p.lgDrop.eval u = none) : (sfhSinglegalScalar t lm fb (getBoundedDiffstarParams p)).eval u = none := by
  have hs : ∀ {e : Expr ι} (c : ℝ × ℝ × ℝ × ℝ), e.eval u = none → (sigmoidB e c).eval u = none := fun c h =>
    nan_sigmoid (Or.inl h)
  unfold sfhSinglegalScalar
  dsimp only
  have key : (Expr.mul (quenchingKern (.const (Real.logb 10 t)) (getBoundedDiffstarParams p).lgQt
      (.pow10 (getBoundedDiffstarParams p).qlglgdt) (getBoundedDiffstarParams p).lgDrop (getBoundedDiffstarParams p).lgRejuv)
      (sfhMsKernel lm fb (getBoundedDiffstarParams p))).eval u = none := by
    refine nan_mul ?_
    unfold sfhMsKernel sfrEffPlaw
    dsimp only
    rcases h with h | h | h | h | h | h | h
    · exact Or.inr (nan_mul (Or.inr (nan_pow10 (nan_add (Or.inr (nan_mul (Or.inr (nan_sub (Or.inr (hs _ h))))))))))
    · exact Or.inr (nan_mul (Or.inr (nan_pow10 (nan_add (Or.inl (hs _ h))))))
    · exact Or.inr (nan_mul (Or.inr (nan_pow10 (nan_add (Or.inr (nan_mul (Or.inl (nan_sigmoid
        (Or.inr (Or.inr (Or.inr (Or.inl (hs _ h)))))))))))))
    · exact Or.inr (nan_mul (Or.inr (nan_pow10 (nan_add (Or.inr (nan_mul (Or.inl (nan_sigmoid
        (Or.inr (Or.inr (Or.inr (Or.inr (hs _ h)))))))))))))
    · exact Or.inl (nan_quenching (Or.inl (hs _ h)))
    · exact Or.inl (nan_quenching (Or.inr (Or.inl (nan_pow10 (hs _ h)))))
    · exact Or.inl (nan_quenching (Or.inr (Or.inr (hs _ h))))
  exact nan_sel_left key key

theorem scan_last (l : List (ℝ × Expr ι)) (A : ℝ) (fa cc : Expr ι) (e : ℝ × Expr ι) :
    ∃ A' fa' c', (scanOut cumtrapzScanFunc (A, fa, cc) (l ++ [e])).getLast? =
      some (.add c' (.div (.mul (.const (e.1 - A')) (.add e.2 fa')) (.const 2))) := by
  induction l generalizing A fa cc with
  | nil => exact ⟨A, fa, cc, rfl⟩
  | cons x l ih =>
    obtain ⟨A', fa', c', h⟩ := ih x.1 x.2 (.add cc (.div (.mul (.const (x.1 - A)) (.add x.2 fa)) (.const 2)))
    refine ⟨A', fa', c', ?_⟩
    rw [← h]
    simp only [List.cons_append, scanOut, cumtrapzScanFunc]
    rw [List.getLast?_cons]
    have : ∃ z, (scanOut cumtrapzScanFunc (x.1, x.2, .add cc (.div (.mul (.const (x.1 - A)) (.add x.2 fa)) (.const 2)))
      (l ++ [e])).getLast? = some z := ⟨_, h⟩
    obtain ⟨z, hz⟩ := this
    rw [hz]
    rfl

theorem zip_last {α β : Type} (t : List α) (es : List β) (hl : es.length = t.length) (e : β) (he : es.getLast? = some e) :
    ∃ l x, t.zip es = l ++ [(x, e)] := by
  obtain ⟨es', rfl⟩ := List.getLast?_eq_some_iff.1 he
  have ht : t ≠ [] := by rintro rfl; simp at hl
  obtain ⟨t', x, rfl⟩ : ∃ t' x, t = t' ++ [x] := ⟨t.dropLast, t.getLast ht, (List.dropLast_append_getLast ht).symm⟩
  refine ⟨t'.zip es', x, ?_⟩
  rw [List.zip_append (by simpa using hl.symm)]
  rfl

/-- The last stellar mass is a sum that contains the last rate. -/
theorem mass_last (t : List ℝ) (es : List (Expr ι)) (hl : es.length = t.length) (e : Expr ι) (he : es.getLast? = some e) :
    ∃ (x A' : ℝ) (fa' c' : Expr ι), (cumulativeMstarFormed t es).getLastD (.const 0) =
      .mul (.add c' (.div (.mul (.const (x - A')) (.add e fa')) (.const 2))) (.const YEAR_PER_GYR) := by
  obtain ⟨l, x, hz⟩ := zip_last t es hl e he
  unfold cumulativeMstarFormed
  dsimp only
  rw [List.zip_cons_cons, scanOut, List.drop_one, List.tail_cons, hz]
  obtain ⟨A', fa', c', h⟩ := scan_last l T_BIRTH_MIN (.const SFR_MIN) (.add (.const 0) (.div (.mul
    (.const (T_BIRTH_MIN - T_BIRTH_MIN)) (.add (.const SFR_MIN) (.const SFR_MIN))) (.const 2))) (x, e)
  refine ⟨x, A', fa', c', ?_⟩
  rw [List.getLastD_eq_getLast?, List.getLast?_map]
  have h' : (scanOut cumtrapzScanFunc (cumtrapzScanFunc (T_BIRTH_MIN, Expr.const SFR_MIN, Expr.const 0)
    (T_BIRTH_MIN, Expr.const SFR_MIN)).1 (l ++ [(x, e)])).getLast? = _ := h
  rw [h']
  rfl

theorem nan_logMass (tobs : ℝ) (es : List (Expr ι)) (hl : es.length = (obsTimes tobs).length) (e : Expr ι)
    (he : es.getLast? = some e) (h : e.eval u = none) : (logMass tobs es).eval u = none := by
  obtain ⟨x, A', fa', c', hm⟩ := mass_last (obsTimes tobs) es hl e he
  unfold logMass
  rw [hm]
  exact nan_log10 (nan_mul (Or.inl (nan_add (Or.inr (nan_div (Or.inl (nan_mul (Or.inr (nan_add (Or.inl h))))))))))

theorem nan_normal {z : Fin 4 → ℝ} {mean std : Fin 4 → Expr ι} (i : Fin 4)
    (h : (mean i).eval u = none ∨ ∃ j, (std j).eval u = none) : (multivariateNormal z mean std i).eval u = none := by
  unfold multivariateNormal
  refine nan_add (h.imp_right ?_)
  rintro ⟨j, hj⟩
  refine nan_sum j (nan_mul (Or.inl ?_))
  split_ifs with h
  · subst h; exact nan_sqrt (nan_mul (Or.inr hj))
  · exact nan_mul (Or.inr hj)

end

section

variable {u : PF → ℝ}

theorem eval_bounded (f : PF) : (boundedPop f).eval u = some (getBoundedDiffstarpopParams u f) :=
  (Ad.bounded (u := u) (S := True) f).at

theorem nan_slope (fi fs : QF) (x : ℝ) (bd : ℝ × ℝ) (h1 : (QF.boundsQ fs).1 = -(QF.boundsQ fs).2)
    (h0 : u (.inl fs) = 0) : (lineModel x (boundedPop (.inl fi)) (boundedPop (.inl fs)) bd).eval u = none := by
  refine nan_line x bd ?_
  rw [eval_bounded, getBounded_apply]
  have h1' : ((QF.boundsQ fs).1 : ℝ) = -((QF.boundsQ fs).2 : ℝ) := by exact_mod_cast congrArg (Rat.cast (K := ℝ)) h1
  simp only [PF.bounds, QF.bounds, h1', h0]
  simp [Diffstar.sigmoid, nnSigmoid_zero]; norm_num; ring

end

end Diffstar.Trace
