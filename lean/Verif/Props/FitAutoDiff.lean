import Verif.Lemmas.AutoDiff
import Verif.Props.FitGrad

/-!
C135: the gradient of the fitting loss as reverse-mode differentiation computes it, without an assumption on the
differentiation.
-/

namespace Diffstar.Props

open Diffstar Diffstar.Fit Diffstar.Spec Diffstar.Trace Filter Topology

section

variable {M : Type} (logMah : M → ℝ → ℝ → ℝ) (d : LossData M) (u : Fin 8 → ℝ)

theorem adP_unbounded : AdP (ι := Fin 8) ⟨.var 0, .var 1, .var 2, .var 3, .var 4, .var 5, .var 6, .var 7⟩ paramsOfVec u True :=
  ⟨.var 0, .var 1, .var 2, .var 3, .var 4, .var 5, .var 6, .var 7⟩

/-- The traced bounded parameters. -/
noncomputable def tracedParams : DiffstarParams (Expr (Fin 8)) :=
  Trace.getBoundedDiffstarParams ⟨.var 0, .var 1, .var 2, .var 3, .var 4, .var 5, .var 6, .var 7⟩

/-- The traced rates. -/
noncomputable def tracedSfh : List (Expr (Fin 8)) :=
  d.t.map fun t => Trace.sfhSinglegalScalar t (logMah d.mah t d.lgt0) d.fb tracedParams

/-- The traced masses. -/
noncomputable def tracedMass : List (Expr (Fin 8)) := Trace.cumulativeMstarFormed d.t (tracedSfh logMah d)

/-- History for a vector of unbounded parameters. -/
noncomputable def histOf (v : Fin 8 → ℝ) : GalHistory (List ℝ) :=
  calcSfhSinglegalSmh logMah (Diffstar.getBoundedDiffstarParams (paramsOfVec v)) d.mah d.t d.lgt0 d.fb

theorem tracedSfh_ad : AdL (tracedSfh logMah d) (fun v => (histOf logMah d v).sfh) u (OffEdges logMah d (paramsOfVec u)) := by
  refine ⟨fun v => by simp [histOf, sfh_eq, tracedSfh], fun i hi => ?_⟩
  have hi : i < d.t.length := by simpa [tracedSfh] using hi
  have hv : ∀ v, (histOf logMah d v).sfh.getD i 0 = Diffstar.sfhSinglegalScalar logMah (d.t.getD i 0) d.mah
      (Diffstar.getBoundedDiffstarParams (paramsOfVec v)).ms (Diffstar.getBoundedDiffstarParams (paramsOfVec v)).q d.lgt0 d.fb :=
    fun v => getD_map_gen _ d.t i hi 0 0
  rw [tracedSfh, getD_map_gen _ d.t i hi 0]
  refine ((adP_unbounded u).bounded.sfhSinglegalScalar logMah _ d.mah d.lgt0 d.fb fun s => ?_).congr fun v => (hv v).symm
  rw [← hv]
  exact Or.inl (s i hi).1

theorem tracedMass_ad : AdL (tracedMass logMah d) (fun v => (histOf logMah d v).smh) u (OffEdges logMah d (paramsOfVec u)) :=
  (tracedSfh_ad logMah d u).cumulativeMstarFormed d.t (by simp [tracedSfh])

theorem tracedMass_length : (tracedMass logMah d).length = d.t.length := by
  rw [← (tracedMass_ad logMah d 0).1 0]
  exact smh_length ..

theorem histOf_pos (hd : WellFormed d) (v : Fin 8 → ℝ) (i : ℕ) (hi : i < d.t.length) : 0 < (histOf logMah d v).smh.getD i 0 :=
  smh_pos logMah d.mah d.t hd.increasing d.lgt0 d.fb _ i hi

/-- The traced averaged rates, with their floor. -/
noncomputable def tracedFstar : List (Expr (Fin 8)) :=
  List.zipWith (fun f m => Expr.max f (.mul m (.const (d.ssfrhFloor / 10))))
    (Trace.computeFstar d.t (tracedMass logMah d) d.fstarTdelay) (tracedMass logMah d)

/-- The averaged rates with their floor. -/
noncomputable def flooredFstar (v : Fin 8 → ℝ) : List ℝ :=
  List.zipWith (fun f m => max f (m * (d.ssfrhFloor / 10)))
    (Diffstar.computeFstar d.t (histOf logMah d v).smh d.fstarTdelay) (histOf logMah d v).smh

theorem computeFstar_length (v : Fin 8 → ℝ) :
    (Diffstar.computeFstar d.t (histOf logMah d v).smh d.fstarTdelay).length = d.t.length := by
  have : (histOf logMah d v).smh.length = d.t.length := smh_length ..
  simp [Diffstar.computeFstar, this]

theorem flooredFstar_getD (v : Fin 8 → ℝ) (i : ℕ) (hi : i < d.t.length) : (flooredFstar logMah d v).getD i 0 =
    max ((Diffstar.computeFstar d.t (histOf logMah d v).smh d.fstarTdelay).getD i 0)
      ((histOf logMah d v).smh.getD i 0 * (d.ssfrhFloor / 10)) := by
  have h1 := computeFstar_length logMah d v
  have h2 : (histOf logMah d v).smh.length = d.t.length := smh_length ..
  exact getD_zipWith_gen _ _ _ i (by omega) (by omega) 0 0 0

theorem tracedFstar_length : (tracedFstar logMah d).length = d.t.length := by
  have := tracedMass_length logMah d
  simp [tracedFstar, Trace.computeFstar, this]

theorem tracedFstar_ad (hd : WellFormed d) :
    AdL (tracedFstar logMah d) (flooredFstar logMah d) u (OffEdges logMah d (paramsOfVec u)) := by
  have hm := tracedMass_ad logMah d u
  have hml := tracedMass_length logMah d
  refine ⟨fun v => ?_, fun i hi => ?_⟩
  · have h1 := computeFstar_length logMah d v
    have h2 : (histOf logMah d v).smh.length = d.t.length := smh_length ..
    rw [tracedFstar_length, flooredFstar, List.length_zipWith, h1, h2, Nat.min_self]
  · have hi : i < d.t.length := by rwa [tracedFstar_length] at hi
    have hfl : (Trace.computeFstar d.t (tracedMass logMah d) d.fstarTdelay).length = d.t.length := by
      simp [Trace.computeFstar, hml]
    have hmi := hm.2 i (by omega)
    have hinc : Increasing d.t := (List.pairwise_cons.1 hd.increasing).2
    have hr := ((hmi.sub (hm.interp (d.t.getD i 0 - d.fstarTdelay) d.t hinc hml)).div (.const d.fstarTdelay)
      hd.tdelayPos.ne').div (.const (10 ^ 9)) (by norm_num)
    rw [tracedFstar, getD_zipWith_gen _ _ _ i (by omega) (by omega) (.const 0) (.const 0)]
    have e1 : (Trace.computeFstar d.t (tracedMass logMah d) d.fstarTdelay).getD i (.const 0) = .sel (.const 0)
        (.div (.div (.sub ((tracedMass logMah d).getD i (.const 0))
          (Trace.interp (d.t.getD i 0 - d.fstarTdelay) d.t (tracedMass logMah d))) (.const d.fstarTdelay)) (.const (10 ^ 9)))
        (.div (.div (.sub ((tracedMass logMah d).getD i (.const 0))
          (Trace.interp (d.t.getD i 0 - d.fstarTdelay) d.t (tracedMass logMah d))) (.const d.fstarTdelay)) (.const (10 ^ 9)))
        (.const 0) := by
      rw [Trace.computeFstar, getD_map_gen _ _ i (by simp [hml, hi]) (.const 0),
        getD_zipWith_gen _ _ _ i (by omega) (by simp [hi]) (.const 0) (.const 0), getD_map_gen _ _ i hi 0]
    have hv : ∀ v, (Diffstar.computeFstar d.t (histOf logMah d v).smh d.fstarTdelay).getD i 0 =
        if 0 < ((histOf logMah d v).smh.getD i 0 - npInterp (d.t.getD i 0 - d.fstarTdelay) d.t (histOf logMah d v).smh) /
          d.fstarTdelay / 10 ^ 9 then ((histOf logMah d v).smh.getD i 0 - npInterp (d.t.getD i 0 - d.fstarTdelay) d.t
          (histOf logMah d v).smh) / d.fstarTdelay / 10 ^ 9 else 0 := by
      intro v
      rw [fstar_getD _ _ _ (show (histOf logMah d v).smh.length = d.t.length from smh_length ..) i hi]
      split_ifs with h
      · exact max_eq_left h.le
      · exact max_eq_right (not_lt.1 h)
    rw [e1]
    set R : (Fin 8 → ℝ) → ℝ := fun v => ((histOf logMah d v).smh.getD i 0 -
      npInterp (d.t.getD i 0 - d.fstarTdelay) d.t (histOf logMah d v).smh) / d.fstarTdelay / 10 ^ 9 with hR
    have hsel := (Ad.const 0 (S := OffEdges logMah d (paramsOfVec u) ∧ R u ≠ 0)).sel (hr.imp And.left) hr
      (.const 0 (S := True)) (fun h => h.symm) (fun s _ => s.1) (fun _ _ => trivial) (fun s h => absurd h.symm s.2)
    have hmc := hmi.mul (.const (d.ssfrhFloor / 10))
    have hpos := histOf_pos logMah d hd u i hi
    have hfp := hd.floorPos
    refine (hsel.max hmc fun s => ?_).congr fun v => ?_
    · have hne := (s i hi).2.1
      change (Diffstar.computeFstar d.t (histOf logMah d u).smh d.fstarTdelay).getD i 0 ≠
        (histOf logMah d u).smh.getD i 0 * (d.ssfrhFloor / 10) at hne
      rw [hv u] at hne
      rcases lt_or_gt_of_ne hne with h | h
      · exact Or.inl ⟨h, s⟩
      · refine Or.inr ⟨h, s, fun h0 => ?_⟩
        have h0' : ¬ 0 < R u := by rw [h0]; exact lt_irrefl 0
        change _ > _ at h
        rw [if_neg h0'] at h
        have : 0 < (histOf logMah d u).smh.getD i 0 * (d.ssfrhFloor / 10) := by positivity
        linarith
    · rw [flooredFstar_getD logMah d v i hi, hv v]

theorem flooredFstar_pos (hd : WellFormed d) (v : Fin 8 → ℝ) (i : ℕ) (hi : i < d.t.length) :
    0 < (flooredFstar logMah d v).getD i 0 := by
  rw [flooredFstar_getD logMah d v i hi]
  have h1 := histOf_pos logMah d hd v i hi
  have h2 := hd.floorPos
  exact lt_of_lt_of_le (by positivity) (le_max_right _ _)

/-- Residuals divided by weights, squared. -/
theorem residual_ad {es : List (Expr (Fin 8))} {F : (Fin 8 → ℝ) → List ℝ} {S : Prop} (h : AdL es F u S) (w : List ℝ)
    (hl : w.length = es.length) (hw : ∀ x ∈ w, 0.5 ≤ x) :
    AdL (List.zipWith (fun x w => Expr.pow (.div x (.const w)) 2) es w) (fun v => List.zipWith (fun x w => (x / w) ^ 2) (F v) w)
      u S :=
  h.zipConst (φ := fun x w => (x / w) ^ 2) w hl fun i hi hi' => (hi'.div (.const _) fun e => by
    have := hw (w.getD i 0) (by rw [List.getD_eq_getElem _ _ (by omega)]; exact List.getElem_mem _)
    rw [e] at this
    norm_num at this).pow 2

theorem difference_ad {es : List (Expr (Fin 8))} {F : (Fin 8 → ℝ) → List ℝ} {S : Prop} (h : AdL es F u S) (c : List ℝ)
    (hl : c.length = es.length) :
    AdL (List.zipWith (fun a b => Expr.sub a (.const b)) es c) (fun v => List.zipWith (fun a b => a - b) (F v) c) u S :=
  h.zipConst (φ := fun a b => a - b) c hl fun _ _ hi' => hi'.sub (.const _)

theorem clip_ad {e : Expr (Fin 8)} {f : (Fin 8 → ℝ) → ℝ} {S : Prop} (h : Ad e f u S) (h4 : S → |f u| ≠ 1) :
    Ad (.min (.max e (.const (-1))) (.const 1)) (fun v => clip (f v) (-1) 1) u S := by
  have hmax : Ad (.max e (.const (-1))) (fun v => max (f v) (-1)) u S := h.max (Sb := True) (.const (-1)) fun s => by
    have : f u ≠ -1 := fun e => h4 s (by rw [e]; norm_num)
    rcases lt_or_gt_of_ne this with k | k
    · exact Or.inl ⟨k, trivial⟩
    · exact Or.inr ⟨k, s⟩
  refine hmax.min (Sb := True) (.const 1) fun s => ?_
  have h6 : f u ≠ 1 := fun e => h4 s (by rw [e]; norm_num)
  have : max (f u) (-1) ≠ 1 := fun e => by
    rcases max_choice (f u) (-1) with k | k <;> rw [k] at e
    · exact h6 e
    · norm_num at e
  rcases lt_or_gt_of_ne this with k | k
  · exact Or.inl ⟨k, s⟩
  · exact Or.inr ⟨k, trivial⟩

/-- The traced SFR mismatches. -/
theorem mismatch_ad (hd : WellFormed d) :
    AdL ((List.zipWith (fun x m => Expr.div (.mul (.const (10 ^ 8)) x) (.const m))
      (List.zipWith (fun a b => Expr.sub a (.const b)) (List.zipWith (fun f m => Expr.max f (.mul m (.const (d.ssfrhFloor / 10))))
        (tracedSfh logMah d) (tracedMass logMah d)) d.sfhTarget) d.mstarTarget).map
        fun x => .min (.max x (.const (-1))) (.const 1))
      (fun v => (List.zipWith (fun x m => 10 ^ 8 * x / m) (List.zipWith (fun a b => a - b)
        (List.zipWith (fun f m => max f (m * (d.ssfrhFloor / 10))) (histOf logMah d v).sfh (histOf logMah d v).smh)
        d.sfhTarget) d.mstarTarget).map fun x => clip x (-1) 1) u (OffEdges logMah d (paramsOfVec u)) := by
  have hml := tracedMass_length logMah d
  have hsl : (tracedSfh logMah d).length = d.t.length := by simp [tracedSfh]
  have hmax := (tracedSfh_ad logMah d u).zip (op := fun f m => .max f (.mul m (.const (d.ssfrhFloor / 10))))
    (φ := fun f m => max f (m * (d.ssfrhFloor / 10))) (S' := OffEdges logMah d (paramsOfVec u)) (tracedMass_ad logMah d u)
    (by omega) fun i hi h1 h2 => h1.max (h2.mul (.const _)) fun s => by
      have hne := (s i (by omega)).2.2.1
      rcases lt_or_gt_of_ne hne with h | h
      · exact Or.inl ⟨h, s⟩
      · exact Or.inr ⟨h, s⟩
  have hz := (difference_ad u hmax d.sfhTarget (by simp [hml, hsl, hd.lenSfh])).zipConst
    (op := fun x m => .div (.mul (.const (10 ^ 8)) x) (.const m)) (φ := fun x m => 10 ^ 8 * x / m)
    (S' := OffEdges logMah d (paramsOfVec u)) d.mstarTarget (by simp [hml, hsl, hd.lenSfh, hd.lenMstar])
    fun i hi h => (((Ad.const (10 ^ 8)).mul h).div (.const _) <| by
      have hi' : i < d.mstarTarget.length := by
        simp [hml, hsl, hd.lenSfh] at hi
        rw [hd.lenMstar]
        omega
      refine (hd.mstarPos (d.mstarTarget.getD i 0) ?_).ne'
      rw [List.getD_eq_getElem _ _ hi']
      exact List.getElem_mem _)
  refine hz.map (op := fun x => .min (.max x (.const (-1))) (.const 1)) (φ := fun x => clip x (-1) 1) fun i hi h => ?_
  have hi : i < d.t.length := by simpa [hml, hsl, hd.lenSfh, hd.lenMstar] using hi
  have h4 : OffEdges logMah d (paramsOfVec u) → |(List.zipWith (fun x m => 10 ^ 8 * x / m) (List.zipWith (fun a b => a - b)
        (List.zipWith (fun f m => max f (m * (d.ssfrhFloor / 10))) (histOf logMah d u).sfh (histOf logMah d u).smh)
        d.sfhTarget) d.mstarTarget).getD i 0| ≠ 1 := by
    intro s
    have := (s i hi).2.2.2
    have l1 : (histOf logMah d u).smh.length = d.t.length := smh_length ..
    have l2 : (histOf logMah d u).sfh.length = d.t.length := by simp [histOf, sfh_eq]
    rw [getD_zipWith_gen _ _ _ i (by simp [l1, l2, hd.lenSfh, hi]) (by rw [hd.lenMstar]; omega) 0 0,
      getD_zipWith_gen _ _ _ i (by simp [l1, l2, hi]) (by rw [hd.lenSfh]; omega) 0 0,
      getD_zipWith_gen _ _ _ i (by omega) (by omega) 0 0]
    exact this
  exact clip_ad u h h4

/-- The traced loss. -/
theorem loss_ad (hd : WellFormed d) : Ad (Trace.lossDefaultClipssfrh logMah d)
    (fun v => Fit.lossDefaultClipssfrh logMah (paramsOfVec v) d) u (OffEdges logMah d (paramsOfVec u)) := by
  have hml := tracedMass_length logMah d
  have hfl := tracedFstar_length logMah d
  have hsl : (tracedSfh logMah d).length = d.t.length := by simp [tracedSfh]
  have hn := List.length_pos_iff.2 hd.nonempty
  have hne : ∀ {α : Type} {l : List α}, l.length = d.t.length → l ≠ [] := fun h => List.length_pos_iff.1 (by omega)
  have h1 := (tracedMass_ad logMah d u).map (op := .log10) (φ := Real.logb 10) fun i hi h => h.log10 <|
    histOf_pos logMah d hd u i (by omega)
  have h2 := (tracedFstar_ad logMah d u hd).map (op := .log10) (φ := Real.logb 10) fun i hi h => h.log10 <|
    flooredFstar_pos logMah d hd u i (by omega)
  have h3 := difference_ad u h2 d.logFstarTarget (by simp [hfl, hd.lenFstar])
  have A := residual_ad u (difference_ad u h1 d.logmstarTarget (by simp [hml, hd.lenLogmstar])) d.weight
    (by simp [hml, hd.lenLogmstar, hd.lenWeight]) hd.weightPos
  have B := residual_ad u h3 d.weightFstar (by simp [hfl, hd.lenFstar, hd.lenWeightFstar]) hd.weightFstarPos
  have C := residual_ad u (mismatch_ad logMah d u hd) d.weight
    (by simp [hml, hsl, hd.lenSfh, hd.lenMstar, hd.lenWeight]) hd.weightPos
  have hq := ((adP_unbounded u).bounded.lgQt.sub (.const d.lgtFstarMax)).sigmoid (.const 0) (.const 50) (.const 100) (.const 0)
  exact (((((Ad.const 30).mul (A.mean (hne (by simp [hml, hd.lenLogmstar, hd.lenWeight])))).add
    (B.mean (hne (by simp [hfl, hd.lenFstar, hd.lenWeightFstar])))).add
    (C.mean (hne (by simp [hml, hsl, hd.lenSfh, hd.lenMstar, hd.lenWeight])))).add
    ((Ad.const 0.5).mul ((h3.last (hne (by simp [hfl, hd.lenFstar]))).pow 2))).add (hq.imp fun _ => trivial)

end

/-- **C135**: the gradient handed to the optimiser is never NaN: for every well-formed fit data and every vector of finite
unbounded parameters, on the edges of the clips too, reverse-mode differentiation of the loss gives eight finite numbers. -/
theorem C135_never_nan {M : Type} (logMah : M → ℝ → ℝ → ℝ) (d : LossData M) (hd : WellFormed d) (u : Fin 8 → ℝ) :
    ∃ g : Fin 8 → ℝ, Trace.lossGradDefaultClipssfrhNp logMah u d = List.ofFn fun k => some (g k) := by
  obtain ⟨L, h1, -⟩ := (loss_ad logMah d u hd).grad
  exact ⟨fun k => 1 * L (Pi.single k 1), congrArg List.ofFn (h1 1)⟩

/-- **C135**: the traced program computes the loss; off the edges its reverse-mode gradient is the gradient of the loss: its
product with any direction is the derivative of the loss in that direction, and unless it vanishes a small step against it
lowers the loss. -/
theorem C135_gradient {M : Type} (logMah : M → ℝ → ℝ → ℝ) (d : LossData M) (hd : WellFormed d) (u : Fin 8 → ℝ) :
    (Trace.lossDefaultClipssfrh logMah d).eval u = some (Fit.lossDefaultClipssfrh logMah (paramsOfVec u) d) ∧
    (OffEdges logMah d (paramsOfVec u) →
      ∃ g : Fin 8 → ℝ, Trace.lossGradDefaultClipssfrhNp logMah u d = List.ofFn (fun k => some (g k)) ∧
        (∀ v : Fin 8 → ℝ, HasDerivAt (fun s : ℝ => Fit.lossDefaultClipssfrh logMah (paramsOfVec fun k => u k + s * v k) d)
          (∑ k, g k * v k) 0) ∧
        ((∃ k, g k ≠ 0) → ∀ᶠ s in 𝓝[>] (0 : ℝ), Fit.lossDefaultClipssfrh logMah (paramsOfVec fun k => u k - s * g k) d <
          Fit.lossDefaultClipssfrh logMah (paramsOfVec u) d)) := by
  have h := loss_ad logMah d u hd
  refine ⟨h.at, fun hk => ?_⟩
  obtain ⟨L, h1, h2⟩ := h.grad
  refine ⟨fun k => L (Pi.single k 1), ?_, gradient_meaning (h2 hk)⟩
  refine congrArg List.ofFn ((h1 1).trans ?_)
  simp only [one_mul]

theorem traceGradNan_false {M : Type} (logMah : M → ℝ → ℝ → ℝ) (d : LossData M) (hd : WellFormed d) (p : DiffstarParams ℝ) :
    Trace.gradNan logMah d (some p) = false := by
  obtain ⟨g, e⟩ := C135_never_nan logMah d hd ![p.lgmcrit, p.lgyAtMcrit, p.indxLo, p.indxHi, p.lgQt, p.qlglgdt, p.lgDrop, p.lgRejuv]
  unfold Trace.gradNan
  simp only [e]
  rw [List.any_eq_false]
  intro x hx
  rw [List.mem_ofFn] at hx
  obtain ⟨k, rfl⟩ := hx
  simp

/-- **C135**: the random start of a minimisation is the first draw with finite entries, whatever its value. -/
theorem C135_random_start {M : Type} (logMah : M → ℝ → ℝ → ℝ) (d : LossData M) (hd : WellFormed d)
    (normal : ℕ → Option (DiffstarParams ℝ)) (k j : ℕ) (hj : j ≤ 1000) (u : DiffstarParams ℝ)
    (hbad : ∀ i, i < j → normal (k + i) = none) (hgood : normal (k + j) = some u) :
    returnRandomPinit normal (Trace.gradNan logMah d) k = (some u, false, k + j + 1) := by
  have hf : Trace.gradNan logMah d (normal (k + j)) = false := by rw [hgood]; exact traceGradNan_false logMah d hd u
  obtain ⟨j', hj', e, h1, h2⟩ := C44_random_start normal (Trace.gradNan logMah d) k
  have : j' = j := by
    rcases lt_trichotomy j' j with h | h | h
    · have hn : Trace.gradNan logMah d (normal (k + j')) = true := by rw [hbad j' h]; rfl
      have := h2 hn
      omega
    · exact h
    · have := h1 j h
      rw [hf] at this
      exact absurd this (by simp)
  subst this
  rw [e, hf, hgood]

/-- **C135**: for a history the fitter accepts, with an optimiser that descends and finite start vectors, the fitter succeeds
with the gradient of the traced loss: the reported loss is the loss of the reported parameters, it is not larger than at the
first start vector, and it is at most 0.1 or not larger than at any of ten start vectors. -/
theorem C135_fitter {M : Type} (logMah : M → ℝ → ℝ → ℝ)
    (normal : DiffstarParams ℝ × DiffstarParams ℝ → ℕ → Option (DiffstarParams ℝ))
    (minimize : LossData M → Option (DiffstarParams ℝ) → Option (DiffstarParams ℝ) × Fit.F) (t sfh : List ℝ) (mah : M)
    (dlogmCut tFitMin massFitMin τ floor lgt0 fb : ℝ)
    (hl : sfh.length = t.length) (hn : t ≠ []) (hinc : Increasing (0.001 :: t)) (h0 : ∀ x ∈ sfh, 0 ≤ x)
    (hτ : 0 < τ) (hfl : 0 < floor) (u : ℕ → DiffstarParams ℝ)
    (hmin : ∀ d, WellFormed d → Descends (fun v => Fit.lossDefaultClipssfrh logMah v d) (minimize d))
    (hstart : ∀ init k, k < 10 → normal init k = some (u k)) :
    ∃ init d v, getLossDataDefault logMah t sfh mah dlogmCut tFitMin massFitMin τ floor lgt0 fb = some (init, d) ∧
      diffstarFitter logMah normal (Trace.gradNan logMah) minimize t sfh mah dlogmCut tFitMin massFitMin τ floor lgt0 fb =
        some (some (Diffstar.getBoundedDiffstarParams v), some ((Fit.lossDefaultClipssfrh logMah v d : ℝ) : EReal), 1) ∧
      Fit.lossDefaultClipssfrh logMah v d ≤ Fit.lossDefaultClipssfrh logMah (u 0) d ∧
      (Fit.lossDefaultClipssfrh logMah v d ≤ 0.1 ∨
        ∀ k, k < 10 → Fit.lossDefaultClipssfrh logMah v d ≤ Fit.lossDefaultClipssfrh logMah (u k) d) :=
  fitter_of_accepted logMah normal (Trace.gradNan logMah) minimize t sfh mah dlogmCut tFitMin massFitMin τ floor lgt0 fb hl
    hn hinc h0 hτ hfl u hmin fun init d _ hd k hk => ⟨hstart init k hk, traceGradNan_false logMah d hd _⟩

/-- The differentiation of the model does produce NaN where `jax.grad` does: `where(0 < x, log10(x), 0)` has the value zero
and the gradient NaN at zero. -/
example : (Expr.sel (.const 0) (.var 0) (.log10 (.var 0)) (.const 0) : Expr (Fin 1)).eval (fun _ => 0) = some 0 ∧
    (Expr.sel (.const 0) (.var 0) (.log10 (.var 0)) (.const 0) : Expr (Fin 1)).grad (fun _ => 0) 0 = none := by
  constructor
  · simp [Expr.eval, flt]
  · simp [Expr.grad, Expr.backward, Expr.eval, flt, fmul, fadd]

/-- Fit data on an edge: one snapshot whose SFR is far below the floor, so the SFR is exactly `1e-14`. -/
example : ∃ (logMah : Unit → ℝ → ℝ → ℝ) (d : LossData Unit), WellFormed d ∧ ∀ u, ¬ OffEdges logMah d u := by
  refine ⟨fun _ _ _ => -100, ⟨[1], (), [1], [0], [1], [0], 1, 1 / 10 ^ 12, [1], [1], 0, 1, 0⟩,
    ⟨by simp, by unfold Increasing; norm_num, rfl, rfl, rfl, rfl, rfl, rfl, by simp, by norm_num, by norm_num, by norm_num,
      by norm_num⟩, fun u h => ?_⟩
  refine (h 0 (by simp)).1 ?_
  rw [sfh_eq]
  simp [rawSfr, msSfr]

/-- An optimiser that stays where it starts, and draws that are always finite. -/
example (logMah : Unit → ℝ → ℝ → ℝ) (u : ℕ → DiffstarParams ℝ) : ∃ (t sfh : List ℝ)
    (normal : DiffstarParams ℝ × DiffstarParams ℝ → ℕ → Option (DiffstarParams ℝ))
    (minimize : LossData Unit → Option (DiffstarParams ℝ) → Option (DiffstarParams ℝ) × Fit.F),
    sfh.length = t.length ∧ t ≠ [] ∧ Increasing (0.001 :: t) ∧ (∀ x ∈ sfh, 0 ≤ x) ∧
    (∀ d, Descends (fun v => Fit.lossDefaultClipssfrh logMah v d) (minimize d)) ∧
    ∀ init k, k < 10 → normal init k = some (u k) :=
  ⟨[1, 2], [0, 3], fun _ k => some (u k), fun d p => (p, p.map fun v => ((Fit.lossDefaultClipssfrh logMah v d : ℝ) : EReal)),
    rfl, by simp, by unfold Increasing; norm_num, by simp, fun _ v => ⟨v, rfl, le_rfl⟩, fun _ _ _ => rfl⟩

end Diffstar.Props
