import Verif.Model.FitGrad
import Verif.Props.FitContinuity

/-! C116: the gradient handed to the optimiser, and what the fitter returns for it. -/

namespace Diffstar.Spec

open Diffstar.Fit

/-- Automatic differentiation is correct: it returns the partial derivatives where the function is differentiable. -/
def IsAd8 (ad : Ad8) : Prop :=
  ∀ (f : (Fin 8 → ℝ) → ℝ) (u : Fin 8 → ℝ), DifferentiableAt ℝ f u → ∀ k, ad f u k = some (fderiv ℝ f u (Pi.single k 1))

/-- No clip of the loss is exactly at its edge for the parameters `u`. -/
def OffEdges {M : Type} (logMah : M → ℝ → ℝ → ℝ) (d : LossData M) (u : DiffstarParams ℝ) : Prop :=
  let h := calcSfhSinglegalSmh logMah (getBoundedDiffstarParams u) d.mah d.t d.lgt0 d.fb
  ∀ i, i < d.t.length → h.sfh.getD i 0 ≠ 1 / 10 ^ 14 ∧
    (computeFstar d.t h.smh d.fstarTdelay).getD i 0 ≠ h.smh.getD i 0 * (d.ssfrhFloor / 10) ∧
    h.sfh.getD i 0 ≠ h.smh.getD i 0 * (d.ssfrhFloor / 10) ∧
    |10 ^ 8 * (max (h.sfh.getD i 0) (h.smh.getD i 0 * (d.ssfrhFloor / 10)) - d.sfhTarget.getD i 0) /
      d.mstarTarget.getD i 0| ≠ 1

/-- What is assumed of the optimiser: started from a finite vector it returns a vector and the loss of that vector, which is
not larger than the loss at the start. -/
def Descends {P : Type} (loss : P → ℝ) (minimize : Option P → Option P × F) : Prop :=
  ∀ u, ∃ v, minimize (some u) = (some v, some ((loss v : ℝ) : EReal)) ∧ loss v ≤ loss u

end Diffstar.Spec

namespace Diffstar.Props

open Diffstar Diffstar.Fit Diffstar.Spec Filter Topology

/-- A linear form given by its entries. -/
theorem linear_entries (L : (Fin 8 → ℝ) →L[ℝ] ℝ) (w : Fin 8 → ℝ) : L w = ∑ k, L (Pi.single k 1) * w k := by
  have := L.toLinearMap.pi_apply_eq_sum_univ w
  rw [show L w = L.toLinearMap w from rfl, this]
  refine Finset.sum_congr rfl fun k _ => ?_
  have hsingle : (fun j => if k = j then (1 : ℝ) else 0) = Pi.single k 1 := by
    funext j
    rw [Pi.single_apply]
    exact if_congr eq_comm rfl rfl
  rw [smul_eq_mul, mul_comm, hsingle]
  rfl

/-- What it means to be the gradient: directional derivatives, and descent against it. -/
theorem gradient_meaning {f : (Fin 8 → ℝ) → ℝ} {L : (Fin 8 → ℝ) →L[ℝ] ℝ} {u : Fin 8 → ℝ} (h : HasFDerivAt f L u) :
    (∀ v : Fin 8 → ℝ, HasDerivAt (fun s : ℝ => f fun k => u k + s * v k) (∑ k, L (Pi.single k 1) * v k) 0) ∧
      ((∃ k, L (Pi.single k 1) ≠ 0) → ∀ᶠ s in 𝓝[>] (0 : ℝ), f (fun k => u k - s * L (Pi.single k 1)) < f u) := by
  set G : Fin 8 → ℝ := fun k => L (Pi.single k 1) with hG
  have hder : ∀ v : Fin 8 → ℝ, HasDerivAt (fun s : ℝ => f fun k => u k + s * v k) (∑ k, G k * v k) 0 := by
    intro v
    rw [← linear_entries L v]
    have h1 : HasFDerivAt f L (u + (0 : ℝ) • v) := by
      rw [zero_smul, add_zero]
      exact h
    have h2 : HasDerivAt (fun t : ℝ => u + t • v) v 0 := by
      have := ((hasDerivAt_id (0 : ℝ)).smul_const v).const_add u
      simpa using this
    exact h1.comp_hasDerivAt 0 h2
  refine ⟨hder, ?_⟩
  rintro ⟨k, hk0⟩
  have hpos : 0 < ∑ k, G k * G k := by
    rw [Finset.sum_pos_iff_of_nonneg fun k _ => mul_self_nonneg _]
    exact ⟨k, Finset.mem_univ _, mul_self_pos.2 hk0⟩
  have hneg := hder (-G)
  have hlt : ∑ k, G k * (-G) k < 0 := by
    simp only [Pi.neg_apply, mul_neg, Finset.sum_neg_distrib]
    linarith
  have hdec := (hasDerivAt_iff_tendsto_slope.1 hneg).eventually (eventually_lt_nhds hlt)
  have hdec' : ∀ᶠ t in 𝓝[>] (0 : ℝ), slope (fun s : ℝ => f fun k => u k + s * (-G) k) 0 t < 0 :=
    hdec.filter_mono (nhdsWithin_mono _ fun t ht => ne_of_gt ht)
  filter_upwards [hdec', self_mem_nhdsWithin] with s h1 h3
  have h3 : 0 < s := h3
  rw [slope_def_field, sub_zero, div_neg_iff] at h1
  simp only [zero_mul, Pi.neg_apply, mul_neg, ← sub_eq_add_neg, sub_zero] at h1
  change f (fun k => u k - s * G k) < f u
  rcases h1 with h1 | h1 <;> linarith [h1.1, h1.2]

/-- **C116**: off the edges the gradient handed to the optimiser has eight entries without NaN, and is the gradient of the loss:
its product with any direction is the derivative of the loss in that direction, and unless it vanishes a small step against
it lowers the loss. -/
theorem C116_gradient {M : Type} {ad : Ad8} (had : IsAd8 ad) (logMah : M → ℝ → ℝ → ℝ) (d : LossData M) (hd : WellFormed d)
    (u : Fin 8 → ℝ) (hk : OffEdges logMah d (paramsOfVec u)) :
    ∃ g : Fin 8 → ℝ, lossGradDefaultClipssfrhNp ad logMah u d = List.ofFn (fun k => some (g k)) ∧
      (∀ v : Fin 8 → ℝ, HasDerivAt (fun s : ℝ => lossDefaultClipssfrh logMah (paramsOfVec fun k => u k + s * v k) d)
        (∑ k, g k * v k) 0) ∧
      ((∃ k, g k ≠ 0) → ∀ᶠ s in 𝓝[>] (0 : ℝ), lossDefaultClipssfrh logMah (paramsOfVec fun k => u k - s * g k) d <
        lossDefaultClipssfrh logMah (paramsOfVec u) d) := by
  set f : (Fin 8 → ℝ) → ℝ := fun v => lossDefaultClipssfrh logMah (paramsOfVec v) d with hf
  have hdiff : DifferentiableAt ℝ f u := (C109_loss_smooth logMah d hd u hk).differentiableAt (by norm_num)
  refine ⟨fun k => fderiv ℝ f u (Pi.single k 1), ?_, gradient_meaning hdiff.hasFDerivAt⟩
  unfold lossGradDefaultClipssfrhNp lossGradDefaultClipssfrh
  exact congrArg List.ofFn (funext fun k => had f u hdiff k)

theorem gradNanDefault_false {M : Type} {ad : Ad8} (had : IsAd8 ad) (logMah : M → ℝ → ℝ → ℝ) (d : LossData M)
    (hd : WellFormed d) (p : DiffstarParams ℝ) (hk : OffEdges logMah d p) : gradNanDefault ad logMah d (some p) = false := by
  obtain ⟨g, e, -⟩ := C116_gradient had logMah d hd
    ![p.lgmcrit, p.lgyAtMcrit, p.indxLo, p.indxHi, p.lgQt, p.qlglgdt, p.lgDrop, p.lgRejuv] hk
  unfold gradNanDefault
  simp only [e]
  rw [List.any_eq_false]
  intro x hx
  rw [List.mem_ofFn] at hx
  obtain ⟨k, rfl⟩ := hx
  simp

theorem attempts_all_run {P : Type} {normal : ℕ → P} {gradNan : P → Bool} {minimize : P → P × F} {p0 : P} {k : ℕ}
    {l : List (Attempt P)} (h : AttemptsFrom normal gradNan minimize p0 k l)
    (hg : ∀ j, j < l.length → gradNan (normal (k + j)) = false) (j : ℕ) (hj : j < l.length) :
    l[j] = ⟨(minimize (normal (k + j))).1, (minimize (normal (k + j))).2, 1⟩ := by
  induction h generalizing j with
  | done k => simp at hj
  | failed k l h1 _ _ =>
    have := hg 0 (by simp)
    rw [h1 0 (by norm_num)] at this
    exact absurd this (by simp)
  | ran k i l hi h1 h2 h3 ih =>
    have hi0 : i = 0 := by
      by_contra hne
      have := hg 0 (by simp)
      rw [h1 0 (by omega)] at this
      exact absurd this (by simp)
    subst hi0
    cases j with
    | zero => rfl
    | succ j =>
      rw [List.getElem_cons_succ, ih (fun m hm => by
        have := hg (m + 1) (by simpa using hm)
        rwa [show k + (m + 1) = k + 0 + 1 + m by ring] at this) j (by simpa using hj)]
      rw [show k + 0 + 1 + j = k + (j + 1) by ring]

theorem selectBest_spec {P : Type} (p0 : P) (l : List (Attempt P)) (hl : 0 < l.length) (hn : ∀ a ∈ l, a.loss ≠ none) :
    ∃ (i : ℕ) (hi : i < l.length) (v : EReal), selectBest p0 l = l[i] ∧ l[i].loss = some v ∧
      ∀ a ∈ l, ∀ w, a.loss = some w → v ≤ w := by
  simp only [selectBest, npNanargmin]
  cases hm : npNanmin (l.map Attempt.loss) with
  | none =>
    have h0 := List.getElem_mem hl
    exact absurd (npNanmin_eq_none.1 hm _ (List.mem_map.2 ⟨_, h0, rfl⟩)) (hn _ h0)
  | some m =>
    obtain ⟨hmem, hmin⟩ := npNanmin_eq_some.1 hm
    obtain ⟨hi, h1, h2⟩ := findIdx_spec hmem
    set i := (l.map Attempt.loss).findIdx fun x => decide (x = some m) with hidef
    have hi' : i < l.length := by simpa using hi
    refine ⟨i, hi', m, ?_, ?_, fun a h3 w h4 => hmin w (List.mem_map.2 ⟨a, h3, h4⟩)⟩
    · simp only
      rw [List.getD_eq_getElem _ _ hi']
    · rw [← h1, List.getElem_map]

/-- The first attempt is always made. -/
theorem attempts_ne_nil {P : Type} (normal : ℕ → P) (gradNan : P → Bool) (minimize : P → P × F) (p0 : P) (tol : EReal)
    (ht : tol < ⊤) (n : ℕ) (hn : 0 < n) : 0 < (minimizerAttempts normal gradNan minimize p0 tol n).length := by
  by_contra h0
  have h0 : (minimizerAttempts normal gradNan minimize p0 tol n).length = 0 := by omega
  have hnil := List.length_eq_zero_iff.1 h0
  obtain ⟨a, ha, -⟩ := C43_keeps_trying_partial normal gradNan minimize p0 tol ht n (by rw [hnil]; simp) (by omega)
  rw [hnil] at ha
  simp at ha

/-- **C116**: start vectors with entries that are not finite are drawn again; the first draw off the edges is the start of the
minimisation. -/
theorem C116_nonfinite_starts_redrawn {M : Type} {ad : Ad8} (had : IsAd8 ad) (logMah : M → ℝ → ℝ → ℝ) (d : LossData M)
    (hd : WellFormed d) (normal : ℕ → Option (DiffstarParams ℝ)) (j : ℕ) (hj : j ≤ 1000) (u : DiffstarParams ℝ)
    (hbad : ∀ i, i < j → normal i = none) (hgood : normal j = some u) (hu : OffEdges logMah d u) :
    returnRandomPinit normal (gradNanDefault ad logMah d) 0 = (some u, false, j + 1) := by
  have hf : gradNanDefault ad logMah d (normal j) = false := by rw [hgood]; exact gradNanDefault_false had logMah d hd u hu
  obtain ⟨j', hj', e, h1, h2⟩ := C44_random_start normal (gradNanDefault ad logMah d) 0
  have : j' = j := by
    rcases lt_trichotomy j' j with h | h | h
    · have hn : gradNanDefault ad logMah d (normal (0 + j')) = true := by rw [Nat.zero_add, hbad j' h]; rfl
      have := h2 hn
      omega
    · exact h
    · have := h1 j h
      rw [Nat.zero_add, hf] at this
      exact absurd this (by simp)
  subst this
  rw [e, Nat.zero_add, hf, hgood]

/-- The fitter, for any test of the gradient that accepts the start vectors. -/
theorem fitter_of_accepted {M : Type} (logMah : M → ℝ → ℝ → ℝ)
    (normal : DiffstarParams ℝ × DiffstarParams ℝ → ℕ → Option (DiffstarParams ℝ))
    (gradNan : LossData M → Option (DiffstarParams ℝ) → Bool)
    (minimize : LossData M → Option (DiffstarParams ℝ) → Option (DiffstarParams ℝ) × F) (t sfh : List ℝ) (mah : M)
    (dlogmCut tFitMin massFitMin τ floor lgt0 fb : ℝ)
    (hl : sfh.length = t.length) (hn : t ≠ []) (hinc : Increasing (0.001 :: t)) (h0 : ∀ x ∈ sfh, 0 ≤ x)
    (hτ : 0 < τ) (hfl : 0 < floor) (u : ℕ → DiffstarParams ℝ)
    (hmin : ∀ d, WellFormed d → Descends (fun v => lossDefaultClipssfrh logMah v d) (minimize d))
    (hstart : ∀ init d, getLossDataDefault logMah t sfh mah dlogmCut tFitMin massFitMin τ floor lgt0 fb = some (init, d) →
      WellFormed d → ∀ k, k < 10 → normal init k = some (u k) ∧ gradNan d (some (u k)) = false) :
    ∃ init d v, getLossDataDefault logMah t sfh mah dlogmCut tFitMin massFitMin τ floor lgt0 fb = some (init, d) ∧
      diffstarFitter logMah normal gradNan minimize t sfh mah dlogmCut tFitMin massFitMin τ floor lgt0 fb =
        some (some (getBoundedDiffstarParams v), some ((lossDefaultClipssfrh logMah v d : ℝ) : EReal), 1) ∧
      lossDefaultClipssfrh logMah v d ≤ lossDefaultClipssfrh logMah (u 0) d ∧
      (lossDefaultClipssfrh logMah v d ≤ 0.1 ∨
        ∀ k, k < 10 → lossDefaultClipssfrh logMah v d ≤ lossDefaultClipssfrh logMah (u k) d) := by
  obtain ⟨init, d, hload, hd, -⟩ := C67_loss_data_well_formed logMah t sfh mah dlogmCut tFitMin massFitMin τ floor lgt0 fb hl
    hn hinc h0 hτ hfl
  set L := fun v => lossDefaultClipssfrh logMah v d with hL
  have hs := hstart init d hload hd
  choose w hw1 hw2 using hmin d hd
  set A := minimizerAttempts (normal init) (gradNan d) (minimize d) (some init.1) ((0.1 : ℝ) : EReal) 10 with hA
  obtain ⟨l, e, hlen, ha⟩ := minimizerLoop_spec (normal init) (gradNan d) (minimize d) (some init.1)
    ((0.1 : ℝ) : EReal) 10 0 (some ⊤) []
  have e' : A = l := by rw [hA, minimizerAttempts, e]; rfl
  have hg : ∀ j, j < l.length → gradNan d (normal init (0 + j)) = false := by
    intro j hj
    obtain ⟨s1, s2⟩ := hs (0 + j) (by omega)
    rw [s1]
    exact s2
  have hatt : ∀ j (hj : j < l.length), l[j] = ⟨some (w (u j)), some ((L (w (u j)) : ℝ) : EReal), 1⟩ := by
    intro j hj
    rw [attempts_all_run ha hg j hj, (hs (0 + j) (by omega)).1, hw1, zero_add]
  have hpos : 0 < l.length := by
    rw [← e', hA]
    exact attempts_ne_nil _ _ _ _ _ (EReal.coe_lt_top _) 10 (by norm_num)
  have hnn : ∀ a ∈ l, a.loss ≠ none := by
    intro a ham
    obtain ⟨j, hj, rfl⟩ := List.getElem_of_mem ham
    rw [hatt j hj]
    simp
  obtain ⟨i, hi, v, hsel, hv, hbest⟩ := selectBest_spec (some init.1) l hpos hnn
  have hvi : v = ((L (w (u i)) : ℝ) : EReal) := by
    rw [hatt i hi] at hv
    exact (Option.some.inj hv).symm
  have hle : ∀ j, j < l.length → L (w (u i)) ≤ L (w (u j)) := by
    intro j hj
    have := hbest l[j] (List.getElem_mem hj) _ (by rw [hatt j hj])
    rw [hvi] at this
    exact_mod_cast this
  refine ⟨init, d, w (u i), hload, ?_, (hle 0 hpos).trans (hw2 _), ?_⟩
  · rw [diffstarFitter, hload, Option.map_some]
    simp only [minimizerWrapper]
    rw [← hA, e', hsel, hatt i hi]
    rfl
  · rcases Nat.lt_or_ge l.length 10 with hlt | hge
    · left
      obtain ⟨a, ham, v', hv', hle'⟩ := C43_keeps_trying_partial (normal init) (gradNan d) (minimize d)
        (some init.1) ((0.1 : ℝ) : EReal) (EReal.coe_lt_top _) 10 (by rw [← hA, e']; exact hnn) (by rw [← hA, e']; exact hlt)
      rw [← hA, e'] at ham
      have := (hbest a ham v' hv').trans hle'
      rw [hvi] at this
      exact_mod_cast this
    · right
      intro k hk
      exact (hle k (by omega)).trans (hw2 _)

/-- **C116**: for a history the fitter accepts, with an optimiser that descends and start vectors off the edges, the fitter
succeeds: the reported loss is the loss of the reported parameters, it is not larger than at the first start vector, and it
is at most 0.1 or not larger than at any of ten start vectors. -/
theorem C116_fitter {M : Type} {ad : Ad8} (had : IsAd8 ad) (logMah : M → ℝ → ℝ → ℝ)
    (normal : DiffstarParams ℝ × DiffstarParams ℝ → ℕ → Option (DiffstarParams ℝ))
    (minimize : LossData M → Option (DiffstarParams ℝ) → Option (DiffstarParams ℝ) × F) (t sfh : List ℝ) (mah : M)
    (dlogmCut tFitMin massFitMin τ floor lgt0 fb : ℝ)
    (hl : sfh.length = t.length) (hn : t ≠ []) (hinc : Increasing (0.001 :: t)) (h0 : ∀ x ∈ sfh, 0 ≤ x)
    (hτ : 0 < τ) (hfl : 0 < floor) (u : ℕ → DiffstarParams ℝ)
    (hmin : ∀ d, WellFormed d → Descends (fun v => lossDefaultClipssfrh logMah v d) (minimize d))
    (hstart : ∀ init d, getLossDataDefault logMah t sfh mah dlogmCut tFitMin massFitMin τ floor lgt0 fb = some (init, d) →
      ∀ k, k < 10 → normal init k = some (u k) ∧ OffEdges logMah d (u k)) :
    ∃ init d v, getLossDataDefault logMah t sfh mah dlogmCut tFitMin massFitMin τ floor lgt0 fb = some (init, d) ∧
      diffstarFitter logMah normal (gradNanDefault ad logMah) minimize t sfh mah dlogmCut tFitMin massFitMin τ floor lgt0 fb =
        some (some (getBoundedDiffstarParams v), some ((lossDefaultClipssfrh logMah v d : ℝ) : EReal), 1) ∧
      lossDefaultClipssfrh logMah v d ≤ lossDefaultClipssfrh logMah (u 0) d ∧
      (lossDefaultClipssfrh logMah v d ≤ 0.1 ∨
        ∀ k, k < 10 → lossDefaultClipssfrh logMah v d ≤ lossDefaultClipssfrh logMah (u k) d) :=
  fitter_of_accepted logMah normal (gradNanDefault ad logMah) minimize t sfh mah dlogmCut tFitMin massFitMin τ floor lgt0 fb hl
    hn hinc h0 hτ hfl u hmin fun init d h hd k hk => ⟨(hstart init d h k hk).1, gradNanDefault_false had logMah d hd _
      (hstart init d h k hk).2⟩

/-- A differentiation that satisfies the assumption. -/
noncomputable def exactAd8 : Ad8 := fun f u k => by
  classical exact if DifferentiableAt ℝ f u then some (fderiv ℝ f u (Pi.single k 1)) else none

example : IsAd8 exactAd8 := fun f u h k => by unfold exactAd8; rw [if_pos h]

/-- A galaxy of one snapshot, at its critical halo mass, fitted from its true parameters by an optimiser that stays where it
starts. -/
example (u : DiffstarParams ℝ) : ∃ (logMah : Unit → ℝ → ℝ → ℝ) (t sfh : List ℝ), sfh.length = t.length ∧ t ≠ [] ∧
    Increasing (0.001 :: t) ∧ (∀ x ∈ sfh, 0 ≤ x) ∧
    (∀ d : LossData Unit, Descends (fun v => lossDefaultClipssfrh logMah v d)
      (fun p => (p, p.map fun v => ((lossDefaultClipssfrh logMah v d : ℝ) : EReal)))) ∧
    ∀ init d, getLossDataDefault logMah t sfh () 2.5 1 7 1 (1 / 10 ^ 12) 1 1 = some (init, d) → OffEdges logMah d u := by
  set p := getBoundedDiffstarParams u with hp
  have hb : InBounds p := C01_bounded_params_in_bounds u
  set s := max (1 / 10 ^ 14) (rawSfr (fun (_ : Unit) _ _ => p.lgmcrit) () 1 1 p 1) with hs
  have hsgt : 1 / 10 ^ 14 < s := by
    refine lt_max_of_lt_right ?_
    have h1 := qExp_ge_drop (lgt := Real.logb 10 1) (qt := p.lgQt) (dt := (10 : ℝ) ^ p.qlglgdt) hb.lgRejuv.1.le
      hb.lgRejuv.2.le
    have h2 := hb.lgDrop.1
    have h3 := hb.lgmcrit.1
    have h4 := hb.lgyAtMcrit.1
    simp only [rawSfr, msSfr, msLogEfficiency, sub_self, mul_zero, add_zero, one_mul]
    rw [← Real.rpow_add (by norm_num), ← Real.rpow_add (by norm_num),
      show (1 / 10 ^ 14 : ℝ) = (10 : ℝ) ^ (-14 : ℝ) by rw [Real.rpow_neg (by norm_num)]; norm_num]
    exact Real.rpow_lt_rpow_of_exponent_lt (by norm_num) (by linarith)
  have hs0 : 0 < s := lt_trans (by positivity) hsgt
  have hinc : Increasing [0.001, (1 : ℝ)] := by unfold Increasing; norm_num
  refine ⟨fun _ _ _ => p.lgmcrit, [1], [s], rfl, by simp, hinc, by simp [hs0.le], fun d u => ⟨u, rfl, le_rfl⟩, ?_⟩
  intro init d hload
  obtain ⟨init', d', hload', -, h1, h2, h3, h4, h5, h6, h7, h8, -⟩ := C67_loss_data_well_formed (M := Unit)
    (fun _ _ _ => p.lgmcrit) [1] [s] () 2.5 1 7 1 (1 / 10 ^ 12) 1 1 rfl (by simp) hinc (by simp [hs0.le]) (by norm_num)
    (by norm_num)
  rw [hload'] at hload
  obtain ⟨rfl, rfl⟩ := Prod.mk.inj (Option.some.inj hload)
  unfold OffEdges
  rw [h1, h3, h4, h5, h6, h7, h8, ← hp]
  intro h i hi
  have hi0 : i = 0 := by simpa using hi
  subst hi0
  have e1 : h.sfh = [s] := by
    change (calcSfhSinglegalSmh _ p () [1] 1 1).sfh = _
    rw [sfh_eq]
    rfl
  have e2 : h.smh = [(0 + (1 - 0.001) * (s + 1 / 10 ^ 14) / 2) * 10 ^ 9] := by
    change cumulativeMstarFormed [1] h.sfh = _
    rw [e1, cmf_eq]
    rfl
  have e3 : (computeFstar [1] h.smh 1).getD 0 0 = 0 := by
    rw [e2]
    simp [computeFstar, npInterp]
  rw [e3, e1, e2]
  simp only [List.getD_cons_zero, List.map_cons]
  have hlt : (0 + (1 - 0.001) * (s + 1 / 10 ^ 14) / 2) * 10 ^ 9 * (1 / 10 ^ 12 / 10) < s := by
    norm_num at hsgt ⊢
    linarith
  refine ⟨hsgt.ne', ?_, hlt.ne', ?_⟩
  · refine ne_of_lt ?_
    norm_num
    positivity
  · rw [max_eq_left hlt.le, max_eq_right hsgt.le]
    simp

end Diffstar.Props
