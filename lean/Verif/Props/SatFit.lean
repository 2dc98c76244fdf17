import Verif.Props.SatSens
import Verif.Props.LossRange
import Verif.Props.AdamSteps

/-!
C140: the population fit leaves the satellite quenching parameters where they are.
-/

namespace Diffstar.Spec

open Diffstar.PopLoss

/-- Stellar mass loss data with increasing bins and targets that are distributions (or rows of zeros), and with all halos 99 Gyr
before their infall, as `get_loss_data` writes it. -/
structure SatMstar {K : Type} {nk n nb : ℕ} (d : MstarData K nk n nb) : Prop where
  bins : StrictMono d.bins
  target : ∀ k, TargetRow (d.target k)
  infall : ∀ k i, (d.samples k).gyrSinceInfall i ≤ -99

/-- The same for the sSFR loss data. -/
structure SatSsfr {K : Type} {nk n nms nsf nz nm nt : ℕ} (d : SsfrData K nk n nms nsf nz nm nt) : Prop where
  ndbins : ∀ b j, d.ndbinsLo b j ≤ d.ndbinsHi b j
  mstarBins : StrictMono d.mstarBins
  ssfrBins : StrictMono d.ssfrBins
  weights : ∀ z m, 0 ≤ d.nmhaloPdf z m
  target : ∀ z t, TargetRow (d.target z t)
  infall : ∀ k i, (d.samples k).gyrSinceInfall i ≤ -99

/-- The data of a `loss_type`. -/
def SatData {K : Type} : ScriptLoss K → Prop
  | .mstar d => SatMstar d
  | .mstarSsfrCen d dc => SatMstar d ∧ SatSsfr dc
  | .mstarSsfrCenSat d dc ds => SatMstar d ∧ SatSsfr dc ∧ SatSsfr ds

end Diffstar.Spec

namespace Diffstar.Props

open Diffstar Diffstar.Spec Diffstar.Pop Diffstar.PopLoss Diffstar.Trace

section

variable {u : PF → ℝ} {K : Type} {split : K → (m : ℕ) → Fin m → K} {z : K → Fin 4 → ℝ} {logMah : MahParams ℝ → ℝ → ℝ → ℝ}

theorem TargetRow.unit {nb : ℕ} {t : Fin nb → ℝ} (h : TargetRow t) (b : Fin nb) : 0 ≤ t b ∧ t b ≤ 1 :=
  ⟨h.1 b, (Finset.single_le_sum (f := t) (fun b _ => h.1 b) (Finset.mem_univ b)).trans h.2⟩

theorem sens_lossMstar (hu : SatFloor u) (s : SF) {nk n nb : ℕ} (d : MstarData K nk n nb) (hd : SatMstar d)
    (hn : (Trace.lossMstar split z logMah d).eval u ≠ none) :
    ∃ v, Sens u (.inr s) (Trace.lossMstar split z logMah d) v (4000 / 10 ^ 93) := by
  have hc : nk * nb ≠ 0 := by
    intro h0
    refine hn (nan_mul (Or.inl (nan_div (Or.inr (Or.inr ?_)))))
    rw [Expr.eval]
    exact congrArg some (by exact_mod_cast h0)
  have hb : 0 < nb := Nat.pos_of_ne_zero fun h => hc (by rw [h, mul_zero])
  have hk : 0 < nk := Nat.pos_of_ne_zero fun h => hc (by rw [h, zero_mul])
  have h1 : ∀ k, ∃ v, Sens u (.inr s) (Trace.sum fun b => .pow (.sub (Trace.mstarPdf (d.samples k).tobs
      (Trace.mcSample split z logMah boundedPop (d.samples k) d.lgt0 d.fb) d.bins b) (.const (d.target k b))) 2) v
      (2 * (2 * (1 / 10 ^ 93))) := by
    intro k
    obtain ⟨p, hp, hp1⟩ := rel_mstarPdf (split := split) (z := z) (logMah := logMah) hu s (hd.infall k) d.lgt0 d.fb hd.bins
      (b := ⟨0, hb⟩) fun h => hn
      (nan_mul (Or.inl (nan_div (Or.inl (nan_sum k (nan_sum ⟨0, hb⟩ (nan_pow (nan_sub (Or.inl h)))))))))
    exact sens_sq_dist (by positivity) hp hp1 fun b => TargetRow.unit (hd.target k) b
  choose v hv using h1
  have hk' : (1 : ℝ) ≤ nk := by exact_mod_cast hk
  have hb' : (1 : ℝ) ≤ nb := by exact_mod_cast hb
  refine ⟨_, (((Sens.sum hv).div (Sens.const ((nk : ℝ) * nb)) (by positivity)).mul (Sens.const 1000)).mono ?_⟩
  rw [Finset.sum_const, Finset.card_univ, Fintype.card_fin, nsmul_eq_mul, zero_mul, zero_mul, add_zero, add_zero,
    abs_of_pos (by positivity), abs_of_pos (by norm_num)]
  rw [mul_div_mul_left _ _ (by positivity)]
  have : (2 * (2 * (1 / 10 ^ 93)) : ℝ) / nb ≤ 2 * (2 * (1 / 10 ^ 93)) := div_le_self (by positivity) hb'
  calc _ ≤ (2 * (2 * (1 / 10 ^ 93)) : ℝ) * 1000 := by gcongr
    _ = _ := by norm_num

theorem rel_traceRow (hu : SatFloor u) (s : SF) {nk n nms nsf nz nm nt : ℕ} (d : SsfrData K nk n nms nsf nz nm nt)
    (hd : SatSsfr d) (iz : Fin nz) (t : Fin nt) (b : Fin nsf) (hn : (traceRow split z logMah d iz t b).eval u ≠ none) :
    ∃ v, Rel u (.inr s) (2 * (1 / 10 ^ 93)) (traceRow split z logMah d iz t b) v := by
  unfold traceRow at hn ⊢
  rw [eval_take] at hn
  have h1 : ∀ m, ∃ v, Rel u (.inr s) (2 * (1 / 10 ^ 93)) (Expr.mul (Trace.take (fun k => Trace.mstarSsfrPdf
      (d.samples k).tobs (Trace.mcSample split z logMah boundedPop (d.samples k) d.lgt0 d.fb) d.ndbinsLo d.ndbinsHi
      d.mstarBins d.ssfrBins (finProdFinEquiv (d.targetMstarIds t, b))) (d.indxPdf iz m)) (.const (d.nmhaloPdf iz m))) v := by
    intro m
    have hm : (Trace.mstarSsfrPdf (d.samples (d.indxPdf iz m)).tobs (Trace.mcSample split z logMah boundedPop
        (d.samples (d.indxPdf iz m)) d.lgt0 d.fb) d.ndbinsLo d.ndbinsHi d.mstarBins d.ssfrBins
        (finProdFinEquiv (d.targetMstarIds t, b))).eval u ≠ none := by
      intro h
      refine hn (nan_sum m (nan_mul (Or.inl ?_)))
      rw [eval_take]
      exact h
    obtain ⟨p, hp, -⟩ := rel_mstarSsfrPdf hu s (hd.infall _) d.lgt0 d.fb hd.ndbins hd.mstarBins hd.ssfrBins
      (Fin.pos (d.targetMstarIds t)) (Fin.pos b) hm
    refine ⟨p (finProdFinEquiv (d.targetMstarIds t, b)) * _,
      Rel.mul_const (?_ : Rel u _ _ (Trace.take _ (d.indxPdf iz m)) _) (hd.weights iz m)⟩
    exact Rel.take (d.indxPdf iz m) (hp (finProdFinEquiv (d.targetMstarIds t, b)))
  choose v hv using h1
  exact ⟨_, Rel.take _ (Rel.sum hv)⟩

theorem sens_lossMstarSsfr (hu : SatFloor u) (s : SF) {nk n nms nsf nz nm nt : ℕ} (d : SsfrData K nk n nms nsf nz nm nt)
    (hd : SatSsfr d) (hn : (Trace.lossMstarSsfr split z logMah d).eval u ≠ none) :
    ∃ v, Sens u (.inr s) (Trace.lossMstarSsfr split z logMah d) v (8000 / 10 ^ 93) := by
  have hc : nz * nt * nsf ≠ 0 := by
    intro h0
    refine hn (nan_mul (Or.inl (nan_div (Or.inr (Or.inr ?_)))))
    rw [Expr.eval]
    exact congrArg some (by exact_mod_cast h0)
  have hz0 : 0 < nz := Nat.pos_of_ne_zero fun h => hc (by rw [h, zero_mul, zero_mul])
  have ht0 : 0 < nt := Nat.pos_of_ne_zero fun h => hc (by rw [h, mul_zero, zero_mul])
  have hs0 : 0 < nsf := Nat.pos_of_ne_zero fun h => hc (by rw [h, mul_zero])
  have h1 : ∀ iz t, ∃ v, Sens u (.inr s) (Trace.sum fun b => .pow (.sub (Expr.div (traceRow split z logMah d iz t b)
      (Trace.sum fun b => traceRow split z logMah d iz t b)) (.const (d.target iz t b))) 2) v
      (2 * (2 * (2 * (1 / 10 ^ 93)))) := by
    intro iz t
    obtain ⟨p, hp, hp1⟩ := rel_normalise (u := u) (k := .inr s) (ε := 2 * (1 / 10 ^ 93))
      (w := fun b => traceRow split z logMah d iz t b) (b := ⟨0, hs0⟩) (fun h => hn
      (nan_mul (Or.inl (nan_div (Or.inl (nan_sum iz (nan_sum t (nan_sum ⟨0, hs0⟩ (nan_pow (nan_sub (Or.inl h))))))))))) 
      fun b hb => rel_traceRow hu s d hd iz t b hb
    exact sens_sq_dist (by positivity) hp hp1 fun b => TargetRow.unit (hd.target iz t) b
  choose v hv using h1
  have hz' : (1 : ℝ) ≤ nz := by exact_mod_cast hz0
  have ht' : (1 : ℝ) ≤ nt := by exact_mod_cast ht0
  have hs' : (1 : ℝ) ≤ nsf := by exact_mod_cast hs0
  refine ⟨_, (((Sens.sum fun iz => Sens.sum (hv iz)).div (Sens.const ((nz : ℝ) * nt * nsf)) (by positivity)).mul
    (Sens.const 1000)).mono ?_⟩
  simp only [Finset.sum_const, Finset.card_univ, Fintype.card_fin, nsmul_eq_mul, zero_mul, add_zero]
  rw [abs_of_pos (by positivity), abs_of_pos (by norm_num), ← mul_assoc, mul_div_mul_left _ _ (by positivity)]
  have : (2 * (2 * (2 * (1 / 10 ^ 93))) : ℝ) / nsf ≤ 2 * (2 * (2 * (1 / 10 ^ 93))) := div_le_self (by positivity) hs'
  calc _ ≤ (2 * (2 * (2 * (1 / 10 ^ 93))) : ℝ) * 1000 := by gcongr
    _ = _ := by norm_num

theorem sens_scriptLoss (hu : SatFloor u) (s : SF) (l : ScriptLoss K) (hd : SatData l)
    (hn : (Trace.scriptLoss split z logMah l).eval u ≠ none) :
    ∃ v, Sens u (.inr s) (Trace.scriptLoss split z logMah l) v (1 / 10 ^ 88) := by
  cases l with
  | mstar d =>
    obtain ⟨v, hv⟩ := sens_lossMstar (split := split) (z := z) (logMah := logMah) hu s d hd hn
    exact ⟨v, hv.mono (by norm_num)⟩
  | mstarSsfrCen d dc =>
    obtain ⟨v, hv⟩ := sens_lossMstar (split := split) (z := z) (logMah := logMah) hu s d hd.1 fun h => hn (nan_add (Or.inr h))
    obtain ⟨w, hw⟩ := sens_lossMstarSsfr (split := split) (z := z) (logMah := logMah) hu s dc hd.2 fun h => hn (nan_add (Or.inl h))
    exact ⟨_, (hw.add hv).mono (by norm_num)⟩
  | mstarSsfrCenSat d dc ds =>
    obtain ⟨v, hv⟩ := sens_lossMstar (split := split) (z := z) (logMah := logMah) hu s d hd.1
      fun h => hn (nan_add (Or.inl (nan_add (Or.inr h))))
    obtain ⟨w, hw⟩ := sens_lossMstarSsfr (split := split) (z := z) (logMah := logMah) hu s dc hd.2.1
      fun h => hn (nan_add (Or.inl (nan_add (Or.inl h))))
    obtain ⟨y, hy⟩ := sens_lossMstarSsfr (split := split) (z := z) (logMah := logMah) hu s ds hd.2.2 fun h => hn (nan_add (Or.inr h))
    exact ⟨_, ((hw.add hv).add hy).mono (by norm_num)⟩

end

theorem fields_last {j : ℕ} (h1 : 79 ≤ j) (h2 : j < 88) : ∃ s : SF, PF.fields[j]? = some (.inr s) := by
  interval_cases j <;> exact ⟨_, rfl⟩

/-- Any gradient entry of a satellite parameter which is a number is tiny where the loss is a number. -/
theorem wrapper_sat {K : Type} {split : K → (m : ℕ) → Fin m → K} {z : K → Fin 4 → ℝ} {logMah : MahParams ℝ → ℝ → ℝ → ℝ}
    {l : ScriptLoss K} (hs : SatData l) {flat : List ℝ} {u : PF → ℝ} (hu : makeUParams flat = some u) (hf : SatFloor u)
    {r : Option ℝ × List (Option ℝ)} (hr : Trace.gradWrapper (Trace.scriptLoss split z logMah l) flat = some r)
    (hL : r.1 ≠ none) {j : ℕ} (h1 : 79 ≤ j) {y : ℝ} (hy : r.2[j]? = some (some y)) : |y| ≤ 1 / 10 ^ 88 := by
  unfold Trace.gradWrapper at hr
  rw [hu, Option.map_some, Option.some.injEq] at hr
  subst hr
  dsimp only at hL hy
  have h2 : j < 88 := by
    have := (List.getElem?_eq_some_iff.1 hy).1
    rw [List.length_map, fields_length] at this
    exact this
  obtain ⟨s, hs'⟩ := fields_last h1 h2
  rw [List.getElem?_map, hs', Option.map_some, Option.some.injEq] at hy
  obtain ⟨v, hv, g, hg, hb⟩ := sens_scriptLoss (split := split) (z := z) (logMah := logMah) hf s l hs hL
  rw [hb 1 y hy, one_mul]
  exact hg

/-- **C140**: where the loss of the fitting script is a number, and the three fractions that bound the quenched fraction of
satellites from below are not extremely small, each of the derivatives with respect to the nine satellite quenching parameters
(the last nine of the 88) is at most `1e-88`. -/
theorem C140_gradient {K : Type} {rng : Rng K} {z : K → Fin 4 → ℝ} (hr : Reparametrised rng z)
    (logMah : MahParams ℝ → ℝ → ℝ → ℝ) (l : ScriptLoss K) (hd : GoodData l) (hs : SatData l) (flat : List ℝ) (u : PF → ℝ)
    (hu : makeUParams flat = some u) (h1 : -1000 ≤ u (.inl .frac_quench_sat_ylo_ylotpeak))
    (h2 : -1000 ≤ u (.inl .frac_quench_sat_ylo_yhitpeak)) (h3 : -1000 ≤ u (.inl .frac_quench_sat_yhi)) (L : ℝ)
    (hL : scriptValue rng logMah u l = some L) :
    ∃ g : List ℝ, Trace.gradWrapper (Trace.scriptLoss rng.split z logMah l) flat = some (some L, g.map some) ∧ g.length = 88 ∧
      ∀ j, 79 ≤ j → ∀ y, g[j]? = some y → |y| ≤ 1 / 10 ^ 88 := by
  have hfl : flat.length = 88 := by
    have := hu
    unfold makeUParams at this
    split_ifs at this with h
    rw [fields_length] at h
    exact h
  obtain ⟨g, hw, hgl⟩ := scriptLoss_finite hr logMah l hd flat hfl u hu L hL
  refine ⟨g, hw, hgl, fun j hj y hy => wrapper_sat hs hu ⟨h1, h2, h3⟩ hw (by simp) hj (y := y) ?_⟩
  rw [List.getElem?_map, hy]
  rfl

open Diffstar.AdamStep Diffstar.PopFit

/-- One Adam step of a component with a tiny gradient and a tiny first moment. -/
theorem cell_tiny {x0 : ℝ} {n i : ℕ} {c : Cell} {g : ℝ} (hg : |g| ≤ 1 / 10 ^ 88) (hm : |c.m| ≤ 1 / 10 ^ 88)
    (hx : |c.x - x0| ≤ n / 10 ^ 80) :
    |(cellUpdate POP_STEP_SIZE i g c).m| ≤ 1 / 10 ^ 88 ∧ |(cellUpdate POP_STEP_SIZE i g c).x - x0| ≤ (n + 1 : ℕ) / 10 ^ 80 := by
  have hm' : |(1 - B1) * g + B1 * c.m| ≤ 1 / 10 ^ 88 := by
    refine (abs_add_le _ _).trans ?_
    rw [abs_mul, abs_mul, abs_of_pos (by unfold B1; norm_num : 0 < 1 - B1), abs_of_pos (by unfold B1; norm_num : 0 < B1)]
    unfold B1
    nlinarith
  refine ⟨hm', ?_⟩
  have h1 : (0.1 : ℝ) ≤ 1 - B1 ^ (i + 1) := by
    have : B1 ^ (i + 1) ≤ B1 := by
      unfold B1; exact pow_le_of_le_one (by norm_num) (by norm_num) (by omega)
    unfold B1 at this ⊢
    linarith
  have hstep : |(cellUpdate POP_STEP_SIZE i g c).x - c.x| ≤ 1 / 10 ^ 80 := by
    simp only [cellUpdate]
    generalize (1 - B1) * g + B1 * c.m = m at *
    generalize 1 - B1 ^ (i + 1) = a at *
    have hsq := Real.sqrt_nonneg (((1 - B2) * g ^ 2 + B2 * c.v) / (1 - B2 ^ (i + 1)))
    generalize Real.sqrt (((1 - B2) * g ^ 2 + B2 * c.v) / (1 - B2 ^ (i + 1))) = r at *
    have he : (1e-8 : ℝ) ≤ r + EPS := by unfold EPS; linarith
    rw [sub_sub_cancel_left, abs_neg, abs_div, abs_mul, abs_div, abs_of_pos (by linarith : 0 < a),
      abs_of_pos (by linarith : 0 < r + EPS), abs_of_pos (by unfold POP_STEP_SIZE; norm_num : 0 < POP_STEP_SIZE)]
    rw [div_le_iff₀ (by linarith)]
    have h2 : |m| / a ≤ 1 / 10 ^ 88 / 0.1 := div_le_div₀ (by positivity) hm' (by norm_num) h1
    calc POP_STEP_SIZE * (|m| / a) ≤ 0.01 * (1 / 10 ^ 88 / 0.1) := by
          unfold POP_STEP_SIZE
          gcongr
      _ ≤ 1 / 10 ^ 80 * 1e-8 := by norm_num
      _ ≤ _ := by gcongr
  have := abs_sub_le (cellUpdate POP_STEP_SIZE i g c).x c.x x0
  push_cast
  rw [add_div]
  linarith

theorem getD_near {a b : List ℝ} {i : ℕ} {e : ℝ} (he : 0 ≤ e) (hl : a.length = b.length)
    (h : ∀ k (h1 : k < a.length) (h2 : k < b.length), |a[k] - b[k]| ≤ e) : |a.getD i 0 - b.getD i 0| ≤ e := by
  by_cases hi : i < a.length
  · rw [List.getD_eq_getElem _ _ hi, List.getD_eq_getElem _ _ (hl ▸ hi)]
    exact h i hi _
  · rw [List.getD_eq_default _ _ (by omega), List.getD_eq_default _ _ (by omega)]
    simpa using he

/-- What is known of a component during the fit. -/
structure SatCell (flat : List ℝ) (m k : ℕ) (c : Cell) : Prop where
  near : ∀ hk : k < flat.length, AdamNear 0.0728 flat[k] m c
  sat : ∀ hk : k < flat.length, 79 ≤ k → |c.m| ≤ 1 / 10 ^ 88 ∧ |c.x - flat[k]| ≤ m / 10 ^ 80

/-- The points at which the fit evaluates the loss. -/
def SatPoint (q : Vec) : Prop :=
  ∃ flat : List ℝ, finiteVals q = some flat ∧ flat.length = 88 ∧ ∀ w, makeUParams flat = some w → SatFloor w

theorem satPoint_of_cells {flat : List ℝ} (hfl : flat.length = 88) {u : PF → ℝ} (hu : makeUParams flat = some u) {n : ℕ}
    (h1 : -1000 + 0.0728 * n ≤ u (.inl .frac_quench_sat_ylo_ylotpeak))
    (h2 : -1000 + 0.0728 * n ≤ u (.inl .frac_quench_sat_ylo_yhitpeak)) (h3 : -1000 + 0.0728 * n ≤ u (.inl .frac_quench_sat_yhi))
    {m : ℕ} (hm : m ≤ n) {s : List (Option Cell)} (hs : CellsInv flat.length (SatCell flat) m s) :
    SatPoint ((popAdam POP_STEP_SIZE).params s) := by
  obtain ⟨hl, hc⟩ := hs
  choose! c hc1 hc2 using hc
  let flat' : List ℝ := List.ofFn fun k : Fin s.length => (c k k.2).x
  have hp : (popAdam POP_STEP_SIZE).params s = flat'.map some := by
    simp only [popAdam]
    refine List.ext_getElem (by simp [flat']) fun k hk hk' => ?_
    simp only [List.length_map] at hk
    simp [flat', hc1 k hk]
  refine ⟨flat', by rw [hp, finiteVals_map], by simp [flat', hl, hfl], fun w hw => ?_⟩
  rw [makeUParams_eq (by simp [flat', hl, hfl]), Option.some.injEq] at hw
  rw [makeUParams_eq hfl, Option.some.injEq] at hu
  have hmn : (m : ℝ) ≤ n := by exact_mod_cast hm
  have hnear : ∀ f, |w f - u f| ≤ 0.0728 * n := by
    intro f
    rw [← hw, ← hu]
    refine getD_near (by positivity) (by simp [flat', hl]) fun k hk hk' => ?_
    have := ((hc2 k (by simpa [flat'] using hk)).near hk').dist
    simp only [flat', List.getElem_ofFn]
    linarith
  have := fun f => (abs_le.1 (hnear f)).1
  exact ⟨by linarith [this (.inl .frac_quench_sat_ylo_ylotpeak)], by linarith [this (.inl .frac_quench_sat_ylo_yhitpeak)],
    by linarith [this (.inl .frac_quench_sat_yhi)]⟩

/-- **C140**: from a start at which the loss of the fitting script is a number, and whose three lower fractions of quenched
satellites are further than `0.0728 * n` above `-1000`, a fit of `n` steps saves numbers, and none of the nine satellite
quenching parameters differs from its start by more than `n * 1e-80`. -/
theorem C140_fit {K : Type} {rng : Rng K} {z : K → Fin 4 → ℝ} (hr : Reparametrised rng z)
    (logMah : MahParams ℝ → ℝ → ℝ → ℝ) (l : ScriptLoss K) (hd : GoodData l) (hs : SatData l)
    (nanCase : Vec → Option ℝ × Vec) (hnan : ∀ q, (nanCase q).2.length = 88) (flat : List ℝ) (u : PF → ℝ)
    (hu : makeUParams flat = some u) (L0 : ℝ) (h0 : scriptValue rng logMah u l = some L0) (n : ℕ) (hn : 0 < n)
    (h1 : -1000 + 0.0728 * n ≤ u (.inl .frac_quench_sat_ylo_ylotpeak))
    (h2 : -1000 + 0.0728 * n ≤ u (.inl .frac_quench_sat_ylo_yhitpeak))
    (h3 : -1000 + 0.0728 * n ≤ u (.inl .frac_quench_sat_yhi)) :
    ∃ flat' : List ℝ,
      runFit (popAdam POP_STEP_SIZE) (scriptKernel (Trace.gradWrapper (Trace.scriptLoss rng.split z logMah l)) nanCase) n
        (flat.map some) = some (flat'.map some) ∧ flat'.length = 88 ∧
      ∀ k (hk : k < flat.length) (hk' : k < flat'.length), 79 ≤ k → |flat'[k] - flat[k]| ≤ n / 10 ^ 80 := by
  have hfl : flat.length = 88 := by
    have := hu
    unfold makeUParams at this
    split_ifs at this with h
    rw [fields_length] at h
    exact h
  obtain ⟨g, hw, hgl⟩ := scriptLoss_finite hr logMah l hd flat hfl u hu L0 h0
  have hk : scriptKernel (Trace.gradWrapper (Trace.scriptLoss rng.split z logMah l)) nanCase (flat.map some) =
      (some L0, g.map some) := by
    unfold scriptKernel
    rw [finiteVals_map, Option.bind_some, hw]
  have hlen : ∀ q, (scriptKernel (Trace.gradWrapper (Trace.scriptLoss rng.split z logMah l)) nanCase q).2.length = flat.length := by
    intro q
    rw [hfl]
    unfold scriptKernel
    rcases h : (finiteVals q).bind (Trace.gradWrapper (Trace.scriptLoss rng.split z logMah l)) with _ | r
    · exact hnan q
    · obtain ⟨v, -, hv⟩ := Option.bind_eq_some_iff.1 h
      unfold Trace.gradWrapper at hv
      obtain ⟨w, -, rfl⟩ := Option.map_eq_some_iff.1 hv
      simp only [List.length_map, fields_length]
  obtain ⟨p, L, hp, -, -, hl, hc⟩ := runFit_cells (P := SatCell flat) (Q := SatPoint) (stepSize := POP_STEP_SIZE)
    _ n hn flat hlen L0 ⟨by simp, by rw [hk], by rw [hk]; simp⟩
    (fun k hk => ⟨fun _ => adam_near_init _ _, fun _ _ => by simp [cellInit]⟩)
    (fun m hm s hs => satPoint_of_cells hfl hu h1 h2 h3 hm hs)
    (by
      intro m i q k c hk x ⟨fl, hq, hql, hfloor⟩ hL _ hx hP
      refine ⟨fun hk => ?_, fun hk hk79 => ?_⟩
      · have e : (0.0728 : ℝ) = 7.28 * POP_STEP_SIZE := by unfold POP_STEP_SIZE; norm_num
        have := hP.near hk
        rw [e] at this ⊢
        exact adam_near_succ (by unfold POP_STEP_SIZE; norm_num) this i x
      · obtain ⟨w, hw⟩ : ∃ w, makeUParams fl = some w := ⟨_, makeUParams_eq hql⟩
        obtain ⟨r, hr⟩ : ∃ r, Trace.gradWrapper (Trace.scriptLoss rng.split z logMah l) fl = some r := by
          unfold Trace.gradWrapper
          rw [hw]
          exact ⟨_, rfl⟩
        have hkr : scriptKernel (Trace.gradWrapper (Trace.scriptLoss rng.split z logMah l)) nanCase q = r := by
          unfold scriptKernel
          rw [hq, Option.bind_some, hr]
        have hy : r.2[k]? = some (some x) := by
          rw [← hkr, List.getElem?_eq_getElem (by rw [hlen]; exact hk), hx]
        rw [hkr] at hL
        have hg := wrapper_sat hs hw (hfloor w hw) hr (Option.isSome_iff_ne_none.1 hL) hk79 hy
        obtain ⟨a1, a2⟩ := hP.sat hk hk79
        exact cell_tiny hg a1 a2)
    (by
      intro m k c hP
      refine ⟨fun hk => (hP.near hk).mono (by norm_num) (by omega), fun hk h79 => ⟨(hP.sat hk h79).1, (hP.sat hk h79).2.trans ?_⟩⟩
      push_cast
      gcongr
      linarith)
  have hall : ∀ x ∈ p, ∃ y, x = some y := by
    intro x hx
    obtain ⟨k, hk, rfl⟩ := List.getElem_of_mem hx
    obtain ⟨c, h, -⟩ := hc k hk
    exact ⟨_, h⟩
  have hpe : p = (p.map fun x => x.getD 0).map some := by
    rw [List.map_map]
    conv_lhs => rw [← List.map_id p]
    refine List.map_congr_left fun x hx => ?_
    obtain ⟨y, rfl⟩ := hall x hx
    rfl
  refine ⟨p.map fun x => x.getD 0, by rw [← hpe]; exact hp, by simp [hl, hfl], fun k hk hk' h79 => ?_⟩
  obtain ⟨c, h, hP⟩ := hc k (by rw [hl]; exact hk)
  simp only [List.getElem_map, h, Option.getD_some]
  exact (hP.sat hk h79).2

/-! ### An instance -/

/-- A satellite with the infall columns of the loss data, observed at 0.2 Gyr. -/
noncomputable def satHalo : HaloSample Unit 1 :=
  ⟨⟨fun _ => 12, fun _ => 0, fun _ => 2, fun _ => 1, fun _ => 13⟩, fun _ => 12, fun _ => 7, fun _ => -1, fun _ => 13,
    fun _ => -99, (), 0.2⟩

theorem satHalo_script : ∃ (l : ScriptLoss Unit) (L : ℝ), GoodData l ∧ SatData l ∧
    scriptValue oneSigmaRng (fun _ _ _ => 12) (fun _ => 1) l = some L := by
  obtain ⟨sfh, hl⟩ := Option.isSome_iff_exists.1 ((C94_sample_nan_iff oneSigmaRng (fun _ _ _ => 12) (fun _ => 1) satHalo 1
    (10 ^ 100) 0).1.2 fun _ _ => one_ne_zero)
  set m := logMassAt 0.2 sfh with hm
  set s := logSsfrAt 0.2 sfh with hs
  have hb : ∀ x : ℝ, StrictMono (![x - 1, x + 1] : Fin (1 + 1) → ℝ) := fun x => by
    rw [Fin.strictMono_iff_lt_succ]; intro i; fin_cases i; simp; linarith
  let d : MstarData Unit 1 1 1 := ⟨fun _ => satHalo, 1, 10 ^ 100, ![m - 1, m + 1], fun _ _ => 0.5⟩
  obtain ⟨L1, hL1⟩ := Option.isSome_iff_exists.1 ((C94_loss_mstar_nan_iff oneSigmaRng (fun _ _ _ => 12) (fun _ => 1)
    one_ne_zero d (hb _) one_pos).2 ⟨one_pos, fun _ _ => one_ne_zero, fun k => ⟨0, sfh, Or.inl hl, by
      change m - 1 - 3 * ((m + 1 - (m - 1)) / (1 : ℕ)) < m; norm_num; linarith, by
      change m < m + 1 + 3 * ((m + 1 - (m - 1)) / (1 : ℕ)); norm_num; linarith⟩⟩)
  let dc : SsfrData Unit 1 1 1 1 1 1 1 := ⟨fun _ => satHalo, 1, 10 ^ 100, fun _ => ![m - 1, s - 1],
    fun _ => ![m + 1, s + 1], ![m - 1, m + 1], ![s - 1, s + 1], fun _ _ => 1, fun _ _ => 0, fun _ => 0, fun _ _ _ => 0.5⟩
  have hlh : ∀ b k, dc.ndbinsLo b k < dc.ndbinsHi b k := by
    intro b k
    fin_cases k
    · change m - 1 < m + 1; linarith
    · change s - 1 < s + 1; linarith
  have hr : ∀ b, Reaches dc 0.2 sfh b := by
    intro b
    refine ⟨⟨?_, ?_⟩, ?_, ?_⟩
    · change m - 1 - 3 * ((m + 1 - (m - 1)) / (1 : ℕ)) < m; norm_num; linarith
    · change m < m + 1 + 3 * ((m + 1 - (m - 1)) / (1 : ℕ)); norm_num; linarith
    · change s - 1 - 3 * ((s + 1 - (s - 1)) / (1 : ℕ)) < s; norm_num; linarith
    · change s < s + 1 + 3 * ((s + 1 - (s - 1)) / (1 : ℕ)); norm_num; linarith
  obtain ⟨L2, hL2⟩ := Option.isSome_iff_exists.1 ((C94_loss_ssfr_nan_iff oneSigmaRng (fun _ _ _ => 12) (fun _ => 1) dc
    one_ne_zero hlh
    (hb _) (hb _) one_pos one_pos fun _ _ => zero_le_one).2 ⟨one_pos, one_pos, fun _ _ => one_ne_zero,
    fun z m => ⟨0, 0, sfh, Or.inl hl, hr _⟩, fun z t => ⟨0, one_pos, 0, 0, sfh, Or.inl hl, hr _⟩⟩)
  have hrow : RowsUsed dc := fun k => ⟨0, 0, Subsingleton.elim _ _⟩
  have ht : (0.1 : ℝ) < satHalo.tobs := by norm_num [satHalo]
  have htgt : TargetRow (fun _ : Fin 1 => (0.5 : ℝ)) := ⟨fun _ => by norm_num, by norm_num⟩
  have hsd : SatMstar d := ⟨hb _, fun _ => htgt, fun _ _ => by norm_num [d, satHalo]⟩
  have hsc : SatSsfr dc := ⟨fun b j => (hlh b j).le, hb _, hb _, fun _ _ => zero_le_one, fun _ _ => htgt,
    fun _ _ => by norm_num [dc, satHalo]⟩
  refine ⟨.mstarSsfrCenSat d dc dc, L2 + L1 + L2, ⟨fun _ => ht, fun _ => ht, fun _ => ht, hrow, hrow⟩, ⟨hsd, hsc, hsc⟩, ?_⟩
  show PopLoss.lossCombined3 _ _ _ d dc dc = _
  unfold PopLoss.lossCombined3
  rw [hL1, hL2]
  rfl

/-- `C140_gradient` and `C140_fit` (with 1000 steps) meet their hypotheses. -/
example : ∃ (l : ScriptLoss Unit) (flat : List ℝ) (u : PF → ℝ) (L : ℝ), GoodData l ∧ SatData l ∧
    Reparametrised oneSigmaRng (fun _ _ => 1) ∧ makeUParams flat = some u ∧
    scriptValue oneSigmaRng (fun _ _ _ => 12) u l = some L ∧
    -1000 + 0.0728 * (1000 : ℕ) ≤ u (.inl .frac_quench_sat_ylo_ylotpeak) ∧
    -1000 + 0.0728 * (1000 : ℕ) ≤ u (.inl .frac_quench_sat_ylo_yhitpeak) ∧
    -1000 + 0.0728 * (1000 : ℕ) ≤ u (.inl .frac_quench_sat_yhi) := by
  obtain ⟨l, L, h1, h2, hL⟩ := satHalo_script
  exact ⟨l, _, _, L, h1, h2, oneSigmaRng_reparametrised, ones_makeUParams, hL, by norm_num, by norm_num, by norm_num⟩

end Diffstar.Props
