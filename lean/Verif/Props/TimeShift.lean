import Verif.Props.HaloErrors

/-! C151: how histories depend on the times at which they are tabulated. -/

namespace Diffstar.Props

open Diffstar Diffstar.Spec

/-- The quenching exponent at two times. -/
theorem qExp_time {lgt lgt' qt a drop rejuv K : ℝ} (h1 : |drop| ≤ K) (h2 : |drop - rejuv| ≤ K) :
    |qExp lgt qt ((10 : ℝ) ^ a) drop rejuv - qExp lgt' qt ((10 : ℝ) ^ a) drop rejuv| ≤ 4.375 * K * |lgt - lgt'| / (10 : ℝ) ^ a := by
  have h0 : (0 : ℝ) < (10 : ℝ) ^ a := by positivity
  refine (qShape_lip (y := (lgt - qt) / ((10 : ℝ) ^ a / 12)) (y' := (lgt' - qt) / ((10 : ℝ) ^ a / 12)) h1 h2).trans (le_of_eq ?_)
  have e : (lgt - qt) / ((10 : ℝ) ^ a / 12) - (lgt' - qt) / ((10 : ℝ) ^ a / 12) = 12 * (lgt - lgt') / (10 : ℝ) ^ a := by
    field_simp
    ring
  rw [e, abs_div, abs_mul, abs_of_pos h0, abs_of_pos (by norm_num : (0 : ℝ) < 12)]
  ring

/-- **C151**, rates: star formation rates of one galaxy at two times (of the same or of two tables) differ by at most `1 + 1.2 A` times the
difference of the halo masses plus `4.375 D / 10^qlglgdt` times the difference of the logarithmic times (all in dex), for indices up to `A` and
drops up to `D` in size. -/
theorem C151_rates {M M' : Type*} (logMah : M → ℝ → ℝ → ℝ) (logMah' : M' → ℝ → ℝ → ℝ) (p : DiffstarParams ℝ) {A D : ℝ}
    (h1 : 0 ≤ p.indxLo ∧ p.indxLo ≤ A) (h2 : -A ≤ p.indxHi ∧ p.indxHi ≤ 0) (h3 : |p.lgDrop| ≤ D) (h4 : |p.lgDrop - p.lgRejuv| ≤ D)
    (mah : M) (mah' : M') (tarr tarr' : List ℝ) (lgt0 lgt0' fb : ℝ) (hfb : 0 < fb)
    (i j : ℕ) (hi : i < tarr.length) (hj : j < tarr'.length) (_ht : 0 < tarr[i]) (_ht' : 0 < tarr'[j]) :
    ∃ s s', (calcSfhSinglegal logMah p mah tarr lgt0 fb)[i]? = some s ∧ (calcSfhSinglegal logMah' p mah' tarr' lgt0' fb)[j]? = some s' ∧
      0 < s ∧ 0 < s' ∧
      |Real.logb 10 s - Real.logb 10 s'| ≤ (1 + 1.2 * A) * |logMah mah tarr[i] lgt0 - logMah' mah' tarr'[j] lgt0'| +
        4.375 * D * |Real.logb 10 tarr[i] - Real.logb 10 tarr'[j]| / (10 : ℝ) ^ p.qlglgdt := by
  refine ⟨_, _, by rw [calcSfhSinglegal_eq, List.getElem?_map, List.getElem?_eq_getElem hi]; rfl,
    by rw [calcSfhSinglegal_eq, List.getElem?_map, List.getElem?_eq_getElem hj]; rfl, lt_max_of_lt_left (by norm_num),
    lt_max_of_lt_left (by norm_num), ?_⟩
  generalize logMah mah tarr[i] lgt0 = m
  generalize logMah' mah' tarr'[j] lgt0' = m'
  have hpos : ∀ x m : ℝ, 0 < (10 : ℝ) ^ x * msSfr p fb m := by
    intro x m
    unfold msSfr
    positivity
  refine (logb_max_lip (by positivity) (hpos _ _) (hpos _ _)).trans ?_
  rw [logb_sfr p hfb, logb_sfr p hfb]
  have h := growth_lip h1 h2 (m - p.lgmcrit) (m' - p.lgmcrit)
  have hq := qExp_time (lgt := Real.logb 10 tarr[i]) (lgt' := Real.logb 10 tarr'[j]) (qt := p.lgQt) (a := p.qlglgdt) h3 h4
  unfold msLogEfficiency
  rw [sub_sub_sub_cancel_right] at h
  generalize qExp (Real.logb 10 tarr[i]) p.lgQt ((10 : ℝ) ^ p.qlglgdt) p.lgDrop p.lgRejuv = Q at hq ⊢
  generalize qExp (Real.logb 10 tarr'[j]) p.lgQt ((10 : ℝ) ^ p.qlglgdt) p.lgDrop p.lgRejuv = Q' at hq ⊢
  refine le_trans (le_of_eq ?_) ((abs_add_le _ _).trans (add_le_add h hq))
  congr 1
  ring

/-- **C151**, rates of a galaxy with parameters returned by the bounding transform, at two times of one table. -/
theorem C151_no_jumps {M : Type*} (logMah : M → ℝ → ℝ → ℝ) (u : DiffstarParams ℝ) (mah : M) (tarr : List ℝ) (lgt0 fb : ℝ) (hfb : 0 < fb)
    (i j : ℕ) (hi : i < tarr.length) (hj : j < tarr.length) (ht : 0 < tarr[i]) (ht' : 0 < tarr[j]) :
    ∃ s s', (calcSfhSinglegal logMah (getBoundedDiffstarParams u) mah tarr lgt0 fb)[i]? = some s ∧
      (calcSfhSinglegal logMah (getBoundedDiffstarParams u) mah tarr lgt0 fb)[j]? = some s' ∧ 0 < s ∧ 0 < s' ∧
      |Real.logb 10 s - Real.logb 10 s'| ≤ 7 * |logMah mah tarr[i] lgt0 - logMah mah tarr[j] lgt0| +
        13.2 * |Real.logb 10 tarr[i] - Real.logb 10 tarr[j]| / (10 : ℝ) ^ (getBoundedDiffstarParams u).qlglgdt := by
  have hb := C01_bounded_params_in_bounds u
  have d := hb.lgDrop
  have r := hb.lgRejuv
  obtain ⟨s, s', e, e', hs, hs', h⟩ := C151_rates logMah logMah (getBoundedDiffstarParams u) (A := 5) (D := 3) ⟨hb.indxLo.1.le, hb.indxLo.2.le⟩
    ⟨hb.indxHi.1.le, hb.indxHi.2.le⟩ (abs_le.2 ⟨by linarith, by linarith⟩) (abs_le.2 ⟨by linarith, by linarith⟩) mah mah tarr tarr lgt0 lgt0 fb hfb
    i j hi hj ht ht'
  refine ⟨s, s', e, e', hs, hs', h.trans (add_le_add (by norm_num) ?_)⟩
  gcongr
  norm_num

/-- Stellar masses from two histories on two tables. -/
theorem cmf_scale2 {t t' s s' : List ℝ} (htl : t'.length = t.length) (hinc : Increasing (0.001 :: t)) (hinc' : Increasing (0.001 :: t'))
    (hs : s.length = t.length) (hs' : s'.length = t.length) {c r : ℝ} (hc : 1 ≤ c)
    (h : ∀ k, k < t.length → 0 ≤ s'.getD k 0 ∧ s'.getD k 0 ≤ c * s.getD k 0)
    (h0 : 0 < t.length → t'.getD 0 0 - 0.001 ≤ r * (t.getD 0 0 - 0.001))
    (hstep : ∀ k, k + 1 < t.length → t'.getD (k + 1) 0 - t'.getD k 0 ≤ r * (t.getD (k + 1) 0 - t.getD k 0)) (i : ℕ) (hi : i < t.length) :
    (cumulativeMstarFormed t' s').getD i 0 ≤ c * r * (cumulativeMstarFormed t s).getD i 0 := by
  have hinc2 : Increasing t' := (List.pairwise_cons.1 hinc').2
  have key : ∀ k, k + 1 < t.length → (cumulativeMstarFormed t' s').getD (k + 1) 0 - (cumulativeMstarFormed t' s').getD k 0 ≤
      c * r * ((cumulativeMstarFormed t s).getD (k + 1) 0 - (cumulativeMstarFormed t s).getD k 0) := by
    intro k hk
    rw [cmf_step hs hk, cmf_step (hs'.trans htl.symm) (htl ▸ hk)]
    have a := h k (by omega)
    have b := h (k + 1) hk
    have d : 0 ≤ t'.getD (k + 1) 0 - t'.getD k 0 := by
      rw [List.getD_eq_getElem _ _ (htl ▸ hk), List.getD_eq_getElem t' 0 (show k < t'.length by omega)]
      exact sub_nonneg.2 (List.pairwise_iff_getElem.1 hinc2 k (k + 1) (by omega) (htl ▸ hk) (by omega)).le
    have e := hstep k hk
    generalize t'.getD (k + 1) 0 - t'.getD k 0 = x at d e ⊢
    generalize t.getD (k + 1) 0 - t.getD k 0 = y at e ⊢
    have f : s'.getD (k + 1) 0 + s'.getD k 0 ≤ c * (s.getD (k + 1) 0 + s.getD k 0) := by linarith [a.2, b.2]
    have g : x * (s'.getD (k + 1) 0 + s'.getD k 0) ≤ r * y * (c * (s.getD (k + 1) 0 + s.getD k 0)) :=
      mul_le_mul e f (by linarith [a.1, b.1]) (d.trans e)
    nlinarith
  induction i with
  | zero =>
    match t, t', s, s', hi, htl, hs, hs' with
    | t0 :: t, t0' :: t', s0 :: s, s0' :: s', _, _, _, _ =>
      have a := h 0 (by simp)
      have b := h0 (by simp)
      have ht' : (0.001 : ℝ) < t0' := (List.pairwise_cons.1 hinc').1 t0' List.mem_cons_self
      simp only [cmf_eq, List.zip_cons_cons, trapFrom_cons, List.map_cons, List.getD_cons_zero] at a b ⊢
      have f : s0' + 1 / 10 ^ 14 ≤ c * (s0 + 1 / 10 ^ 14) := by nlinarith [a.2]
      have g : (t0' - 0.001) * (s0' + 1 / 10 ^ 14) ≤ r * (t0 - 0.001) * (c * (s0 + 1 / 10 ^ 14)) :=
        mul_le_mul b f (by linarith [a.1]) (by linarith)
      nlinarith
  | succ i ih =>
    have := ih (by omega)
    have := key i hi
    linarith

/-- **C151**, histories: if at every row of two tables the rates agree within `κ` dex (see `C151_rates`) and the time steps agree within a factor
`10^ρ`, the stellar masses agree within `κ + ρ` dex. -/
theorem C151_histories {M M' : Type*} (logMah : M → ℝ → ℝ → ℝ) (logMah' : M' → ℝ → ℝ → ℝ) (u : DiffstarParams ℝ) {δ τ ρ : ℝ} (mah : M) (mah' : M')
    (tarr tarr' : List ℝ) (htl : tarr'.length = tarr.length) (ht : Increasing (0.001 :: tarr)) (ht' : Increasing (0.001 :: tarr'))
    (lgt0 lgt0' fb : ℝ) (hfb : 0 < fb) (hδ : 0 ≤ δ) (hτ : 0 ≤ τ)
    (hm : ∀ k, k < tarr.length → |logMah mah (tarr.getD k 0) lgt0 - logMah' mah' (tarr'.getD k 0) lgt0'| ≤ δ)
    (hlog : ∀ k, k < tarr.length → |Real.logb 10 (tarr.getD k 0) - Real.logb 10 (tarr'.getD k 0)| ≤ τ)
    (hstep : ∀ k, k < tarr.length →
      (0.001 :: tarr').getD (k + 1) 0 - (0.001 :: tarr').getD k 0 ≤ (10 : ℝ) ^ ρ * ((0.001 :: tarr).getD (k + 1) 0 - (0.001 :: tarr).getD k 0) ∧
      (0.001 :: tarr).getD (k + 1) 0 - (0.001 :: tarr).getD k 0 ≤ (10 : ℝ) ^ ρ * ((0.001 :: tarr').getD (k + 1) 0 - (0.001 :: tarr').getD k 0)) :
    let g := calcSfhSinglegalSmh logMah (getBoundedDiffstarParams u) mah tarr lgt0 fb
    let g' := calcSfhSinglegalSmh logMah' (getBoundedDiffstarParams u) mah' tarr' lgt0' fb
    let κ := 7 * δ + 13.2 * τ / (10 : ℝ) ^ (getBoundedDiffstarParams u).qlglgdt
    List.Forall₂ (fun x x' : ℝ => x' ≤ (10 : ℝ) ^ κ * x ∧ x ≤ (10 : ℝ) ^ κ * x') g.sfh g'.sfh ∧
      List.Forall₂ (fun x x' : ℝ => x' ≤ (10 : ℝ) ^ (κ + ρ) * x ∧ x ≤ (10 : ℝ) ^ (κ + ρ) * x') g.smh g'.smh := by
  intro g g' κ
  have hb := C01_bounded_params_in_bounds u
  have d := hb.lgDrop
  have r := hb.lgRejuv
  have hκ : 0 ≤ κ := by
    have : 0 ≤ 13.2 * τ / (10 : ℝ) ^ (getBoundedDiffstarParams u).qlglgdt := by positivity
    show 0 ≤ 7 * δ + _
    linarith
  have hc : 1 ≤ (10 : ℝ) ^ κ := Real.one_le_rpow (by norm_num) hκ
  have hpos : ∀ t ∈ tarr, 0 < t := fun t h => lt_trans (by norm_num) ((List.pairwise_cons.1 ht).1 t h)
  have hpos' : ∀ t ∈ tarr', 0 < t := fun t h => lt_trans (by norm_num) ((List.pairwise_cons.1 ht').1 t h)
  have hl : g.sfh.length = tarr.length := by
    show (calcSfhSinglegal _ _ mah tarr lgt0 fb).length = _
    rw [calcSfhSinglegal_eq, List.length_map]
  have hl' : g'.sfh.length = tarr.length := by
    show (calcSfhSinglegal _ _ mah' tarr' lgt0' fb).length = _
    rw [calcSfhSinglegal_eq, List.length_map, htl]
  have key : ∀ k, k < tarr.length → (0 ≤ g'.sfh.getD k 0 ∧ g'.sfh.getD k 0 ≤ (10 : ℝ) ^ κ * g.sfh.getD k 0) ∧
      (0 ≤ g.sfh.getD k 0 ∧ g.sfh.getD k 0 ≤ (10 : ℝ) ^ κ * g'.sfh.getD k 0) := by
    intro k hk
    have hk' : k < tarr'.length := htl ▸ hk
    obtain ⟨s, s', e, e', hs, hs', hd⟩ := C151_rates logMah logMah' (getBoundedDiffstarParams u) (A := 5) (D := 3) ⟨hb.indxLo.1.le, hb.indxLo.2.le⟩
      ⟨hb.indxHi.1.le, hb.indxHi.2.le⟩ (abs_le.2 ⟨by linarith, by linarith⟩) (abs_le.2 ⟨by linarith, by linarith⟩) mah mah' tarr tarr' lgt0 lgt0'
      fb hfb k k hk hk' (hpos _ (List.getElem_mem hk)) (hpos' _ (List.getElem_mem hk'))
    have f : g.sfh.getD k 0 = s := by
      rw [List.getD_eq_getElem?_getD, show g.sfh[k]? = some s from e]; rfl
    have f' : g'.sfh.getD k 0 = s' := by
      rw [List.getD_eq_getElem?_getD, show g'.sfh[k]? = some s' from e']; rfl
    rw [f, f']
    have a := hm k hk
    have b := hlog k hk
    rw [List.getD_eq_getElem _ _ hk, List.getD_eq_getElem _ _ hk'] at a b
    have hd' : |Real.logb 10 s - Real.logb 10 s'| ≤ κ := by
      refine hd.trans (add_le_add ?_ ?_)
      · norm_num
        exact a
      · gcongr
        norm_num
    have := abs_le.1 hd'
    exact ⟨⟨hs'.le, le_of_logb hs hs' (by linarith)⟩, hs.le, le_of_logb hs' hs (by linarith)⟩
  have hsl : g.smh.length = tarr.length := cmf_length _ _ hl
  have hsl' : g'.smh.length = tarr.length := (cmf_length _ _ (hl'.trans htl.symm)).trans htl
  have z0 : ∀ l : List ℝ, (0.001 :: l : List ℝ).getD (0 + 1) 0 - (0.001 :: l : List ℝ).getD 0 0 = l.getD 0 0 - 0.001 := fun _ => rfl
  have z1 : ∀ (l : List ℝ) k, (0.001 :: l : List ℝ).getD (k + 1 + 1) 0 - (0.001 :: l : List ℝ).getD (k + 1) 0 = l.getD (k + 1) 0 - l.getD k 0 :=
    fun _ _ => rfl
  refine ⟨List.forall₂_iff_get.2 ⟨by rw [hl, hl'], fun i hi hi' => ?_⟩, List.forall₂_iff_get.2 ⟨by rw [hsl, hsl'], fun i hi hi' => ?_⟩⟩
  · have := key i (hl ▸ hi)
    rw [List.getD_eq_getElem _ _ hi, List.getD_eq_getElem _ _ hi'] at this
    exact ⟨this.1.2, this.2.2⟩
  · have hi0 : i < tarr.length := hsl ▸ hi
    have a := cmf_scale2 htl ht ht' hl hl' hc (r := 10 ^ ρ) (fun k hk => (key k hk).1)
      (fun h => by have := (hstep 0 h).1; rwa [z0, z0] at this) (fun k hk => by have := (hstep (k + 1) hk).1; rwa [z1, z1] at this) i hi0
    have b := cmf_scale2 htl.symm ht' ht (hl'.trans htl.symm) (hl.trans htl.symm) hc (r := 10 ^ ρ)
      (fun k hk => (key k (htl ▸ hk)).2)
      (fun h => by have := (hstep 0 (htl ▸ h)).2; rwa [z0, z0] at this)
      (fun k hk => by have := (hstep (k + 1) (htl ▸ hk)).2; rwa [z1, z1] at this) i (htl ▸ hi0)
    rw [← Real.rpow_add (by norm_num)] at a b
    change g'.smh.getD i 0 ≤ _ * g.smh.getD i 0 at a
    change g.smh.getD i 0 ≤ _ * g'.smh.getD i 0 at b
    rw [List.getD_eq_getElem _ _ hi, List.getD_eq_getElem _ _ hi'] at a b
    exact ⟨a, b⟩

theorem log_ten_gt : (2.3 : ℝ) < Real.log 10 := by
  rw [Real.lt_log_iff_exp_lt (by norm_num)]
  have e : Real.exp 2.3 ^ 10 = Real.exp 1 ^ 23 := by
    rw [← Real.exp_nat_mul, ← Real.exp_nat_mul]; norm_num
  have b := Real.exp_one_lt_d9
  have c : Real.exp 1 ^ 23 < 10 ^ 10 := lt_of_le_of_lt (pow_le_pow_left₀ (Real.exp_pos _).le b.le 23) (by norm_num)
  rw [← e] at c
  exact lt_of_pow_lt_pow_left₀ 10 (by norm_num) c

theorem logb_close {x y : ℝ} (hx : 0 < x) (h : |y - x| ≤ x / 10 ^ 7) : |Real.logb 10 x - Real.logb 10 y| ≤ 4.5 / 10 ^ 8 := by
  have h' := abs_le.1 h
  have hy : 0 < y := by linarith [h'.1]
  have hl := log_ten_gt
  have a := Real.log_le_sub_one_of_pos (show 0 < y / x by positivity)
  have b := Real.log_le_sub_one_of_pos (show 0 < x / y by positivity)
  rw [Real.log_div hy.ne' hx.ne'] at a
  rw [Real.log_div hx.ne' hy.ne'] at b
  have a' : y / x - 1 ≤ 1 / 10 ^ 7 := by
    rw [div_sub_one hx.ne', div_le_iff₀ hx]
    linarith [h'.2]
  have b' : x / y - 1 ≤ 1.01 / 10 ^ 7 := by
    rw [div_sub_one hy.ne', div_le_iff₀ hy]
    linarith [h'.1]
  unfold Real.logb
  rw [← sub_div, abs_div, abs_of_pos (by linarith : 0 < Real.log 10), div_le_iff₀ (by linarith)]
  rw [abs_le]
  constructor <;> linarith

theorem nonneg_of_mutual {x y c : ℝ} (hc : 1 < c) (h1 : y ≤ c * x) (h2 : x ≤ c * y) : 0 ≤ x := by
  by_contra hx
  have a := mul_le_mul_of_nonneg_left h1 (show 0 ≤ c by linarith)
  have b : c * (c * x) < 1 * x := by
    rw [← mul_assoc]
    exact mul_lt_mul_of_neg_right (by nlinarith) (lt_of_not_ge hx)
  linarith

theorem increasing_of_steps {l : List ℝ} (h : ∀ k, k < l.length → (0.001 :: l : List ℝ).getD k 0 < (0.001 :: l : List ℝ).getD (k + 1) 0) :
    Increasing (0.001 :: l) := by
  refine List.isChain_iff_pairwise.1 (List.isChain_iff_getElem.2 fun k hk => ?_)
  have := h k (by simpa using hk)
  rwa [List.getD_eq_getElem _ _ (by omega), List.getD_eq_getElem _ _ hk] at this

/-- **C151**, rounded tables: storing the times with seven digits changes rates and stellar masses by at most a thousandth dex, beyond what the
change of the halo masses implies, when consecutive times differ by a part in a thousand. -/
theorem C151_rounded_times {M M' : Type*} (logMah : M → ℝ → ℝ → ℝ) (logMah' : M' → ℝ → ℝ → ℝ) (u : DiffstarParams ℝ) {δ : ℝ} (mah : M) (mah' : M')
    (tarr tarr' : List ℝ) (hround : List.Forall₂ (fun t t' : ℝ => |t' - t| ≤ t / 10 ^ 7) tarr tarr')
    (hfirst : ∀ t ∈ tarr.head?, 0.002 ≤ t) (hspace : tarr.IsChain fun t t' => 1.001 * t ≤ t')
    (lgt0 lgt0' fb : ℝ) (hfb : 0 < fb) (hδ : 0 ≤ δ)
    (hm : ∀ k, k < tarr.length → |logMah mah (tarr.getD k 0) lgt0 - logMah' mah' (tarr'.getD k 0) lgt0'| ≤ δ) :
    let g := calcSfhSinglegalSmh logMah (getBoundedDiffstarParams u) mah tarr lgt0 fb
    let g' := calcSfhSinglegalSmh logMah' (getBoundedDiffstarParams u) mah' tarr' lgt0' fb
    let Close := List.Forall₂ fun x x' : ℝ => x' ≤ (10 : ℝ) ^ (7 * δ + 0.001) * x ∧ x ≤ (10 : ℝ) ^ (7 * δ + 0.001) * x'
    Close g.sfh g'.sfh ∧ Close g.smh g'.smh := by
  intro g g' Close
  have htl : tarr'.length = tarr.length := hround.length_eq.symm
  have hb := C01_bounded_params_in_bounds u
  have hrd : ∀ k, k < tarr.length → |tarr'.getD k 0 - tarr.getD k 0| ≤ tarr.getD k 0 / 10 ^ 7 := by
    intro k hk
    have := (List.forall₂_iff_get.1 hround).2 k hk (htl ▸ hk)
    rwa [List.getD_eq_getElem _ _ hk, List.getD_eq_getElem _ _ (htl ▸ hk)]
  have hsp : ∀ k, k + 1 < tarr.length → 1.001 * tarr.getD k 0 ≤ tarr.getD (k + 1) 0 := by
    intro k hk
    have := List.isChain_iff_getElem.1 hspace k hk
    rwa [List.getD_eq_getElem _ _ hk, List.getD_eq_getElem _ _ (show k < tarr.length by omega)]
  have hlo : ∀ k, k < tarr.length → 0.002 ≤ tarr.getD k 0 := by
    intro k
    induction k with
    | zero =>
      intro hk
      refine hfirst _ ?_
      rw [List.getD_eq_getElem _ _ hk, List.head?_eq_getElem?, List.getElem?_eq_getElem hk]
      rfl
    | succ k ih =>
      intro hk
      have a := ih (by omega)
      have b := hsp k hk
      linarith only [a, b]
  have h10 : (1 : ℝ) + 2.3 / 10 ^ 4 ≤ (10 : ℝ) ^ (1 / 10 ^ 4 : ℝ) := by
    rw [Real.rpow_def_of_pos (by norm_num)]
    have a := Real.add_one_le_exp (Real.log 10 * (1 / 10 ^ 4))
    have b := log_ten_gt
    norm_num at a b ⊢
    linarith only [a, b]
  have hstep : ∀ k, k < tarr.length → 0 < (0.001 :: tarr).getD (k + 1) 0 - (0.001 :: tarr).getD k 0 ∧
      |((0.001 :: tarr').getD (k + 1) 0 - (0.001 :: tarr').getD k 0) - ((0.001 :: tarr).getD (k + 1) 0 - (0.001 :: tarr).getD k 0)| ≤
        2.1 / 10 ^ 4 * ((0.001 :: tarr).getD (k + 1) 0 - (0.001 :: tarr).getD k 0) := by
    intro k hk
    cases k with
    | zero =>
      show 0 < tarr.getD 0 0 - 0.001 ∧ |(tarr'.getD 0 0 - 0.001) - (tarr.getD 0 0 - 0.001)| ≤ 2.1 / 10 ^ 4 * (tarr.getD 0 0 - 0.001)
      have a := hrd 0 hk
      have b := hlo 0 hk
      rw [sub_sub_sub_cancel_right]
      generalize tarr.getD 0 0 = x at a b ⊢
      generalize tarr'.getD 0 0 = y at a ⊢
      constructor
      · linarith only [b]
      · linarith only [a, b]
    | succ k =>
      show 0 < tarr.getD (k + 1) 0 - tarr.getD k 0 ∧ |(tarr'.getD (k + 1) 0 - tarr'.getD k 0) - (tarr.getD (k + 1) 0 - tarr.getD k 0)| ≤
        2.1 / 10 ^ 4 * (tarr.getD (k + 1) 0 - tarr.getD k 0)
      have a := hrd (k + 1) hk
      have b := hlo k (by omega)
      have c := hrd k (by omega)
      have d := hsp k hk
      generalize tarr.getD (k + 1) 0 = x at a d ⊢
      generalize tarr'.getD (k + 1) 0 = x' at a ⊢
      generalize tarr.getD k 0 = y at b c d ⊢
      generalize tarr'.getD k 0 = y' at c ⊢
      rw [abs_le] at a c ⊢
      refine ⟨by linarith only [b, d], ?_, ?_⟩
      · linarith only [a.1, c.2, b, d]
      · linarith only [a.2, c.1, b, d]
  have ht : Increasing (0.001 :: tarr) := increasing_of_steps fun k hk => sub_pos.1 (hstep k hk).1
  have ht' : Increasing (0.001 :: tarr') := increasing_of_steps fun k hk => by
    have a := hstep k (htl ▸ hk)
    have b := (abs_le.1 a.2).1
    linarith only [a.1, b]
  have key := C151_histories logMah logMah' u (δ := δ) (τ := 4.5 / 10 ^ 8) (ρ := 1 / 10 ^ 4) mah mah' tarr tarr' htl ht ht' lgt0 lgt0' fb hfb hδ
    (by norm_num) hm (fun k hk => logb_close (lt_of_lt_of_le (by norm_num) (hlo k hk)) (hrd k hk)) (fun k hk => by
      obtain ⟨a, b⟩ := hstep k hk
      generalize (0.001 :: tarr).getD (k + 1) 0 - (0.001 :: tarr).getD k 0 = x at a b ⊢
      generalize (0.001 :: tarr').getD (k + 1) 0 - (0.001 :: tarr').getD k 0 = y at b ⊢
      rw [abs_le] at b
      constructor
      · have := mul_le_mul_of_nonneg_right h10 a.le
        linarith only [this, b.2, a]
      · have hy : 0 < y := by linarith only [a, b.1]
        have := mul_le_mul_of_nonneg_right h10 hy.le
        linarith only [this, b.1, a])
  have hq : (1 : ℝ) / 10 ^ 3 ≤ (10 : ℝ) ^ (getBoundedDiffstarParams u).qlglgdt := by
    have h := Real.rpow_le_rpow_of_exponent_le (show (1 : ℝ) ≤ 10 by norm_num) hb.qlglgdt.1.le
    refine le_trans (le_of_eq ?_) h
    rw [Real.rpow_neg (by norm_num)]
    norm_num
  have hsmall : 13.2 * (4.5 / 10 ^ 8) / (10 : ℝ) ^ (getBoundedDiffstarParams u).qlglgdt ≤ 0.0006 := by
    rw [div_le_iff₀ (by linarith only [hq])]
    linarith only [hq]
  have widen : ∀ {l l' : List ℝ} {E : ℝ}, E ≤ 7 * δ + 0.001 → (∀ x ∈ l, 0 ≤ x) → (∀ x ∈ l', 0 ≤ x) →
      List.Forall₂ (fun x x' : ℝ => x' ≤ (10 : ℝ) ^ E * x ∧ x ≤ (10 : ℝ) ^ E * x') l l' → Close l l' := by
    intro l l' E hE hl hl' h
    refine List.forall₂_iff_get.2 ⟨h.length_eq, fun i hi hi' => ?_⟩
    have a := (List.forall₂_iff_get.1 h).2 i hi hi'
    have b : (10 : ℝ) ^ E ≤ (10 : ℝ) ^ (7 * δ + 0.001) := Real.rpow_le_rpow_of_exponent_le (by norm_num) hE
    exact ⟨a.1.trans (mul_le_mul_of_nonneg_right b (hl _ (List.get_mem l ⟨i, hi⟩))),
      a.2.trans (mul_le_mul_of_nonneg_right b (hl' _ (List.get_mem l' ⟨i, hi'⟩)))⟩
  have pos_of : ∀ {l l' : List ℝ} {E : ℝ}, 0 < E → 
      List.Forall₂ (fun x x' : ℝ => x' ≤ (10 : ℝ) ^ E * x ∧ x ≤ (10 : ℝ) ^ E * x') l l' → (∀ x ∈ l, 0 ≤ x) ∧ ∀ x ∈ l', 0 ≤ x := by
    intro l l' E hE h
    have c : 1 < (10 : ℝ) ^ E := Real.one_lt_rpow (by norm_num) hE
    constructor
    · intro x hx
      obtain ⟨i, hi, rfl⟩ := List.getElem_of_mem hx
      have a := (List.forall₂_iff_get.1 h).2 i hi (h.length_eq ▸ hi)
      exact nonneg_of_mutual c a.1 a.2
    · intro x hx
      obtain ⟨i, hi, rfl⟩ := List.getElem_of_mem hx
      have a := (List.forall₂_iff_get.1 h).2 i (h.length_eq ▸ hi) hi
      exact nonneg_of_mutual c a.2 a.1
  have hκ : 0 < 7 * δ + 13.2 * (4.5 / 10 ^ 8) / (10 : ℝ) ^ (getBoundedDiffstarParams u).qlglgdt := by positivity
  have p1 := pos_of hκ key.1
  have p2 := pos_of (by positivity : 0 < 7 * δ + 13.2 * (4.5 / 10 ^ 8) / (10 : ℝ) ^ (getBoundedDiffstarParams u).qlglgdt + 1 / 10 ^ 4) key.2
  exact ⟨widen (by linarith only [hsmall]) p1.1 p1.2 key.1, widen (by linarith only [hsmall]) p2.1 p2.2 key.2⟩

/-- Two tables that meet the hypotheses of `C151_rounded_times` (the second has the third time rounded), with halo masses that agree. -/
example : List.Forall₂ (fun t t' : ℝ => |t' - t| ≤ t / 10 ^ 7) [0.5, 6, 13.8] [0.5, 6, 13.8000001907] ∧
    (∀ t ∈ [(0.5 : ℝ), 6, 13.8].head?, 0.002 ≤ t) ∧ [(0.5 : ℝ), 6, 13.8].IsChain (fun t t' => 1.001 * t ≤ t') ∧
    (∀ k, k < [(0.5 : ℝ), 6, 13.8].length →
      |(fun (m : ℝ) (_ _ : ℝ) => m) 12 ([(0.5 : ℝ), 6, 13.8].getD k 0) 1.14 - (fun (m : ℝ) (_ _ : ℝ) => m) 12 ([(0.5 : ℝ), 6, 13.8000001907].getD k 0) 1.14| ≤ 0) ∧
    Increasing (0.001 :: [(0.5 : ℝ), 6, 13.8]) ∧ Increasing (0.001 :: [(0.5 : ℝ), 6, 13.8000001907]) := by
  unfold Increasing
  refine ⟨?_, ?_, ?_, ?_, ?_, ?_⟩ <;> norm_num [abs_le]

/-- Indices and drops of the default galaxy meet the hypotheses of `C151_rates` with `A = 1`, `D = 1.1`. -/
example : (0 ≤ DEFAULT_DIFFSTAR_PARAMS.indxLo ∧ DEFAULT_DIFFSTAR_PARAMS.indxLo ≤ 1) ∧
    (-1 ≤ DEFAULT_DIFFSTAR_PARAMS.indxHi ∧ DEFAULT_DIFFSTAR_PARAMS.indxHi ≤ 0) ∧ |DEFAULT_DIFFSTAR_PARAMS.lgDrop| ≤ 1.1 ∧
    |DEFAULT_DIFFSTAR_PARAMS.lgDrop - DEFAULT_DIFFSTAR_PARAMS.lgRejuv| ≤ 1.1 := by
  norm_num [DEFAULT_DIFFSTAR_PARAMS, DiffstarParams.join, DEFAULT_MS_PARAMS, DEFAULT_Q_PARAMS, abs_le]

end Diffstar.Props
