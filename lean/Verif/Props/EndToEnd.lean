import Verif.Props.RoundRangeBounds
import Verif.Props.RoundPipeline
import Verif.Props.RoundBoundSharp

/-! C158: star formation histories from unbounded parameters, computed in single precision, against the exact ones. -/

namespace Diffstar.Spec

/-- Positive numbers that agree within `e` dex. -/
def WithinDex (e a b : ℝ) : Prop := 0 < a ∧ 0 < b ∧ |Real.logb 10 a - Real.logb 10 b| ≤ e

/-- Entry `i` of each array of parameters. -/
def oneGalaxy {n : ℕ} (p : DiffstarParams (Fin n → ℝ)) (i : Fin n) : DiffstarParams ℝ :=
  ⟨p.lgmcrit i, p.lgyAtMcrit i, p.indxLo i, p.indxHi i, p.lgQt i, p.qlglgdt i, p.lgDrop i, p.lgRejuv i⟩

end Diffstar.Spec

namespace Diffstar.Props

open Diffstar Diffstar.Spec

/-- The bounds of C149 for given unbounded parameters. -/
theorem bounded_rates {L : Rounding.MathLib} (hL : Accurate L) (logMah logMah' : MahParams ℝ → ℝ → ℝ → ℝ) (u : DiffstarParams ℝ) (mah : MahParams ℝ)
    (tarr : List ℝ) (lgt0 fb : ℝ) (hfb : 0 < fb) (ht : ∀ t ∈ tarr, 0.01 ≤ t ∧ t ≤ 100)
    (hm : ∀ t ∈ tarr, 0 ≤ logMah mah t lgt0 ∧ logMah mah t lgt0 ≤ 20) (hm' : ∀ t ∈ tarr, |logMah' mah t lgt0 - logMah mah t lgt0| ≤ 1 / 10 ^ 5)
    (i : ℕ) (hi : i < tarr.length) :
    ∃ s' s, (float32.calcSfhSinglegalSmh L logMah' (float32.getBoundedDiffstarParams L.exp u) mah tarr lgt0 fb).sfh[i]? = some s' ∧
      (calcSfhSinglegal logMah (getBoundedDiffstarParams u) mah tarr lgt0 fb)[i]? = some s ∧
      WithinDex (0.0014 + 0.000032 / (10 : ℝ) ^ (getBoundedDiffstarParams u).qlglgdt) s' s := by
  obtain ⟨s', s, e', e, p', p, h⟩ := drawn_sfr hL logMah logMah' u u mah tarr lgt0 fb hfb ht hm hm' i hi
  refine ⟨s', s, e', e, p', p, h.trans ?_⟩
  obtain ⟨c0, c1, c2, c3, c4, c5, c6, c7⟩ := boundedFl_sharp hL.exp u
  have m0 := hm _ (List.getElem_mem hi)
  have m1 : |logMah mah tarr[i] lgt0 - 11.25| ≤ 11.25 := abs_le.2 ⟨by linarith [m0.1], by linarith [m0.2]⟩
  have d0 := pow10_sub_one (abs_nonneg _) (c5.trans (by norm_num))
  have d1 : (10 : ℝ) ^ (getBoundedDiffstarParams u).qlglgdt ≤ 1.0003 * (10 : ℝ) ^ (float32.getBoundedDiffstarParams L.exp u).qlglgdt := by
    have := Real.rpow_le_rpow_of_exponent_le (show (1 : ℝ) ≤ 10 by norm_num) (show (getBoundedDiffstarParams u).qlglgdt ≤
      |(float32.getBoundedDiffstarParams L.exp u).qlglgdt - (getBoundedDiffstarParams u).qlglgdt| + (float32.getBoundedDiffstarParams L.exp u).qlglgdt by
        linarith [(abs_le.1 (le_refl |(float32.getBoundedDiffstarParams L.exp u).qlglgdt - (getBoundedDiffstarParams u).qlglgdt|)).1])
    rw [Real.rpow_add (by norm_num)] at this
    refine this.trans (mul_le_mul_of_nonneg_right ?_ (by positivity))
    norm_num at d0 c5 ⊢
    linarith
  have D' : 0 < (10 : ℝ) ^ (float32.getBoundedDiffstarParams L.exp u).qlglgdt := by positivity
  have D : 0 < (10 : ℝ) ^ (getBoundedDiffstarParams u).qlglgdt := by positivity
  generalize (10 : ℝ) ^ (float32.getBoundedDiffstarParams L.exp u).qlglgdt = X' at *
  generalize (10 : ℝ) ^ (getBoundedDiffstarParams u).qlglgdt = X at *
  generalize (10 : ℝ) ^ |(float32.getBoundedDiffstarParams L.exp u).qlglgdt - (getBoundedDiffstarParams u).qlglgdt| = Y at *
  have e1 := max_le c2 c3
  have e2 := mul_le_mul (add_le_add m1 (le_refl (2.25 : ℝ))) e1 (le_max_of_le_left (abs_nonneg _)) (by norm_num)
  have e3 : (14 * |(float32.getBoundedDiffstarParams L.exp u).lgQt - (getBoundedDiffstarParams u).lgQt| + 1 / 10 ^ 5) / X' ≤ 0.000032 / X := by
    rw [div_le_div_iff₀ D' D]
    have f1 : 14 * |(float32.getBoundedDiffstarParams L.exp u).lgQt - (getBoundedDiffstarParams u).lgQt| + 1 / 10 ^ 5 ≤ 0.0000311 := by
      norm_num at c4 ⊢
      linarith
    have f2 := mul_le_mul f1 d1 D.le (by norm_num)
    norm_num at f2 ⊢
    linarith
  norm_num at *
  linarith

/-- Masses of rates that agree within `κ` dex. -/
theorem masses_close {tarr s s' : List ℝ} (hs : s.length = tarr.length) (hs' : s'.length = tarr.length) (hinc : Increasing (0.002 :: tarr))
    (hn : tarr.length ≤ 1000) {κ : ℝ} (hκ : 0 ≤ κ) (hd : ∀ k, k < tarr.length → WithinDex κ (s'.getD k 0) (s.getD k 0)) (k : ℕ) (hk : k < tarr.length) :
    WithinDex (κ + 0.0001) ((float32.cumulativeMstarFormed tarr s').getD k 0) ((cumulativeMstarFormed tarr s).getD k 0) := by
  have i1 : Increasing (0.001 :: tarr) := by
    have := List.pairwise_cons.1 hinc
    exact List.pairwise_cons.2 ⟨fun x hx => lt_trans (by norm_num) (this.1 x hx), this.2⟩
  have hc : 1 ≤ (10 : ℝ) ^ κ := Real.one_le_rpow (by norm_num) hκ
  have a := cmf_scale2 (t := tarr) (t' := tarr) (s := s) (s' := s') rfl i1 i1 hs hs' hc (r := 1) (fun k hk => by
      obtain ⟨p1, p2, p3⟩ := hd k hk
      exact ⟨p1.le, le_of_logb p2 p1 (by linarith [(abs_le.1 p3).2])⟩)
    (fun _ => by rw [one_mul]) (fun _ _ => by rw [one_mul]) k hk
  have b := cmf_scale2 (t := tarr) (t' := tarr) (s := s') (s' := s) rfl i1 i1 hs' hs hc (r := 1) (fun k hk => by
      obtain ⟨p1, p2, p3⟩ := hd k hk
      exact ⟨p2.le, le_of_logb p1 p2 (by linarith [(abs_le.1 p3).1])⟩)
    (fun _ => by rw [one_mul]) (fun _ _ => by rw [one_mul]) k hk
  rw [mul_one] at a b
  have pos : ∀ {l : List ℝ}, l.length = tarr.length → (∀ k, k < tarr.length → 0 < l.getD k 0) → ∀ y ∈ l, 0 < y := by
    intro l hl h y hy
    obtain ⟨k, hk, rfl⟩ := List.getElem_of_mem hy
    have := h k (hl ▸ hk)
    rwa [List.getD_eq_getElem _ _ hk] at this
  have ps := pos hs fun k hk => (hd k hk).2.1
  have ps' := pos hs' fun k hk => (hd k hk).1
  have c := cmfFl_err float32 le_rfl hs' hinc (fun y hy => (ps' y hy).le) hk (by omega)
  have q1 : 0 < (cumulativeMstarFormed tarr s).getD k 0 := by
    rw [List.getD_eq_getElem _ _ (by rw [cmf_length _ _ hs]; exact hk)]
    exact ((C12_smh_increasing _ _ hs i1).1 ps).2.1 _ (List.getElem_mem _)
  have q2 : 0 < (cumulativeMstarFormed tarr s').getD k 0 := by
    rw [List.getD_eq_getElem _ _ (by rw [cmf_length _ _ hs']; exact hk)]
    exact ((C12_smh_increasing _ _ hs' i1).1 ps').2.1 _ (List.getElem_mem _)
  have hu : float32.u = 2 ^ (-24 : ℤ) := rfl
  have kk : (k : ℝ) ≤ 1000 := by exact_mod_cast (by omega : k ≤ 1000)
  rw [hu] at c
  obtain ⟨q3, d1⟩ := logb_of_rel q2 (e := 1 / 10 ^ 4) (by norm_num) (c.trans (mul_le_mul_of_nonneg_right (by norm_num; linarith) q2.le))
  have key : ∀ {y z E : ℝ}, 0 < y → 0 < z → y ≤ (10 : ℝ) ^ E * z → Real.logb 10 y ≤ E + Real.logb 10 z := by
    intro y z E hy hz h
    have := Real.logb_le_logb_of_le (by norm_num : (1 : ℝ) < 10) hy h
    rwa [Real.logb_mul (by positivity) hz.ne', Real.logb_rpow (by norm_num) (by norm_num)] at this
  have a' := key q2 q1 a
  have b' := key q1 q2 b
  refine ⟨q3, q1, ?_⟩
  rw [abs_le] at d1 ⊢
  constructor <;> norm_num at * <;> linarith only [a', b', d1.1, d1.2]

/-- C158. Single precision with underflow and overflow against exact arithmetic, from the unbounded parameters on: whatever the eight single precision
unbounded parameters (up to 1e29), all star formation rates and stellar masses are finite and positive and agree with those of the exact model within
`0.0015 + 0.000032 / 10^qlglgdt` dex, `10^qlglgdt` being the duration of the quenching event in dex. -/
theorem C158_end_to_end {L : Rounding.MathLib} (A : Machine float32 L) (hL : Accurate L) (hlog : ∀ t, float32.fl (L.log10 t) = L.log10 t)
    (hpow : ∀ x, |x| ≤ 1 / 10 ^ 17 → L.pow10 x = 1) (u : DiffstarParams ℝ) (hu : FiniteFloats u)
    (logMah logMah' : MahParams ℝ → ℝ → ℝ → ℝ) (mah : MahParams ℝ) (tarr : List ℝ) (lgt0 fb : ℝ) (hfb : 1 / 10 ^ 10 ≤ fb ∧ fb ≤ 1)
    (ht : ∀ t ∈ tarr, 0.01 ≤ t ∧ t ≤ 100) (hstep : tarr.Pairwise fun a b => a + 1 / 10 ^ 6 ≤ b) (hn : tarr.length ≤ 1000)
    (hm : ∀ t ∈ tarr, 0 ≤ logMah mah t lgt0 ∧ logMah mah t lgt0 ≤ 20) (hmf : ∀ t ∈ tarr, float32.fl (logMah' mah t lgt0) = logMah' mah t lgt0)
    (hm' : ∀ t ∈ tarr, |logMah' mah t lgt0 - logMah mah t lgt0| ≤ 1 / 10 ^ 5) :
    ∃ p gal, A.getBoundedDiffstarParams u = some p ∧ A.calcSfhSinglegalSmh logMah' p mah tarr lgt0 fb = some gal ∧
      List.Forall₂ (WithinDex (0.0015 + 0.000032 / (10 : ℝ) ^ (getBoundedDiffstarParams u).qlglgdt)) gal.sfh
        (calcSfhSinglegalSmh logMah (getBoundedDiffstarParams u) mah tarr lgt0 fb).sfh ∧
      List.Forall₂ (WithinDex (0.0015 + 0.000032 / (10 : ℝ) ^ (getBoundedDiffstarParams u).qlglgdt)) gal.smh
        (calcSfhSinglegalSmh logMah (getBoundedDiffstarParams u) mah tarr lgt0 fb).smh := by
  obtain ⟨p, hp, -, -, -, -, -, -, -, -, h⟩ := C157_history A hL hlog hpow u hu
  have g := h logMah' mah tarr lgt0 fb hfb ht hstep hn hmf fun t h => by
    have h1 := hm t h
    have h2 := abs_le.1 (hm' t h)
    norm_num at h2 ⊢
    constructor <;> linarith [h1.1, h1.2, h2.1, h2.2]
  have fb0 : 0 < fb := lt_of_lt_of_le (by norm_num) hfb.1
  have r := bounded_rates hL logMah logMah' u mah tarr lgt0 fb fb0 ht hm hm'
  have hinc : Increasing (0.002 :: tarr) :=
    List.pairwise_cons.2 ⟨fun t h => lt_of_lt_of_le (by norm_num) (ht t h).1, hstep.imp fun h => by norm_num at h; linarith⟩
  refine ⟨p, _, hp, g, ?_, ?_⟩
  · refine List.forall₂_iff_get.2 ⟨by rw [sfhFl_length]; exact sfh_length.symm, fun i h1 h2 => ?_⟩
    rw [sfhFl_length] at h1
    obtain ⟨s', s, e', e, w⟩ := r i h1
    have e1 := (List.getElem?_eq_some_iff.1 e').2
    have e2 : (calcSfhSinglegalSmh logMah (getBoundedDiffstarParams u) mah tarr lgt0 fb).sfh[i] = s := (List.getElem?_eq_some_iff.1 e).2
    simp only [List.get_eq_getElem]
    rw [e1, e2]
    exact ⟨w.1, w.2.1, w.2.2.trans (by norm_num)⟩
  · have X : 0 < (10 : ℝ) ^ (getBoundedDiffstarParams u).qlglgdt := by positivity
    have l := sfhFl_length float32 L (logMah := logMah') (q := float32.getBoundedDiffstarParams L.exp u) (mah := mah) (tarr := tarr) (lgt0 := lgt0) (fb := fb)
    have l2 := sfh_length (logMah := logMah) (q := getBoundedDiffstarParams u) (mah := mah) (tarr := tarr) (lgt0 := lgt0) (fb := fb)
    have w := masses_close l2 l hinc hn (κ := 0.0014 + 0.000032 / (10 : ℝ) ^ (getBoundedDiffstarParams u).qlglgdt) (by positivity) (fun k hk => by
      obtain ⟨s', s, e', e, w⟩ := r k hk
      rw [List.getD_eq_getElem?_getD, List.getD_eq_getElem?_getD, e', e]
      exact w)
    have n1 : (float32.cumulativeMstarFormed tarr (float32.calcSfhSinglegalSmh L logMah' (float32.getBoundedDiffstarParams L.exp u) mah tarr lgt0 fb).sfh).length =
        tarr.length := by
      refine (cmfFl_mono float32 le_rfl l hinc fun y hy => ?_).1
      obtain ⟨k, hk, rfl⟩ := List.getElem_of_mem hy
      obtain ⟨s', s, e', e, w⟩ := r k (l ▸ hk)
      rw [(List.getElem?_eq_some_iff.1 e').2]
      exact w.1.le
    have n2 := cmf_length tarr _ l2
    refine List.forall₂_iff_get.2 ⟨n1.trans n2.symm, fun i h1 h2 => ?_⟩
    have hi : i < tarr.length := n1 ▸ h1
    have v := w i hi
    rw [List.getD_eq_getElem _ _ (by rw [n1]; exact hi), List.getD_eq_getElem _ _ (by rw [n2]; exact hi)] at v
    exact ⟨v.1, v.2.1, v.2.2.trans (by norm_num; linarith)⟩

/-- C158. Whatever the unbounded parameters, no rate and no mass is wrong by more than 0.034 dex (8.2 per cent). -/
theorem C158_uniform {L : Rounding.MathLib} (A : Machine float32 L) (hL : Accurate L) (hlog : ∀ t, float32.fl (L.log10 t) = L.log10 t)
    (hpow : ∀ x, |x| ≤ 1 / 10 ^ 17 → L.pow10 x = 1) (u : DiffstarParams ℝ) (hu : FiniteFloats u)
    (logMah logMah' : MahParams ℝ → ℝ → ℝ → ℝ) (mah : MahParams ℝ) (tarr : List ℝ) (lgt0 fb : ℝ) (hfb : 1 / 10 ^ 10 ≤ fb ∧ fb ≤ 1)
    (ht : ∀ t ∈ tarr, 0.01 ≤ t ∧ t ≤ 100) (hstep : tarr.Pairwise fun a b => a + 1 / 10 ^ 6 ≤ b) (hn : tarr.length ≤ 1000)
    (hm : ∀ t ∈ tarr, 0 ≤ logMah mah t lgt0 ∧ logMah mah t lgt0 ≤ 20) (hmf : ∀ t ∈ tarr, float32.fl (logMah' mah t lgt0) = logMah' mah t lgt0)
    (hm' : ∀ t ∈ tarr, |logMah' mah t lgt0 - logMah mah t lgt0| ≤ 1 / 10 ^ 5) :
    ∃ p gal, A.getBoundedDiffstarParams u = some p ∧ A.calcSfhSinglegalSmh logMah' p mah tarr lgt0 fb = some gal ∧
      List.Forall₂ (WithinDex 0.034) gal.sfh (calcSfhSinglegalSmh logMah (getBoundedDiffstarParams u) mah tarr lgt0 fb).sfh ∧
      List.Forall₂ (WithinDex 0.034) gal.smh (calcSfhSinglegalSmh logMah (getBoundedDiffstarParams u) mah tarr lgt0 fb).smh := by
  obtain ⟨p, gal, h1, h2, h3, h4⟩ := C158_end_to_end A hL hlog hpow u hu logMah logMah' mah tarr lgt0 fb hfb ht hstep hn hm hmf hm'
  have hd := (C01_bounded_params_in_bounds u).qlglgdt.1
  have hdt : (1 / 1000 : ℝ) ≤ (10 : ℝ) ^ (getBoundedDiffstarParams u).qlglgdt := by
    have := Real.rpow_le_rpow_of_exponent_le (show (1 : ℝ) ≤ 10 by norm_num) hd.le
    refine le_trans (le_of_eq ?_) this
    rw [show (-3 : ℝ) = ((-3 : ℤ) : ℝ) by norm_num, Real.rpow_intCast]; norm_num
  have e : 0.0015 + 0.000032 / (10 : ℝ) ^ (getBoundedDiffstarParams u).qlglgdt ≤ 0.034 := by
    have : 0.000032 / (10 : ℝ) ^ (getBoundedDiffstarParams u).qlglgdt ≤ 0.032 := by
      rw [div_le_iff₀ (by positivity)]
      norm_num at hdt ⊢
      linarith
    linarith
  exact ⟨p, gal, h1, h2, h3.imp fun _ _ w => ⟨w.1, w.2.1, w.2.2.trans e⟩, h4.imp fun _ _ w => ⟨w.1, w.2.1, w.2.2.trans e⟩⟩

/-- C158, populations. Row `i` of `calc_sfh_galpop` has the accuracy of a single galaxy, whatever the parameters and halos of the other rows (which may
give infinite or undefined results): `p` and `q` are arrays of bounded parameters with those of `u` in row `i`. -/
theorem C158_galpop {L : Rounding.MathLib} (A : Machine float32 L) (hL : Accurate L) (hlog : ∀ t, float32.fl (L.log10 t) = L.log10 t)
    (hpow : ∀ x, |x| ≤ 1 / 10 ^ 17 → L.pow10 x = 1) (u : DiffstarParams ℝ) (hu : FiniteFloats u) {n : ℕ} (i : Fin n) (p q : DiffstarParams (Fin n → ℝ))
    (hp : A.getBoundedDiffstarParams u = some (oneGalaxy p i)) (hq : getBoundedDiffstarParams u = oneGalaxy q i)
    (logMah logMah' : MahParams ℝ → ℝ → ℝ → ℝ) (mah : MahParams (Fin n → ℝ)) (tarr : List ℝ) (lgt0 fb : ℝ) (hfb : 1 / 10 ^ 10 ≤ fb ∧ fb ≤ 1)
    (ht : ∀ t ∈ tarr, 0.01 ≤ t ∧ t ≤ 100) (hstep : tarr.Pairwise fun a b => a + 1 / 10 ^ 6 ≤ b) (hn : tarr.length ≤ 1000)
    (hm : ∀ t ∈ tarr, 0 ≤ logMah (mah.row i) t lgt0 ∧ logMah (mah.row i) t lgt0 ≤ 20)
    (hmf : ∀ t ∈ tarr, float32.fl (logMah' (mah.row i) t lgt0) = logMah' (mah.row i) t lgt0)
    (hm' : ∀ t ∈ tarr, |logMah' (mah.row i) t lgt0 - logMah (mah.row i) t lgt0| ≤ 1 / 10 ^ 5) :
    ∃ sfh smh, (A.calcSfhGalpopSmh logMah' p mah tarr lgt0 fb).sfh i = some sfh ∧ (A.calcSfhGalpopSmh logMah' p mah tarr lgt0 fb).smh i = some smh ∧
      List.Forall₂ (WithinDex (0.0015 + 0.000032 / (10 : ℝ) ^ q.qlglgdt i)) sfh ((calcSfhGalpopSmh logMah q mah tarr lgt0 fb).sfh i) ∧
      List.Forall₂ (WithinDex (0.0015 + 0.000032 / (10 : ℝ) ^ q.qlglgdt i)) smh ((calcSfhGalpopSmh logMah q mah tarr lgt0 fb).smh i) := by
  obtain ⟨p', gal, h1, h2, h3, h4⟩ := C158_end_to_end A hL hlog hpow u hu logMah logMah' (mah.row i) tarr lgt0 fb hfb ht hstep hn hm hmf hm'
  rw [hp, Option.some_inj] at h1
  rw [hq] at h3 h4
  subst h1
  unfold Machine.calcSfhSinglegalSmh at h2
  rw [Option.bind_eq_some_iff] at h2
  obtain ⟨sfh, s1, s2⟩ := h2
  rw [Option.map_eq_some_iff] at s2
  obtain ⟨smh, s2, rfl⟩ := s2
  refine ⟨sfh, smh, s1, ?_, h3, h4⟩
  show Option.bind (List.mapM _ tarr) _ = _
  exact (congrArg (fun o => Option.bind o _) s1).trans s2

/-- The hypotheses are met by extreme unbounded parameters, a device that flushes to zero, and a halo of constant mass. -/
example (mah : MahParams ℝ) : ∃ (L : Rounding.MathLib) (p : DiffstarParams ℝ) (gal : GalHistory (List ℝ)), Accurate L ∧
    (flushing float32 L).getBoundedDiffstarParams extremeParams = some p ∧
      (flushing float32 L).calcSfhSinglegalSmh (fun _ _ _ => 12) p mah [1, 5, 13.8] 1 0.16 = some gal ∧ gal.smh.length = 3 := by
  have f12 : float32.fl 12 = 12 := by
    have := float32_exact 12 (by norm_num) 0
    norm_num at this ⊢
    exact this
  obtain ⟨p, gal, h1, h2, -, h4⟩ := C158_end_to_end (flushing float32 ⟨fun x => float32.fl (Real.exp x), fun x => float32.fl ((10 : ℝ) ^ x),
    fun x => float32.fl (Real.logb 10 x)⟩) accurate_rounded (fun t => float32.idem _) pow10_tiny_rounded extremeParams extremeParams_finite
    (fun _ _ _ => 12) (fun _ _ _ => 12) mah [1, 5, 13.8] 1 0.16 (by norm_num)
    (by
      intro t ht
      simp only [List.mem_cons, List.not_mem_nil, or_false] at ht
      rcases ht with rfl | rfl | rfl <;> norm_num)
    (by norm_num) (by norm_num) (fun _ _ => by norm_num) (fun _ _ => f12) (fun _ _ => by norm_num)
  exact ⟨_, p, gal, accurate_rounded, h1, h2, h4.length_eq.trans (cmf_length _ _ sfh_length)⟩

/-- A population of two, the second with a halo of any mass: the first galaxy is fine. -/
example (mah : MahParams (Fin 2 → ℝ)) (h : (mah.row 0).logmp = 12) (far : ℝ) : ∃ (L : Rounding.MathLib) (p : DiffstarParams (Fin 2 → ℝ)) (sfh : List ℝ),
    ((flushing float32 L).calcSfhGalpopSmh (fun m _ _ => if m.logmp = 12 then 12 else far) p mah [1, 5, 13.8] 1 0.16).sfh 0 = some sfh := by
  have f12 : float32.fl 12 = 12 := by
    have := float32_exact 12 (by norm_num) 0
    norm_num at this ⊢
    exact this
  obtain ⟨p, hp, -⟩ := C157_history.{0} (flushing float32 ⟨fun x => float32.fl (Real.exp x), fun x => float32.fl ((10 : ℝ) ^ x),
    fun x => float32.fl (Real.logb 10 x)⟩) accurate_rounded (fun t => float32.idem _) pow10_tiny_rounded extremeParams extremeParams_finite
  obtain ⟨sfh, -, h1, -⟩ := C158_galpop (flushing float32 ⟨fun x => float32.fl (Real.exp x), fun x => float32.fl ((10 : ℝ) ^ x),
    fun x => float32.fl (Real.logb 10 x)⟩) accurate_rounded (fun t => float32.idem _) pow10_tiny_rounded extremeParams extremeParams_finite (n := 2) 0
    ⟨fun _ => p.lgmcrit, fun _ => p.lgyAtMcrit, fun _ => p.indxLo, fun _ => p.indxHi, fun _ => p.lgQt, fun _ => p.qlglgdt, fun _ => p.lgDrop, fun _ => p.lgRejuv⟩
    ⟨fun _ => (getBoundedDiffstarParams extremeParams).lgmcrit, fun _ => (getBoundedDiffstarParams extremeParams).lgyAtMcrit,
      fun _ => (getBoundedDiffstarParams extremeParams).indxLo, fun _ => (getBoundedDiffstarParams extremeParams).indxHi,
      fun _ => (getBoundedDiffstarParams extremeParams).lgQt, fun _ => (getBoundedDiffstarParams extremeParams).qlglgdt,
      fun _ => (getBoundedDiffstarParams extremeParams).lgDrop, fun _ => (getBoundedDiffstarParams extremeParams).lgRejuv⟩
    hp rfl (fun m _ _ => if m.logmp = 12 then 12 else far) (fun m _ _ => if m.logmp = 12 then 12 else far) mah [1, 5, 13.8] 1 0.16 (by norm_num)
    (by
      intro t ht
      simp only [List.mem_cons, List.not_mem_nil, or_false] at ht
      rcases ht with rfl | rfl | rfl <;> norm_num)
    (by norm_num) (by norm_num) (fun _ _ => by rw [if_pos h]; norm_num) (fun _ _ => by rw [if_pos h]; exact f12) (fun _ _ => by norm_num)
  exact ⟨_, _, sfh, h1⟩

end Diffstar.Props
