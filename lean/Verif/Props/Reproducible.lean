import Verif.Props.EndToEnd

/-!
C161: single precision star formation histories do not depend on later times, on the other times of the table or on the other galaxies, to the
last bit.
-/

namespace Diffstar.Props

open Diffstar Diffstar.Spec

theorem mapM_take {α β : Type*} (f : α → Option β) : ∀ (l : List α) (r : List β) (k : ℕ), l.mapM f = some r → (l.take k).mapM f = some (r.take k)
  | [], r, k, h => by
    have : r = [] := by simpa [eq_comm] using h
    subst this
    simp
  | a :: l, r, 0, h => by simp
  | a :: l, r, k + 1, h => by
    rw [List.mapM_cons] at h
    cases hb : f a with
    | none => rw [hb] at h; cases h
    | some b =>
      cases hr : l.mapM f with
      | none => rw [hb, hr] at h; cases h
      | some bs =>
        rw [hb, hr] at h
        have h : some (b :: bs) = some r := h
        rw [← Option.some.inj h, List.take_succ_cons, List.mapM_cons, hb, mapM_take f l bs k hr]
        rfl

theorem mapM_getElem {α β : Type*} (f : α → Option β) : ∀ (l : List α) (r : List β), l.mapM f = some r →
    ∀ (i : ℕ) (hi : i < l.length), ∃ hr : i < r.length, f l[i] = some r[i]
  | [], r, h, i, hi => absurd hi (by simp)
  | a :: l, r, h, i, hi => by
    rw [List.mapM_cons] at h
    cases hb : f a with
    | none => rw [hb] at h; cases h
    | some b =>
      cases hr : l.mapM f with
      | none => rw [hb, hr] at h; cases h
      | some bs =>
        rw [hb, hr] at h
        have h : some (b :: bs) = some r := h
        obtain rfl := Option.some.inj h
        cases i with
        | zero => exact ⟨by simp, hb⟩
        | succ i =>
          obtain ⟨h1, h2⟩ := mapM_getElem f l bs hr i (by simpa using hi)
          exact ⟨by simpa using h1, h2⟩

theorem scan_take {R : Rounding} {L : Rounding.MathLib} (A : Machine R L) : ∀ (c : ℝ × ℝ × ℝ) (l : List (ℝ × ℝ)) (r : List ℝ) (k : ℕ),
    A.scan c l = some r → A.scan c (l.take k) = some (r.take k)
  | c, [], r, k, h => by
    have : r = [] := by simpa [Machine.scan, eq_comm] using h
    subst this
    simp [Machine.scan]
  | c, e :: es, r, 0, h => by simp [Machine.scan]
  | c, e :: es, r, k + 1, h => by
    rw [Machine.scan, Option.bind_eq_some_iff] at h
    obtain ⟨m, h1, h2⟩ := h
    rw [Option.map_eq_some_iff] at h2
    obtain ⟨ms, h2, rfl⟩ := h2
    rw [List.take_succ_cons, Machine.scan, h1, Option.bind_some, scan_take A _ es ms k h2, List.take_succ_cons]
    rfl

/-- **C161**: later times do not change earlier masses. -/
theorem C161_mass_prefix {R : Rounding} {L : Rounding.MathLib} (A : Machine R L) (t s m : List ℝ) (k : ℕ)
    (h : A.cumulativeMstarFormed t s = some m) : A.cumulativeMstarFormed (t.take k) (s.take k) = some (m.take k) := by
  unfold Machine.cumulativeMstarFormed at h ⊢
  rw [Option.bind_eq_some_iff] at h
  obtain ⟨c, h1, h2⟩ := h
  have e : List.zip (R.fl T_BIRTH_MIN :: t.take k) (R.fl SFR_MIN :: s.take k) =
      (List.zip (R.fl T_BIRTH_MIN :: t) (R.fl SFR_MIN :: s)).take (k + 1) := by
    simp [List.zip, List.take_zipWith]
  rw [e, scan_take A _ _ c (k + 1) h1, Option.bind_some]
  have e2 : (c.take (k + 1)).drop 1 = (c.drop 1).take k := by
    rw [List.drop_take, Nat.add_sub_cancel]
  rw [e2]
  exact mapM_take _ _ _ _ h2

/-- **C161**: a table that ends earlier gives the same numbers up to its end. -/
theorem C161_prefix {R : Rounding} {L : Rounding.MathLib} (A : Machine R L) {M : Type*} (logMah : M → ℝ → ℝ → ℝ) (p : DiffstarParams ℝ) (mah : M)
    (tarr : List ℝ) (lgt0 fb : ℝ) (gal : GalHistory (List ℝ)) (h : A.calcSfhSinglegalSmh logMah p mah tarr lgt0 fb = some gal) (k : ℕ) :
    A.calcSfhSinglegalSmh logMah p mah (tarr.take k) lgt0 fb = some ⟨gal.sfh.take k, gal.smh.take k⟩ := by
  unfold Machine.calcSfhSinglegalSmh at h ⊢
  rw [Option.bind_eq_some_iff] at h
  obtain ⟨s, h1, h2⟩ := h
  rw [Option.map_eq_some_iff] at h2
  obtain ⟨m, h2, rfl⟩ := h2
  rw [mapM_take _ _ _ k h1, Option.bind_some, C161_mass_prefix A tarr s m k h2]
  rfl

/-- **C161**: rates at the same time are the same in all tables. -/
theorem C161_rates {R : Rounding} {L : Rounding.MathLib} (A : Machine R L) {M : Type*} (logMah : M → ℝ → ℝ → ℝ) (p : DiffstarParams ℝ) (mah : M)
    (tarr tarr' : List ℝ) (lgt0 fb : ℝ) (gal gal' : GalHistory (List ℝ)) (h : A.calcSfhSinglegalSmh logMah p mah tarr lgt0 fb = some gal)
    (h' : A.calcSfhSinglegalSmh logMah p mah tarr' lgt0 fb = some gal') (i j : ℕ) (hi : i < tarr.length) (hj : j < tarr'.length)
    (e : tarr[i] = tarr'[j]) : gal.sfh[i]? = gal'.sfh[j]? ∧ gal.sfh[i]? ≠ none := by
  unfold Machine.calcSfhSinglegalSmh at h h'
  rw [Option.bind_eq_some_iff] at h h'
  obtain ⟨s, h1, h2⟩ := h
  obtain ⟨s', h1', h2'⟩ := h'
  rw [Option.map_eq_some_iff] at h2 h2'
  obtain ⟨m, -, rfl⟩ := h2
  obtain ⟨m', -, rfl⟩ := h2'
  obtain ⟨a, b⟩ := mapM_getElem _ _ _ h1 i hi
  obtain ⟨a', b'⟩ := mapM_getElem _ _ _ h1' j hj
  rw [e, b', Option.some.injEq] at b
  dsimp only
  rw [List.getElem?_eq_getElem a, List.getElem?_eq_getElem a', b]
  exact ⟨rfl, by simp⟩

/-- **C161**: a row of a population has the numbers of the galaxy on its own, if that has a finite history. -/
theorem C161_rows {R : Rounding} {L : Rounding.MathLib} (A : Machine R L) {n : ℕ} (logMah : MahParams ℝ → ℝ → ℝ → ℝ) (p : DiffstarParams (Fin n → ℝ))
    (mah : MahParams (Fin n → ℝ)) (tarr : List ℝ) (lgt0 fb : ℝ) (i : Fin n) (gal : GalHistory (List ℝ)) :
    A.calcSfhSinglegalSmh logMah (oneGalaxy p i) (mah.row i) tarr lgt0 fb = some gal ↔
      (A.calcSfhGalpopSmh logMah p mah tarr lgt0 fb).sfh i = some gal.sfh ∧ (A.calcSfhGalpopSmh logMah p mah tarr lgt0 fb).smh i = some gal.smh := by
  have e : A.calcSfhSinglegalSmh logMah (oneGalaxy p i) (mah.row i) tarr lgt0 fb =
      ((A.calcSfhGalpopSmh logMah p mah tarr lgt0 fb).sfh i).bind fun s => (A.cumulativeMstarFormed tarr s).map fun m => ⟨s, m⟩ := rfl
  have e2 : (A.calcSfhGalpopSmh logMah p mah tarr lgt0 fb).smh i =
      ((A.calcSfhGalpopSmh logMah p mah tarr lgt0 fb).sfh i).bind fun s => A.cumulativeMstarFormed tarr s := rfl
  rw [e, e2]
  obtain ⟨s, m⟩ := gal
  cases (A.calcSfhGalpopSmh logMah p mah tarr lgt0 fb).sfh i with
  | none => simp
  | some s' =>
    simp only [Option.bind_some, Option.map_eq_some_iff, GalHistory.mk.injEq, Option.some.injEq]
    constructor
    · rintro ⟨m', h1, rfl, rfl⟩
      exact ⟨rfl, h1⟩
    · rintro ⟨rfl, h1⟩
      exact ⟨m, h1, rfl, rfl⟩

/-- **C161**: whatever the unbounded parameters, masses in single precision, with underflow and overflow, never decrease. -/
theorem C161_masses_grow {L : Rounding.MathLib} (A : Machine float32 L) (hL : Accurate L) (hlog : ∀ t, float32.fl (L.log10 t) = L.log10 t)
    (hpow : ∀ x, |x| ≤ 1 / 10 ^ 17 → L.pow10 x = 1) (u : DiffstarParams ℝ) (hu : FiniteFloats u)
    (logMah : MahParams ℝ → ℝ → ℝ → ℝ) (mah : MahParams ℝ) (tarr : List ℝ) (lgt0 fb : ℝ) (hfb : 1 / 10 ^ 10 ≤ fb ∧ fb ≤ 1)
    (ht : ∀ t ∈ tarr, 0.01 ≤ t ∧ t ≤ 100) (hstep : tarr.Pairwise fun a b => a + 1 / 10 ^ 6 ≤ b) (hn : tarr.length ≤ 1000)
    (hm : ∀ t ∈ tarr, 0 ≤ logMah mah t lgt0 ∧ logMah mah t lgt0 ≤ 20) (hmf : ∀ t ∈ tarr, float32.fl (logMah mah t lgt0) = logMah mah t lgt0) :
    ∃ p gal, A.getBoundedDiffstarParams u = some p ∧ A.calcSfhSinglegalSmh logMah p mah tarr lgt0 fb = some gal ∧
      gal.sfh.length = tarr.length ∧ gal.smh.length = tarr.length ∧ (∀ s ∈ gal.sfh, 0 < s) ∧ (∀ m ∈ gal.smh, 0 < m) ∧ gal.smh.Pairwise (· ≤ ·) := by
  obtain ⟨p, hp, -, -, -, -, -, -, -, -, h⟩ := C157_history A hL hlog hpow u hu
  have g := h logMah mah tarr lgt0 fb hfb ht hstep hn hmf fun t h => by
    have h1 := hm t h
    constructor <;> norm_num <;> linarith [h1.1, h1.2]
  obtain ⟨p', gal, hp', g', h3, -⟩ := C158_end_to_end A hL hlog hpow u hu logMah logMah mah tarr lgt0 fb hfb ht hstep hn hm hmf
    (fun t _ => by rw [sub_self, abs_zero]; norm_num)
  obtain rfl := Option.some.inj (hp.symm.trans hp')
  obtain rfl := Option.some.inj (g.symm.trans g')
  have l1 : (float32.calcSfhSinglegalSmh L logMah (float32.getBoundedDiffstarParams L.exp u) mah tarr lgt0 fb).sfh.length = tarr.length := sfhFl_length _ _
  have pos : ∀ s ∈ (float32.calcSfhSinglegalSmh L logMah (float32.getBoundedDiffstarParams L.exp u) mah tarr lgt0 fb).sfh, 0 < s := fun s hs => by
    obtain ⟨i, hi, rfl⟩ := List.getElem_of_mem hs
    exact ((List.forall₂_iff_get.1 h3).2 i hi (by rw [← h3.length_eq]; exact hi)).1
  have fb0 : float32.fl 0.001 < 0.01 := by
    have := (abs_le.1 (float32.err 0.001)).2
    have hu := f32_u
    norm_num [abs_of_pos] at this hu ⊢
    nlinarith
  obtain ⟨c1, c2, c3⟩ := C124_masses_never_decrease float32 (f32_u.trans_lt (by norm_num)) tarr _ l1
    (List.pairwise_cons.2 ⟨fun t h => lt_of_lt_of_le fb0 (ht t h).1, hstep.imp fun h => by norm_num at h; linarith⟩) (fun y hy => (pos y hy).le)
  exact ⟨p, _, hp, g, l1, c1, pos, c2, c3⟩

/-- The hypotheses are met by extreme parameters on a device that flushes to zero, for three times and for the first two of them. -/
example : ∃ (L : Rounding.MathLib) (p : DiffstarParams ℝ) (gal gal' : GalHistory (List ℝ)),
    (flushing float32 L).calcSfhSinglegalSmh (fun (_ : Unit) _ _ => 0) p () [1, 5, 13.8] 1 0.16 = some gal ∧
      (flushing float32 L).calcSfhSinglegalSmh (fun (_ : Unit) _ _ => 0) p () [1, 5] 1 0.16 = some gal' := by
  obtain ⟨p, hp, -, -, -, -, -, -, -, -, h⟩ := C157_history (flushing float32 ⟨fun x => float32.fl (Real.exp x), fun x => float32.fl ((10 : ℝ) ^ x),
    fun x => float32.fl (Real.logb 10 x)⟩) accurate_rounded (fun t => float32.idem _) pow10_tiny_rounded extremeParams extremeParams_finite
  have g := h (fun (_ : Unit) _ _ => 0) () [1, 5, 13.8] 1 0.16 (by norm_num)
    (by
      intro t ht
      simp only [List.mem_cons, List.not_mem_nil, or_false] at ht
      rcases ht with rfl | rfl | rfl <;> norm_num)
    (by norm_num) (by norm_num) (fun _ _ => float32.fl_zero) (fun _ _ => by norm_num)
  exact ⟨_, p, _, _, g, C161_prefix _ _ p () _ 1 0.16 _ g 2⟩

end Diffstar.Props
