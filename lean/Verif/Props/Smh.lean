import Verif.Props.Sfh
import Verif.Lemmas.Cumtrapz
import Verif.Lemmas.Dt

/-! C11-C20: stellar mass and gas histories, population calls, time steps. -/

namespace Diffstar.Props

open Diffstar Diffstar.Spec Set

/-! ### C11 -/

/-- **C11**: the stellar mass formed at table time `t[i]` is `1e9` times the integral, from
`T_BIRTH_MIN = 0.001` to `t[i]`, of the linear interpolant of the SFH table extended by the point
`(0.001, 1e-14)`. -/
theorem C11_smh_is_integral (t s : List ℝ) (hs : s.length = t.length)
    (hinc : Increasing (0.001 :: t)) (f : ℝ → ℝ)
    (hf : IsLinInterp (0.001 :: t) (1 / 10 ^ 14 :: s) f) (i : ℕ) (hi : i < t.length) :
    (cumulativeMstarFormed t s)[i]? = some (10 ^ 9 * ∫ x in (0.001 : ℝ)..t[i], f x) := by
  have h := (trapFrom_integral 0.001 (1 / 10 ^ 14) 0 t s hs hinc f hf i hi).2
  rw [cmf_eq, List.getElem?_map, h]
  simp only [Option.map_some, zero_add, Option.some.injEq]
  ring

/-- The hypotheses of C11 are met by a concrete irregular table (an interpolant always exists). -/
example : ∃ f, Increasing (0.001 :: [1, 2, 5]) ∧
    IsLinInterp (0.001 :: [1, 2, 5]) (1 / 10 ^ 14 :: [3, 10, 2]) f := by
  have h : Increasing ((0.001 : ℝ) :: [1, 2, 5]) := by unfold Increasing; norm_num
  obtain ⟨f, hf⟩ := exists_linInterp (0.001 :: [1, 2, 5]) (1 / 10 ^ 14 :: [3, 10, 2]) h
  exact ⟨f, h, hf⟩

/-! ### C12 -/

theorem mem_zip_fst {t s : List ℝ} {p : ℝ × ℝ} (h : p ∈ t.zip s) : p.1 ∈ t :=
  (List.of_mem_zip h).1

theorem mem_zip_snd {t s : List ℝ} {p : ℝ × ℝ} (h : p ∈ t.zip s) : p.2 ∈ s :=
  (List.of_mem_zip h).2

theorem pairwise_zip {t : List ℝ} {R : ℝ → ℝ → Prop} (h : t.Pairwise R) (s : List ℝ) :
    (t.zip s).Pairwise fun p q => R p.1 q.1 := by
  induction t generalizing s with
  | nil => simp
  | cons a t ih =>
    cases s with
    | nil => simp
    | cons b s =>
      rw [List.pairwise_cons] at h
      simp only [List.zip_cons_cons, List.pairwise_cons]
      exact ⟨fun p hp => h.1 _ (mem_zip_fst hp), ih h.2 s⟩

/-- **C12** for tables: positive SFH gives a positive, strictly increasing mass history; non-negative
SFH a non-negative, non-decreasing one. -/
theorem C12_smh_increasing (t s : List ℝ) (hs : s.length = t.length)
    (hinc : Increasing (0.001 :: t)) :
    ((∀ y ∈ s, 0 < y) → (cumulativeMstarFormed t s).length = t.length ∧
      (∀ m ∈ cumulativeMstarFormed t s, 0 < m) ∧ Increasing (cumulativeMstarFormed t s)) ∧
    ((∀ y ∈ s, 0 ≤ y) → (∀ m ∈ cumulativeMstarFormed t s, 0 ≤ m) ∧
      (cumulativeMstarFormed t s).Pairwise (· ≤ ·)) := by
  unfold Increasing at hinc ⊢
  rw [List.pairwise_cons] at hinc
  constructor
  · intro hp
    obtain ⟨h1, h2⟩ := trapFrom_strictMono 0.001 (1 / 10 ^ 14) 0 (t.zip s) (by norm_num)
      (fun p hp' => hinc.1 _ (mem_zip_fst hp')) (pairwise_zip hinc.2 s)
      (fun p hp' => hp _ (mem_zip_snd hp'))
    refine ⟨cmf_length t s hs, ?_, ?_⟩
    · rw [cmf_eq]
      intro m hm
      obtain ⟨x, hx, rfl⟩ := List.mem_map.1 hm
      have := h1 x hx
      positivity
    · rw [cmf_eq, List.pairwise_map]
      exact h2.imp fun h => by linarith
  · intro hp
    obtain ⟨h1, h2⟩ := trapFrom_mono 0.001 (1 / 10 ^ 14) 0 (t.zip s) (by norm_num)
      (fun p hp' => (hinc.1 _ (mem_zip_fst hp')).le)
      ((pairwise_zip hinc.2 s).imp fun h => h.le) (fun p hp' => hp _ (mem_zip_snd hp'))
    refine ⟨?_, ?_⟩
    · rw [cmf_eq]
      intro m hm
      obtain ⟨x, hx, rfl⟩ := List.mem_map.1 hm
      have := h1 x hx
      positivity
    · rw [cmf_eq, List.pairwise_map]
      exact h2.imp fun h => by linarith

/-- **C12** for the public functions: the returned stellar mass history is positive and strictly
increasing for every halo, every parameter vector and every increasing table after `T_BIRTH_MIN`. -/
theorem C12_galaxy_smh_increasing {M : Type*} {n : ℕ} (logMah dMhDt : M → ℝ → ℝ → ℝ)
    (logMah' dMhDt' : MahParams ℝ → ℝ → ℝ → ℝ)
    (p : DiffstarParams ℝ) (mah : M) (P : DiffstarParams (Fin n → ℝ)) (MAH : MahParams (Fin n → ℝ))
    (tarr : List ℝ) (hinc : Increasing (0.001 :: tarr)) (lgt0 fb : ℝ) :
    let single := (calcSfhSinglegalSmh logMah p mah tarr lgt0 fb).smh
    let pop := (calcSfhGalpopSmh logMah' P MAH tarr lgt0 fb).smh
    let gas := (calcMgasSinglegal logMah dMhDt p mah tarr lgt0 fb).smh
    let gaspop := fun i => (calcMgasGalpop logMah' dMhDt' P MAH tarr lgt0 fb i).smh
    (single.length = tarr.length ∧ (∀ m ∈ single, 0 < m) ∧ Increasing single) ∧
    (∀ i, (pop i).length = tarr.length ∧ (∀ m ∈ pop i, 0 < m) ∧ Increasing (pop i)) ∧
    (gas.length = tarr.length ∧ (∀ m ∈ gas, 0 < m) ∧ Increasing gas) ∧
    (∀ i, (gaspop i).length = tarr.length ∧ (∀ m ∈ gaspop i, 0 < m) ∧ Increasing (gaspop i)) := by
  have ht : ∀ t ∈ tarr, 0 < t := fun t ht => by
    have := (List.pairwise_cons.1 hinc).1 t ht
    norm_num at this; linarith
  have hfl := C04_sfr_floor logMah dMhDt logMah' dMhDt' p mah P MAH tarr ht lgt0 fb
  have pos : ∀ {l : List ℝ}, (∀ s ∈ l, 1 / 10 ^ 14 ≤ s) → ∀ s ∈ l, 0 < s := fun h s hs =>
    lt_of_lt_of_le (by norm_num) (h s hs)
  refine ⟨?_, fun i => ?_, ?_, fun i => ?_⟩
  · exact (C12_smh_increasing tarr _ (by simp [sfhSinglegalKern]) hinc).1 (pos hfl.2.1)
  · exact (C12_smh_increasing tarr _ (by simp [sfhGalpopKern, sfhSinglegalKern]) hinc).1
      (pos (hfl.2.2.2.1 i))
  · exact (C12_smh_increasing tarr _ (by simp [sfhSinglegalKern]) hinc).1 (pos hfl.2.2.2.2.1)
  · exact (C12_smh_increasing tarr _ (by simp [sfhGalpopKern, sfhSinglegalKern]) hinc).1
      (pos (hfl.2.2.2.2.2 i))

example : Increasing ((0.001 : ℝ) :: [0.01, 1, 13.8]) ∧ ∀ y ∈ ([1, 2, 3] : List ℝ), 0 < y := by
  unfold Increasing; norm_num

/-! ### C13 -/

/-- **C13** (prefix form): cutting both tables at any `k` cuts the mass history at `k`. -/
theorem C13_causal_prefix (t s : List ℝ) (k : ℕ) :
    cumulativeMstarFormed (t.take k) (s.take k) = (cumulativeMstarFormed t s).take k := by
  rw [cmf_eq, cmf_eq, ← List.map_take, ← trapFrom_take]
  congr 2
  simp [List.zip, List.take_zipWith]

theorem trapFrom_increment (a fa c : ℝ) (t s : List ℝ) (hs : s.length = t.length) (i : ℕ)
    (hi : i + 1 < t.length) :
    (trapFrom a fa c (t.zip s))[i + 1]'(by simp [hs, hi]) =
      (trapFrom a fa c (t.zip s))[i]'(by simp [hs]; omega) +
        (t[i + 1] - t[i]) * (s[i + 1] + s[i]) / 2 := by
  induction t generalizing a fa c s i with
  | nil => simp at hi
  | cons b t ih =>
    match s, hs with
    | y :: ys, hs =>
      cases i with
      | zero =>
        match t, ys, hs, hi with
        | b' :: t, y' :: ys, _, _ => simp
      | succ i =>
        simpa using ih b y _ ys (by simpa using hs) i (by simpa using hi)

/-- **C13** (locality form): the mass formed between consecutive table times only depends on the two
times and the two rates: `1e9 (t[i+1]-t[i]) (sfh[i+1]+sfh[i]) / 2`. -/
theorem C13_increment_local (t s : List ℝ) (hs : s.length = t.length) (i : ℕ)
    (hi : i + 1 < t.length) :
    ∃ m m', (cumulativeMstarFormed t s)[i]? = some m ∧ (cumulativeMstarFormed t s)[i + 1]? = some m' ∧
      m' - m = 10 ^ 9 * ((t[i + 1] - t[i]) * (s[i + 1] + s[i]) / 2) := by
  have hl : (trapFrom 0.001 (1 / 10 ^ 14) 0 (t.zip s)).length = t.length := by simp [hs]
  refine ⟨_, _, by rw [cmf_eq, List.getElem?_map, List.getElem?_eq_getElem (by omega)]; rfl,
    by rw [cmf_eq, List.getElem?_map, List.getElem?_eq_getElem (by omega)]; rfl, ?_⟩
  simp only
  rw [trapFrom_increment _ _ _ t s hs i hi]
  ring

example : ([3, 10, 2] : List ℝ).length = ([1, 2, 5] : List ℝ).length ∧ 1 + 1 < ([1, 2, 5] : List ℝ).length := by
  simp

/-! ### C14 -/

/-- **C14** (what holds): the mass at the first table time is that of a linear ramp from
`(0.001, 1e-14)` to `(t0, s0)`; it agrees with the documented constant-SFR value exactly when the first
SFR is the floor itself. Missing from the full claim: the documented value for any other `s0`. -/
theorem C14_first_mass_partial (t0 s0 : ℝ) (t s : List ℝ) (ht : 0.001 < t0) :
    (cumulativeMstarFormed (t0 :: t) (s0 :: s)).head? =
      some (10 ^ 9 * ((t0 - 0.001) * (s0 + 1 / 10 ^ 14) / 2)) ∧
    ((cumulativeMstarFormed (t0 :: t) (s0 :: s)).head? = some (1 / 10 ^ 14 * (t0 - 0.001) * 10 ^ 9) ↔
      s0 = 1 / 10 ^ 14) := by
  have h : (cumulativeMstarFormed (t0 :: t) (s0 :: s)).head? =
      some (10 ^ 9 * ((t0 - 0.001) * (s0 + 1 / 10 ^ 14) / 2)) := by
    rw [cmf_eq]; simp; ring
  refine ⟨h, ?_⟩
  rw [h, Option.some.injEq]
  have hd : 0 < t0 - 0.001 := by linarith
  constructor
  · intro e
    have e2 : (t0 - 0.001) * (s0 + 1 / 10 ^ 14) = (t0 - 0.001) * (2 * (1 / 10 ^ 14)) := by linarith
    have := mul_left_cancel₀ hd.ne' e2
    linarith
  · intro e; rw [e]; ring

/-- **C14** is violated: a first SFR of 1 Msun/yr at 1 Gyr gives about 5e8 Msun instead of the
documented 1e-5 Msun. -/
theorem C14_documented_first_mass_violated :
    ¬ ∀ (t0 s0 : ℝ) (t s : List ℝ), 0.001 < t0 →
      (cumulativeMstarFormed (t0 :: t) (s0 :: s)).head? = some (1 / 10 ^ 14 * (t0 - 0.001) * 10 ^ 9) := by
  intro h
  have := ((C14_first_mass_partial 1 1 [] [] (by norm_num)).2).1 (h 1 1 [] [] (by norm_num))
  norm_num at this

example : (0.001 : ℝ) < 1 := by norm_num

/-! ### C15, C16 -/

/-- Parameters of galaxy `i` of a population. -/
def galaxy {n : ℕ} (P : DiffstarParams (Fin n → ℝ)) (i : Fin n) : DiffstarParams ℝ :=
  ⟨P.lgmcrit i, P.lgyAtMcrit i, P.indxLo i, P.indxHi i, P.lgQt i, P.qlglgdt i, P.lgDrop i, P.lgRejuv i⟩

/-- Halo parameters of galaxy `i` of a population. -/
def halo {n : ℕ} (P : MahParams (Fin n → ℝ)) (i : Fin n) : MahParams ℝ :=
  ⟨P.logmp i, P.logtc i, P.earlyIndex i, P.lateIndex i, P.tPeak i⟩

/-- **C15**: population calls are galaxy-by-galaxy calls (SFH, SMH and all four gas outputs). -/
theorem C15_galpop_rows {n : ℕ} (logMah dMhDt : MahParams ℝ → ℝ → ℝ → ℝ)
    (P : DiffstarParams (Fin n → ℝ)) (MAH : MahParams (Fin n → ℝ)) (tarr : List ℝ) (lgt0 fb : ℝ)
    (i : Fin n) :
    calcSfhGalpop logMah P MAH tarr lgt0 fb i =
      calcSfhSinglegal logMah (galaxy P i) (halo MAH i) tarr lgt0 fb ∧
    (calcSfhGalpopSmh logMah P MAH tarr lgt0 fb).sfh i =
      (calcSfhSinglegalSmh logMah (galaxy P i) (halo MAH i) tarr lgt0 fb).sfh ∧
    (calcSfhGalpopSmh logMah P MAH tarr lgt0 fb).smh i =
      (calcSfhSinglegalSmh logMah (galaxy P i) (halo MAH i) tarr lgt0 fb).smh ∧
    calcMgasGalpop logMah dMhDt P MAH tarr lgt0 fb i =
      calcMgasSinglegal logMah dMhDt (galaxy P i) (halo MAH i) tarr lgt0 fb :=
  ⟨rfl, rfl, rfl, rfl⟩

/-- **C15**, non-interference: galaxies with equal inputs in two populations get equal outputs, whatever
the other galaxies are. -/
theorem C15_no_interference {n n' : ℕ} (logMah dMhDt : MahParams ℝ → ℝ → ℝ → ℝ)
    (P : DiffstarParams (Fin n → ℝ)) (MAH : MahParams (Fin n → ℝ))
    (P' : DiffstarParams (Fin n' → ℝ)) (MAH' : MahParams (Fin n' → ℝ))
    (tarr : List ℝ) (lgt0 fb : ℝ) (i : Fin n) (j : Fin n')
    (hp : galaxy P i = galaxy P' j) (hm : halo MAH i = halo MAH' j) :
    calcSfhGalpop logMah P MAH tarr lgt0 fb i = calcSfhGalpop logMah P' MAH' tarr lgt0 fb j ∧
    (calcSfhGalpopSmh logMah P MAH tarr lgt0 fb).smh i =
      (calcSfhGalpopSmh logMah P' MAH' tarr lgt0 fb).smh j ∧
    calcMgasGalpop logMah dMhDt P MAH tarr lgt0 fb i =
      calcMgasGalpop logMah dMhDt P' MAH' tarr lgt0 fb j := by
  obtain ⟨a, -, b, c⟩ := C15_galpop_rows logMah dMhDt P MAH tarr lgt0 fb i
  obtain ⟨a', -, b', c'⟩ := C15_galpop_rows logMah dMhDt P' MAH' tarr lgt0 fb j
  rw [a, a', b, b', c, c', hp, hm]
  exact ⟨rfl, rfl, rfl⟩

/-- Two different populations sharing one galaxy. -/
example : galaxy (⟨![1, 2], ![1, 2], ![1, 2], ![1, 2], ![1, 2], ![1, 2], ![1, 2], ![1, 2]⟩ : DiffstarParams (Fin 2 → ℝ)) 0
    = galaxy (⟨![7, 1], ![7, 1], ![7, 1], ![7, 1], ![7, 1], ![7, 1], ![7, 1], ![7, 1]⟩ : DiffstarParams (Fin 2 → ℝ)) 1 := by
  simp [galaxy]

/-- **C16**: `return_smh=True` returns the same SFH, and its SMH is `cumulative_mstar_formed` of it;
lengths match the time table; for single galaxies and populations. -/
theorem C16_return_smh {M : Type*} {n : ℕ} (logMah : M → ℝ → ℝ → ℝ)
    (logMah' : MahParams ℝ → ℝ → ℝ → ℝ) (p : DiffstarParams ℝ) (mah : M)
    (P : DiffstarParams (Fin n → ℝ)) (MAH : MahParams (Fin n → ℝ)) (tarr : List ℝ) (lgt0 fb : ℝ) :
    let h := calcSfhSinglegalSmh logMah p mah tarr lgt0 fb
    let H := calcSfhGalpopSmh logMah' P MAH tarr lgt0 fb
    h.sfh = calcSfhSinglegal logMah p mah tarr lgt0 fb ∧
    h.smh = cumulativeMstarFormed tarr (calcSfhSinglegal logMah p mah tarr lgt0 fb) ∧
    h.sfh.length = tarr.length ∧ h.smh.length = tarr.length ∧
    (∀ i, H.sfh i = calcSfhGalpop logMah' P MAH tarr lgt0 fb i ∧
      H.smh i = cumulativeMstarFormedGalpop tarr (calcSfhGalpop logMah' P MAH tarr lgt0 fb) i ∧
      (H.sfh i).length = tarr.length ∧ (H.smh i).length = tarr.length) := by
  refine ⟨rfl, rfl, ?_, ?_, fun i => ⟨rfl, rfl, ?_, ?_⟩⟩
  · simp [calcSfhSinglegalSmh, sfhSinglegalKern]
  · simp [calcSfhSinglegalSmh, sfhSinglegalKern, cmf_length]
  · simp [calcSfhGalpopSmh, sfhGalpopKern, sfhSinglegalKern]
  · simp [calcSfhGalpopSmh, sfhGalpopKern, sfhSinglegalKern, cmf_length]

/-! ### C17, C18, C19 -/

/-- The gas mass is the running trapezoid of the net rate, starting from zero at `T_BIRTH_MIN`. -/
theorem mgas_eq (tarr sfh d : List ℝ) (fb : ℝ) :
    (gasFromHistories tarr sfh d fb).mgash =
      (trapFrom 0.001 0 0 (tarr.zip (List.zipWith (fun x y => x - y) (d.map fun x => fb * x) sfh))).map
        fun m => m * 10 ^ 9 := by
  simp only [gasFromHistories, cmf_eq]
  have := trapFrom_sub 0.001 (1 / 10 ^ 14) (1 / 10 ^ 14) 0 0 tarr (d.map fun x => fb * x) sfh
  simp only [sub_self] at this
  rw [← this, List.map_zipWith, List.zipWith_map]
  congr 1
  funext a b
  ring

/-- **C17** (budget): gas plus stars equals the accreted baryons `cumulative(fb dMh/dt)` at every time. -/
theorem C17_gas_budget {M : Type*} (logMah dMhDt : M → ℝ → ℝ → ℝ) (p : DiffstarParams ℝ) (mah : M)
    (tarr : List ℝ) (lgt0 fb : ℝ) :
    let h := calcMgasSinglegal logMah dMhDt p mah tarr lgt0 fb
    h.sfh = calcSfhSinglegal logMah p mah tarr lgt0 fb ∧
    h.smh = cumulativeMstarFormed tarr h.sfh ∧ h.mgash.length = tarr.length ∧
    List.zipWith (fun g s => g + s) h.mgash h.smh =
      cumulativeMstarFormed tarr (tarr.map fun t => fb * dMhDt mah t lgt0) := by
  refine ⟨rfl, rfl, ?_, ?_⟩
  · simp [calcMgasSinglegal, gasFromHistories, sfhSinglegalKern, cmf_length]
  · simp only [calcMgasSinglegal, gasFromHistories, List.map_map, Function.comp_def]
    apply List.ext_getElem
    · simp [sfhSinglegalKern, cmf_length]
    · intro i h1 h2
      simp

/-- **C17** (integral form): the gas mass at `t[i]` is `1e9` times the integral from `0.001` to `t[i]` of
the linear interpolant of `fb dMh/dt - SFR`, which starts from zero at `0.001` (the SFR floor used to pad
both tables cancels). -/
theorem C17_gas_is_integral {M : Type*} (logMah dMhDt : M → ℝ → ℝ → ℝ) (p : DiffstarParams ℝ)
    (mah : M) (tarr : List ℝ) (lgt0 fb : ℝ) (hinc : Increasing (0.001 :: tarr)) (net : List ℝ)
    (hnl : net.length = tarr.length)
    (hnet : ∀ i (hi : i < tarr.length), ∃ s, (calcSfhSinglegal logMah p mah tarr lgt0 fb)[i]? = some s ∧
      net[i] = fb * dMhDt mah tarr[i] lgt0 - s) (f : ℝ → ℝ)
    (hf : IsLinInterp (0.001 :: tarr) (0 :: net) f) (i : ℕ) (hi : i < tarr.length) :
    (calcMgasSinglegal logMah dMhDt p mah tarr lgt0 fb).mgash[i]? =
      some (10 ^ 9 * ∫ x in (0.001 : ℝ)..tarr[i], f x) := by
  have e : net = List.zipWith (fun x y => x - y) ((tarr.map fun t => dMhDt mah t lgt0).map fun x => fb * x)
      (sfhSinglegalKern logMah tarr mah p.ms p.q lgt0 fb) := by
    apply List.ext_getElem
    · simp [hnl, sfhSinglegalKern]
    · intro j h1 h2
      obtain ⟨s, hs, he⟩ := hnet j (by omega)
      rw [he]
      simp only [calcSfhSinglegal] at hs
      have hj : j < (sfhSinglegalKern logMah tarr mah p.ms p.q lgt0 fb).length := by
        simp [sfhSinglegalKern]; omega
      rw [List.getElem?_eq_getElem hj, Option.some.injEq] at hs
      simp [hs]
  simp only [calcMgasSinglegal]
  rw [mgas_eq, ← e, List.getElem?_map, (trapFrom_integral 0.001 0 0 tarr net hnl hinc f hf i hi).2]
  simp only [Option.map_some, zero_add, Option.some.injEq]
  ring

example : ∃ f, Increasing (0.001 :: [1, 2, 5]) ∧ IsLinInterp (0.001 :: [1, 2, 5]) (0 :: [3, -10, 2]) f := by
  have h : Increasing ((0.001 : ℝ) :: [1, 2, 5]) := by unfold Increasing; norm_num
  obtain ⟨f, hf⟩ := exists_linInterp (0.001 :: [1, 2, 5]) (0 :: [3, -10, 2]) h
  exact ⟨f, h, hf⟩

/-- **C18** (what holds): if at every table time the SFR does not exceed the gas inflow `fb dMh/dt`, the
gas mass is non-negative. Missing from the full claim: halos whose SFR exceeds their inflow. -/
theorem C18_gas_nonneg_partial {M : Type*} (logMah dMhDt : M → ℝ → ℝ → ℝ) (p : DiffstarParams ℝ)
    (mah : M) (tarr : List ℝ) (lgt0 fb : ℝ) (hinc : Increasing (0.001 :: tarr))
    (hle : ∀ i (hi : i < tarr.length), ∃ s, (calcSfhSinglegal logMah p mah tarr lgt0 fb)[i]? = some s ∧
      s ≤ fb * dMhDt mah tarr[i] lgt0) :
    ∀ m ∈ (calcMgasSinglegal logMah dMhDt p mah tarr lgt0 fb).mgash, 0 ≤ m := by
  simp only [calcMgasSinglegal]
  rw [mgas_eq]
  unfold Increasing at hinc
  rw [List.pairwise_cons] at hinc
  have h := (trapFrom_mono 0.001 0 0 (tarr.zip (List.zipWith (fun x y => x - y)
    ((tarr.map fun t => dMhDt mah t lgt0).map fun x => fb * x)
      (sfhSinglegalKern logMah tarr mah p.ms p.q lgt0 fb))) le_rfl
      (fun p hp' => (hinc.1 _ (mem_zip_fst hp')).le)
      ((pairwise_zip hinc.2 _).imp fun h => h.le) (fun q hq => by
        have hq2 := mem_zip_snd hq
        obtain ⟨j, hj, he⟩ := List.getElem_of_mem hq2
        have hj' : j < tarr.length := by
          simp [sfhSinglegalKern] at hj; exact hj
        obtain ⟨s, hs, hle⟩ := hle j hj'
        simp only [calcSfhSinglegal] at hs
        have hj2 : j < (sfhSinglegalKern logMah tarr mah p.ms p.q lgt0 fb).length := by
          simp [sfhSinglegalKern]; omega
        rw [List.getElem?_eq_getElem hj2, Option.some.injEq] at hs
        rw [← he]
        simp [hs, hle])).1
  intro m hm
  obtain ⟨x, hx, rfl⟩ := List.mem_map.1 hm
  have := h x hx
  positivity

/-- A halo of mass 1e12 that accretes 1000 Msun/yr satisfies the hypotheses of `C18_gas_nonneg_partial`
with the default parameters. -/
example : Increasing ((0.001 : ℝ) :: [1, 2]) ∧ ∀ i (hi : i < ([1, 2] : List ℝ).length), ∃ s,
    (calcSfhSinglegal (M := Unit) (fun _ _ _ => 12) DEFAULT_DIFFSTAR_PARAMS () [1, 2] 1.1 0.156)[i]? = some s ∧
      s ≤ (0.156 : ℝ) * (fun _ _ _ => 1000 : Unit → ℝ → ℝ → ℝ) () ([1, 2] : List ℝ)[i] 1.1 := by
  refine ⟨by unfold Increasing; norm_num, ?_⟩
  intro i hi
  rw [calcSfhSinglegal_eq]
  refine ⟨_, by rw [List.getElem?_map, List.getElem?_eq_getElem hi]; rfl, ?_⟩
  have hq : (10 : ℝ) ^ qExp (Real.logb 10 ([1, 2] : List ℝ)[i]) DEFAULT_DIFFSTAR_PARAMS.lgQt
      ((10 : ℝ) ^ DEFAULT_DIFFSTAR_PARAMS.qlglgdt) DEFAULT_DIFFSTAR_PARAMS.lgDrop
      DEFAULT_DIFFSTAR_PARAMS.lgRejuv ≤ 1 :=
    Real.rpow_le_one_of_one_le_of_nonpos (by norm_num)
      (qExp_le_zero default_params_in_bounds.lgRejuv.1.le default_params_in_bounds.lgRejuv.2.le)
  have hms : msSfr DEFAULT_DIFFSTAR_PARAMS 0.156 12 = 15.6 := by
    have e12 : (10 : ℝ) ^ (12 : ℝ) = 10 ^ 12 := by
      rw [← Real.rpow_natCast]; norm_num
    have e10 : (10 : ℝ) ^ (-10 : ℝ) = 1 / 10 ^ 10 := by
      rw [Real.rpow_neg (by norm_num), ← Real.rpow_natCast, one_div]; norm_num
    simp only [msSfr, msLogEfficiency, DEFAULT_DIFFSTAR_PARAMS, DEFAULT_MS_PARAMS, DiffstarParams.join,
      sub_self, mul_zero, add_zero, e12, e10]
    norm_num
  simp only [hms]
  refine max_le (by norm_num) ?_
  linarith

/-- **C18** is violated: a halo of constant mass (no inflow, any mass) forms stars at least at the floor
rate, so its gas mass is negative. -/
theorem C18_gas_nonneg_violated :
    ¬ ∀ (logMah dMhDt : Unit → ℝ → ℝ → ℝ) (p : DiffstarParams ℝ) (tarr : List ℝ) (lgt0 fb : ℝ),
      InBounds p → Increasing (0.001 :: tarr) →
      (∀ t, HasDerivAt (fun s => (10 : ℝ) ^ logMah () s lgt0) (dMhDt () t lgt0) t) →
      ∀ m ∈ (calcMgasSinglegal logMah dMhDt p () tarr lgt0 fb).mgash, 0 ≤ m := by
  intro h
  have h1 := h (fun _ _ _ => 12) (fun _ _ _ => 0) DEFAULT_DIFFSTAR_PARAMS [1] 1.14 0.156
    default_params_in_bounds (by unfold Increasing; norm_num) (fun t => hasDerivAt_const t _)
  obtain ⟨s, hs⟩ : ∃ s, sfhSinglegalKern (M := Unit) (fun _ _ _ => 12) [1] () DEFAULT_DIFFSTAR_PARAMS.ms
      DEFAULT_DIFFSTAR_PARAMS.q 1.14 0.156 = [s] := ⟨_, rfl⟩
  have hpos : 0 < s := by
    have := (C04_sfr_floor (n := 0) (M := Unit) (fun _ _ _ => 12) (fun _ _ _ => 0) (fun _ _ _ => 12)
      (fun _ _ _ => 0) DEFAULT_DIFFSTAR_PARAMS () ⟨0, 0, 0, 0, 0, 0, 0, 0⟩ ⟨0, 0, 0, 0, 0⟩ [1]
      (by norm_num) 1.14 0.156).1
    rw [calcSfhSinglegal, hs] at this
    exact lt_of_lt_of_le (by norm_num) (this s (by simp))
  simp only [calcMgasSinglegal] at h1
  rw [mgas_eq, hs] at h1
  simp only [List.map_cons, List.map_nil, List.zipWith_cons_cons, List.zipWith_nil_left,
    List.zip_cons_cons, List.zip_nil_left, trapFrom_cons, trapFrom_nil, List.mem_singleton,
    forall_eq] at h1
  norm_num at h1
  linarith

/-- **C19**: the net gas rate is the centred difference of the gas mass at interior times and the
forward difference at the first; if the gas mass is affine in time with slope `c` Msun/yr then the rate is
`c` at every entry, including the last. -/
theorem C19_net_gas_rate {M : Type*} (logMah dMhDt : M → ℝ → ℝ → ℝ) (p : DiffstarParams ℝ)
    (mah : M) (tarr : List ℝ) (lgt0 fb : ℝ) (hinc : Increasing tarr) (h3 : 3 ≤ tarr.length) :
    let h := calcMgasSinglegal logMah dMhDt p mah tarr lgt0 fb
    ∃ d, h.dmgash = some d ∧ ∃ (hl : d.length = tarr.length) (hm : h.mgash.length = tarr.length),
      (∀ i (h0 : 0 < i) (h1 : i + 1 < tarr.length),
        d[i]'(by omega) * (tarr[i + 1] - tarr[i - 1]) * 10 ^ 9 =
          h.mgash[i + 1]'(by omega) - h.mgash[i - 1]'(by omega)) ∧
      d[0]'(by omega) * (tarr[1]'(by omega) - tarr[0]'(by omega)) * 10 ^ 9 =
        h.mgash[1]'(by omega) - h.mgash[0]'(by omega) ∧
      (∀ c b, (∀ i (hi : i < tarr.length), h.mgash[i]'(by omega) = c * 10 ^ 9 * tarr[i] + b) →
        ∀ i (hi : i < tarr.length), d[i]'(by omega) = c) := by
  intro h
  have hm : h.mgash.length = tarr.length := (C17_gas_budget logMah dMhDt p mah tarr lgt0 fb).2.2.1
  obtain ⟨dt, hdt, hdtl, t0, ti, tl⟩ := jaxGetDt_some tarr h3
  obtain ⟨dm, hdm, hdml, m0, mi, ml⟩ := jaxGetDt_some h.mgash (by omega)
  have hd : h.dmgash = some (List.zipWith (fun a b => a / b / 10 ^ 9) dm dt) := by
    have e : h.dmgash = match jaxGetDtArray h.mgash, jaxGetDtArray tarr with
      | some dm, some dt => some (List.zipWith (fun a b => a / b / 10 ^ 9) dm dt)
      | _, _ => none := rfl
    rw [e, hdm, hdt]
  have lt : ∀ i j (hij : i < j) (hj : j < tarr.length), tarr[i] < tarr[j] := fun i j hij hj =>
    List.pairwise_iff_getElem.1 hinc i j (by omega) hj hij
  have hlen : (List.zipWith (fun a b => a / b / 10 ^ 9) dm dt).length = tarr.length := by
    simp [hdtl, hdml, hm]
  refine ⟨_, hd, hlen, hm, ?_, ?_, ?_⟩
  · intro i h0 h1
    rw [List.getElem_zipWith, mi i h0 (by omega), ti i h0 h1]
    have : tarr[i + 1] - tarr[i - 1] ≠ 0 := (sub_pos.2 (lt (i - 1) (i + 1) (by omega) h1)).ne'
    field_simp
  · rw [List.getElem_zipWith, m0, t0]
    have : tarr[1] - tarr[0] ≠ 0 := (sub_pos.2 (lt 0 1 (by omega) (by omega))).ne'
    field_simp
    norm_num
  · intro c b hc i hi
    rw [List.getElem_zipWith]
    have last : tarr.length - 1 = h.mgash.length - 1 := by omega
    by_cases hi0 : i = 0
    · subst hi0
      rw [m0, t0, hc 1 (by omega), hc 0 (by omega)]
      have : tarr[1] - tarr[0] ≠ 0 := (sub_pos.2 (lt 0 1 (by omega) (by omega))).ne'
      field_simp
      ring
    · by_cases hil : i + 1 < tarr.length
      · rw [mi i (by omega) (by omega), ti i (by omega) hil, hc (i + 1) (by omega), hc (i - 1) (by omega)]
        have : tarr[i + 1] - tarr[i - 1] ≠ 0 := (sub_pos.2 (lt (i - 1) (i + 1) (by omega) hil)).ne'
        field_simp
        ring
      · obtain rfl : i = tarr.length - 1 := by omega
        have ml' : dm[tarr.length - 1]'(by omega) =
            (h.mgash[tarr.length - 1]'(by omega) - h.mgash[tarr.length - 2]'(by omega)) / 2 +
            (h.mgash[tarr.length - 1]'(by omega) - h.mgash[tarr.length - 3]'(by omega)) / 4 := by
          simpa only [hm] using ml
        rw [ml', tl, hc (tarr.length - 1) (by omega), hc (tarr.length - 2) (by omega),
          hc (tarr.length - 3) (by omega)]
        have a := lt (tarr.length - 2) (tarr.length - 1) (by omega) (by omega)
        have b' := lt (tarr.length - 3) (tarr.length - 1) (by omega) (by omega)
        set x := tarr[tarr.length - 1]'(by omega)
        set y := tarr[tarr.length - 2]'(by omega)
        set z := tarr[tarr.length - 3]'(by omega)
        have : (x - y) / 2 + (x - z) / 4 ≠ 0 := by
          have : 0 < (x - y) / 2 + (x - z) / 4 := by linarith
          exact this.ne'
        rw [div_div, div_eq_iff (by positivity)]
        ring

example : Increasing ([1, 2, 5] : List ℝ) ∧ 3 ≤ ([1, 2, 5] : List ℝ).length := by
  unfold Increasing; norm_num

/-! ### C20 -/

/-- **C20** (agreement): the loop and the vectorised time-step functions agree for every table with at
least three entries. -/
theorem C20_dt_implementations_agree (t : List ℝ) (h : 3 ≤ t.length) :
    jaxGetDtArray t = getDtArray t ∧ (jaxGetDtArray t).isSome := by
  obtain ⟨d, hd, hl, a0, ai, al⟩ := jaxGetDt_some t h
  obtain ⟨d', hd', hl', b0, bi, bl⟩ := getDt_some t (by omega)
  rw [hd, hd']
  refine ⟨congrArg some (List.ext_getElem (by omega) ?_), rfl⟩
  intro i h1 h2
  by_cases hi0 : i = 0
  · subst hi0; rw [a0, b0]
  · by_cases hil : i + 1 < t.length
    · rw [ai i (by omega) hil, bi i (by omega) hil]
    · obtain rfl : i = t.length - 1 := by omega
      have hbb := bi (t.length - 2) (by omega) (by omega)
      have e1 : t[t.length - 2 + 1]'(by omega) = t[t.length - 1]'(by omega) := by congr 1; omega
      have e2 : t[t.length - 2 - 1]'(by omega) = t[t.length - 3]'(by omega) := by congr 1
      rw [e1, e2] at hbb
      rw [al, bl, hbb]
      ring

/-- **C20** (tiling): for tables with at least two entries the loop version returns one width per entry;
the first `k+1` bins reach exactly the midpoint of `t[k]` and `t[k+1]` starting from
`t[0] - (t[1]-t[0])/2`; all widths are positive for increasing tables, and the last bin ends at
`t[-1] + dt[-2]/2`. -/
theorem C20_dt_tiles (t : List ℝ) (h : 2 ≤ t.length) :
    ∃ d, getDtArray t = some d ∧ ∃ hl : d.length = t.length,
      (∀ k (hk : k + 1 < t.length), (d.take (k + 1)).sum =
        (t[k] + t[k + 1]) / 2 - (t[0]'(by omega) - (t[1]'(by omega) - t[0]'(by omega)) / 2)) ∧
      d.sum = (t[t.length - 1]'(by omega) + d[t.length - 2]'(by omega) / 2) -
        (t[0]'(by omega) - (t[1]'(by omega) - t[0]'(by omega)) / 2) ∧
      (Increasing t → ∀ w ∈ d, 0 < w) := by
  obtain ⟨d, hd, hl, b0, bi, bl⟩ := getDt_some t h
  have hpre := dt_prefix_sum t d hl h b0 bi
  refine ⟨d, hd, hl, hpre, ?_, ?_⟩
  · have e : d = d.take (t.length - 2 + 1 + 1) := by
      rw [List.take_of_length_le (by omega)]
    have hs : d.sum = (d.take (t.length - 2 + 1)).sum + d[t.length - 2 + 1]'(by omega) := by
      conv_lhs => rw [e]
      rw [List.sum_take_succ _ _ (by omega)]
    have e1 : d[t.length - 2 + 1]'(by omega) = d[t.length - 1]'(by omega) := by congr 1; omega
    have e2 : t[t.length - 2 + 1]'(by omega) = t[t.length - 1]'(by omega) := by congr 1; omega
    rw [hs, hpre (t.length - 2) (by omega), e1, bl, e2]
    ring
  · intro hinc
    have lt : ∀ i j (hij : i < j) (hj : j < t.length), t[i] < t[j] := fun i j hij hj =>
      List.pairwise_iff_getElem.1 hinc i j (by omega) hj hij
    have pos : ∀ i (hi : i + 1 < t.length), 0 < d[i]'(by omega) := by
      intro i hi
      by_cases hi0 : i = 0
      · subst hi0; rw [b0]; linarith [lt 0 1 (by omega) (by omega)]
      · rw [bi i (by omega) hi]; linarith [lt (i - 1) (i + 1) (by omega) hi]
    intro w hw
    obtain ⟨i, hi, rfl⟩ := List.getElem_of_mem hw
    by_cases hil : i + 1 < t.length
    · exact pos i hil
    · obtain rfl : i = t.length - 1 := by omega
      rw [bl]
      have := pos (t.length - 2) (by omega)
      have := lt (t.length - 2) (t.length - 1) (by omega) (by omega)
      linarith

/-- **C20** (error branch): with fewer than two entries the loop version raises. -/
theorem C20_dt_short_table_raises (t : List ℝ) : getDtArray t = none ↔ t.length < 2 := by
  match t with
  | [] => simp [getDtArray]
  | [a] => simp [getDtArray]
  | a :: b :: r => simp [getDtArray]

example : getDtArray [1, 2, 4] = some [1, 1.5, 1.75] := by
  norm_num [getDtArray, getDtLoop]

end Diffstar.Props
