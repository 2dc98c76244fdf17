import Verif.Props.Smh

/-! C143: which time tables give stellar mass histories that are positive and increase. -/

namespace Diffstar.Props

open Diffstar Diffstar.Spec

theorem trapFrom_chain_iff (a fa c : ℝ) (l : List (ℝ × ℝ)) (hfa : 0 < fa) (hp : ∀ p ∈ l, 0 < p.2) :
    (c :: trapFrom a fa c l).IsChain (· < ·) ↔ (a :: l.map Prod.fst).IsChain (· < ·) := by
  induction l generalizing a fa c with
  | nil => simp
  | cons x l ih =>
    obtain ⟨b, fb⟩ := x
    have hfb : 0 < fb := hp (b, fb) (by simp)
    have key : c < c + (b - a) * (fb + fa) / 2 ↔ a < b := by
      constructor
      · intro h
        by_contra hn
        have : (b - a) * (fb + fa) ≤ 0 := mul_nonpos_of_nonpos_of_nonneg (by linarith) (by linarith)
        linarith
      · intro h
        have : 0 < (b - a) * (fb + fa) := mul_pos (by linarith) (by linarith)
        linarith
    rw [trapFrom_cons, List.isChain_cons_cons, List.map_cons, List.isChain_cons_cons, key,
      ih b fb _ hfb fun p h => hp p (by simp [h])]

/-- **C143** (`cumulative_mstar_formed`): for positive star formation rates the masses are positive and strictly increasing
exactly if the times are strictly increasing and start after `T_BIRTH_MIN = 0.001`. -/
theorem C143_masses_increase_iff (t s : List ℝ) (hs : s.length = t.length) (hp : ∀ y ∈ s, 0 < y) :
    ((∀ m ∈ cumulativeMstarFormed t s, 0 < m) ∧ Increasing (cumulativeMstarFormed t s)) ↔
      Increasing (0.001 :: t) := by
  have h := trapFrom_chain_iff 0.001 (1 / 10 ^ 14) 0 (t.zip s) (by norm_num)
    fun p hp' => hp _ (mem_zip_snd hp')
  have hm : (t.zip s).map Prod.fst = t := List.map_fst_zip (by omega)
  rw [hm, List.isChain_iff_pairwise, List.isChain_iff_pairwise, List.pairwise_cons] at h
  unfold Increasing
  rw [← h, cmf_eq, List.pairwise_map]
  refine and_congr ⟨fun H m hm' => ?_, fun H m hm' => ?_⟩ ⟨fun H => H.imp fun h => by linarith,
    fun H => H.imp fun h => by linarith⟩
  · have := H _ (List.mem_map.2 ⟨m, hm', rfl⟩)
    linarith
  · obtain ⟨x, hx, rfl⟩ := List.mem_map.1 hm'
    have := H x hx
    positivity

/-- **C143** (`cumulative_mstar_formed`): between two neighbouring entries of the table the mass goes down exactly if the
time does, and stays the same exactly if the time is repeated, for positive rates. -/
theorem C143_step_sign (t s : List ℝ) (hs : s.length = t.length) (hp : ∀ y ∈ s, 0 < y) (i : ℕ)
    (hi : i + 1 < t.length) :
    ∃ m m', (cumulativeMstarFormed t s)[i]? = some m ∧ (cumulativeMstarFormed t s)[i + 1]? = some m' ∧
      (m' < m ↔ t[i + 1] < t[i]) ∧ (m' = m ↔ t[i + 1] = t[i]) := by
  obtain ⟨m, m', h1, h2, h3⟩ := C13_increment_local t s hs i hi
  refine ⟨m, m', h1, h2, ?_⟩
  have hq : 0 < s[i + 1] + s[i] := add_pos (hp _ (List.getElem_mem _)) (hp _ (List.getElem_mem _))
  have e : m' - m = (10 ^ 9 / 2 * (s[i + 1] + s[i])) * (t[i + 1] - t[i]) := by rw [h3]; ring
  have hk : 0 < 10 ^ 9 / 2 * (s[i + 1] + s[i]) := by positivity
  generalize 10 ^ 9 / 2 * (s[i + 1] + s[i]) = k at e hk
  constructor
  · constructor
    · intro h
      by_contra hn
      have : 0 ≤ k * (t[i + 1] - t[i]) := mul_nonneg hk.le (by linarith)
      linarith
    · intro h
      have : k * (t[i + 1] - t[i]) < 0 := mul_neg_of_pos_of_neg hk (by linarith)
      linarith
  · constructor
    · intro h
      have : k * (t[i + 1] - t[i]) = 0 := by linarith
      rcases mul_eq_zero.1 this with h' | h'
      · exact absurd h' hk.ne'
      · linarith
    · intro h
      rw [h, sub_self, mul_zero] at e
      linarith

/-- **C143** for the public functions: for every halo, every parameter vector and every table of positive times, the stellar
masses of `calc_sfh_singlegal`, `calc_sfh_galpop`, `calc_mgas_singlegal` and `calc_mgas_galpop` are positive and strictly
increasing exactly if the times are strictly increasing and start after 0.001 Gyr. -/
theorem C143_galaxy_masses_iff {M : Type*} {n : ℕ} (logMah dMhDt : M → ℝ → ℝ → ℝ)
    (logMah' dMhDt' : MahParams ℝ → ℝ → ℝ → ℝ)
    (p : DiffstarParams ℝ) (mah : M) (P : DiffstarParams (Fin n → ℝ)) (MAH : MahParams (Fin n → ℝ))
    (tarr : List ℝ) (ht : ∀ t ∈ tarr, 0 < t) (lgt0 fb : ℝ) :
    let good := fun l : List ℝ => (∀ m ∈ l, 0 < m) ∧ Increasing l
    (good (calcSfhSinglegalSmh logMah p mah tarr lgt0 fb).smh ↔ Increasing (0.001 :: tarr)) ∧
    (∀ i, good ((calcSfhGalpopSmh logMah' P MAH tarr lgt0 fb).smh i) ↔ Increasing (0.001 :: tarr)) ∧
    (good (calcMgasSinglegal logMah dMhDt p mah tarr lgt0 fb).smh ↔ Increasing (0.001 :: tarr)) ∧
    (∀ i, good (calcMgasGalpop logMah' dMhDt' P MAH tarr lgt0 fb i).smh ↔ Increasing (0.001 :: tarr)) := by
  have hfl := C04_sfr_floor logMah dMhDt logMah' dMhDt' p mah P MAH tarr ht lgt0 fb
  have pos : ∀ {l : List ℝ}, (∀ s ∈ l, 1 / 10 ^ 14 ≤ s) → ∀ s ∈ l, 0 < s := fun h s hs =>
    lt_of_lt_of_le (by norm_num) (h s hs)
  refine ⟨?_, fun i => ?_, ?_, fun i => ?_⟩
  · exact C143_masses_increase_iff tarr _ (by simp [sfhSinglegalKern]) (pos hfl.2.1)
  · exact C143_masses_increase_iff tarr _ (by simp [sfhGalpopKern, sfhSinglegalKern]) (pos (hfl.2.2.2.1 i))
  · exact C143_masses_increase_iff tarr _ (by simp [sfhSinglegalKern]) (pos hfl.2.2.2.2.1)
  · exact C143_masses_increase_iff tarr _ (by simp [sfhGalpopKern, sfhSinglegalKern])
      (pos (hfl.2.2.2.2.2 i))

/-- **C143**, the part of C12 that fails (`calc_sfh_singlegal` with `return_smh=True`): a table of positive increasing times
that starts before `T_BIRTH_MIN` gives a negative first stellar mass, for every galaxy; it is above `-1e6` times the mean of
the first rate and `SFR_MIN`. -/
theorem C143_early_start_negative {M : Type*} (logMah : M → ℝ → ℝ → ℝ) (p : DiffstarParams ℝ) (mah : M) (t0 : ℝ)
    (ts : List ℝ) (h0 : 0 < t0) (h1 : t0 < 0.001) (hts : ∀ t ∈ ts, 0 < t) (lgt0 fb : ℝ) :
    ∃ s0 m0, (calcSfhSinglegalSmh logMah p mah (t0 :: ts) lgt0 fb).sfh.head? = some s0 ∧
      (calcSfhSinglegalSmh logMah p mah (t0 :: ts) lgt0 fb).smh.head? = some m0 ∧
      m0 < 0 ∧ -(10 ^ 6 * ((s0 + 1 / 10 ^ 14) / 2)) < m0 := by
  have ht : ∀ t ∈ t0 :: ts, 0 < t := by
    intro t ht
    rcases List.mem_cons.1 ht with rfl | h
    · exact h0
    · exact hts t h
  have hfl := (C04_sfr_floor logMah logMah (fun _ _ _ => 0) (fun _ _ _ => 0) p mah
    (⟨0, 0, 0, 0, 0, 0, 0, 0⟩ : DiffstarParams (Fin 0 → ℝ)) (⟨0, 0, 0, 0, 0⟩ : MahParams (Fin 0 → ℝ)) (t0 :: ts) ht lgt0 fb).2.1
  have e : ∃ s0 s, (calcSfhSinglegalSmh logMah p mah (t0 :: ts) lgt0 fb).sfh = s0 :: s :=
    ⟨_, _, rfl⟩
  obtain ⟨s0, s, e⟩ := e
  have hs0 : 1 / 10 ^ 14 ≤ s0 := hfl s0 (by
    show s0 ∈ (calcSfhSinglegalSmh logMah p mah (t0 :: ts) lgt0 fb).sfh
    rw [e]; simp)
  have hm : (calcSfhSinglegalSmh logMah p mah (t0 :: ts) lgt0 fb).smh =
      cumulativeMstarFormed (t0 :: ts) (s0 :: s) := by rw [← e]; rfl
  refine ⟨s0, 10 ^ 9 * ((t0 - 0.001) * ((s0 + 1 / 10 ^ 14) / 2)), by rw [e]; rfl, ?_, ?_, ?_⟩
  · rw [hm, cmf_eq]; simp; ring
  all_goals
    have hk : 0 < (s0 + 1 / 10 ^ 14) / 2 := by
      have : (0 : ℝ) < 1 / 10 ^ 14 := by norm_num
      linarith
    generalize (s0 + 1 / 10 ^ 14) / 2 = k at hk
  · have : (t0 - 0.001) * k < 0 := mul_neg_of_neg_of_pos (by linarith) hk
    linarith
  · have : 0 < t0 * k := mul_pos h0 hk
    norm_num
    linarith

/-- The hypotheses are met by a table that starts at 0.5 Myr. -/
example : (0 : ℝ) < 0.0005 ∧ (0.0005 : ℝ) < 0.001 ∧ (∀ t ∈ ([1, 5, 13.8] : List ℝ), 0 < t) ∧
    ¬ Increasing (0.001 :: (0.0005 : ℝ) :: [1, 5, 13.8]) ∧ Increasing ((0.001 : ℝ) :: [0.01, 1, 5, 13.8]) := by
  unfold Increasing; norm_num

end Diffstar.Props
