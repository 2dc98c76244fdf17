import Verif.Model.Rounding
import Mathlib.Tactic.Linarith
import Mathlib.Tactic.NormNum
import Mathlib.Tactic.Ring
import Mathlib.Tactic.FieldSimp
import Mathlib.Tactic.GCongr
import Mathlib.Tactic.Positivity

/-! Rounding to floating-point numbers, and a calculus of rounding errors. -/

namespace Diffstar

theorem roundEven_cases (x : ℝ) :
    (roundEven x = ⌊x⌋ ∧ x - ⌊x⌋ ≤ 1 / 2) ∨ (roundEven x = ⌊x⌋ + 1 ∧ 1 / 2 ≤ x - ⌊x⌋) := by
  unfold roundEven
  split_ifs with h1 h2 h3
  · exact Or.inl ⟨rfl, h1.le⟩
  · exact Or.inr ⟨rfl, h2.le⟩
  · exact Or.inl ⟨rfl, not_lt.1 h2⟩
  · exact Or.inr ⟨rfl, not_lt.1 h1⟩

theorem roundEven_err (x : ℝ) : |(roundEven x : ℝ) - x| ≤ 1 / 2 := by
  have h1 := Int.floor_le x
  have h2 := Int.lt_floor_add_one x
  rcases roundEven_cases x with ⟨h, h'⟩ | ⟨h, h'⟩ <;> rw [h, abs_le]
  · constructor <;> linarith
  · push_cast
    constructor <;> linarith

theorem roundEven_eq {x : ℝ} {m : ℤ} (h : |x - m| < 1 / 2) : roundEven x = m := by
  have h1 := roundEven_err x
  have h2 : |(roundEven x : ℝ) - m| < 1 := by
    have := abs_add_le ((roundEven x : ℝ) - x) (x - m)
    rw [show (roundEven x : ℝ) - x + (x - m) = roundEven x - m by ring] at this
    linarith
  have h3 : |roundEven x - m| < 1 := by exact_mod_cast h2
  have := Int.abs_lt_one_iff.1 h3
  omega

theorem roundEven_tie {x : ℝ} {m : ℤ} (h : |x - m| ≤ 1 / 2) (he : Even m) : roundEven x = m := by
  rcases h.lt_or_eq with h | h
  · exact roundEven_eq h
  rcases (abs_eq (by norm_num)).1 h with h | h
  · have hf : ⌊x⌋ = m := Int.floor_eq_iff.2 ⟨by linarith, by linarith⟩
    unfold roundEven
    rw [hf, if_neg (by linarith), if_neg (by linarith), if_pos he]
  · have hf : ⌊x⌋ = m - 1 := Int.floor_eq_iff.2 ⟨by push_cast; linarith, by push_cast; linarith⟩
    unfold roundEven
    rw [hf, if_neg (by push_cast; linarith), if_neg (by push_cast; linarith),
      if_neg (by rw [Int.even_sub_one, not_not]; exact he)]
    ring

theorem roundEven_int (m : ℤ) : roundEven (m : ℝ) = m := roundEven_eq (by simp)

theorem roundEven_mono : Monotone roundEven := by
  intro x y hxy
  have hf := Int.floor_le_floor hxy
  rcases hf.lt_or_eq with h | h
  · have a : roundEven x ≤ ⌊x⌋ + 1 := by rcases roundEven_cases x with ⟨h, -⟩ | ⟨h, -⟩ <;> omega
    have b : ⌊y⌋ ≤ roundEven y := by rcases roundEven_cases y with ⟨h, -⟩ | ⟨h, -⟩ <;> omega
    omega
  · unfold roundEven
    rw [← h]
    split_ifs <;> first | omega | linarith

theorem ulp_pos (p : ℕ) (x : ℝ) : 0 < ulp p x := by unfold ulp; positivity

/-- The binade of a positive number. -/
theorem binade {x : ℝ} (hx : 0 < x) : (2 : ℝ) ^ Int.log 2 x ≤ x ∧ x < 2 ^ (Int.log 2 x + 1) := by
  have h1 := Int.zpow_log_le_self (b := 2) (by norm_num) hx
  have h2 := Int.lt_zpow_succ_log_self (b := 2) (by norm_num) x
  exact ⟨by exact_mod_cast h1, by exact_mod_cast h2⟩

theorem log_two_eq {x : ℝ} {k : ℤ} (h1 : (2 : ℝ) ^ k ≤ x) (h2 : x < 2 ^ (k + 1)) : Int.log 2 x = k := by
  have hx : 0 < x := lt_of_lt_of_le (by positivity) h1
  obtain ⟨a, b⟩ := binade hx
  have h3 := (zpow_lt_zpow_iff_right₀ (by norm_num : (1 : ℝ) < 2)).1 (a.trans_lt h2)
  have h4 := (zpow_lt_zpow_iff_right₀ (by norm_num : (1 : ℝ) < 2)).1 (h1.trans_lt b)
  omega

/-- The nearest number, for positive numbers. -/
noncomputable def posRound (p : ℕ) (x : ℝ) : ℝ := roundEven (x / ulp p x) * ulp p x

theorem posRound_err {p : ℕ} {x : ℝ} (hx : 0 < x) : |posRound p x - x| ≤ 2 ^ (-(p : ℤ)) * x := by
  have hu := ulp_pos p x
  have h1 := roundEven_err (x / ulp p x)
  have e : posRound p x - x = (roundEven (x / ulp p x) - x / ulp p x) * ulp p x := by
    unfold posRound
    field_simp
  rw [e, abs_mul, abs_of_pos hu]
  have h2 : ulp p x = 2 * 2 ^ (-(p : ℤ)) * 2 ^ Int.log 2 x := by
    unfold ulp
    rw [← zpow_one_add₀ (by norm_num), ← zpow_add₀ (by norm_num)]
    congr 1
    ring
  have h3 := (binade hx).1
  calc _ ≤ 1 / 2 * ulp p x := mul_le_mul_of_nonneg_right h1 hu.le
    _ = 2 ^ (-(p : ℤ)) * 2 ^ Int.log 2 x := by rw [h2]; ring
    _ ≤ _ := mul_le_mul_of_nonneg_left h3 (by positivity)

/-- Numbers with at most `p` significant bits are not rounded. -/
theorem posRound_exact {p : ℕ} {m : ℕ} (hm : m < 2 ^ p) (k : ℤ) : posRound p (m * 2 ^ k) = m * 2 ^ k := by
  rcases Nat.eq_zero_or_pos m with rfl | hm0
  · have : roundEven (0 : ℝ) = 0 := by exact_mod_cast roundEven_int 0
    simp [posRound, this]
  have hx : (0 : ℝ) < m * 2 ^ k := by positivity
  obtain ⟨a, b⟩ := binade hx
  have h1 : (m : ℝ) * 2 ^ k < 2 ^ ((p : ℤ) + k) := by
    rw [zpow_add₀ (by norm_num)]
    refine mul_lt_mul_of_pos_right ?_ (by positivity)
    rw [zpow_natCast]
    exact_mod_cast hm
  have h2 := (zpow_lt_zpow_iff_right₀ (by norm_num : (1 : ℝ) < 2)).1 (a.trans_lt h1)
  obtain ⟨j, hj⟩ : ∃ j : ℕ, k - (Int.log 2 ((m : ℝ) * 2 ^ k) + 1 - p) = j :=
    ⟨(k - (Int.log 2 ((m : ℝ) * 2 ^ k) + 1 - p)).toNat, by omega⟩
  have h3 : (m : ℝ) * 2 ^ k / ulp p (m * 2 ^ k) = ((m * 2 ^ j : ℤ) : ℝ) := by
    unfold ulp
    rw [mul_div_assoc, ← zpow_sub₀ (by norm_num), hj]
    push_cast
    rfl
  unfold posRound
  rw [h3, roundEven_int, ← h3]
  have := ulp_pos p (m * 2 ^ k)
  field_simp

theorem posRound_pow {p : ℕ} (hp : 1 ≤ p) (k : ℤ) : posRound p (2 ^ k) = 2 ^ k := by
  have := posRound_exact (p := p) (m := 1) (Nat.one_lt_two_pow (by omega)) k
  simpa using this

theorem posRound_mono_binade {p : ℕ} {x y : ℝ} (h : Int.log 2 x = Int.log 2 y) (hxy : x ≤ y) :
    posRound p x ≤ posRound p y := by
  have e : ulp p x = ulp p y := by unfold ulp; rw [h]
  unfold posRound
  rw [e]
  refine mul_le_mul_of_nonneg_right ?_ (ulp_pos p y).le
  exact_mod_cast roundEven_mono (div_le_div_of_nonneg_right hxy (ulp_pos p y).le)

theorem posRound_bounds {p : ℕ} (hp : 1 ≤ p) {x : ℝ} (hx : 0 < x) :
    (2 : ℝ) ^ Int.log 2 x ≤ posRound p x ∧ posRound p x ≤ 2 ^ (Int.log 2 x + 1) := by
  obtain ⟨a, b⟩ := binade hx
  have hu := ulp_pos p x
  constructor
  · have := posRound_mono_binade (p := p) (x := 2 ^ Int.log 2 x) (y := x)
      (log_two_eq le_rfl (zpow_lt_zpow_right₀ (by norm_num) (by omega))) a
    rwa [posRound_pow hp] at this
  · unfold posRound
    have h1 : x / ulp p x ≤ ((2 ^ p : ℤ) : ℝ) := by
      rw [div_le_iff₀ hu]
      unfold ulp
      have : (((2 ^ p : ℤ) : ℝ)) = 2 ^ (p : ℤ) := by push_cast; rw [zpow_natCast]
      rw [this, ← zpow_add₀ (by norm_num), show (p : ℤ) + (Int.log 2 x + 1 - p) = Int.log 2 x + 1 by ring]
      exact b.le
    have h2 := roundEven_mono h1
    rw [roundEven_int] at h2
    have h3 : (roundEven (x / ulp p x) : ℝ) ≤ ((2 ^ p : ℤ) : ℝ) := by exact_mod_cast h2
    refine (mul_le_mul_of_nonneg_right h3 hu.le).trans (le_of_eq ?_)
    unfold ulp
    have : (((2 ^ p : ℤ) : ℝ)) = 2 ^ (p : ℤ) := by push_cast; rw [zpow_natCast]
    rw [this, ← zpow_add₀ (by norm_num)]
    congr 1
    ring

theorem posRound_mono {p : ℕ} (hp : 1 ≤ p) {x y : ℝ} (hx : 0 < x) (hxy : x ≤ y) : posRound p x ≤ posRound p y := by
  have hy := hx.trans_le hxy
  rcases (Int.log_mono_right (b := 2) hx hxy).lt_or_eq with h | h
  · refine (posRound_bounds hp hx).2.trans (le_trans ?_ (posRound_bounds hp hy).1)
    exact zpow_le_zpow_right₀ (by norm_num) (by omega)
  · exact posRound_mono_binade h hxy

theorem posRound_idem {p : ℕ} (hp : 1 ≤ p) {x : ℝ} (hx : 0 < x) : posRound p (posRound p x) = posRound p x := by
  have hb := posRound_bounds hp hx
  have hu := ulp_pos p x
  have h0 : 0 ≤ roundEven (x / ulp p x) := by
    have := roundEven_mono (a := ((0 : ℤ) : ℝ)) (b := x / ulp p x) (by push_cast; positivity)
    rwa [roundEven_int] at this
  obtain ⟨m, hm⟩ := Int.eq_ofNat_of_zero_le h0
  have e : posRound p x = m * 2 ^ (Int.log 2 x + 1 - p) := by
    show (roundEven (x / ulp p x) : ℝ) * ulp p x = _
    rw [hm]
    rfl
  have hle : m ≤ 2 ^ p := by
    have h1 := hb.2
    have h3 : (2 : ℝ) ^ (Int.log 2 x + 1) = 2 ^ (p : ℤ) * 2 ^ (Int.log 2 x + 1 - p) := by
      rw [← zpow_add₀ (by norm_num)]
      congr 1
      ring
    rw [e, h3] at h1
    have h2 := le_of_mul_le_mul_right h1 (by positivity)
    rw [zpow_natCast] at h2
    exact_mod_cast h2
  rw [e]
  rcases hle.lt_or_eq with h | h
  · exact posRound_exact h _
  · have : (m : ℝ) * 2 ^ (Int.log 2 x + 1 - p) = 2 ^ (Int.log 2 x + 1) := by
      rw [h]
      push_cast
      rw [← zpow_natCast, ← zpow_add₀ (by norm_num)]
      congr 1
      ring
    rw [this, posRound_pow hp]

theorem posRound_pos {p : ℕ} (hp : 1 ≤ p) {x : ℝ} (hx : 0 < x) : 0 < posRound p x :=
  lt_of_lt_of_le (by positivity) (posRound_bounds hp hx).1

theorem ieee_pos {p : ℕ} {x : ℝ} (hx : 0 < x) : ieee p x = posRound p x := if_pos hx.le

theorem ieee_zero (p : ℕ) : ieee p 0 = 0 := by
  have := posRound_exact (p := p) (m := 0) (by positivity) 0
  unfold ieee
  rw [if_pos le_rfl]
  simpa [posRound] using this

theorem ieee_neg_of_pos {p : ℕ} {x : ℝ} (hx : 0 < x) : ieee p (-x) = -posRound p x := by
  unfold ieee
  rw [if_neg (by linarith), neg_neg]
  rfl

theorem ieee_neg (p : ℕ) (x : ℝ) : ieee p (-x) = -ieee p x := by
  rcases lt_trichotomy x 0 with h | h | h
  · obtain ⟨y, hy, rfl⟩ : ∃ y > 0, x = -y := ⟨-x, by linarith, by ring⟩
    rw [neg_neg, ieee_neg_of_pos hy, ieee_pos hy, neg_neg]
  · rw [h, neg_zero, ieee_zero, neg_zero]
  · rw [ieee_neg_of_pos h, ieee_pos h]

/-- Rounding to nearest is a rounding with unit roundoff `2 ** -p`. -/
noncomputable def nearest (p : ℕ) (hp : 1 ≤ p) : Rounding where
  fl := ieee p
  u := 2 ^ (-(p : ℤ))
  mono := by
    intro x y hxy
    rcases lt_trichotomy x 0 with h | h | h
    · obtain ⟨a, ha, rfl⟩ : ∃ a > 0, x = -a := ⟨-x, by linarith, by ring⟩
      rcases lt_trichotomy y 0 with h' | h' | h'
      · obtain ⟨b, hb, rfl⟩ : ∃ b > 0, y = -b := ⟨-y, by linarith, by ring⟩
        rw [ieee_neg_of_pos ha, ieee_neg_of_pos hb]
        exact neg_le_neg (posRound_mono hp hb (by linarith))
      · rw [h', ieee_zero, ieee_neg_of_pos ha]
        linarith [posRound_pos hp ha]
      · rw [ieee_neg_of_pos ha, ieee_pos h']
        linarith [posRound_pos hp ha, posRound_pos hp h']
    · rcases hxy.lt_or_eq with h' | h'
      · rw [h, ieee_zero, ieee_pos (h ▸ h')]
        exact (posRound_pos hp (h ▸ h')).le
      · rw [h']
    · rw [ieee_pos h, ieee_pos (h.trans_le hxy)]
      exact posRound_mono hp h hxy
  idem := by
    intro x
    rcases lt_trichotomy x 0 with h | h | h
    · obtain ⟨a, ha, rfl⟩ : ∃ a > 0, x = -a := ⟨-x, by linarith, by ring⟩
      rw [ieee_neg_of_pos ha, ieee_neg_of_pos (posRound_pos hp ha), posRound_idem hp ha]
    · rw [h, ieee_zero, ieee_zero]
    · rw [ieee_pos h, ieee_pos (posRound_pos hp h), posRound_idem hp h]
  neg := ieee_neg p
  one := by
    rw [ieee_pos one_pos]
    simpa using posRound_pow hp 0
  err := by
    intro x
    rcases lt_trichotomy x 0 with h | h | h
    · obtain ⟨a, ha, rfl⟩ : ∃ a > 0, x = -a := ⟨-x, by linarith, by ring⟩
      rw [ieee_neg_of_pos ha, abs_neg, abs_of_pos ha, show -posRound p a - -a = -(posRound p a - a) by ring, abs_neg]
      exact posRound_err ha
    · rw [h, ieee_zero]; simp
    · rw [ieee_pos h, abs_of_pos h]
      exact posRound_err h

/-- Single precision. -/
noncomputable def float32 : Rounding := nearest 24 (by norm_num)

/-- Double precision. -/
noncomputable def float64 : Rounding := nearest 53 (by norm_num)

/-- Evaluation of a rounding to single precision. -/
theorem float32_eq {x : ℝ} (m : ℕ) (k : ℤ) (h1 : 2 ^ 23 * 2 ^ k ≤ x) (h2 : x < 2 ^ 24 * 2 ^ k)
    (h : |x - m * 2 ^ k| < 2 ^ k / 2) : float32.fl x = m * 2 ^ k := by
  have h1' : (2 : ℝ) ^ (k + 23) ≤ x := by rw [zpow_add₀ (by norm_num)]; norm_num at h1 ⊢; linarith
  have h2' : x < (2 : ℝ) ^ (k + 23 + 1) := by
    rw [add_assoc, zpow_add₀ (by norm_num)]; norm_num at h2 ⊢; linarith
  have hx : 0 < x := lt_of_lt_of_le (by positivity) h1'
  have hl := log_two_eq h1' h2'
  show ieee 24 x = _
  rw [ieee_pos hx]
  have hu : ulp 24 x = 2 ^ k := by
    unfold ulp
    rw [hl]
    congr 1
    push_cast
    ring
  unfold posRound
  rw [hu]
  have hk : (0 : ℝ) < 2 ^ k := by positivity
  rw [roundEven_eq (m := m)]
  · simp
  · have e : x / 2 ^ k - ((m : ℤ) : ℝ) = (x - m * 2 ^ k) / 2 ^ k := by
      push_cast
      field_simp
    rw [e, abs_div, abs_of_pos hk, div_lt_iff₀ hk]
    linarith

/-- Evaluation of a rounding to single precision, half-way cases included. -/
theorem float32_tie {x : ℝ} (m : ℕ) (he : Even m) (k : ℤ) (h1 : 2 ^ 23 * 2 ^ k ≤ x) (h2 : x < 2 ^ 24 * 2 ^ k)
    (h : |x - m * 2 ^ k| ≤ 2 ^ k / 2) : float32.fl x = m * 2 ^ k := by
  have h1' : (2 : ℝ) ^ (k + 23) ≤ x := by rw [zpow_add₀ (by norm_num)]; norm_num at h1 ⊢; linarith
  have h2' : x < (2 : ℝ) ^ (k + 23 + 1) := by
    rw [add_assoc, zpow_add₀ (by norm_num)]; norm_num at h2 ⊢; linarith
  have hx : 0 < x := lt_of_lt_of_le (by positivity) h1'
  have hl := log_two_eq h1' h2'
  show ieee 24 x = _
  rw [ieee_pos hx]
  have hu : ulp 24 x = 2 ^ k := by
    unfold ulp
    rw [hl]
    congr 1
    push_cast
    ring
  unfold posRound
  rw [hu]
  have hk : (0 : ℝ) < 2 ^ k := by positivity
  rw [roundEven_tie (m := m) ?_ (by exact_mod_cast he)]
  · simp
  · have e : x / 2 ^ k - ((m : ℤ) : ℝ) = (x - m * 2 ^ k) / 2 ^ k := by
      push_cast
      field_simp
    rw [e, abs_div, abs_of_pos hk, div_le_iff₀ hk]
    linarith

/-- Numbers with few bits are not rounded. -/
theorem float32_exact (m : ℕ) (hm : m < 2 ^ 24) (k : ℤ) : float32.fl (m * 2 ^ k) = m * 2 ^ k := by
  rcases Nat.eq_zero_or_pos m with rfl | h0
  · rw [Nat.cast_zero, zero_mul]
    exact ieee_zero 24
  · show ieee 24 _ = _
    rw [ieee_pos (by positivity)]
    exact posRound_exact hm k

/-- A number much smaller than the spacing is absorbed. -/
theorem float32_absorb {c d : ℝ} (hc : float32.fl c = c) (h1 : 1 ≤ c) (h0 : 0 ≤ d) (hd : d ≤ 2 ^ (-30 : ℤ)) :
    float32.fl (c + d) = c := by
  have hc0 : 0 < c := by linarith
  have hu := ulp_pos 24 c
  obtain ⟨a, b⟩ := binade hc0
  have hl : 0 ≤ Int.log 2 c := by
    have := (zpow_lt_zpow_iff_right₀ (by norm_num : (1 : ℝ) < 2)).1 ((by simpa using h1 : (2 : ℝ) ^ (0 : ℤ) ≤ c).trans_lt b)
    omega
  have hulp : (2 : ℝ) ^ (-23 : ℤ) ≤ ulp 24 c := zpow_le_zpow_right₀ (by norm_num) (by push_cast; omega)
  have hdu : d < ulp 24 c / 2 := by
    have : (2 : ℝ) ^ (-30 : ℤ) < 2 ^ (-23 : ℤ) / 2 := by norm_num
    exact hd.trans_lt (this.trans_le (div_le_div_of_nonneg_right hulp (by norm_num)))
  have e : c = roundEven (c / ulp 24 c) * ulp 24 c := by
    have : float32.fl c = posRound 24 c := ieee_pos hc0
    exact hc.symm.trans this
  set m := roundEven (c / ulp 24 c) with hm
  have htop : (2 : ℝ) ^ (Int.log 2 c + 1) = ((2 ^ 24 : ℤ) : ℝ) * ulp 24 c := by
    unfold ulp
    have : (((2 ^ 24 : ℤ) : ℝ)) = 2 ^ (24 : ℤ) := by norm_num
    rw [this, ← zpow_add₀ (by norm_num)]
    congr 1
    push_cast
    ring
  have hm1 : m + 1 ≤ 2 ^ 24 := by
    have h3 : (m : ℝ) * ulp 24 c < ((2 ^ 24 : ℤ) : ℝ) * ulp 24 c := by rw [← htop, ← e]; exact b
    have h4 : (m : ℝ) < ((2 ^ 24 : ℤ) : ℝ) := lt_of_mul_lt_mul_right h3 hu.le
    have h5 : m < 2 ^ 24 := by exact_mod_cast h4
    omega
  have hlog : Int.log 2 (c + d) = Int.log 2 c := by
    refine log_two_eq (by linarith) ?_
    rw [htop]
    have h6 : ((m + 1 : ℤ) : ℝ) * ulp 24 c ≤ ((2 ^ 24 : ℤ) : ℝ) * ulp 24 c :=
      mul_le_mul_of_nonneg_right (by exact_mod_cast hm1) hu.le
    push_cast at h6 ⊢
    linarith
  have hulp' : ulp 24 (c + d) = ulp 24 c := by unfold ulp; rw [hlog]
  show ieee 24 (c + d) = c
  rw [ieee_pos (by linarith)]
  unfold posRound
  rw [hulp', roundEven_eq (m := m), ← e]
  have : (c + d) / ulp 24 c - m = d / ulp 24 c := by
    have h7 : c / ulp 24 c = m := by rw [div_eq_iff hu.ne']; exact e
    rw [add_div, h7]
    ring
  rw [this, abs_of_nonneg (by positivity), div_lt_iff₀ hu]
  linarith

namespace Rounding

variable (R : Rounding)

theorem fl_zero : R.fl 0 = 0 := by
  have := R.neg 0
  rw [neg_zero] at this
  linarith

theorem u_nonneg : 0 ≤ R.u := by
  have := (abs_nonneg _).trans (R.err 1)
  simpa using this

theorem fl_nonneg {x : ℝ} (h : 0 ≤ x) : 0 ≤ R.fl x := R.fl_zero ▸ R.mono h

theorem fl_pos (hu : R.u < 1) {x : ℝ} (h : 0 < x) : 0 < R.fl x := by
  have := abs_le.1 (R.err x)
  rw [abs_of_pos h] at this
  nlinarith [this.1]

/-- `a` is computed for `x`, up to `k` roundings of numbers not larger than `A`. -/
def Approx (k : ℕ) (A a x : ℝ) : Prop := |x| ≤ A ∧ |a - x| ≤ ((1 + R.u) ^ k - 1) * A

variable {R}

theorem one_le_pow_u (k : ℕ) : 1 ≤ (1 + R.u) ^ k := one_le_pow₀ (by linarith [R.u_nonneg])

theorem Approx.exact (x : ℝ) : R.Approx 0 |x| x x := ⟨le_rfl, by simp⟩

theorem Approx.bound_nonneg {k : ℕ} {A a x : ℝ} (h : R.Approx k A a x) : 0 ≤ A := (abs_nonneg x).trans h.1

theorem Approx.mono {k l : ℕ} {A B a x : ℝ} (h : R.Approx k A a x) (hkl : k ≤ l) (hAB : A ≤ B) : R.Approx l B a x := by
  have h1 : (1 + R.u) ^ k ≤ (1 + R.u) ^ l := pow_le_pow_right₀ (by linarith [R.u_nonneg]) hkl
  have h2 := one_le_pow_u (R := R) k
  exact ⟨h.1.trans hAB, h.2.trans (mul_le_mul (by linarith) hAB h.bound_nonneg (by linarith))⟩

theorem Approx.abs_le {k : ℕ} {A a x : ℝ} (h : R.Approx k A a x) : |a| ≤ (1 + R.u) ^ k * A := by
  have := abs_add_le (a - x) x
  rw [sub_add_cancel] at this
  linarith [h.1, h.2]

theorem Approx.round {k : ℕ} {A a x : ℝ} (h : R.Approx k A a x) : R.Approx (k + 1) A (R.fl a) x := by
  refine ⟨h.1, ?_⟩
  have h1 := R.err a
  have h2 := h.abs_le
  have h3 := abs_add_le (R.fl a - a) (a - x)
  rw [sub_add_sub_cancel] at h3
  have h4 := mul_le_mul_of_nonneg_left h2 R.u_nonneg
  rw [pow_succ]
  linarith [h.2]

theorem Approx.add {k l : ℕ} {A B a b x y : ℝ} (h : R.Approx k A a x) (h' : R.Approx l B b y) :
    R.Approx (max k l) (A + B) (a + b) (x + y) := by
  have h1 := h.mono (le_max_left k l) le_rfl
  have h2 := h'.mono (le_max_right k l) le_rfl
  refine ⟨(abs_add_le _ _).trans (add_le_add h.1 h'.1), ?_⟩
  rw [add_sub_add_comm, mul_add]
  exact (abs_add_le _ _).trans (add_le_add h1.2 h2.2)

theorem Approx.neg {k : ℕ} {A a x : ℝ} (h : R.Approx k A a x) : R.Approx k A (-a) (-x) := by
  refine ⟨by rw [abs_neg]; exact h.1, ?_⟩
  rw [← neg_sub', abs_neg]
  exact h.2

theorem Approx.sub {k l : ℕ} {A B a b x y : ℝ} (h : R.Approx k A a x) (h' : R.Approx l B b y) :
    R.Approx (max k l) (A + B) (a - b) (x - y) := by
  rw [sub_eq_add_neg, sub_eq_add_neg]
  exact h.add h'.neg

theorem Approx.mul {k l : ℕ} {A B a b x y : ℝ} (h : R.Approx k A a x) (h' : R.Approx l B b y) :
    R.Approx (k + l) (A * B) (a * b) (x * y) := by
  have hA := h.bound_nonneg
  have hB := h'.bound_nonneg
  refine ⟨by rw [abs_mul]; exact mul_le_mul h.1 h'.1 (abs_nonneg _) hA, ?_⟩
  have e : a * b - x * y = (a - x) * b + x * (b - y) := by ring
  rw [e]
  refine (abs_add_le _ _).trans ?_
  rw [abs_mul, abs_mul, pow_add]
  have h1 := mul_le_mul h.2 h'.abs_le (abs_nonneg _) (mul_nonneg (by linarith [one_le_pow_u (R := R) k]) hA)
  have h2 := mul_le_mul h.1 h'.2 (abs_nonneg _) hA
  refine (add_le_add h1 h2).trans (le_of_eq ?_)
  ring

theorem Approx.div_const {k : ℕ} {A a x : ℝ} (h : R.Approx k A a x) (c : ℝ) : R.Approx k (A / |c|) (a / c) (x / c) := by
  refine ⟨by rw [abs_div]; exact div_le_div_of_nonneg_right h.1 (abs_nonneg c), ?_⟩
  rw [← sub_div, abs_div, ← mul_div_assoc]
  exact div_le_div_of_nonneg_right h.2 (abs_nonneg c)

end Rounding

end Diffstar
