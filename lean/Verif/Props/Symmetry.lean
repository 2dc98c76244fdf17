import Verif.Props.Sfh

/-!
C114: scaling symmetries and locality of the star formation history.
-/

namespace Diffstar.Props

open Diffstar Diffstar.Spec

/-- **C114**, locality: the star formation rate at a time depends on the halo only through its mass at that time, and on the
table not at all: two tables and two halos (with different accretion models) that agree there have the same rate. -/
theorem C114_local {M M' : Type*} (logMah : M → ℝ → ℝ → ℝ) (logMah' : M' → ℝ → ℝ → ℝ) (p : DiffstarParams ℝ) (mah : M)
    (mah' : M') (tarr tarr' : List ℝ) (lgt0 lgt0' fb : ℝ) (i j : ℕ) (t : ℝ) (hi : tarr[i]? = some t)
    (hj : tarr'[j]? = some t) (hm : logMah mah t lgt0 = logMah' mah' t lgt0') :
    (calcSfhSinglegal logMah p mah tarr lgt0 fb)[i]? = (calcSfhSinglegal logMah' p mah' tarr' lgt0' fb)[j]? ∧
    (calcSfhSinglegal logMah p mah tarr lgt0 fb).length = tarr.length := by
  rw [calcSfhSinglegal_eq, calcSfhSinglegal_eq, List.getElem?_map, List.getElem?_map, hi, hj]
  simp only [Option.map_some, hm, List.length_map, and_self]

/-- **C114**, mass scaling: a halo `10**c` times more massive at every time, with `lgmcrit` larger by `c`, forms stars
`10**c` times faster (the floor excepted); and `lgy_at_mcrit` larger by `c` does the same for the same halo. -/
theorem C114_mass_scaling {M M' : Type*} (logMah : M → ℝ → ℝ → ℝ) (logMah' : M' → ℝ → ℝ → ℝ) (p p1 p2 : DiffstarParams ℝ)
    (mah : M) (mah' : M') (tarr : List ℝ) (lgt0 fb c : ℝ) (hp1 : p1 = { p with lgmcrit := p.lgmcrit + c })
    (hp2 : p2 = { p with lgyAtMcrit := p.lgyAtMcrit + c }) (i : ℕ) (hi : i < tarr.length)
    (hm : logMah' mah' tarr[i] lgt0 = logMah mah tarr[i] lgt0 + c) :
    ∃ s, (calcSfhSinglegal logMah p mah tarr lgt0 fb)[i]? = some (max (1 / 10 ^ 14) s) ∧
      (calcSfhSinglegal logMah' p1 mah' tarr lgt0 fb)[i]? = some (max (1 / 10 ^ 14) ((10 : ℝ) ^ c * s)) ∧
      (calcSfhSinglegal logMah p2 mah tarr lgt0 fb)[i]? = some (max (1 / 10 ^ 14) ((10 : ℝ) ^ c * s)) := by
  have h10 : (0 : ℝ) < 10 := by norm_num
  subst hp1 hp2
  simp only [calcSfhSinglegal_eq, List.getElem?_map, List.getElem?_eq_getElem hi, Option.map_some]
  refine ⟨_, rfl, ?_, ?_⟩
  · rw [hm]
    simp only [msSfr, msLogEfficiency, add_sub_add_right_eq_sub, Real.rpow_add h10]
    congr 2
    ring
  · simp only [msSfr, msLogEfficiency, Real.rpow_add h10]
    congr 2
    ring

/-- **C114**, time scaling: a halo that reaches the same masses at `c` times the cosmic times, with `lg_qt` larger by
`log10 c`, has the same star formation rates at the scaled times. -/
theorem C114_time_scaling {M M' : Type*} (logMah : M → ℝ → ℝ → ℝ) (logMah' : M' → ℝ → ℝ → ℝ) (p p' : DiffstarParams ℝ)
    (mah : M) (mah' : M') (tarr : List ℝ) (lgt0 lgt0' fb c : ℝ) (hc : 0 < c) (ht : ∀ t ∈ tarr, 0 < t)
    (hp : p' = { p with lgQt := p.lgQt + Real.logb 10 c })
    (hm : ∀ t ∈ tarr, logMah' mah' (c * t) lgt0' = logMah mah t lgt0) :
    calcSfhSinglegal logMah' p' mah' (tarr.map (c * ·)) lgt0' fb = calcSfhSinglegal logMah p mah tarr lgt0 fb := by
  subst hp
  rw [calcSfhSinglegal_eq, calcSfhSinglegal_eq, List.map_map]
  apply List.map_congr_left
  intro t h
  simp only [Function.comp_apply]
  rw [hm t h, Real.logb_mul hc.ne' (ht t h).ne']
  have e : ∀ m, msSfr { p with lgQt := p.lgQt + Real.logb 10 c } fb m = msSfr p fb m := fun _ => rfl
  have q : qExp (Real.logb 10 c + Real.logb 10 t) (p.lgQt + Real.logb 10 c) ((10 : ℝ) ^ p.qlglgdt) p.lgDrop p.lgRejuv =
      qExp (Real.logb 10 t) p.lgQt ((10 : ℝ) ^ p.qlglgdt) p.lgDrop p.lgRejuv := by
    unfold qExp
    rw [show Real.logb 10 c + Real.logb 10 t - (p.lgQt + Real.logb 10 c) = Real.logb 10 t - p.lgQt by ring]
  rw [e, q]

/-- A halo twice as massive and one that grows at half the speed. -/
example : ∃ (logMah logMah' : Unit → ℝ → ℝ → ℝ), (∀ t, logMah' () t 1.14 = logMah () t 1.14 + Real.logb 10 2) ∧
    ∃ logMah'' : Unit → ℝ → ℝ → ℝ, ∀ t, logMah'' () (2 * t) 1.14 = logMah () t 1.14 :=
  ⟨fun _ t _ => 12 + t / 10, fun _ t _ => 12 + t / 10 + Real.logb 10 2, fun _ => rfl, fun _ t _ => 12 + t / 20, fun t => by
    ring⟩

end Diffstar.Props
