import Verif.Spec
import Verif.Lemmas.Sigmoid
import Verif.Lemmas.Triweight

/-! Facts about the quenching function and the scalar SFH kernel. -/

namespace Diffstar

open Diffstar.Spec

theorem jaxPartialUTwKern_eq (x m h f1 f2 : ℝ) :
    jaxPartialUTwKern x m h f1 f2
      = f1 * jaxTw ((x - m) / h + 3) - f2 * jaxTw ((x - m) / h - 3) := by
  unfold jaxPartialUTwKern
  simp only
  split_ifs with hy
  · rw [jaxTw_lo (y := (x - m) / h - 3) (by linarith)]; ring
  · rw [jaxTw_hi (y := (x - m) / h + 3) (by linarith)]; ring

/-- Log of the quenching factor. -/
noncomputable def qExp (lgt qt dt drop rejuv : ℝ) : ℝ :=
  drop * jaxTw ((lgt - qt) / (dt / 12) + 3) - (drop - rejuv) * jaxTw ((lgt - qt) / (dt / 12) - 3)

theorem quenchingKern_eq (lgt qt dt drop rejuv : ℝ) :
    quenchingKern lgt qt dt drop rejuv = (10 : ℝ) ^ qExp lgt qt dt drop rejuv := by
  unfold quenchingKern qExp
  simp only [jaxPartialUTwKern_eq]

theorem qExp_before {lgt qt dt drop rejuv : ℝ} (hdt : 0 < dt) (h : lgt ≤ qt - dt / 2) :
    qExp lgt qt dt drop rejuv = 0 := by
  have : (lgt - qt) / (dt / 12) ≤ -6 := by
    rw [div_le_iff₀ (by positivity)]; linarith
  unfold qExp
  rw [jaxTw_lo (by linarith), jaxTw_lo (by linarith)]; ring

theorem qExp_at {qt dt drop rejuv : ℝ} :
    qExp qt qt dt drop rejuv = drop := by
  unfold qExp
  rw [sub_self, zero_div, jaxTw_hi (y := 0 + 3) (by norm_num), jaxTw_lo (y := 0 - 3) (by norm_num)]; ring

theorem qExp_after {lgt qt dt drop rejuv : ℝ} (hdt : 0 < dt) (h : qt + dt / 2 ≤ lgt) :
    qExp lgt qt dt drop rejuv = rejuv := by
  have : 6 ≤ (lgt - qt) / (dt / 12) := by
    rw [le_div_iff₀ (by positivity)]; linarith
  unfold qExp
  rw [jaxTw_hi (by linarith), jaxTw_hi (by linarith)]; ring

theorem qExp_le_zero {lgt qt dt drop rejuv : ℝ} (h1 : drop ≤ rejuv) (h2 : rejuv ≤ 0) :
    qExp lgt qt dt drop rejuv ≤ 0 := by
  unfold qExp
  have a := jaxTw_nonneg ((lgt - qt) / (dt / 12) - 3)
  have m : jaxTw ((lgt - qt) / (dt / 12) - 3) ≤ jaxTw ((lgt - qt) / (dt / 12) + 3) :=
    jaxTw_mono (by linarith)
  nlinarith [mul_nonneg (show 0 ≤ -drop by linarith) (sub_nonneg.2 m),
    mul_nonneg (show 0 ≤ -rejuv by linarith) a]

theorem qExp_ge_drop {lgt qt dt drop rejuv : ℝ} (h1 : drop ≤ rejuv) (h2 : rejuv ≤ 0) :
    drop ≤ qExp lgt qt dt drop rejuv := by
  unfold qExp
  have a := jaxTw_nonneg ((lgt - qt) / (dt / 12) - 3)
  have b := jaxTw_le_one ((lgt - qt) / (dt / 12) + 3)
  nlinarith [mul_nonneg (show 0 ≤ -drop by linarith) (sub_nonneg.2 b),
    mul_nonneg (show 0 ≤ rejuv - drop by linarith) a]

theorem nnSigmoid_eq (x : ℝ) : nnSigmoid x = 1 / (1 + Real.exp (-x)) := rfl

theorem sfhMsKernel_eq {M : Type*} (logMah : M → ℝ → ℝ → ℝ) (t : ℝ) (mah : M)
    (p : DiffstarParams ℝ) (lgt0 fb : ℝ) :
    sfhMsKernel logMah t mah p.ms lgt0 fb = msSfr p fb (logMah mah t lgt0) := by
  simp only [sfhMsKernel, msSfr, msLogEfficiency, sfrEffPlaw, sigmoid, nnSigmoid, INDX_K,
    DiffstarParams.ms]
  ring_nf

theorem msSfr_nonneg (p : DiffstarParams ℝ) {fb : ℝ} (hfb : 0 ≤ fb) (lgm : ℝ) :
    0 ≤ msSfr p fb lgm := by
  unfold msSfr; positivity

theorem if_lt_eq_max (a s : ℝ) : (if s < a then a else s) = max a s := by
  rcases lt_or_ge s a with h | h
  · rw [if_pos h, max_eq_left h.le]
  · rw [if_neg (not_lt.2 h), max_eq_right h]

theorem sfhSinglegalScalar_eq {M : Type*} (logMah : M → ℝ → ℝ → ℝ) (t : ℝ) (mah : M)
    (p : DiffstarParams ℝ) (lgt0 fb : ℝ) :
    sfhSinglegalScalar logMah t mah p.ms p.q lgt0 fb =
      max (1 / 10 ^ 14) ((10 : ℝ) ^ qExp (Real.logb 10 t) p.lgQt ((10 : ℝ) ^ p.qlglgdt) p.lgDrop p.lgRejuv
        * msSfr p fb (logMah mah t lgt0)) := by
  simp only [sfhSinglegalScalar, if_lt_eq_max, sfhMsKernel_eq, quenchingKern_eq, SFR_MIN,
    DiffstarParams.q]

theorem calcSfhSinglegal_eq {M : Type*} (logMah : M → ℝ → ℝ → ℝ) (p : DiffstarParams ℝ) (mah : M)
    (tarr : List ℝ) (lgt0 fb : ℝ) :
    calcSfhSinglegal logMah p mah tarr lgt0 fb = tarr.map fun t =>
      max (1 / 10 ^ 14) ((10 : ℝ) ^ qExp (Real.logb 10 t) p.lgQt ((10 : ℝ) ^ p.qlglgdt) p.lgDrop p.lgRejuv
        * msSfr p fb (logMah mah t lgt0)) := by
  simp only [calcSfhSinglegal, sfhSinglegalKern, sfhSinglegalScalar_eq]

end Diffstar
