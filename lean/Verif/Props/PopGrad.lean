import Verif.Model.PopGrad
import Verif.Props.PopNanSsfr
import Verif.Props.PopFit
import Verif.Props.Pop

/-! C95, C96: gradients returned by the flat-array wrappers; start and result of the population fit. -/

namespace Diffstar.Spec

open Diffstar.Pop Diffstar.PopLoss Filter Topology

/-- Automatic differentiation is correct: where the function is locally a differentiable function without NaN, it
returns its partial derivatives. -/
def IsAd (ad : Ad) : Prop :=
  ∀ (F : (PF → ℝ) → Option ℝ) (u : PF → ℝ) (g : (PF → ℝ) → ℝ), DifferentiableAt ℝ g u →
    (∀ᶠ v in 𝓝 u, F v = some (g v)) → ∀ k, ad F u k = some (fderiv ℝ g u (Pi.single k 1))

/-- The point `flat + t * v`. -/
noncomputable def along (flat : List ℝ) (t : ℝ) (v : List ℝ) : List ℝ := List.zipWith (fun a b => a + t * b) flat v

/-- The wrapper returns the loss `L` at `flat` and its gradient: 88 numbers whose product with any direction is the
derivative of the returned loss in that direction; unless they are all zero, a small step against them lowers the
loss. -/
def ReturnsGradient (wrapper : List ℝ → Option (Option ℝ × List (Option ℝ))) (flat : List ℝ) (L : ℝ) : Prop :=
  ∃ g : List ℝ, wrapper flat = some (some L, g.map some) ∧ g.length = 88 ∧
    (∀ v : List ℝ, v.length = 88 → ∃ φ : ℝ → ℝ, φ 0 = L ∧ HasDerivAt φ (List.zipWith (· * ·) g v).sum 0 ∧
      ∀ᶠ t in 𝓝 (0 : ℝ), ∃ g', wrapper (along flat t v) = some (some (φ t), g')) ∧
    ((∃ x ∈ g, x ≠ 0) → ∀ᶠ t in 𝓝[>] (0 : ℝ), ∃ L' < L, ∃ g', wrapper (along flat (-t) g) = some (some L', g'))

/-- Where the stellar mass loss is differentiable: late enough observation times, no history reaching its floor. -/
def RegularMstar {K : Type} {nk n nb : ℕ} (rng : Rng K) (logMah : MahParams ℝ → ℝ → ℝ → ℝ) (u : PF → ℝ)
    (d : MstarData K nk n nb) : Prop :=
  (∀ k, 0.1 < (d.samples k).tobs) ∧ ∀ k i,
    OffFloor (fun v => (mcSample rng logMah (getBoundedDiffstarpopParams v) (d.samples k) d.lgt0 d.fb i).sfhMs) u ∧
    OffFloor (fun v => (mcSample rng logMah (getBoundedDiffstarpopParams v) (d.samples k) d.lgt0 d.fb i).sfhQ) u

/-- Where the sSFR losses are differentiable: also no log sSFR exactly at -12. -/
def RegularSsfr {K : Type} {nk n nms nsf nz nm nt : ℕ} (rng : Rng K) (logMah : MahParams ℝ → ℝ → ℝ → ℝ) (u : PF → ℝ)
    (d : SsfrData K nk n nms nsf nz nm nt) : Prop :=
  (∀ k, 0.1 < (d.samples k).tobs) ∧ ∀ k i,
    (OffFloor (fun v => (mcSample rng logMah (getBoundedDiffstarpopParams v) (d.samples k) d.lgt0 d.fb i).sfhMs) u ∧
    OffFloor (fun v => (mcSample rng logMah (getBoundedDiffstarpopParams v) (d.samples k) d.lgt0 d.fb i).sfhQ) u) ∧
    OffClip (d.samples k).tobs
      (mcSample rng logMah (getBoundedDiffstarpopParams u) (d.samples k) d.lgt0 d.fb i).sfhMs ∧
    OffClip (d.samples k).tobs
      (mcSample rng logMah (getBoundedDiffstarpopParams u) (d.samples k) d.lgt0 d.fb i).sfhQ

end Diffstar.Spec

namespace Diffstar.Props

open Diffstar Diffstar.Spec Diffstar.Pop Diffstar.PopLoss Filter Topology

/-! ### Lists of 88 numbers -/

theorem fields_length : PF.fields.length = 88 := by decide +kernel

theorem fields_nodup : PF.fields.Nodup := by decide +kernel

theorem makeTuple_zipWith {F : Type} [DecidableEq F] {fields : List F} {a b : List ℝ} (f : ℝ → ℝ → ℝ) (k : F)
    (ha : a.length = fields.length) (hb : b.length = fields.length) (hk : k ∈ fields) :
    makeTuple fields (List.zipWith f a b) k = f (makeTuple fields a k) (makeTuple fields b k) := by
  have h := List.idxOf_lt_length_of_mem hk
  unfold makeTuple
  rw [List.getD_eq_getElem _ _ (by simp; omega), List.getD_eq_getElem _ _ (by omega),
    List.getD_eq_getElem _ _ (by omega), List.getElem_zipWith]

theorem map_makeTuple {F : Type} [DecidableEq F] {fields : List F} (hn : fields.Nodup) {a : List ℝ}
    (ha : a.length = fields.length) : fields.map (makeTuple fields a) = a := by
  refine List.ext_getElem (by simp [ha]) fun j h1 h2 => ?_
  rw [List.getElem_map]
  unfold makeTuple
  rw [hn.idxOf_getElem, List.getD_eq_getElem _ _ h2]

theorem sum_map_fields (f : PF → ℝ) : (PF.fields.map f).sum = ∑ k, f k := by
  rw [← List.sum_toFinset f fields_nodup]
  congr 1

theorem dot_fields (a b : PF → ℝ) : (List.zipWith (· * ·) (PF.fields.map a) (PF.fields.map b)).sum = ∑ k, a k * b k := by
  rw [zipWith_map_same, sum_map_fields]

theorem makeUParams_eq {flat : List ℝ} (h : flat.length = 88) : makeUParams flat = some (makeTuple PF.fields flat) := by
  unfold makeUParams
  rw [if_pos (by rw [h, fields_length])]

theorem gradWrapper_eq (ad : Ad) (F : (PF → ℝ) → Option ℝ) {flat : List ℝ} (h : flat.length = 88) :
    gradWrapper ad F flat = some (F (makeTuple PF.fields flat), PF.fields.map (ad F (makeTuple PF.fields flat))) := by
  unfold gradWrapper
  rw [makeUParams_eq h]
  rfl

/-! ### C95 -/

theorem returnsGradient_of {W : List ℝ → Option (Option ℝ × List (Option ℝ))} {F : (PF → ℝ) → Option ℝ} {flat : List ℝ}
    {L : ℝ} (h : flat.length = 88)
    (hW : ∀ fl : List ℝ, fl.length = 88 → ∃ g', W fl = some (F (makeTuple PF.fields fl), g')) {g : (PF → ℝ) → ℝ}
    (hd : DifferentiableAt ℝ g (makeTuple PF.fields flat)) (hgL : g (makeTuple PF.fields flat) = L)
    (e : ∀ᶠ v in 𝓝 (makeTuple PF.fields flat), F v = some (g v))
    (hflat : W flat = some (some L, (PF.fields.map fun k => fderiv ℝ g (makeTuple PF.fields flat) (Pi.single k 1)).map some)) :
    ReturnsGradient W flat L := by
  set u := makeTuple PF.fields flat with hu
  set G : PF → ℝ := fun k => fderiv ℝ g u (Pi.single k 1) with hG
  have hline : ∀ w : List ℝ, w.length = 88 → ∀ t, makeTuple PF.fields (along flat t w) =
      u + t • makeTuple PF.fields w := by
    intro w hw t
    funext k
    unfold along
    rw [makeTuple_zipWith (fun a b => a + t * b) k (by rw [h, fields_length]) (by rw [hw, fields_length])
      (PF.mem_fields k)]
    rfl
  have hlen : ∀ (w : List ℝ) (t : ℝ), w.length = 88 → (along flat t w).length = 88 := by
    intro w t hw
    simp [along, h, hw]
  have hdir : ∀ w : PF → ℝ, fderiv ℝ g u w = ∑ k, G k * w k := by
    intro w
    have := (fderiv ℝ g u).toLinearMap.pi_apply_eq_sum_univ w
    rw [show fderiv ℝ g u w = (fderiv ℝ g u).toLinearMap w from rfl, this]
    refine Finset.sum_congr rfl fun k _ => ?_
    have hsingle : (fun j => if k = j then (1 : ℝ) else 0) = Pi.single k 1 := by
      funext j
      rw [Pi.single_apply]
      exact if_congr eq_comm rfl rfl
    rw [smul_eq_mul, mul_comm, hsingle]
    rfl
  have hcont : ∀ w : PF → ℝ, Tendsto (fun t : ℝ => u + t • w) (𝓝 0) (𝓝 u) := by
    intro w
    have : Continuous fun t : ℝ => u + t • w := by fun_prop
    simpa using this.tendsto 0
  have hder : ∀ w : PF → ℝ, HasDerivAt (fun t : ℝ => g (u + t • w)) (∑ k, G k * w k) 0 := by
    intro w
    rw [← hdir w]
    have h1 : HasFDerivAt g (fderiv ℝ g u) (u + (0 : ℝ) • w) := by
      rw [zero_smul, add_zero]
      exact hd.hasFDerivAt
    have h2 : HasDerivAt (fun t : ℝ => u + t • w) w 0 := by
      have := ((hasDerivAt_id (0 : ℝ)).smul_const w).const_add u
      simpa using this
    exact h1.comp_hasDerivAt 0 h2
  refine ⟨PF.fields.map G, hflat, by rw [List.length_map, fields_length], ?_, ?_⟩
  · intro v hv
    refine ⟨fun t => g (u + t • makeTuple PF.fields v), by simp [hgL], ?_, ?_⟩
    · have hvm : PF.fields.map (makeTuple PF.fields v) = v := map_makeTuple fields_nodup (by rw [hv, fields_length])
      have := hder (makeTuple PF.fields v)
      rw [← dot_fields, hvm] at this
      exact this
    · filter_upwards [(hcont (makeTuple PF.fields v)).eventually e] with t ht
      obtain ⟨g', hg'⟩ := hW _ (hlen v t hv)
      exact ⟨g', by rw [hg', hline v hv, ht]⟩
  · rintro ⟨x, hx, hx0⟩
    obtain ⟨k, -, rfl⟩ := List.mem_map.1 hx
    have hgl : (PF.fields.map G).length = 88 := by rw [List.length_map, fields_length]
    have hGm : makeTuple PF.fields (PF.fields.map G) = G := funext fun k => makeTuple_map _ _ _ (PF.mem_fields k)
    have hpos : 0 < ∑ k, G k * G k := by
      rw [Finset.sum_pos_iff_of_nonneg fun k _ => mul_self_nonneg _]
      exact ⟨k, Finset.mem_univ _, mul_self_pos.2 hx0⟩
    have hneg : HasDerivAt (fun t : ℝ => g (u + t • (-G))) (∑ k, G k * (-G) k) 0 := hder (-G)
    have hlt : ∑ k, G k * (-G) k < 0 := by
      simp only [Pi.neg_apply, mul_neg, Finset.sum_neg_distrib]
      linarith
    have hdec := (hasDerivAt_iff_tendsto_slope.1 hneg).eventually (eventually_lt_nhds hlt)
    have hdec' : ∀ᶠ t in 𝓝[>] (0 : ℝ), slope (fun t : ℝ => g (u + t • (-G))) 0 t < 0 :=
      hdec.filter_mono (nhdsWithin_mono _ fun t ht => ne_of_gt ht)
    filter_upwards [hdec', ((hcont (-G)).mono_left nhdsWithin_le_nhds).eventually e, self_mem_nhdsWithin] with t h1 h2 h3
    have h3 : 0 < t := h3
    obtain ⟨g', hg'⟩ := hW _ (hlen _ (-t) hgl)
    refine ⟨g (u + t • (-G)), ?_, g', by rw [hg', hline _ hgl, hGm, neg_smul, ← smul_neg, h2]⟩
    rw [slope_def_field, sub_zero, div_neg_iff] at h1
    simp only [zero_smul, add_zero, hgL] at h1
    rcases h1 with h1 | h1 <;> linarith [h1.1, h1.2]

theorem gradWrapper_gradient {ad : Ad} (had : IsAd ad) {F : (PF → ℝ) → Option ℝ} {flat : List ℝ} {L : ℝ}
    (h : flat.length = 88) (hL : F (makeTuple PF.fields flat) = some L)
    (hs : ∃ g : (PF → ℝ) → ℝ, ContDiffAt ℝ (1 : ℕ) g (makeTuple PF.fields flat) ∧ g (makeTuple PF.fields flat) = L ∧
      ∀ᶠ v in 𝓝 (makeTuple PF.fields flat), F v = some (g v)) : ReturnsGradient (gradWrapper ad F) flat L := by
  obtain ⟨g, c, hgL, e⟩ := hs
  have hd : DifferentiableAt ℝ g (makeTuple PF.fields flat) := c.differentiableAt (by norm_num)
  refine returnsGradient_of h (fun fl hfl => ⟨_, gradWrapper_eq ad F hfl⟩) hd hgL e ?_
  rw [gradWrapper_eq ad F h, hL, List.map_map]
  exact congrArg (fun x => some (some L, x)) (List.map_congr_left fun k _ => had F _ g hd e k)

/-- C95: a flat vector becomes the namedtuple with the values in field order, and a vector of another length is an
error for all wrappers. -/
theorem C95_flat_vectors (flat : List ℝ) :
    (flat.length = 88 → ∃ u, makeUParams flat = some u ∧ ∀ (j : ℕ) (k : PF), PF.fields[j]? = some k →
      flat[j]? = some (u k)) ∧
    (flat.length ≠ 88 → makeUParams flat = none ∧ (∀ ad F, gradWrapper ad F flat = none) ∧
      returnParamsFromResult flat = none) := by
  constructor
  · intro h
    refine ⟨_, makeUParams_eq h, fun j k hk => ?_⟩
    have := map_makeTuple fields_nodup (a := flat) (by rw [h, fields_length])
    conv_lhs => rw [← this]
    rw [List.getElem?_map, hk]
    rfl
  · intro h
    have : makeUParams flat = none := by
      unfold makeUParams
      rw [if_neg (by rw [fields_length]; exact h)]
    refine ⟨this, fun ad F => ?_, ?_⟩
    · unfold gradWrapper; rw [this]; rfl
    · unfold returnParamsFromResult; rw [this]; rfl

example : (List.replicate 88 (1 : ℝ)).length = 88 := by simp

/-- C95: gradient of the stellar mass loss. -/
theorem C95_gradient_mstar {K : Type} {rng : Rng K} (hr : SmoothMvn rng 1) {ad : Ad} (had : IsAd ad) {nk ng nb : ℕ}
    (logMah : MahParams ℝ → ℝ → ℝ → ℝ) (d : MstarData K nk ng nb) (flat : List ℝ) (h : flat.length = 88) (u : PF → ℝ)
    (hu : makeUParams flat = some u) (L : ℝ) (hL : lossMstar rng logMah u d = some L) (hreg : RegularMstar rng logMah u d) :
    ReturnsGradient (fun flat => lossMstarGradWrapper ad rng logMah flat d) flat L := by
  rw [makeUParams_eq h, Option.some.injEq] at hu
  subst hu
  exact gradWrapper_gradient had h hL
    (C93_loss_mstar_smooth hr (by norm_num) logMah d hreg.1 _ L hL (Or.inr hreg.2))

/-- C95: gradient of the sSFR losses. -/
theorem C95_gradient_ssfr {K : Type} {rng : Rng K} (hr : SmoothMvn rng 1) {ad : Ad} (had : IsAd ad)
    {nk ng nms nsf nz nm nt : ℕ} (logMah : MahParams ℝ → ℝ → ℝ → ℝ) (d : SsfrData K nk ng nms nsf nz nm nt)
    (flat : List ℝ) (h : flat.length = 88) (u : PF → ℝ) (hu : makeUParams flat = some u) (L : ℝ)
    (hL : lossMstarSsfr rng logMah u d = some L) (hreg : RegularSsfr rng logMah u d) :
    ReturnsGradient (fun flat => lossMstarSsfrGradWrapper ad rng logMah flat d) flat L := by
  rw [makeUParams_eq h, Option.some.injEq] at hu
  subst hu
  exact gradWrapper_gradient had h hL
    (C93_loss_mstar_ssfr_smooth hr (by norm_num) logMah d hreg.1 _ L hL (Or.inr hreg.2))


/-- C95: gradients of the two combined losses, and that they are the sums of the gradients of their parts. -/
theorem C95_gradient_combined {K : Type} {rng : Rng K} (hr : SmoothMvn rng 1) {ad : Ad} (had : IsAd ad)
    {nk ng nb nk' ng' nms nsf nz nm nt nk'' ng'' nms' nsf' nz' nm' nt' : ℕ} (logMah : MahParams ℝ → ℝ → ℝ → ℝ)
    (dMstar : MstarData K nk ng nb) (dCen : SsfrData K nk' ng' nms nsf nz nm nt)
    (dSat : SsfrData K nk'' ng'' nms' nsf' nz' nm' nt') (flat : List ℝ) (h : flat.length = 88) (u : PF → ℝ)
    (hu : makeUParams flat = some u) (L1 L2 L3 : ℝ) (h1 : lossMstar rng logMah u dMstar = some L1)
    (h2 : lossMstarSsfr rng logMah u dCen = some L2) (h3 : lossMstarSsfr rng logMah u dSat = some L3)
    (r1 : RegularMstar rng logMah u dMstar) (r2 : RegularSsfr rng logMah u dCen) (r3 : RegularSsfr rng logMah u dSat) :
    ReturnsGradient (fun flat => lossCombinedWrapper ad rng logMah flat dMstar dCen) flat (L1 + L2) ∧
    ReturnsGradient (fun flat => lossCombined3Wrapper ad rng logMah flat dMstar dCen dSat) flat (L1 + L2 + L3) ∧
    ∃ g1 g2 g3 : List ℝ, g1.length = 88 ∧ g2.length = 88 ∧ g3.length = 88 ∧
      lossMstarGradWrapper ad rng logMah flat dMstar = some (some L1, g1.map some) ∧
      lossMstarSsfrGradWrapper ad rng logMah flat dCen = some (some L2, g2.map some) ∧
      lossMstarSsfrGradWrapper ad rng logMah flat dSat = some (some L3, g3.map some) ∧
      lossCombinedWrapper ad rng logMah flat dMstar dCen =
        some (some (L1 + L2), (List.zipWith (· + ·) g1 g2).map some) ∧
      lossCombined3Wrapper ad rng logMah flat dMstar dCen dSat =
        some (some (L1 + L2 + L3), (List.zipWith (· + ·) (List.zipWith (· + ·) g1 g2) g3).map some) := by
  rw [makeUParams_eq h, Option.some.injEq] at hu
  subst hu
  obtain ⟨f1, c1, e1, s1⟩ := C93_loss_mstar_smooth hr (by norm_num) logMah dMstar r1.1 _ L1 h1 (Or.inr r1.2)
  obtain ⟨f2, c2, e2, s2⟩ := C93_loss_mstar_ssfr_smooth hr (by norm_num) logMah dCen r2.1 _ L2 h2 (Or.inr r2.2)
  obtain ⟨f3, c3, e3, s3⟩ := C93_loss_mstar_ssfr_smooth hr (by norm_num) logMah dSat r3.1 _ L3 h3 (Or.inr r3.2)
  have s12 : ∀ᶠ v in 𝓝 (makeTuple PF.fields flat), lossCombined rng logMah v dMstar dCen = some (f1 v + f2 v) := by
    filter_upwards [s1, s2] with v a b
    unfold lossCombined
    rw [a, b, add_comm]
    rfl
  have s123 : ∀ᶠ v in 𝓝 (makeTuple PF.fields flat),
      lossCombined3 rng logMah v dMstar dCen dSat = some (f1 v + f2 v + f3 v) := by
    filter_upwards [s1, s2, s3] with v a b c
    unfold lossCombined3
    rw [a, b, c, add_comm (f1 v)]
    rfl
  have v12 : lossCombined rng logMah (makeTuple PF.fields flat) dMstar dCen = some (L1 + L2) := by
    have := s12.self_of_nhds
    rw [e1, e2] at this
    exact this
  have v123 : lossCombined3 rng logMah (makeTuple PF.fields flat) dMstar dCen dSat = some (L1 + L2 + L3) := by
    have := s123.self_of_nhds
    rw [e1, e2, e3] at this
    exact this
  have d1 := c1.differentiableAt (by norm_num)
  have d2 := c2.differentiableAt (by norm_num)
  have d3 := c3.differentiableAt (by norm_num)
  refine ⟨gradWrapper_gradient had h v12 ⟨_, c1.add c2, by simp [e1, e2], s12⟩,
    gradWrapper_gradient had h v123 ⟨_, (c1.add c2).add c3, by simp [e1, e2, e3], s123⟩, ?_⟩
  set u := makeTuple PF.fields flat with hu
  have a12 := had (fun u => lossCombined rng logMah u dMstar dCen) u _ (d1.add d2) s12
  have a123 := had (fun u => lossCombined3 rng logMah u dMstar dCen dSat) u _ ((d1.add d2).add d3) s123
  refine ⟨PF.fields.map fun k => fderiv ℝ f1 u (Pi.single k 1), PF.fields.map fun k => fderiv ℝ f2 u (Pi.single k 1),
    PF.fields.map fun k => fderiv ℝ f3 u (Pi.single k 1), by rw [List.length_map, fields_length],
    by rw [List.length_map, fields_length], by rw [List.length_map, fields_length], ?_, ?_, ?_, ?_, ?_⟩
  · unfold lossMstarGradWrapper
    rw [gradWrapper_eq ad _ h, ← hu, h1, List.map_map]
    exact congrArg (fun x => some (some L1, x)) (List.map_congr_left fun k _ => had _ u f1 d1 s1 k)
  · unfold lossMstarSsfrGradWrapper
    rw [gradWrapper_eq ad _ h, ← hu, h2, List.map_map]
    exact congrArg (fun x => some (some L2, x)) (List.map_congr_left fun k _ => had _ u f2 d2 s2 k)
  · unfold lossMstarSsfrGradWrapper
    rw [gradWrapper_eq ad _ h, ← hu, h3, List.map_map]
    exact congrArg (fun x => some (some L3, x)) (List.map_congr_left fun k _ => had _ u f3 d3 s3 k)
  · unfold lossCombinedWrapper
    rw [gradWrapper_eq ad _ h, ← hu, v12, zipWith_map_same, List.map_map]
    refine congrArg (fun x => some (some (L1 + L2), x)) (List.map_congr_left fun k _ => ?_)
    rw [a12 k, fderiv_add d1 d2]
    rfl
  · unfold lossCombined3Wrapper
    rw [gradWrapper_eq ad _ h, ← hu, v123, zipWith_map_same, zipWith_map_same, List.map_map]
    refine congrArg (fun x => some (some (L1 + L2 + L3), x)) (List.map_congr_left fun k _ => ?_)
    rw [a123 k, fderiv_add (d1.add d2) d3, fderiv_add d1 d2]
    rfl

/-- C95: the prediction wrappers belong to the loss wrappers: the loss is 1000 times the mean squared difference between
the prediction at the same vector and the target. -/
theorem C95_predictions_consistent {K : Type} (ad : Ad) (rng : Rng K) (logMah : MahParams ℝ → ℝ → ℝ → ℝ) (flat : List ℝ)
    {nk ng nb nk' ng' nms nsf nz nm nt : ℕ} (d : MstarData K nk ng nb) (dc : SsfrData K nk' ng' nms nsf nz nm nt) (L : ℝ)
    (g : List (Option ℝ)) :
    (lossMstarGradWrapper ad rng logMah flat d = some (some L, g) → ∃ p : Fin nk → Fin nb → ℝ,
      getPredMstarDataWrapper rng logMah flat d = some (fun k => some (p k)) ∧
      L * (nk * nb) = 1000 * ∑ k, ∑ b, (p k b - d.target k b) ^ 2) ∧
    (lossMstarSsfrGradWrapper ad rng logMah flat dc = some (some L, g) → ∃ p : Fin nz → Fin nt → Fin nsf → ℝ,
      getPredMstarSsfrDataWrapper rng logMah flat dc = some (fun z t b => some (p z t b)) ∧
      L * (nz * nt * nsf) = 1000 * ∑ z, ∑ t, ∑ b, (p z t b - dc.target z t b) ^ 2) := by
  constructor
  · intro h
    unfold lossMstarGradWrapper gradWrapper at h
    obtain ⟨u, hu, hr⟩ := Option.map_eq_some_iff.1 h
    obtain ⟨-, -, p, hp, hv⟩ := C28_loss_mstar rng logMah u d L (Prod.mk.inj hr).1
    exact ⟨p, by unfold getPredMstarDataWrapper; rw [hu, Option.map_some]; exact congrArg some (funext hp), hv⟩
  · intro h
    unfold lossMstarSsfrGradWrapper gradWrapper at h
    obtain ⟨u, hu, hr⟩ := Option.map_eq_some_iff.1 h
    obtain ⟨-, -, p, hp, hv⟩ := C28_loss_ssfr rng logMah u dc L (Prod.mk.inj hr).1
    exact ⟨p, by
      unfold getPredMstarSsfrDataWrapper
      rw [hu, Option.map_some]
      exact congrArg some (funext fun z => funext fun t => funext fun b => hp z t b), hv⟩

/-! ### C96 -/

theorem fields_map_makeUParams (u : PF → ℝ) : makeUParams (PF.fields.map u) = some u := by
  rw [makeUParams_eq (by rw [List.length_map, fields_length])]
  exact congrArg some (funext fun k => makeTuple_map _ _ _ (PF.mem_fields k))

theorem uParamsOf_spec {p : PF → ℝ} (h : ∀ f, (PF.bounds f).1 < p f ∧ p f < (PF.bounds f).2) :
    ∃ flat u, uParamsOf (some p) = some flat ∧ makeUParams flat = some u ∧ getBoundedDiffstarpopParams u = p :=
  ⟨_, _, rfl, fields_map_makeUParams _, C37_bounded_of_unbounded p h⟩

/-- C96: without a path the start is the default calibration. -/
theorem C96_start_default (load : Text.Str → Option (List ℝ)) :
    ∃ flat u p, startUParams load none = some flat ∧ makeUParams flat = some u ∧ defaultDiffstarpopParams = some p ∧
      getBoundedDiffstarpopParams u = p := by
  obtain ⟨p, h1, -, -, h4, -⟩ := C38_default_calibration_usable
  obtain ⟨flat, u, a, b, c⟩ := uParamsOf_spec h4
  exact ⟨flat, u, p, by unfold startUParams; rw [h1, a], b, h1, c⟩

theorem simName_eq (a x : Text.Str) (ha : '_' ∉ a) :
    ['_'].intercalate (((a ++ '_' :: x).splitOn '_').drop 1) = x := by
  rw [List.splitOn_append_cons_self_of_not_mem ha]
  simp only [List.drop_succ_cons, List.drop_zero]
  exact List.intercalate_splitOn '_'

theorem start_lookup (load : Text.Str → Option (List ℝ)) (a x : Text.Str) (ha : '_' ∉ a) :
    startUParams load (some ("diffstarfits".toList ++ a ++ '_' :: x)) = (diffstarfitsDict.lookup x).join := by
  unfold startUParams
  simp only
  rw [if_pos, simName_eq _ x]
  · rw [List.mem_append, not_or]
    exact ⟨by decide, ha⟩
  · rw [List.isPrefixOf_iff_prefix, List.append_assoc]
    exact List.prefix_append _ _

/-- C96: the path `diffstarfits_<name>` starts from the calibration of the module
`params_diffstarfits_mgash_<name>`. -/
theorem C96_start_shipped (load : Text.Str → Option (List ℝ)) (nt : String × List (QF × ℚ)) (hnt : nt ∈ shippedTables)
    (name : Text.Str) (hname : nt.1.toList = "params_diffstarfits_mgash_".toList ++ name) :
    ∃ flat u p, startUParams load (some ("diffstarfits_".toList ++ name)) = some flat ∧ makeUParams flat = some u ∧
      calibration nt.2 = some p ∧ getBoundedDiffstarpopParams u = p := by
  obtain ⟨p, h1, -, h4, -⟩ := C38_shipped_calibrations_usable.2 nt hnt
  obtain ⟨flat, u, a, b, c⟩ := uParamsOf_spec h4
  refine ⟨flat, u, p, ?_, b, h1, c⟩
  have e : ("diffstarfits_".toList ++ name : Text.Str) = "diffstarfits".toList ++ [] ++ '_' :: name := by simp
  rw [e, start_lookup load [] name (by simp), ← a, ← h1]
  clear a b c h1 h4 e
  have key : ∀ (full : Text.Str), full = "params_diffstarfits_mgash_".toList ++ name →
      name = full.drop 26 ∧ "params_diffstarfits_mgash_".toList.isPrefixOf full = true := by
    rintro _ rfl
    exact ⟨by simp, by rw [List.isPrefixOf_iff_prefix]; exact List.prefix_append _ _⟩
  obtain ⟨k1, k2⟩ := key _ hname
  subst k1
  simp only [shippedTables, List.mem_cons, List.not_mem_nil, or_false] at hnt
  rcases hnt with rfl | rfl | rfl | rfl | rfl | rfl | rfl | rfl | rfl | rfl
  all_goals first
    | rfl
    | exact absurd k2 (by decide)

example : ∃ nt ∈ shippedTables, nt.1.toList = "params_diffstarfits_mgash_".toList ++ "tng".toList :=
  ⟨("params_diffstarfits_mgash_tng", diffstarfitsTng), by simp [shippedTables], rfl⟩

/-- C96: any other path is read as a file, unless it starts with `diffstarfits`: then the part after the first
underscore must be one of the five names, and a file with such a path cannot be used. -/
theorem C96_start_other (load : Text.Str → Option (List ℝ)) (path : Text.Str) :
    (¬ "diffstarfits".toList <+: path → startUParams load (some path) = load path) ∧
    ("diffstarfits".toList <+: path → (∀ nt ∈ shippedTables, ∀ a name, '_' ∉ a →
      nt.1.toList = "params_diffstarfits_mgash_".toList ++ name → path ≠ a ++ '_' :: name) →
      startUParams load (some path) = none) := by
  constructor
  · intro h
    unfold startUParams
    simp only
    rw [if_neg]
    rw [List.isPrefixOf_iff_prefix]
    exact h
  · rintro ⟨rest, rfl⟩ hno
    by_cases hu : '_' ∈ rest
    · obtain ⟨a, x, rfl, ha⟩ := List.eq_append_cons_of_mem hu
      have hd : '_' ∉ "diffstarfits".toList ++ a := by
        rw [List.mem_append, not_or]
        exact ⟨by decide, ha⟩
      have hx : ∀ nt ∈ shippedTables, ∀ name, nt.1.toList = "params_diffstarfits_mgash_".toList ++ name → x ≠ name := by
        rintro nt hnt name hname rfl
        exact hno nt hnt _ x hd hname (by rw [List.append_assoc])
      rw [← List.append_assoc, start_lookup load a x ha]
      have n1 := hx ("params_diffstarfits_mgash_smdpl_dr1_nomerging", diffstarfitsSmdplDr1Nomerging) (by simp [shippedTables]) _ rfl
      have n2 := hx ("params_diffstarfits_mgash_smdpl_dr1", diffstarfitsSmdplDr1) (by simp [shippedTables]) _ rfl
      have n3 := hx ("params_diffstarfits_mgash_tng", diffstarfitsTng) (by simp [shippedTables]) _ rfl
      have n4 := hx ("params_diffstarfits_mgash_galacticus_in_situ", diffstarfitsGalacticusInSitu) (by simp [shippedTables]) _ rfl
      have n5 := hx ("params_diffstarfits_mgash_galacticus_in_plus_ex_situ", diffstarfitsGalacticusInPlusExSitu) (by simp [shippedTables]) _ rfl
      have : diffstarfitsDict.lookup x = none := by
        rw [List.lookup_eq_none_iff]
        intro kv hkv
        rw [bne_iff_ne]
        simp only [diffstarfitsDict, List.mem_cons, List.not_mem_nil, or_false] at hkv
        rcases hkv with rfl | rfl | rfl | rfl | rfl
        exacts [n1, n2, n3, n4, n5]
      rw [this]
      rfl
    · have hd : '_' ∉ "diffstarfits".toList ++ rest := by
        rw [List.mem_append, not_or]
        exact ⟨by decide, hu⟩
      unfold startUParams
      simp only
      rw [if_pos (by rw [List.isPrefixOf_iff_prefix]; exact List.prefix_append _ _), List.splitOn_eq_singleton hd]
      rfl

example : ¬ "diffstarfits".toList <+: "out/fit_tng.npz".toList ∧ "diffstarfits".toList <+: "diffstarfits_new.npz".toList := by
  decide

/-- C96: what is saved: the vector itself and its bounded version in field order, strictly inside the bounds; the saved
bounded values determine the vector. -/
theorem C96_saved_arrays (flat : List ℝ) (h : flat.length = 88) :
    ∃ p u, savedArrays flat = some (p, flat) ∧ p.length = 88 ∧ makeUParams flat = some u ∧
      (∀ (j : ℕ) (k : PF), PF.fields[j]? = some k → p[j]? = some (getBoundedDiffstarpopParams u k) ∧
        (PF.bounds k).1 < getBoundedDiffstarpopParams u k ∧ getBoundedDiffstarpopParams u k < (PF.bounds k).2) ∧
      PF.fields.map (getUnboundedDiffstarpopParams (makeTuple PF.fields p)) = flat := by
  have hu := makeUParams_eq h
  refine ⟨PF.fields.map (getBoundedDiffstarpopParams (makeTuple PF.fields flat)), _, ?_,
    by rw [List.length_map, fields_length], hu, ?_, ?_⟩
  · unfold savedArrays returnParamsFromResult
    rw [hu]
    rfl
  · intro j k hk
    refine ⟨?_, C37_bounded_pop_params_in_bounds _ k⟩
    rw [List.getElem?_map, hk]
    rfl
  · rw [show makeTuple PF.fields (PF.fields.map (getBoundedDiffstarpopParams (makeTuple PF.fields flat))) =
      getBoundedDiffstarpopParams (makeTuple PF.fields flat) from funext fun k => makeTuple_map _ _ _ (PF.mem_fields k),
      C37_unbounded_of_bounded]
    exact map_makeTuple fields_nodup (by rw [h, fields_length])

theorem finiteVals_map (flat : List ℝ) : finiteVals (flat.map some) = some flat := by
  unfold finiteVals
  rw [if_pos ((allFinite_iff _).2 (by simp))]
  simp

theorem exists_map_of_finite {p : PopFit.Vec} (h : ∀ x ∈ p, x ≠ none) : ∃ flat : List ℝ, p = flat.map some := by
  refine ⟨p.filterMap id, ?_⟩
  induction p with
  | nil => rfl
  | cons x p ih =>
    obtain ⟨y, rfl⟩ := Option.ne_none_iff_exists'.1 (h x (by simp))
    have := ih fun z hz => h z (by simp [hz])
    rw [List.filterMap_cons_some (f := id) rfl, List.map_cons, ← this]

theorem wrapper_of_script {K : Type} (l : ScriptLoss K) (ad : Ad) (rng : Rng K) (logMah : MahParams ℝ → ℝ → ℝ → ℝ) :
    ∃ F, ScriptLoss.wrapper l ad rng logMah = gradWrapper ad F := by
  cases l
  exacts [⟨_, rfl⟩, ⟨_, rfl⟩, ⟨_, rfl⟩]

/-- C96 (partial: the loss is differentiable at the starting point, see C95; what happens otherwise is in C82): for all
three loss types, whatever the optimiser does, the run ends without an exception, and the saved parameters have a finite
loss not above that of the starting point. -/
theorem C96_fit_no_worse_than_start_partial {K S : Type} (l : ScriptLoss K) (ad : Ad) (rng : Rng K)
    (logMah : MahParams ℝ → ℝ → ℝ → ℝ) (nanCase : PopFit.Vec → Option ℝ × PopFit.Vec) (o : PopFit.Optimizer S)
    (hlen : ∀ s, (o.params s).length = 88) (flat : List ℝ) (hinit : o.params (o.init (flat.map some)) = flat.map some)
    (L0 : ℝ) (hg : ReturnsGradient (l.wrapper ad rng logMah) flat L0) (n : ℕ) (hn : 0 < n) :
    ∃ flat' p L g, PopFit.runFit o (scriptKernel (l.wrapper ad rng logMah) nanCase) n (flat.map some) =
      some (flat'.map some) ∧ savedArrays flat' = some (p, flat') ∧ l.wrapper ad rng logMah flat' = some (some L, g) ∧
      L ≤ L0 := by
  obtain ⟨F, hF⟩ := wrapper_of_script l ad rng logMah
  obtain ⟨g, hw, hgl, -, -⟩ := hg
  have hk : scriptKernel (l.wrapper ad rng logMah) nanCase (flat.map some) = (some L0, g.map some) := by
    unfold scriptKernel
    rw [finiteVals_map, Option.bind_some, hw]
  obtain ⟨p, L, h1, h2, h3, s, hs'⟩ := C82_saved_no_worse_than_start_partial o
    (scriptKernel (l.wrapper ad rng logMah) nanCase) n hn (flat.map some) L0
    ⟨by rw [hinit]; simp, by rw [hinit, hk], by rw [hinit, hk]; simp⟩
  obtain ⟨flat', rfl⟩ := exists_map_of_finite h2.1
  have hl' : flat'.length = 88 := by
    rw [← hlen s, ← hs', List.length_map]
  obtain ⟨q, u, hs, -⟩ := C96_saved_arrays flat' hl'
  have hw' := gradWrapper_eq ad F hl'
  rw [← hF] at hw'
  have hk' : scriptKernel (l.wrapper ad rng logMah) nanCase (flat'.map some) =
      (F (makeTuple PF.fields flat'), PF.fields.map (ad F (makeTuple PF.fields flat'))) := by
    unfold scriptKernel
    rw [finiteVals_map, Option.bind_some, hw']
  have := h2.2.1
  rw [hk'] at this
  exact ⟨flat', q, L, _, h1, hs, by rw [hw']; exact congrArg (fun x => some (x, _)) this, h3⟩

/-! ### Instances -/

open Classical in
/-- A correct differentiation of all functions. -/
noncomputable def exactAd : Ad := fun F u k =>
  if h : ∃ g : (PF → ℝ) → ℝ, DifferentiableAt ℝ g u ∧ ∀ᶠ v in 𝓝 u, F v = some (g v) then
    some (fderiv ℝ h.choose u (Pi.single k 1))
  else none

theorem exactAd_isAd : IsAd exactAd := by
  intro F u g hd he k
  have h : ∃ g : (PF → ℝ) → ℝ, DifferentiableAt ℝ g u ∧ ∀ᶠ v in 𝓝 u, F v = some (g v) := ⟨g, hd, he⟩
  unfold exactAd
  rw [dif_pos h]
  have : h.choose =ᶠ[𝓝 u] g := by
    filter_upwards [h.choose_spec.2, he] with v a b
    rw [a, Option.some.injEq] at b
    exact b
  rw [this.fderiv_eq]

theorem ones_makeUParams : makeUParams (PF.fields.map fun _ => 1) = some fun _ => (1 : ℝ) := fields_map_makeUParams _

/-- C95 meets its hypotheses. -/
theorem oneHalo_gradient : ∃ (d : MstarData Unit 1 1 1) (dc : SsfrData Unit 1 1 1 1 1 1 1) (L1 L2 : ℝ),
    SmoothMvn oneSigmaRng 1 ∧ lossMstar oneSigmaRng (fun _ _ _ => 12) (fun _ => 1) d = some L1 ∧
    lossMstarSsfr oneSigmaRng (fun _ _ _ => 12) (fun _ => 1) dc = some L2 ∧
    RegularMstar oneSigmaRng (fun _ _ _ => 12) (fun _ => 1) d ∧
    RegularSsfr oneSigmaRng (fun _ _ _ => 12) (fun _ => 1) dc := by
  obtain ⟨d, L1, -, t1, h1, -, r1⟩ := oneHalo_mstar_instance
  obtain ⟨dc, L2, -, -, -, -, t2, h2, -, r2⟩ := oneHalo_ssfr_instance
  exact ⟨d, dc, L1, L2, oneSigmaRng_smooth 1, h1, h2, ⟨t1, r1⟩, t2, r2⟩

/-- C96 meets its hypotheses: an optimiser which stays where it is. -/
example : ∃ (l : ScriptLoss Unit) (L0 : ℝ) (o : PopFit.Optimizer {v : PopFit.Vec // v.length = 88}) (flat : List ℝ),
    (∀ s, (o.params s).length = 88) ∧ o.params (o.init (flat.map some)) = flat.map some ∧
    ReturnsGradient (l.wrapper exactAd oneSigmaRng fun _ _ _ => 12) flat L0 := by
  obtain ⟨d, dc, L1, L2, hs, h1, h2, r1, r2⟩ := oneHalo_gradient
  refine ⟨.mstarSsfrCenSat d dc dc, L1 + L2 + L2, ⟨fun v => if h : v.length = 88 then ⟨v, h⟩ else
    ⟨List.replicate 88 none, by simp⟩, fun _ _ s => s, Subtype.val⟩, PF.fields.map fun _ => 1, fun s => s.2, ?_, ?_⟩
  · simp only
    rw [dif_pos (by rw [List.length_map, List.length_map, fields_length])]
  · exact (C95_gradient_combined hs exactAd_isAd _ d dc dc _ (by rw [List.length_map, fields_length]) _ ones_makeUParams
      L1 L2 L2 h1 h2 h2 r1 r2 r2).2.1

end Diffstar.Props
