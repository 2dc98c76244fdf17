import Verif.Model.Targets
import Verif.Model.Loaders

/-!
Model of `scripts/diffstarpop_scripts/fit_get_loss_helpers_mgash.py` (loss data of the population fits).

The functions `get_loss_data_pdfs_{mstar,mstar_cen,mstar_sat,ssfr_central,ssfr_satellite}` share their loops; line
numbers are those of `get_loss_data_pdfs_ssfr_central` (L351-663) unless stated otherwise. Each function runs the loop
twice, with `nhalos` and with `nhalos_plot = 10000`; the second run only feeds the plots.
-/

namespace Diffstar.LossData

open Diffstar.Targets

noncomputable section

/-- Which halos a loss function uses: `get_loss_data_pdfs_mstar` (L204), `..._ssfr_central` and `..._mstar_cen` (L448,
L1058), `..._ssfr_satellite` and `..._mstar_sat` (L760, L1268). -/
inductive Kind | all | central | satellite
deriving DecidableEq

/-- The `upid` part of the mask. -/
def Kind.keeps : Kind → ℤ → Prop
  | .all, _ => True
  | .central, upid => upid = -1
  | .satellite, upid => upid ≠ -1

open Classical in
/-- `np.arange(len(tobs_id))[sel]`, L448-453. -/
def select (kind : Kind) (samples : List Sample) (i j : ℕ) : List ℕ :=
  (List.range samples.length).filter fun r => (samples[r]?).any fun s =>
    decide (s.tobsId = i ∧ s.logmhId = j ∧ kind.keeps s.upid)

/-- One entry along the first axis of the loss data: the chosen rows of the sample file (which give `mah_params_data`,
`upid_data`, `logmp0_data`) and the time of observation, L456-464. -/
structure Entry where
  rows : List ℕ
  tobs : ℝ

/-- The three constant infall columns, L414-416 and L458-460. -/
def LGMU_INFALL : ℝ := -1
/-- See `LGMU_INFALL`. -/
def LOGMHOST_INFALL : ℝ := 13
/-- See `LGMU_INFALL`. -/
def GYR_SINCE_INFALL : ℝ := -99

/-- State of the inner loop. -/
structure Loop where
  entries : List Entry
  indexMhalo : List ℕ
  indxPdf : List ℕ
  run : ℕ

/-- Body of the inner loop, L448-468. `call` numbers the calls of `np.random.choice`. -/
def binStep (choice : Choice) (kind : Kind) (samples : List Sample) (nhalos i : ℕ) (tTarget : ℝ) (st : Loop) (j : ℕ) :
    Loop :=
  let sel := select kind samples i j
  if sel.length < 50 then st
  else
    let replace := if sel.length < nhalos then true else false
    let rows := choice st.run sel nhalos replace
    { entries := st.entries ++ [⟨rows, tTarget⟩]
      indexMhalo := st.indexMhalo ++ [j]
      indxPdf := st.indxPdf ++ [st.run]
      run := st.run + 1 }

/-- Result of the double loop: entries, `index_mhalo`, `indx_pdf`. -/
structure Selected where
  entries : List Entry
  indexMhalo : List (List ℕ)
  indxPdf : List (List ℕ)

/-- Body of the outer loop, L444-471; `_run_indx` is not reset. -/
def zStep (choice : Choice) (kind : Kind) (samples : List Sample) (nhalos nm : ℕ) (st : Selected × ℕ) (z : ℕ × ℝ) :
    Selected × ℕ :=
  let l := (List.range nm).foldl (binStep choice kind samples nhalos z.1 z.2) ⟨st.1.entries, [], [], st.2⟩
  (⟨l.entries, st.1.indexMhalo ++ [l.indexMhalo], st.1.indxPdf ++ [l.indxPdf]⟩, l.run)

/-- The double loop, L440-471. -/
def selectLossData (choice : Choice) (kind : Kind) (samples : List Sample) (nhalos nm : ℕ) (ageTargets : List ℝ) :
    Selected :=
  ((ageTargets.zipIdx.map fun x => (x.2, x.1)).foldl (zStep choice kind samples nhalos nm) (⟨[], [], []⟩, 0)).1

/-- `get_loss_data_smhm`, L70-75: the condition is `nhalos`, not 50, and there is no replacement. -/
def smhmEntry (choice : Choice) (call : ℕ) (samples : List Sample) (nhalos i j : ℕ) (tTarget : ℝ) : Option Entry :=
  let sel := select .all samples i j
  if sel.length < nhalos then none else some ⟨choice call sel nhalos false, tTarget⟩

/-! ### Halo mass functions and targets -/

open Classical in
/-- `counts / np.sum(counts, axis=1)[:, None]` for one redshift, L405-407; `none` is `0/0`. -/
def mhaloPdf {nm : ℕ} (counts : Fin nm → ℕ) : Option (Fin nm → ℝ) :=
  let tot : ℝ := ∑ j, (counts j : ℝ)
  if tot = 0 then none else some fun j => counts j / tot

/-- Target of `get_loss_data_pdfs_mstar`, L217; `none` is `0/0`. `..._mstar_cen` and `..._mstar_sat` first sum
`mstar_ssfr_wcounts_{cent,sat}` over the sSFR axis, L1027-1028 and L1237-1238. -/
def mstarTarget {na : ℕ} (wcounts : Fin na → ℝ) : Option (Fin na → ℝ) := PopLoss.normalise wcounts

/-- `np.sum(mstar_ssfr_wcounts, axis=3)`, L1027-1028. -/
def sumSsfr {na nb : ℕ} (w : Fin na → Fin nb → ℝ) : Fin na → ℝ := fun a => ∑ b, w a b

open Classical in
/-- `np.clip(w, 0, None)`, division by the sum over both axes, and `nan → 0`, L426-433, for one halo bin. -/
def binPdf {na nb : ℕ} (w : Fin na → Fin nb → ℝ) : Fin na → Fin nb → ℝ :=
  let c := fun a b => max (w a b) 0
  let tot := ∑ a, ∑ b, c a b
  fun a b => if tot = 0 then 0 else c a b / tot

/-- `np.einsum("zmab,zm->zab", …)`, L434-436, for one redshift. NaN weights give NaN. -/
def targetPdf {nm na nb : ℕ} (w : Fin nm → Fin na → Fin nb → ℝ) (mhalo : Option (Fin nm → ℝ)) :
    Option (Fin na → Fin nb → ℝ) :=
  mhalo.map fun mh => fun a b => ∑ m, binPdf (w m) a b * mh m

/-- `target_mstar_ids`, L475. -/
def targetMstarIds : List ℕ := [8, 10, 13, 16, 19]

open Classical in
/-- `target_data[i, j]`, L479-487, for the stellar mass bin `a`: the conditional sSFR distribution, or zeros if its
sum is not positive (or NaN). -/
def targetRow {na nb : ℕ} (pdf : Option (Fin na → Fin nb → ℝ)) (a : Fin na) : Fin nb → ℝ :=
  match pdf with
  | none => fun _ => 0
  | some p => if ∑ b, p a b > 0 then fun b => p a b / ∑ b, p a b else fun _ => 0

/-- `prepare_ragged`, L329-348, with its errors: `max` of an empty sequence, and an index array made from an empty
list, which has a float dtype. -/
def prepareRaggedChecked (indxPdf : List (List ℕ)) (nmhaloPdf : List (List ℝ)) (indexMhalo : List (List ℕ)) :
    Option (List (List ℕ × List ℝ)) :=
  if indxPdf = [] ∨ indexMhalo.any (·.isEmpty) then none
  else some (Load.prepareRagged indxPdf nmhaloPdf indexMhalo)

end

end Diffstar.LossData
