import Verif.Model.Loaders

/-!
Model of the chain from a Galacticus file to the blocks read by the fitter: `extract_galacticus_sfh_data.py` (as a
script), `load_galacticus_sfh_target_data`, `write_galacticus_sfh_data_block`, `load_galacticus_sfh_data_block`.
-/

namespace Diffstar.Galcus

open Diffstar.Text Diffstar.Load

noncomputable section

open Classical

/-- The `nodeData` group of the Galacticus file (`extract_galacticus_sfh_data.py` L14-15, L29-43): star-formation
history columns of disk and bulge with their `time` attributes, `nodeIsIsolated`, halo mass histories. -/
structure NodeData where
  disk : List (List (List ℝ))
  bulge : List (List (List ℝ))
  tDisk : List ℝ
  tBulge : List ℝ
  nodeIsIsolated : List ℤ
  mahMass : List (List ℝ)
  mahTime : List (List ℝ)
  timeLastIsolated : List ℝ

/-- `get_nhalos_tot`, `extract_galacticus_sfh_data.py` L22-26. -/
def getNhalosTot (d : NodeData) : ℕ := d.mahMass.length

/-- `extract_galacticus_mah_tables`, L29-43. -/
def extractMah (d : NodeData) (istart : ℕ) (iend : Option ℕ) : List (List ℝ) × List (List ℝ) × List ℤ × List ℝ :=
  let iend := iend.getD d.mahMass.length
  (slice d.mahMass istart (some iend), slice d.mahTime istart (some iend), slice d.nodeIsIsolated istart (some iend),
    slice d.timeLastIsolated istart (some iend))

/-- The files saved by the script for one component, L118-133: `delta_mstar_tot`, `delta_mstar_in_situ`, `tarr`, with
the default `istart = 0`, `iend = -1` (L86-87, L98-99). -/
structure Saved where
  tot : List (List ℝ)
  inSitu : List (List ℝ)
  tarr : List ℝ

/-- The script run for `component` (`disk` or `bulge`), L103-133; `none` = an exception. -/
def runScript (d : NodeData) (isDisk : Bool) : Option Saved :=
  if isDisk then (extractSfh d.disk 0 none).map fun r => ⟨r.1, r.2, d.tDisk⟩
  else (extractSfh d.bulge 0 none).map fun r => ⟨r.1, r.2, d.tBulge⟩

/-- The dict returned by `load_galacticus_sfh_target_data`. -/
structure Target where
  tarr : List ℝ
  sfhInSitu : List (List ℝ)
  sfhTot : List (List ℝ)
  isCen : List ℤ

/-- numpy's shape check for `bulge + disk` and for the division by `dtarr` (broadcasting of a table with one row or
one column is not modelled). -/
def sameShape (tarr : List ℝ) (a b : List (List ℝ)) : Prop :=
  a.length = b.length ∧ (∀ r ∈ a, r.length = tarr.length) ∧ ∀ r ∈ b, r.length = tarr.length

/-- `load_galacticus_sfh_target_data`, `load_galacticus_sfh.py` L76-102. Times are those of the bulge (L78). -/
def loadTarget (bulge disk : Saved) (nodeIsIsolated : List ℤ) : Option Target :=
  if sameShape bulge.tarr bulge.inSitu disk.inSitu ∧ sameShape bulge.tarr bulge.tot disk.tot then
    some ⟨bulge.tarr, List.zipWith (galacticusSfh bulge.tarr) bulge.inSitu disk.inSitu,
      List.zipWith (galacticusSfh bulge.tarr) bulge.tot disk.tot, nodeIsIsolated⟩
  else none

/-- Entry of a column of the block file. -/
inductive Cell where
  | row (r : List ℝ)
  | num (x : ℝ)
  | flag (n : ℤ)

/-- `write_galacticus_sfh_data_block`, L105-112. -/
def writeBlock (t : Target) : Flat Cell :=
  [("sfh_in_situ".toList, t.sfhInSitu.map Cell.row), ("sfh_tot".toList, t.sfhTot.map Cell.row),
    ("is_cen".toList, t.isCen.map Cell.flag), ("tarr".toList, t.tarr.map Cell.num)]

/-- The whole chain: run the script for disk and bulge, write the block file, read rows `[istart, iend)`. -/
def blockOf (d : NodeData) (istart iend : ℕ) : Option (Flat Cell) :=
  (runScript d true).bind fun disk => (runScript d false).bind fun bulge =>
    (loadTarget bulge disk d.nodeIsIsolated).bind fun t => loadGalacticusBlock (writeBlock t) istart iend

end

end Diffstar.Galcus
