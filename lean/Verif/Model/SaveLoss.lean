import Verif.Model.Text

/-!
Model of `scripts/diffstarpop_scripts/save_loss_data.py`: `save_loss_data_h5` and `load_loss_data_h5`.

An hdf5 group is the list of its members and the list of its attributes. Simplifications: the elements of a python
sequence are arrays, python numbers or objects h5py cannot store (no sequences inside sequences); array entries are
reals; a JSON text stored as attribute is represented by the python value it encodes (`json.loads` inverts
`json.dumps` on finite numbers, strings, lists and dictionaries; library); the `repr` of another object is not JSON.
-/

namespace Diffstar.SaveLoss

open Diffstar.Text

/-- A numeric numpy (or jax) array: shape and entries in C order. -/
structure Arr where
  shape : List ℕ
  data : List ℝ

/-- Elements of a python sequence. -/
inductive Item
  | arr (a : Arr)
  | num (x : ℝ)
  | bad

/-- The values given to `_save_value`: arrays, object arrays, lists or tuples (also named tuples), python numbers,
other values that JSON can encode, other objects (with their `repr`). -/
inductive Val
  | arr (a : Arr)
  | objArr (els : List Item)
  | seq (els : List Item)
  | num (x : ℝ)
  | json (s : Str)
  | other (repr : Str)

/-- `_to_numpy` of an element, L87-94, followed by `create_dataset`; `none` is the exception of h5py. -/
def Item.toNumpy : Item → Option Arr
  | .arr a => some a
  | .num x => some ⟨[], [x]⟩
  | .bad => none

/-- `_is_array_like`, L97-98. -/
def Item.isArr : Item → Bool
  | .arr _ => true
  | _ => false

/-- `_is_ragged_sequence` of a list or tuple, L105-122. -/
def isRagged (els : List Item) : Bool :=
  if els.all Item.isArr then
    decide (1 < ((els.filterMap fun e => e.toNumpy.map Arr.shape).dedup).length)
  else true

/-- `np.asarray` of a list of arrays of one shape (library): they are stacked; the empty list has shape `(0,)`. -/
def stack (els : List Arr) : Arr :=
  match els with
  | [] => ⟨[0], []⟩
  | a :: _ => ⟨els.length :: a.shape, els.flatMap Arr.data⟩

/-- A member of a group: dataset, or subgroup of named datasets. -/
inductive Node
  | dataset (a : Arr)
  | sub (items : List (Str × Arr))

/-- The python values an attribute can hold here. -/
inductive Attr
  | num (x : ℝ)
  | json (s : Str)
  | text (s : Str)

/-- An hdf5 group with `field_order`. -/
structure Group where
  fieldOrder : List Str
  members : List (Str × Node)
  attrs : List (Str × Attr)

/-- `f"{i:04d}"`. -/
def key (i : ℕ) : Str := zpad 4 (natStr i)

/-- The subgroup of L137-145: one dataset per element; `none` is the exception of h5py. -/
def saveSub (els : List Item) : Option Node :=
  (els.mapM Item.toNumpy).map fun l => .sub (l.mapIdx fun i a => (key i, a))

/-- `_save_value`, L125-176. The `except` branch of L154-162 needs a failure of `np.asarray` on arrays of one shape,
which does not happen. `none` is an exception. -/
def saveValue (g : Group) (name : Str) (v : Val) : Option Group :=
  let addNode (n : Node) : Group := { g with members := g.members ++ [(name, n)] }
  let addAttr (a : Attr) : Group := { g with attrs := g.attrs ++ [(name, a)] }
  let saveSeq (els : List Item) : Option Group :=
    if isRagged els then (saveSub els).map addNode
    else some (addNode (.dataset (stack (els.filterMap Item.toNumpy))))
  match v with
  | .objArr els => saveSeq els
  | .seq els => saveSeq els
  | .arr a => some (addNode (.dataset a))
  | .num x => some (addAttr (.num x))
  | .json s => some (addAttr (.json s))
  | .other r => some (addAttr (.text r))

/-- One group of `save_loss_data_h5`, L217-234: `zip(fields, values)`. -/
def saveGroup (fields : List Str) (vals : List Val) : Option Group :=
  (fields.zip vals).foldlM (fun g nv => saveValue g nv.1 nv.2) ⟨fields, [], []⟩

/-- `MSTAR_FIELDS`, L29-42. -/
def MSTAR_FIELDS : List Str := ["mah_params_data", "logmp0_data", "upid_data", "lgmu_infall_data",
  "logmhost_infall_data", "gyr_since_infall_data", "ran_key_data", "t_obs_targets", "lgt0", "fb", "logmstar_bins_pdf",
  "mstar_counts_target"].map String.toList

/-- `SSFR_FIELDS`, L44-63. -/
def SSFR_FIELDS : List Str := ["mah_params_data", "logmp0_data", "upid_data", "lgmu_infall_data",
  "logmhost_infall_data", "gyr_since_infall_data", "ran_key_data", "t_obs_targets", "lgt0", "fb", "ndbins_lo",
  "ndbins_hi", "logmstar_bins_pdf", "logssfr_bins_pdf", "mhalo_pdf_cen_ragged", "indx_pdf", "target_mstar_ids",
  "target_data"].map String.toList

/-- `SSFR_SAT_FIELDS`, L65-84. -/
def SSFR_SAT_FIELDS : List Str := ["mah_params_data", "logmp0_data", "upid_data", "lgmu_infall_data",
  "logmhost_infall_data", "gyr_since_infall_data", "ran_key_data", "t_obs_targets", "lgt0", "fb", "ndbins_lo",
  "ndbins_hi", "logmstar_bins_pdf", "logssfr_bins_pdf", "mhalo_pdf_sat_ragged", "indx_pdf", "target_mstar_ids",
  "target_data_sat"].map String.toList

/-- `save_loss_data_h5`, L179-242: the three groups; `none` is `ValueError` for a wrong length, or an exception of
h5py. -/
def saveLossData (mstar ssfr sat : List Val) : Option (Group × Group × Group) :=
  if mstar.length ≠ MSTAR_FIELDS.length then none
  else if ssfr.length ≠ SSFR_FIELDS.length then none
  else if sat.length ≠ SSFR_SAT_FIELDS.length then none
  else do
    let m ← saveGroup MSTAR_FIELDS mstar
    let c ← saveGroup SSFR_FIELDS ssfr
    let s ← saveGroup SSFR_SAT_FIELDS sat
    return (m, c, s)

/-- Comparison `a <= b` of python strings: by code points, a prefix first (library). -/
def strLe : Str → Str → Bool
  | [], _ => true
  | _ :: _, [] => false
  | a :: as, b :: bs => if a.toNat < b.toNat then true else if b.toNat < a.toNat then false else strLe as bs

/-- Values returned by `load_loss_data_h5`. -/
inductive Out
  | arr (a : Arr)
  | list (l : List Arr)
  | num (x : ℝ)
  | json (s : Str)
  | text (s : Str)

/-- `_load_group` for one name, L255-284; both branches of L266-272 read the members in the order of the sorted keys.
`none` is `KeyError`. -/
def loadField (g : Group) (name : Str) : Option Out :=
  match g.members.lookup name with
  | some (.dataset a) => some (.arr a)
  | some (.sub items) => some (.list ((items.mergeSort fun a b => strLe a.1 b.1).map Prod.snd))
  | none =>
    match g.attrs.lookup name with
    | some (.num x) => some (.num x)
    | some (.json s) => some (.json s)
    | some (.text s) => some (.text s)
    | none => none

/-- `_load_group`, with the names of `field_order`, L287-294. -/
def loadGroup (g : Group) : Option (List Out) := g.fieldOrder.mapM (loadField g)

/-- `load_loss_data_h5`, L247-296. -/
def loadLossData (f : Group × Group × Group) : Option (List Out × List Out × List Out) := do
  let m ← loadGroup f.1
  let c ← loadGroup f.2.1
  let s ← loadGroup f.2.2
  return (m, c, s)

end Diffstar.SaveLoss
