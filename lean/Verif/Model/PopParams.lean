import Verif.Model.Utils
import Verif.Model.PopTables

/-!
Model of the bounded/unbounded transforms of the DiffstarPop parameters:
`diffstar/diffstarpop/kernels/sfh_pdf_mgash.py` L621-657, `satquenchpop_model.py` L136-170,
`defaults_mgash.py` L22-68, and of the construction of the shipped tables (`kernels/params/*.py`).
-/

namespace Diffstar.Pop

noncomputable section

/-- Positional construction of a namedtuple, `T(*vals)` / `T._make(vals)`: the `k`-th value becomes the
`k`-th field. (Python raises if the lengths differ; in the transforms they agree by construction.) -/
def makeTuple {F : Type} [DecidableEq F] (fields : List F) (vals : List ℝ) : F → ℝ :=
  fun f => vals.getD (fields.idxOf f) 0

/-- Real bounds of a field. -/
def QF.bounds (f : QF) : ℝ × ℝ := ((f.boundsQ.1 : ℝ), (f.boundsQ.2 : ℝ))

/-- Real bounds of a field. -/
def SF.bounds (f : SF) : ℝ × ℝ := ((f.boundsQ.1 : ℝ), (f.boundsQ.2 : ℝ))

/-- `BOUNDING_K`, `sfh_pdf_mgash.py` L24. -/
def BOUNDING_K : ℝ := 0.1

/-- `_get_p_from_u_p_scalar`, `sfh_pdf_mgash.py` L621-626. -/
def getPFromUPScalar (uP : ℝ) (bounds : ℝ × ℝ) : ℝ :=
  let lo := bounds.1
  let hi := bounds.2
  let p0 := 0.5 * (lo + hi)
  sigmoid uP p0 BOUNDING_K lo hi

/-- `_get_u_p_from_p_scalar`, `sfh_pdf_mgash.py` L629-634. -/
def getUPFromPScalar (p : ℝ) (bounds : ℝ × ℝ) : ℝ :=
  let lo := bounds.1
  let hi := bounds.2
  let p0 := 0.5 * (lo + hi)
  inverseSigmoid p p0 BOUNDING_K lo hi

/-- `get_bounded_sfh_pdf_params`, `sfh_pdf_mgash.py` L641-649: fields read by name in `QseqUParams._fields`
order, transformed element-wise against the bounds in field order, rebuilt positionally. -/
def getBoundedSfhPdfParams (u : QF → ℝ) : QF → ℝ :=
  let uParams := QF.fields.map u
  let params := List.zipWith getPFromUPScalar uParams (QF.fields.map QF.bounds)
  makeTuple QF.fields params

/-- `get_unbounded_sfh_pdf_params`, `sfh_pdf_mgash.py` L652-657. -/
def getUnboundedSfhPdfParams (p : QF → ℝ) : QF → ℝ :=
  let params := QF.fields.map p
  let uParams := List.zipWith getUPFromPScalar params (QF.fields.map QF.bounds)
  makeTuple QF.fields uParams

/-- `_get_bounded_satq_param`, `satquenchpop_model.py` L136-140. -/
def getBoundedSatqParam (uParam : ℝ) (bound : ℝ × ℝ) : ℝ :=
  let lo := bound.1
  let hi := bound.2
  let mid := 0.5 * (lo + hi)
  sigmoid uParam mid 0.1 lo hi

/-- `_get_unbounded_satq_param`, `satquenchpop_model.py` L143-147. -/
def getUnboundedSatqParam (param : ℝ) (bound : ℝ × ℝ) : ℝ :=
  let lo := bound.1
  let hi := bound.2
  let mid := 0.5 * (lo + hi)
  inverseSigmoid param mid 0.1 lo hi

/-- `get_bounded_satquenchpop_params`, `satquenchpop_model.py` L155-159. -/
def getBoundedSatquenchpopParams (u : SF → ℝ) : SF → ℝ :=
  let uParams := SF.fields.map u
  let params := List.zipWith getBoundedSatqParam uParams (SF.fields.map SF.bounds)
  makeTuple SF.fields params

/-- `get_unbounded_satquenchpop_params`, `satquenchpop_model.py` L162-170. -/
def getUnboundedSatquenchpopParams (p : SF → ℝ) : SF → ℝ :=
  let params := SF.fields.map p
  let uParams := List.zipWith getUnboundedSatqParam params (SF.fields.map SF.bounds)
  makeTuple SF.fields uParams

/-- Fields of `DiffstarPopParams`, `defaults_mgash.py` L22-24: the two (disjoint) field sets merged. -/
abbrev PF := QF ⊕ SF

/-- `DiffstarPopParams._fields`, `defaults_mgash.py` L22-24. -/
def PF.fields : List PF := QF.fields.map Sum.inl ++ SF.fields.map Sum.inr

/-- `DIFFSTARPOP_PBOUNDS`, `defaults_mgash.py` L30. -/
def PF.bounds : PF → ℝ × ℝ
  | .inl f => f.bounds
  | .inr f => f.bounds

/-- The sub-tuples read by name at `defaults_mgash.py` L38-41 and `kernels/diffstarpop_mgash.py` L91-93. -/
def sfhPdfPart (p : PF → ℝ) : QF → ℝ :=
  makeTuple QF.fields (QF.fields.map fun f => p (.inl f))

/-- The sub-tuple read by name at `defaults_mgash.py` L44-47 and `kernels/diffstarpop_mgash.py` L101-103. -/
def satquenchPart (p : PF → ℝ) : SF → ℝ :=
  makeTuple SF.fields (SF.fields.map fun f => p (.inr f))

/-- `DiffstarPopParams(*q, *s)`. -/
def joinPop (q : QF → ℝ) (s : SF → ℝ) : PF → ℝ :=
  makeTuple PF.fields (QF.fields.map q ++ SF.fields.map s)

/-- `get_bounded_diffstarpop_params`, `defaults_mgash.py` L36-50. -/
def getBoundedDiffstarpopParams (u : PF → ℝ) : PF → ℝ :=
  joinPop (getBoundedSfhPdfParams (sfhPdfPart u)) (getBoundedSatquenchpopParams (satquenchPart u))

/-- `get_unbounded_diffstarpop_params`, `defaults_mgash.py` L53-68. -/
def getUnboundedDiffstarpopParams (p : PF → ℝ) : PF → ℝ :=
  joinPop (getUnboundedSfhPdfParams (sfhPdfPart p)) (getUnboundedSatquenchpopParams (satquenchPart p))

/-- A shipped calibration: `DiffstarPopParams(*SFH_PDF_QUENCH_PARAMS, *DEFAULT_SATQUENCHPOP_PARAMS)` at the
end of every `kernels/params/params_*.py`, where `SFH_PDF_QUENCH_PARAMS` iterates over the table's own
key order. `none` is the `TypeError` raised for a wrong number of values. -/
def calibration (table : List (QF × ℚ)) : Option (PF → ℝ) :=
  let vals := table.map (fun kv => (kv.2 : ℝ)) ++ SF.defaultPdict.map (fun kv => (kv.2 : ℝ))
  if vals.length = PF.fields.length then some (makeTuple PF.fields vals) else none

/-- `DEFAULT_DIFFSTARPOP_PARAMS`, `defaults_mgash.py` L26-28. -/
def defaultDiffstarpopParams : Option (PF → ℝ) := calibration QF.defaultPdict

end

end Diffstar.Pop
