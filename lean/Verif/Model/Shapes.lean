/-
The forms in which a text of an ILCD file reaches the conversion, and the ways the conversion reads it.
Models src/Lavoisier/formats/helpers.py:42-49 (`text_add_index`), src/Lavoisier/conversions/utils.py:49-65
(`ensure_list`), src/Lavoisier/conversions/ILCD1_to_ECS2_conversion.py:1630-1633 (`ensure_dict`), the entries of
the mapping from ILCD to EcoSpold2 that read texts (1653-1932) and the places that read a text inside an
exchange, a reference, a review, a variable or another file (lines 71-85, 294-300, 398-405, 457, 477, 599, 849,
883, 962-963, 1177-1188).

A text is an element that may have the attribute `xml:lang` and no others; what the stream makes of it is
`XmlStream`. Without `xml:lang` it is a `str` and no dictionary.

Simplifications: what is done with the text after it has been read (other modules); the running number.
-/
import Verif.Model.XmlStream

namespace Verif.Shapes

open Verif.Xml

/-- The name of the attribute as the parser gives it. -/
def xmlLang : Str := c!"{http://www.w3.org/XML/1998/namespace}lang"

/-- A text element. -/
def leaf (tag : Str) (lang text : Option Str) : Elem :=
  .mk tag (lang.toList.map fun l => (xmlLang, l)) text [] none

/-- `x['#text']`. -/
def direct : PyVal → Py PyVal
  | .dict d =>
    match aget c!"#text" d with
    | some v => .ok v
    | none => .error .keyError
  | _ => .error .typeError

/-- `text_add_index(x, prefix)`, helpers.py:43-49, without the index: language and text. -/
def addIndex (dflt : PyVal) (pre : Str) : PyVal → Py (PyVal × Str)
  | .str s => .ok (.str c!"en", pre ++ s)
  | .dict d =>
    match aget c!"#text" d with
    | some (.str s) => .ok ((aget c!"@lang" d).getD dflt, pre ++ s)
    | some _ => .error .typeError
    | none => .error .keyError
  | _ => .error .attributeError

/-- The dictionary made of a text. -/
def english (v : PyVal) : PyVal := .dict [(c!"@lang", .str c!"en"), (c!"#text", v)]

/-- `ensure_dict`, ILCD1_to_ECS2_conversion.py:1630-1633. -/
def ensureDict : PyVal → PyVal
  | .str s => english (.str s)
  | v => v

/-- `bool(x)`. -/
def truthy : PyVal → Bool
  | .none => false
  | .bool b => b
  | .int i => i != 0
  | .float n _ => n != 0
  | .str s => !s.isEmpty
  | .list l => !l.isEmpty
  | .dict d => !d.isEmpty
  | _ => true

/-- A member of a list, utils.py:62. -/
def member : PyVal → PyVal
  | .dict (p :: d) => .dict (p :: d)
  | v => english v

/-- `[n for n in x if n['#text'] and n['#text'] != '']`, utils.py:64. -/
def withText : List PyVal → Py (List PyVal)
  | [] => .ok []
  | n :: l => do
    let t ← direct n
    let r ← withText l
    .ok (if truthy t then n :: r else r)

/-- `ensure_list(x, ensure_text=True)`, utils.py:49-65. -/
def ensureList : PyVal → Py (List PyVal)
  | .dict d => .ok (if (aget c!"#text" d).any truthy then [.dict d] else [])
  | .str s => .ok (if s ≠ [] then [english (.str s)] else [])
  | .list l => withText (l.map member)
  | _ => .error .typeError

/-- `ensure_list(x, ensure_text=True)[0]['#text']`. -/
def first (v : PyVal) : Py PyVal := do
  match ← ensureList v with
  | [] => .error .indexError
  | n :: _ => direct n

/-- `text_add_index` for each of some texts. -/
def indexAll (dflt : PyVal) : List PyVal → Py (List (PyVal × Str))
  | [] => .ok []
  | n :: l => do
    let a ← addIndex dflt [] n
    let r ← indexAll dflt l
    .ok (a :: r)

/-- `for n in ensure_list(x.get(k, {}), ensure_text=True): text_add_index(n)`. -/
def each (dflt : PyVal) (v : PyVal) : Py (List (PyVal × Str)) := do
  let l ← ensureList v
  indexAll dflt l

/-- The ways an entry of the mapping reads the text it gets. -/
inductive Use where
  | direct
  | index
  | ensured
  deriving DecidableEq

/-- The entries of the mapping that read a text, ILCD1_to_ECS2_conversion.py:1653-1932, by the last names of their
paths, in order. -/
def entries : List (Str × Use) :=
  [(c!"name/baseName", .direct), (c!"name/treatmentStandardsRoutes", .index), (c!"name/mixAndLocationTypes", .index),
   (c!"name/functionalUnitFlowProperties", .index), (c!"dataSetInformation/synonyms", .direct),
   (c!"dataSetInformation/generalComment", .index), (c!"time/timeRepresentativenessDescription", .index),
   (c!"locationOfOperationSupplyOrProduction/descriptionOfRestrictions", .index),
   (c!"subLocationOfOperationSupplyOrProduction/descriptionOfRestrictions", .index),
   (c!"technology/technologyDescriptionAndIncludedProcesses", .index), (c!"technology/technologyApplicability", .index),
   (c!"mathematicalRelations/modelDescription", .index),
   (c!"LCIMethodAndAllocation/deviationsFromLCIMethodPrinciple", .direct),
   (c!"LCIMethodAndAllocation/deviationsFromLCIMethodApproaches", .ensured),
   (c!"LCIMethodAndAllocation/modellingConstants", .index),
   (c!"LCIMethodAndAllocation/deviationsFromModellingConstants", .index),
   (c!"dataSourcesTreatmentAndRepresentativeness/dataCutOffAndCompletenessPrinciples", .index),
   (c!"dataSourcesTreatmentAndRepresentativeness/deviationsFromCutOffAndCompletenessPrinciples", .direct),
   (c!"dataSourcesTreatmentAndRepresentativeness/dataSelectionAndCombinationPrinciples", .index),
   (c!"dataSourcesTreatmentAndRepresentativeness/deviationsFromSelectionAndCombinationPrinciples", .direct),
   (c!"dataSourcesTreatmentAndRepresentativeness/dataTreatmentAndExtrapolationsPrinciples", .index),
   (c!"dataSourcesTreatmentAndRepresentativeness/deviationsFromTreatmentAndExtrapolationPrinciples", .direct),
   (c!"dataSourcesTreatmentAndRepresentativeness/samplingProcedure", .index),
   (c!"dataSourcesTreatmentAndRepresentativeness/dataCollectionPeriod", .index),
   (c!"dataSourcesTreatmentAndRepresentativeness/uncertaintyAdjustments", .index),
   (c!"dataSourcesTreatmentAndRepresentativeness/useAdviceForDataSet", .index),
   (c!"commissionerAndGoal/project", .index), (c!"commissionerAndGoal/intendedApplications", .index),
   (c!"publicationAndOwnership/registrationNumber", .direct), (c!"publicationAndOwnership/accessRestrictions", .direct)]

/-- The text an entry reads: language, if it asks for it, and text. -/
def readText (dflt : PyVal) : Use → PyVal → Py (Option PyVal × Str)
  | .direct, v => do
    match ← direct v with
    | .str s => .ok (match v with | .dict d => aget c!"@lang" d | _ => none, s)
    | _ => .error .typeError
  | .index, v => do
    let p ← addIndex dflt [] v
    .ok (some p.1, p.2)
  | .ensured, v => do
    let _ ← direct (ensureDict v)
    let p ← addIndex dflt [] v
    .ok (some p.1, p.2)

/-- The value of a child that may occur several times, as the stream gives it: nothing, the value of the one there
is, or the list of the values. -/
def children : List Elem → Option PyVal
  | [] => none
  | [e] => some (elem2dict e)
  | l => some (.list (l.map elem2dict))

/-- The description of a source, line 849: `x.get("shortDescription", {'#text': ''})['#text']`. -/
def sourceDescription (l : List Elem) : Py PyVal :=
  direct ((children l).getD (.dict [(c!"#text", .str [])]))

/-- The name of a flow property, lines 457 and 599: `x[…]['shortDescription']['#text']`. -/
def propertyDescription (l : List Elem) : Py PyVal :=
  match children l with
  | none => .error .keyError
  | some v => direct v

/-- The name of a flow or reviewer, lines 398 and 1188. -/
def flowDescription (l : List Elem) : Py PyVal :=
  match children l with
  | none => .error .keyError
  | some v => first v

/-- The comments of exchanges, variables and reviews, lines 71, 294, 404, 476, 1177 and 1181. -/
def comments (dflt : PyVal) (l : List Elem) : Py (List (PyVal × Str)) :=
  each dflt ((children l).getD (.dict []))

end Verif.Shapes
