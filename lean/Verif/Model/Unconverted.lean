/-
The record of the data of an EcoSpold2 file that have no place in ILCD.
Models src/Lavoisier/data_structures/ILCD1_structure.py:559-650 (`LIST`, `ECS2ToILCD1DataNotConverted` with its
classes `Flow`, `Property`, `ProductionVolume`, `Parameter`), the assignment of a value to them
(src/Lavoisier/data_structures/main.py:63-101 and 120-135) and what is assigned:
src/Lavoisier/conversions/ECS2_to_ILCD1_conversion.py:636-642, 757-769, 1054-1071, 1137-1143, 1230-1238,
1332-1335, 1717-1722, 1788-1792 (the methods `get_not_converted`) and the entries of the mapping that set a
field of `NotConverted`, lines 2178-2301, 2349-2354, 2381-2382, 2404-2448 and 2462-2482.

The record itself is never written; what matters to the outside is whether an assignment fails, since this
ends the conversion.

Simplifications: of an element only its attributes (all texts) and, where it matters, the number of its
children are kept; the fields of the classes that hold records (`flows`, `parameter`, `properties`,
`productionVolume`), which are never assigned, are left out; which texts are numbers (`float`) is a
parameter.
-/
import Verif.Model.Assoc
import Verif.Py

namespace Verif.Unconverted

/-- The validators of the fields: `Str`, `Real`, `Bool` and `LIST`. -/
inductive Ty where
  | text
  | real
  | bool
  | list
  deriving DecidableEq

/-- `VALID` of a class. -/
abbrev Cls := List (Str × Ty)

/-- A value assigned: a text, or a dictionary. -/
inductive Val where
  | text (s : Str)
  | dict (l : List (Str × Str))
  deriving DecidableEq

/-- A record: the values of the fields that are set. -/
abbrev Rec := List (Str × List Val)

/-- `Flow.Property`, ILCD1_structure.py:579-591. -/
def propertyCls : Cls :=
  [(c!"id", .text), (c!"amount", .real), (c!"unitId", .text), (c!"variableName", .text),
   (c!"mathematicalRelation", .text), (c!"propertyContextId", .text), (c!"isDefiningValue", .bool),
   (c!"isCalculatedAmount", .bool), (c!"unitContextId", .text), (c!"sourceIdOverwrittenByChild", .text),
   (c!"sourceContextId", .text)]

/-- `Flow.ProductionVolume`, ILCD1_structure.py:595-598. -/
def volumeCls : Cls :=
  [(c!"productionVolumeSourceIdOverwrittenByChild", .text), (c!"productionVolumeSourceContextId", .text)]

/-- `Flow`, ILCD1_structure.py:600-618. -/
def flowCls : Cls :=
  [(c!"id", .text), (c!"classification", .list), (c!"fId", .text), (c!"tag", .list), (c!"unitContextId", .text),
   (c!"isCalculatedAmount", .bool), (c!"sourceIdOverwrittenByChild", .bool),
   (c!"specificAllocationPropertyIdOverwrittenByChild", .text), (c!"specificAllocationPropertyContextId", .text),
   (c!"transferCoefficient", .list), (c!"uncertainty", .list), (c!"activityLinkIdOverwrittenByChild", .bool),
   (c!"intermediateExchangeContextId", .text), (c!"elementaryExchangeContextId", .text),
   (c!"activityLinkContextId", .text)]

/-- `Parameter`, ILCD1_structure.py:622-627. -/
def parameterCls : Cls :=
  [(c!"amount", .real), (c!"parameterContextId", .text), (c!"isCalculatedAmount", .bool), (c!"unitContextId", .text)]

/-- `ECS2ToILCD1DataNotConverted`, ILCD1_structure.py:629-663. -/
def mainCls : Cls :=
  [(c!"activityNameId", .text), (c!"activityNameContextId", .text), (c!"parentActivityId", .text),
   (c!"parentActivityContextId", .text), (c!"inheritanceDepth", .text), (c!"specialActivityType", .text),
   (c!"masterAllocationPropertyId", .text), (c!"masterAllocationPropertyIdOverwrittenByChild", .text),
   (c!"masterAllocationPropertyContextId", .text), (c!"tag", .list), (c!"geographyId", .text),
   (c!"geographyContextId", .text), (c!"technologyLevel", .text), (c!"isDataValidForEntirePeriod", .bool),
   (c!"macroEconomicScenarioId", .text), (c!"macroEconomicScenarioContextId", .text),
   (c!"macroEconomicScenario_name", .text), (c!"macroEconomicScenario_comment", .list),
   (c!"classificationContext", .list), (c!"systemModelId", .text), (c!"systemModelContextId", .text),
   (c!"review", .list), (c!"dataEntryBy_personContextId", .text),
   (c!"dataGeneratorAndPublication_personContextId", .list), (c!"publishedSourceIdOverwrittenByChild", .list),
   (c!"publishedSourceContextId", .list), (c!"companyIdOverwrittenByChild", .list), (c!"companyContextId", .list),
   (c!"version", .text), (c!"fileInfo", .text), (c!"requiredContext", .list)]

/-- The texts among the values `Bool` accepts, general_validators.py:79. -/
def boolTexts : List Str := [c!"true", c!"false", c!"True", c!"False", c!"1", c!"0"]

/-- `record.key = v`, main.py:63-101: an unknown field is an `AttributeError`; then the validator decides. -/
def put (num : Str → Bool) (c : Cls) (k : Str) (v : Val) (r : Rec) : Py Rec :=
  match aget k c, v with
  | none, _ => .error .attributeError
  | some .text, .text _ => .ok (aset k [v] r)
  | some .text, .dict _ => .error .typeError
  | some .real, .text s => if num s then .ok (aset k [v] r) else .error .typeError
  | some .real, .dict _ => .error .typeError
  | some .bool, .text s => if s ∈ boolTexts then .ok (aset k [v] r) else .error .valueError
  | some .bool, .dict _ => .error .valueError
  | some .list, _ => .ok (aset k ((aget k r).getD [] ++ [v]) r)

/-- Reading a field of a validator as an attribute, main.py:120-129: `KeyError`. -/
def read (c : Cls) (k : Str) : Py Unit :=
  match aget k c with
  | none => .error .keyError
  | some _ => .error .keyError

/-- The attributes of an element. -/
abbrev Attrs := List (Str × Str)

/-- `x.get('@a')` is true: the attribute is there and not empty. -/
def given (a : Str) (x : Attrs) : Option Str := (aget a x).filter (fun s => !s.isEmpty)

/-- `if x.get('@a'): record.k = x['@a']`. -/
def putGiven (num : Str → Bool) (c : Cls) (p : Str × Str) (x : Attrs) (r : Rec) : Py Rec :=
  match given p.1 x with
  | none => .ok r
  | some s => put num c p.2 (.text s) r

/-- Several such lines. -/
def putAll (num : Str → Bool) (c : Cls) (x : Attrs) : List (Str × Str) → Rec → Py Rec
  | [], r => .ok r
  | p :: l, r =>
    match putGiven num c p x r with
    | .error e => .error e
    | .ok r' => putAll num c x l r'

/-- Attribute and field have the same name. -/
def same (l : List Str) : List (Str × Str) := l.map fun a => (a, a)

/-- `ParameterConversion.get_not_converted`, ECS2_to_ILCD1_conversion.py:636-642. -/
def parameter (num : Str → Bool) (x : Attrs) : Py Rec :=
  putAll num parameterCls x (same [c!"isCalculatedAmount", c!"parameterContextId", c!"unitContextId"]) []

/-- `Property`: the amount and the unit of a property without equivalent, ECS2_to_ILCD1_conversion.py:713-731,
then `get_not_converted`, 757-769. `kept` says that the property has an equivalent and a unit; `unitGiven`
that `x.get('@unitId') and x.get('unitName')`; `known` that it has an equivalent. -/
def property (num : Str → Bool) (known unitGiven : Bool) (amount : Str) (x : Attrs) : Py Rec := do
  let r ← if known && unitGiven then .ok [] else put num propertyCls c!"amount" (.text amount) []
  let r ← if !known && unitGiven then putGiven num propertyCls (c!"unitId", c!"unitId") x r else .ok r
  putAll num propertyCls x (same [c!"propertyContextId", c!"isDefiningValue", c!"isCalculatedAmount",
    c!"unitContextId", c!"sourceIdOverwrittenByChild", c!"sourceContextId"]) r

/-- `ProductionVolume.get_not_converted`, ECS2_to_ILCD1_conversion.py:1137-1143. -/
def volume (num : Str → Bool) (x : Attrs) : Py Rec :=
  putAll num volumeCls x (same [c!"productionVolumeSourceIdOverwrittenByChild", c!"productionVolumeSourceContextId"]) []

/-- Values added to a list one after the other. -/
def putEach (num : Str → Bool) (c : Cls) (k : Str) : List Val → Rec → Py Rec
  | [], r => .ok r
  | v :: l, r =>
    match put num c k v r with
    | .error e => .error e
    | .ok r' => putEach num c k l r'

/-- `FlowConversion.get_not_converted`, ECS2_to_ILCD1_conversion.py:1054-1071. The line about
`specificAllocationPropertyContextId` names the field without assigning to it (1068-1069). -/
def flow (num : Str → Bool) (id fid : Str) (tags coefficients : List Val) (x : Attrs) (r : Rec) : Py Rec := do
  let r ← put num flowCls c!"id" (.text id) r
  let r ← put num flowCls c!"fId" (.text fid) r
  let r ← putEach num flowCls c!"tag" tags r
  let r ← putAll num flowCls x (same [c!"unitContextId", c!"isCalculatedAmount", c!"sourceIdOverwrittenByChild",
    c!"specificAllocationPropertyIdOverwrittenByChild"]) r
  match given c!"specificAllocationPropertyContextId" x with
  | some _ => read flowCls c!"specificAllocationPropertyContextId"
  | none => pure ()
  putEach num flowCls c!"transferCoefficient" coefficients r

/-- `IntermediateFlowConversion.get_not_converted`, ECS2_to_ILCD1_conversion.py:1230-1238. -/
def intermediate (num : Str → Bool) (id fid : Str) (tags coefficients : List Val) (x : Attrs) (r : Rec) : Py Rec := do
  let r ← flow num id fid tags coefficients x r
  putAll num flowCls x (same [c!"activityLinkIdOverwrittenByChild", c!"intermediateExchangeContextId",
    c!"activityLinkContextId"]) r

/-- `ElementaryFlowConversion.get_not_converted`, ECS2_to_ILCD1_conversion.py:1332-1335. -/
def elementary (num : Str → Bool) (id fid : Str) (tags coefficients : List Val) (x : Attrs) (r : Rec) : Py Rec := do
  let r ← flow num id fid tags coefficients x r
  putAll num flowCls x (same [c!"elementaryExchangeContextId"]) r

/-- `ClassificationConversion.get_not_converted`, ECS2_to_ILCD1_conversion.py:1717-1722; the record is the one
of the data set (line 2253) or of the flow (1250-1251). -/
def classification (num : Str → Bool) (c : Cls) (id : Str) (x : Attrs) (r : Rec) : Py Rec :=
  match given c!"classificationContextId" x with
  | none => .ok r
  | some s => put num c c!"classification" (.dict [(c!"id", id), (c!"context", s)]) r

/-- `ReviewConversion.get_not_converted`, ECS2_to_ILCD1_conversion.py:1788-1792. -/
def review (num : Str → Bool) (id date version : Str) (r : Rec) : Py Rec :=
  put num mainCls c!"review" (.dict [(c!"@reviewerId", id), (c!"@reviewDate", date), (c!"@version", version)]) r

/-- The entries of the mapping that put an attribute of the data set into the record,
ECS2_to_ILCD1_conversion.py:2178-2293 and 2349-2354. They run when the attribute is there, empty or not. -/
def dataSetFields : List Str :=
  [c!"activityNameId", c!"activityNameContextId", c!"parentActivityId", c!"parentActivityContextId",
   c!"inheritanceDepth", c!"specialActivityType", c!"masterAllocationPropertyId",
   c!"masterAllocationPropertyIdOverwrittenByChild", c!"masterAllocationPropertyContextId", c!"geographyId",
   c!"geographyContextId", c!"technologyLevel", c!"isDataValidForEntirePeriod", c!"macroEconomicScenarioId",
   c!"macroEconomicScenarioContextId", c!"systemModelId", c!"systemModelContextId"]

/-- One of these entries. -/
def dataSetField (num : Str → Bool) (k : Str) (x : Attrs) (r : Rec) : Py Rec :=
  match aget k x with
  | none => .ok r
  | some s => put num mainCls k (.text s) r

/-- `x['@k']`. -/
def must (k : Str) (x : Attrs) : Py Str :=
  match aget k x with
  | some s => .ok s
  | none => .error .keyError

/-- The record made of the person who entered the data, ECS2_to_ILCD1_conversion.py:2381-2382. -/
def entry (num : Str → Bool) (x : Attrs) (r : Rec) : Py Rec :=
  match given c!"personContextId" x with
  | none => .ok r
  | some s => do
    let p ← must c!"personId" x
    put num mainCls c!"dataEntryBy_personContextId" (.text (p ++ c!"/" ++ s)) r

/-- `setattr(NotConverted, k, x['@id'] + "/" + x['@a']) if x.get('@a') else None`; with `guarded` also
`and x.get('@id')`. -/
def paired (num : Str → Bool) (guarded : Bool) (id a k : Str) (x : Attrs) (r : Rec) : Py Rec :=
  match given a x with
  | none => .ok r
  | some s =>
    if guarded && (given id x).isNone then .ok r else do
      let p ← must id x
      put num mainCls k (.text (p ++ c!"/" ++ s)) r

/-- The record made of the generator of the data, ECS2_to_ILCD1_conversion.py:2403-2405, 2427-2431, 2446-2449.
The identifier of the company is asked for only in the first of the last two. -/
def generator (num : Str → Bool) (x : Attrs) (r : Rec) : Py Rec := do
  let r ← paired num false c!"personId" c!"personContextId" c!"dataGeneratorAndPublication_personContextId" x r
  let r ← paired num true c!"personId" c!"publishedSourceIdOverwrittenByChild" c!"publishedSourceIdOverwrittenByChild" x r
  let r ← paired num false c!"personId" c!"publishedSourceContextId" c!"publishedSourceContextId" x r
  let r ← paired num true c!"companyId" c!"companyIdOverwrittenByChild" c!"companyIdOverwrittenByChild" x r
  paired num false c!"companyId" c!"companyContextId" c!"companyContextId" x r

/-- Text and `x.get(k)`, which is `None` if the attribute is missing: a `TypeError`. -/
def concat (s : Str) (o : Option Str) : Py Str :=
  match o with
  | some t => .ok (s ++ t)
  | none => .error .typeError

/-- The entry for a required context, ECS2_to_ILCD1_conversion.py:2474-2482; `names` is the text made of the
names, `none` if there are none (`x['requiredContextName']`). -/
def requiredContext (num : Str → Bool) (names : Option Str) (x : Attrs) (r : Rec) : Py Rec := do
  let n ← match names with
    | some n => .ok n
    | none => .error .keyError
  let a ← must c!"majorRelease" x
  let b ← must c!"minorRelease" x
  let c := (aget c!"majorRevision" x).getD c!"-"
  let d := (aget c!"minorRevision" x).getD c!"-"
  let e ← must c!"requiredContextId" x
  let t ← concat (n ++ c!"|" ++ a ++ c!"|" ++ b ++ c!"|" ++ c ++ c!"|" ++ d ++ c!"|" ++ e ++ c!"|")
    (aget c!"requiredContextFileLocation" x)
  put num mainCls c!"requiredContext" (.text t) r

end Verif.Unconverted
