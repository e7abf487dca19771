/-
The classifications of an EcoSpold2 data set and of its exchanges on their way to ILCD.

Simplifications: an EcoSpold2 classification is given by the text of its system, the text of its value
(`none` for an element without text) and its identifier; missing elements (a `KeyError`) are not modelled.
The mapping file is a parameter, except for the pairs of class identifier and class name that occur in it
(`Model/ClassTables`). Left out: the statistics and the log.
-/
import Verif.Model.Assoc
import Verif.Model.IlcdVars
import Verif.Model.ClassTables

namespace Verif.Classes

open Verif.IlcdVars (replaceAll)

/-- A classification of the source: `classificationSystem`, `classificationValue`, `@classificationId`
(conversions/ECS2_to_ILCD1_conversion.py:1667-1669). -/
structure Source where
  system : Str
  value : Option Str
  id : Str
  deriving DecidableEq

/-- A row of the mapping file: `classificationValueName`, `ILCD_Class`, `ILCD_Class_id`
(Mappings/ecs2_to_ilcd1_classes.json). -/
structure Row where
  value : Str
  cls : Str
  clsId : Str
  deriving DecidableEq

/-- The mapping file, read by `_dict_from_file` (conversions/utils.py:117-128). -/
abbrev Mapping := List (Str × Row)

/-- An ILCD class: attributes `level` and `classId` and the text
(data_structures/ILCD1_structure.py:74-80). -/
structure Class where
  level : Nat
  id : Str
  text : Str
  deriving DecidableEq

/-- An ILCD classification: attributes `name` and `classes` and the classes
(data_structures/ILCD1_structure.py:72-86). -/
structure Classification where
  name : Str
  classes : Str
  path : List Class
  deriving DecidableEq

/-- The pairs of identifier and name of a row:
`('.'.join(ids.split('.')[:i+1]), l) for i, l in enumerate(class.split('/'))`
(conversions/ECS2_to_ILCD1_conversion.py:1689, 1691). -/
def levels (r : Row) : List (Str × Str) :=
  (splitOn '/' r.cls).mapIdx fun i l => (join c!"." ((splitOn '.' r.clsId).take (i + 1)), l)

/-- `value.replace(": ", ":")` (conversions/ECS2_to_ILCD1_conversion.py:1688). -/
def squeeze (v : Str) : Str := replaceAll c!": " c!":" v

/-- The row of a classification: by its identifier, else the row `NULL_UUID` if the value is the one of that
row (conversions/ECS2_to_ILCD1_conversion.py:1683-1691). -/
def rowOf (m : Mapping) (id value : Str) : Option Row :=
  match aget id m with
  | some r => some r
  | none =>
    match aget c!"NULL_UUID" m with
    | some n => if squeeze value = squeeze n.value then some n else none
    | none => none

/-- `get_classification`: the classes of the row, numbered from 0, or one class with the value. The field
`level` takes one digit only (conversions/ECS2_to_ILCD1_conversion.py:1681-1707, `Int1`
data_structures/validators/general_validators.py:106-114). -/
def classesOf (m : Mapping) (id value : Str) : Py (List Class) :=
  match rowOf m id value with
  | some r =>
    if (levels r).length ≤ 10 then .ok ((levels r).mapIdx fun i p => ⟨i, p.1, p.2⟩) else .error .valueError
  | none => .ok [⟨0, c!"0", value⟩]

/-- `ECS2ToILCD1ClassificationConversion.__init__`; `return_text` raises for a value without text
(conversions/ECS2_to_ILCD1_conversion.py:1660-1679, formats/helpers.py:78-85). -/
def convert (m : Mapping) (x : Source) : Py Classification :=
  match x.value with
  | none => .error .valueError
  | some v => do
    let p ← classesOf m x.id v
    pure ⟨c!"ILCD", c!"../ILCDClassification.xml", p⟩

/-- `organize`: the first classification with the name `priority` is put in front
(conversions/ECS2_to_ILCD1_conversion.py:1709-1715). -/
def organize (cs : List Classification) (priority : Str) : List Classification :=
  match cs.findIdx? fun c => c.name = priority with
  | some i => (cs[i]?).toList ++ cs.eraseIdx i
  | none => cs

/-- The systems that are converted: `t in ('ISIC rev.4 ecoinvent', 'CPC')`
(conversions/ECS2_to_ILCD1_conversion.py:1249, 2253). -/
def kept (x : Source) : Bool := x.system = c!"ISIC rev.4 ecoinvent" || x.system = c!"CPC"

/-- The classifications of a flow data set (conversions/ECS2_to_ILCD1_conversion.py:1240-1253). -/
def ofFlow (m : Mapping) (xs : List Source) : Py (List Classification) := do
  let cs ← (xs.filter kept).mapM (convert m)
  pure (organize cs c!"CPC")

/-- The classifications of a process data set
(conversions/ECS2_to_ILCD1_conversion.py:2046, 2050-2052, 2251-2254). -/
def ofProcess (m : Mapping) (xs : List Source) : Py (List Classification) := do
  let cs ← (xs.filter kept).mapM (convert m)
  pure (organize cs c!"ISIC rev.4 ecoinvent")

/-- `_by_prod_class`: the value of the last by-product classification that has one
(conversions/ECS2_to_ILCD1_conversion.py:1246-1248). -/
def byProduct (xs : List Source) : Option Str :=
  xs.foldl (fun o x => if x.system = c!"By-product classification" then x.value.or o else o) none

/-- `get_dict` of the classifications: the texts have 1 to 500 characters unless the limits are ignored
(`String`, data_structures/validators/ILCD1_validators.py:37, general_validators.py:150-161). -/
def written (ignore : Bool) (cs : List Classification) : Py (List Classification) :=
  if ignore || cs.all fun c => c.path.all fun k => 1 ≤ k.text.length && k.text.length ≤ 500 then .ok cs
  else .error .valueError

/-- The classification of a data set for a source or a contact: the class has no identifier
(conversions/ECS2_to_ILCD1_conversion.py:1472-1478, 1495-1501). -/
structure Simple where
  name : Str
  classes : Str
  level : Nat
  text : Str
  deriving DecidableEq

/-- As above. -/
def simple (x : Str) : Simple := ⟨c!"ILCD", c!"ILCDClassification.xml", 0, x⟩

/-- The class names given to sources (conversions/ECS2_to_ILCD1_conversion.py:587, 2038, 2146, 2226, 2425). -/
def sourceClasses : List Str := [c!"Publications and communications", c!"Databases", c!"Images"]

/-- The class names given to contacts (conversions/ECS2_to_ILCD1_conversion.py:1779, 2379, 2392, 2402, 2442). -/
def contactClasses : List Str := [c!"Persons", c!"Organisations"]

/-- The kinds of data sets with a classification and their folders
(conversions/ECS2_to_ILCD1_conversion.py:1425; the file is put into the folder of the data base itself,
formats/ILCD1_format.py:57-64). -/
inductive Kind where
  | process | flow | source | contact
  deriving DecidableEq

/-- As above. -/
def Kind.folder : Kind → Str
  | .process => c!"processes"
  | .flow => c!"flows"
  | .source => c!"sources"
  | .contact => c!"contacts"

end Verif.Classes
