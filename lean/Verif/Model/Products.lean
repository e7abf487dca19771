/-
The products of an EcoSpold2 data set: the statement of their production volumes, the link to another activity, the
CAS number, the names and synonyms.
Models src/Lavoisier/conversions/ECS2_to_ILCD1_conversion.py:1078-1129 (`ProductionVolume`), 1144-1183
(`__init__` of intermediate flows), 1185-1208 (`get_flow_dict`), 1510-1521 (`IntermediateFlowDataSet`), the
attributes of an uncertainty (68-198) and src/Lavoisier/conversions/utils.py:49-65 (`ensure_list` without
`ensure_text`).

The value of a product is what `XmlStream` makes of its element. Parameters: `float` and the way a number is written
(`Env`), the name of the unit, and the result of reading and calculating the uncertainty (`Uncertainty`, `UncText`), of
which only the kind matters here.

Simplifications: the source of the volume and its variable (`EcsVars`, `Sources`), what is not converted
(`Unconverted`), the properties, the classification and the version of the flow.
-/
import Verif.Model.Shapes
import Verif.Model.Naming
import Verif.Model.LangText

namespace Verif.Products

open Verif.Xml
open Verif.Shapes (truthy english member direct)
open Verif.Naming (returnText entryDict)

/-- Numbers of Python. -/
structure Env (K : Type) where
  /-- `float(s)`; `none` for a `ValueError` -/
  float : Str → Option K
  /-- `f"{x}"` -/
  text : K → Str

/-! ### The uncertainty of a production volume -/

/-- The distributions, by what is calculated for them. -/
inductive UncKind where
  | lognormal
  | normal
  | triangular
  | uniform
  /-- beta, gamma, binomial and undefined -/
  | other
  deriving DecidableEq

/-- The attributes of the class `ECS2ToILCD1UncertaintyConversion`, :64-194. -/
def classAttrs : List Str :=
  [c!"statistics", c!"__init__", c!"_get_data", c!"_get_distribution", c!"_change_data", c!"_calculate",
   c!"get_uncertainty", c!"_get_not_converted_text"]

/-- The attributes of an uncertainty after `_calculate`, :71-77, 107-114 and 145-157. -/
def attrs (k : UncKind) : List Str :=
  classAttrs ++ [c!"_type", c!"_d", c!"comment"] ++
    match k with
    | .lognormal | .normal => [c!"_var", c!"std95", c!"min", c!"max"]
    | .triangular | .uniform => [c!"_min", c!"_max", c!"min", c!"max"]
    | .other => []

/-- `unc_text`, :1107-1111; `std` is the text of the attribute. -/
def uncText (std : UncKind → Str) : Option (Py UncKind) → Py Str
  | none => .ok []
  | some (.error e) => .error e
  | some (.ok k) => .ok (if c!"std" ∈ attrs k then c!" with standard deviation of " ++ std k else [])

/-! ### The statement of the volumes -/

/-- `x[k]`. -/
def item (k : Str) (d : List (Str × PyVal)) : Py PyVal :=
  match aget k d with
  | some v => .ok v
  | none => .error .keyError

/-- `float(x)` of a value of the file. -/
def toFloat {K : Type} (env : Env K) : PyVal → Py K
  | .str s =>
    match env.float s with
    | some k => .ok k
    | none => .error .valueError
  | _ => .error .typeError

/-- The text of the production volume of a product, :1147 (the name), 1162 and 1096-1126. -/
def volumeText {K : Type} (env : Env K) (std : UncKind → Str) (unit : Str) (unc : Option (Py UncKind))
    (d : List (Str × PyVal)) : Py (Option Str) := do
  let n ← item c!"name" d
  let name ← returnText n
  match aget c!"@productionVolumeAmount" d with
  | none => .ok none
  | some v =>
    if truthy v then do
      let m ← toFloat env v
      let u ← uncText std unc
      .ok (some (c!"Production volume for " ++ name ++ c!" is " ++ env.text m ++ c!" " ++ unit ++ u))
    else .ok none

/-- A product: its value, the name of its unit and its uncertainty. -/
structure Product where
  dict : List (Str × PyVal)
  unit : Str
  unc : Option (Py UncKind)

/-- The products of a data set, in order: the running number `_prod_v_number` and the field
`annualSupplyOrProductionVolume`, :1126-1129. -/
def volumesFrom {K : Type} (env : Env K) (std : UncKind → Str) (langs : Option (List Str)) :
    Int → List LangText.Entry → List Product → Py (List LangText.Entry)
  | _, x, [] => .ok x
  | n, x, p :: ps => do
    match ← volumeText env std p.unit p.unc p.dict with
    | none => volumesFrom env std langs n x ps
    | some t =>
      let x' ← LangText.add LangText.ilcdString (LangText.validateEntry langs) x (entryDict n (.str c!"en") t)
      volumesFrom env std langs (n + 1) x' ps

/-- The number starts at -1000 for each data set, :1084 and 1938. -/
def volumes {K : Type} (env : Env K) (std : UncKind → Str) (langs : Option (List Str)) (ps : List Product) :
    Py (List LangText.Entry) := volumesFrom env std langs (-1000) [] ps

/-! ### Comments, links and the flow data set -/

/-- `ensure_list(x)`, utils.py:49-63. -/
def anyList : PyVal → Py (List PyVal)
  | .dict [] => .ok []
  | .dict d => .ok [.dict d]
  | .str s => .ok (if s ≠ [] then [english (.str s)] else [])
  | .list l => .ok (l.map member)
  | _ => .error .typeError

/-- `text_add_index` with a prefix for each of some texts. -/
def prefixAll (dflt : PyVal) (pre : Str) : List PyVal → Py (List (PyVal × Str))
  | [] => .ok []
  | n :: l => do
    let a ← Shapes.addIndex dflt pre n
    let r ← prefixAll dflt pre l
    .ok (a :: r)

/-- The comments of the production volume, :1122-1124: language and text. -/
def volumeComments (dflt : PyVal) (d : List (Str × PyVal)) : Py (List (PyVal × Str)) := do
  let l ← anyList ((aget c!"productionVolumeComment" d).getD (.dict []))
  prefixAll dflt c!"Production Volume Comment: " l

/-- The comment with the activity a product is linked to, :1171-1173. -/
def linkComment (d : List (Str × PyVal)) : Option (Str × PyVal) :=
  match aget c!"activityLinkId" d with
  | none => none
  | some v => if truthy v then some (c!"Ecoinvent activity linkable id: ", v) else none

/-- `[n["#text"] for n in l]`. -/
def textsOf : List PyVal → Py (List PyVal)
  | [] => .ok []
  | n :: l => do
    let t ← direct n
    let r ← textsOf l
    .ok (t :: r)

/-- `'; '.join(l)`: all members must be texts. -/
def strs : List PyVal → Py (List Str)
  | [] => .ok []
  | .str s :: l => do
    let r ← strs l
    .ok (s :: r)
  | _ :: _ => .error .typeError

/-- The flow data set: language and text of the name, the synonyms and the CAS number. -/
structure Flow where
  baseName : Str × PyVal
  synonyms : Option Str
  cas : Option PyVal

/-- `get_flow_dict`, :1186-1206, and the data set made of it, :1514-1520. The synonyms are a text, so that the test
`!= []` (:1517) holds always. -/
def flow (d : List (Str × PyVal)) : Py Flow := do
  let n ← item c!"name" d
  let _ ← returnText n
  let names ← anyList n
  let name ← textsOf names
  let syns ← anyList ((aget c!"synonym" d).getD (.dict []))
  let syn ← textsOf (syns.filter truthy)
  let s ← strs syn
  match name with
  | [] => .error .indexError
  | first :: _ =>
    .ok { baseName := (c!"en", first)
          synonyms := some (join c!"; " s)
          cas := if (aget c!"casNumber" d).any truthy then (aget c!"@casNumber" d).filter truthy else none }

end Verif.Products
