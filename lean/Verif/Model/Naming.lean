/-
Names, identifiers, location and synonyms of an activity.
ILCD to EcoSpold2: src/Lavoisier/conversions/ILCD1_to_ECS2_conversion.py:1388-1389, 1414-1415, 1430-1431 (defaults),
1454-1478 (system model), 1497, 1544-1585 (general comment), 1637-1646 (`new_geography_master`), 1650-1679 and
1685-1688, 1701-1708, 1720-1728 (entries of the mapping); EcoSpold2 to ILCD:
src/Lavoisier/conversions/ECS2_to_ILCD1_conversion.py:2222-2228 and 2255-2260. The helpers are
src/Lavoisier/formats/helpers.py:42-57 and 77-85; whether a field can be set twice is from
src/Lavoisier/data_structures/ECS2_structure.py:261-266, 350-363, 504-514, 573-603, 605-610 and
ILCD1_structure.py:106-113, 133, 172.

The elements of an ILCD file are met in the order of the file; `step` is what one of them does to the data set and
`run` goes through all of them. A value is what the reader makes of an element (C22, C23). The fields of the data
set are those of `State`; the other fields set by the same entries (the tags, the depth of inheritance) are left
out, and of the general comment only its language is checked, not its text kept. `uuid_from_string` and `uuid_from_uuid` (C01-C04) and the reading of
dates (C93) are parameters; what `uuid_from_string` returns has the form of an identifier. Messages and the log are
left out.
-/
import Verif.Model.LangText
import Verif.Model.Comments
import Verif.Model.GeoTable
import Verif.Model.Assoc

namespace Verif.Naming
open Verif.LangText

/-! ### The helpers for texts -/

/-- `x['#text']`. -/
def textAt : PyVal → Py Str
  | .dict d =>
    match aget c!"#text" d with
    | none => .error .keyError
    | some (.str s) => .ok s
    | some _ => .error .typeError
  | _ => .error .typeError

/-- `text_dict_from_text`, helpers.py:52-55, and the dictionary made by `text_add_index`. -/
def entryDict (index : Int) (lang : PyVal) (text : Str) : PyVal :=
  .dict [(c!"@index", .int index), (c!"@lang", lang), (c!"#text", .str text)]

/-- `text_add_index` without a prefix, helpers.py:43-49; the default language is English, :1242 and :1309. -/
def addIndex (x : PyVal) (index : Int) : Py PyVal :=
  match x with
  | .str s => .ok (entryDict index (.str c!"en") s)
  | .dict d =>
    match textAt (.dict d) with
    | .error e => .error e
    | .ok s => .ok (entryDict index ((aget c!"@lang" d).getD (.str c!"en")) s)
  | _ => .error .attributeError

/-- `return_text`, helpers.py:78-85. -/
def returnText : PyVal → Py Str
  | .str s => .ok s
  | .dict d => textAt (.dict d)
  | .list [] => .error .indexError
  | .list (x :: _) => textAt x
  | _ => .error .valueError

/-! ### ILCD to EcoSpold2 -/

/-- An element or attribute of the ILCD file. -/
inductive Item where
  /-- `dataSetInformation/UUID` -/
  | uuid (x : Str)
  /-- `name/baseName` -/
  | baseName (x : PyVal)
  /-- `name/treatmentStandardsRoutes`, `name/mixAndLocationTypes`, `name/functionalUnitFlowProperties` -/
  | namePart (x : PyVal)
  /-- `dataSetInformation/generalComment` -/
  | comment (x : PyVal)
  /-- `time/referenceYear` -/
  | year (x : Str)
  /-- `time/dataSetValidUntil` -/
  | validUntil (x : Str)
  /-- `locationOfOperationSupplyOrProduction/@location` -/
  | location (x : Str)

/-- An entry `geography` of the master data. -/
structure GeoEntry where
  id : Str
  name : List Entry
  shortname : List Entry
  deriving DecidableEq

/-- The fields of `activity`, `geography` and `timePeriod`, of the entry of the activity index, and of the master
data. -/
structure State where
  id : Option Str := none
  indexId : Option Str := none
  name : List Entry := []
  masterName : List Entry := []
  nameId : Option Str := none
  indexNameId : Option Str := none
  masterNameId : Option Str := none
  special : Option Str := some c!"0"
  indexSpecial : Option Str := some c!"0"
  parent : Option Str := none
  start : Option Str := none
  indexStart : Option Str := none
  stop : Option Str := none
  indexStop : Option Str := none
  shortname : List Entry := []
  geoId : Option Str := none
  indexGeoId : Option Str := none
  geos : List GeoEntry := []
  systemId : Option Str := none
  indexSystemId : Option Str := none
  deriving DecidableEq

/-- The functions of the environment. -/
structure Env where
  /-- `uuid_from_string`, conversions/utils.py:40-47 -/
  hash : Str → Str
  /-- `uuid_from_uuid` with the specification of the conversion -/
  conv : Str → Py Str
  /-- `datetime.fromisoformat` accepts the text, general_validators.py:128-136 -/
  dateOk : Str → Bool

/-- A field that can be set once (main.py:73-75). -/
def setOnce (ok : Str → Bool) (old : Option Str) (v : Str) : Py (Option Str) :=
  if old.isSome then .error .valueError else if ok v then .ok (some v) else .error .valueError

/-- The form of an identifier, general_validators.py:126. -/
def uuidOk (s : Str) : Bool := Validators.uuidRe.isMatch s

/-- `Name.add` and `String80_NLR.add`. -/
def addName (x : List Entry) (o : PyVal) : Py (List Entry) := addPlain (validateEntry none) x o

/-- `String120.add`, `String40.add` and `String255.add`: texts of one language are joined. -/
def addText (n : Nat) (x : List Entry) (o : PyVal) : Py (List Entry) := add (base n) (validateEntry none) x o

/-- The identifiers set by a line `Activity Linkable Id:`, :1545-1554. -/
def setNameId (st : State) : Option Str → State
  | none => st
  | some i => { st with nameId := some i, indexNameId := some i, masterNameId := some i }

/-- The codes set by a line `Activity Subtype:`, :1555-1565. -/
def setSpecial (st : State) : Option Str → State
  | none => st
  | some i => { st with special := some i, indexSpecial := some i }

/-- The identifier set by a line `Parent Id:`, :1571-1580. -/
def setParent (old : Option Str) : Option Str → Py (Option Str)
  | none => .ok old
  | some p => setOnce uuidOk old p

/-- `new_geography_master`, :1637-1646. -/
def newGeography (hash : Str → Str) (st : State) (x : Str) : Py State :=
  match aget x geographies with
  | none => do
    let name ← addText 255 [] (entryDict 1 (.str c!"en") x)
    let short ← addText 40 [] (entryDict 1 (.str c!"en") x)
    let i ← setOnce uuidOk st.indexGeoId (hash x)
    pure { st with geos := st.geos ++ [⟨hash x, name, short⟩], indexGeoId := i }
  | some g => do
    let i ← setOnce uuidOk st.indexGeoId g
    pure { st with indexGeoId := i }

/-- What an element does. -/
def step (env : Env) (st : State) : Item → Py State
  -- :1650-1653
  | .uuid x => do
    let u ← env.conv x
    let i ← setOnce uuidOk st.id u
    let j ← setOnce uuidOk st.indexId u
    pure { st with id := i, indexId := j }
  -- :1655-1661
  | .baseName x => do
    let s ← textAt x
    let o ← addIndex x 1
    let name ← addName st.name o
    let master ← addText 120 st.masterName o
    pure { setNameId st (some (env.hash s)) with name := name, masterName := master }
  -- :1662-1673
  | .namePart x => do
    let o ← addIndex x 1
    let name ← addName st.name o
    let master ← addText 120 st.masterName o
    pure { st with name := name, masterName := master }
  -- :1688-1690 and :1544-1585
  | .comment x => do
    let o ← addIndex x 0
    let s ← textAt o
    let g ← Comments.generalComment s
    let parent ← setParent st.parent g.1.parent
    let _ ← validateEntry none o
    pure { setSpecial (setNameId st g.1.nameId) g.1.subtype with parent := parent }
  -- :1705-1708
  | .year x => do
    let i ← setOnce env.dateOk st.start (x ++ c!"-01-01")
    let j ← setOnce env.dateOk st.indexStart (x ++ c!"-01-01")
    pure { st with start := i, indexStart := j }
  -- :1709-1712
  | .validUntil x => do
    let i ← setOnce env.dateOk st.stop (x ++ c!"-12-31")
    let j ← setOnce env.dateOk st.indexStop (x ++ c!"-12-31")
    pure { st with stop := i, indexStop := j }
  -- :1720-1726
  | .location x => do
    let short ← addText 40 st.shortname (entryDict 1 (.str c!"en") x)
    let i ← setOnce uuidOk st.geoId ((aget x geographies).getD (env.hash x))
    newGeography env.hash { st with shortname := short, geoId := i } x

/-- The elements in order. -/
def run (env : Env) : State → List Item → Py State
  | st, [] => .ok st
  | st, i :: l => step env st i >>= fun st => run env st l

/-- The end of the conversion, :1454-1478: the system model. -/
def finish (st : State) (original : Option Str) (approaches : List Str) : Py State := do
  let m ← Comments.systemModelBack original approaches
  let i ← setOnce uuidOk st.systemId m.1
  let j ← setOnce uuidOk st.indexSystemId m.1
  pure { st with systemId := i, indexSystemId := j }

/-- The conversion of a data set. -/
def convert (env : Env) (items : List Item) (original : Option Str) (approaches : List Str) : Py State :=
  run env {} items >>= fun st => finish st original approaches

/-- `activityName` as written (type `Name`). -/
def writtenName (ignore : Bool) (sent : Str → List Str) (st : State) : Py (Option (Str × Str)) :=
  endName (base 120) ignore sent st.name

/-- The name of the entry `activityName` of the master data as written. -/
def writtenMaster (ignore : Bool) (sent : Str → List Str) (st : State) : Py (List (Str × Str)) :=
  endMulti (base 120) ignore sent st.masterName

/-- The synonyms of an ILCD file, :1685-1687: `n` is the running number of the helper. -/
def synonymsBack : Int → List Entry → List PyVal → Py (List Entry)
  | _, st, [] => .ok st
  | n, st, x :: l => do
    let s ← textAt x
    let st ← addName st (.list (numbered n (Comments.splitSemi false s)))
    synonymsBack (n + (Comments.splitSemi false s).length) st l
where
  numbered : Int → List Str → List PyVal
    | _, [] => []
    | n, t :: ts => entryDict n (.str c!"en") t :: numbered (n + 1) ts

/-! ### EcoSpold2 to ILCD -/

/-- The fields set from `activityName` and the short names of the geography. -/
structure Ilcd where
  base : List Entry := []
  mix : List Entry := []
  location : Option Str := none
  deriving DecidableEq

/-- `activityName`, ECS2_to_ILCD1_conversion.py:2222-2224; `langs` are the languages of ILCD and `n` the running
number. -/
def ilcdName (langs : List Str) (n : Int) (st : Ilcd) (x : PyVal) : Py Ilcd := do
  let o ← addIndex x n
  let b ← add ilcdString (validateEntry (some langs)) st.base o
  pure { st with base := b }

/-- `geography/shortname`, :2255-2260: the location can be set once. -/
def ilcdShortname (langs : List Str) (n : Int) (st : Ilcd) (x : PyVal) : Py Ilcd := do
  let s ← returnText x
  let loc ← setOnce (fun _ => true) st.location s
  let m ← add ilcdString (validateEntry (some langs)) st.mix (entryDict n (.str c!"en") s)
  pure { st with location := loc, mix := m }

/-- The names and short names of an EcoSpold2 file, which come in this order; other texts in between take numbers
too, `m` of them. -/
def toIlcd (langs : List Str) (n m : Int) (names shorts : List PyVal) : Py Ilcd :=
  go (ilcdName langs) n {} names >>= fun st => go (ilcdShortname langs) (n + names.length + m) st shorts
where
  go (f : Int → Ilcd → PyVal → Py Ilcd) : Int → Ilcd → List PyVal → Py Ilcd
    | _, st, [] => .ok st
    | n, st, x :: l => f n st x >>= fun st => go f (n + 1) st l

/-- The synonyms of an EcoSpold2 file, :2225-2228: all with the index 1. -/
def ilcdSynonyms (langs : List Str) : List Entry → List PyVal → Py (List Entry)
  | st, [] => .ok st
  | st, x :: l => do
    let o ← addIndex x 1
    let st ← add unlimited (validateEntry (some langs)) st o
    ilcdSynonyms langs st l

/-- A text of a written file as it is read again: an element with a language. -/
def reread (p : Str × Str) : PyVal := .dict [(c!"@lang", .str p.1), (c!"#text", .str p.2)]

end Verif.Naming
