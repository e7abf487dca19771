/-
First pass over a file: name, version, language and flow names.
Models src/Lavoisier/formats/configurations.py:46-66 (`initial_info` of both formats),
src/Lavoisier/converter.py:193-214 (`_get_pre_instance_file_information`,
`_set_post_instance_file_information`) and
src/Lavoisier/conversions/ILCD1_to_ECS2_conversion.py:1379-1391 (`delete`, `set_file_info`).

The reading of the file is `Verif.Xml.read` with the paths of the table. A tuple of the program is a
list of values. The other keys a table may have ('format') are not used by the two formats.
-/
import Verif.Model.XmlStream

namespace Verif.FirstPass
open Verif.Xml

/-- The entries of `file_info`. -/
inductive Slot where
  | filename
  | version
  | language     -- ('mapping', '_default_language')
  | flows        -- ('mapping', '_flow_internal_refs', 'list')
  deriving DecidableEq, Repr

/-- `'list' in gmp[0]`, converter.py:201. -/
def Slot.many : Slot → Bool
  | .flows => true
  | _ => false

/-- `x[k]` with a string `k`. -/
def item (k : Str) : PyVal → Py PyVal
  | .dict d => match aget k d with
    | some v => .ok v
    | none => .error .keyError
  | _ => .error .typeError

/-- The functions of the tables. -/
inductive Rule where
  | entry      -- `lambda x: x['#text']`
  | entryOr    -- `lambda x: x['#text'] if not isinstance(x, str) else x`
  | whole      -- `lambda x: x`
  | numbers    -- `lambda x: tuple(x.split('.'))[:2]`
  | flow       -- `lambda x: (x['@dataSetInternalID'], x['referenceToFlowDataSet']['shortDescription']['#text'])`
  deriving DecidableEq, Repr

/-- configurations.py:46-66. `split` of anything but a string is an attribute that does not exist. -/
def Rule.apply : Rule → PyVal → Py PyVal
  | .entry, x => item c!"#text" x
  | .entryOr, .str s => .ok (.str s)
  | .entryOr, x => item c!"#text" x
  | .whole, x => .ok x
  | .numbers, .str s => .ok (.list (((splitOn '.' s).take 2).map .str))
  | .numbers, _ => .error .attributeError
  | .flow, x => do
    let i ← item c!"@dataSetInternalID" x
    let r ← item c!"referenceToFlowDataSet" x
    let d ← item c!"shortDescription" r
    let n ← item c!"#text" d
    .ok (.list [i, n])

abbrev Table := List (Str × Slot × Rule)

/-- `ILCD1InputConfig.initial_info`, configurations.py:46-50. -/
def ilcdTable : Table :=
  [(c!"/processDataSet/processInformation/dataSetInformation/name/baseName", .filename, .entry),
   (c!"/processDataSet/@version", .version, .numbers),
   (c!"/processDataSet/exchanges/exchange", .flows, .flow)]

/-- `ECS2InputConfig.initial_info`, configurations.py:57-64. -/
def ecs2Table : Table :=
  [(c!"/ecoSpold/activityDataset/activityDescription/activity/activityName", .filename, .entryOr),
   (c!"/ecoSpold/childActivityDataset/activityDescription/activity/activityName", .filename, .entry),
   (c!"/ecoSpold/activityDataset/administrativeInformation/fileAttributes/@defaultLanguage", .language, .whole),
   (c!"/ecoSpold/activityDataset/administrativeInformation/fileAttributes/@internalSchemaVersion", .version, .numbers),
   (c!"/ecoSpold/childActivityDataset/administrativeInformation/fileAttributes/@defaultLanguage", .language, .whole),
   (c!"/ecoSpold/childActivityDataset/administrativeInformation/fileAttributes/@internalSchemaVersion", .version, .numbers)]

abbrev Info := List (Slot × PyVal)

/-- One turn of the loop, converter.py:198-202. -/
def step (table : Table) (info : Info) (p : Str × PyVal) : Py Info :=
  match aget p.1 table with
  | none => .error .keyError
  | some (slot, rule) =>
    match aget slot info with
    | none => do
      let v ← rule.apply p.2
      .ok (aset slot (if slot.many then .list [v] else v) info)
    | some old =>
      if slot.many then do
        let v ← rule.apply p.2
        match old with
        | .list l => .ok (aset slot (.list (l ++ [v])) info)
        | _ => .error .attributeError
      else .ok info

/-- The loop over what the iterator yields, converter.py:197-202. -/
def gather (table : Table) : Info → List (Str × PyVal) → Py Info
  | info, [] => .ok info
  | info, p :: l => step table info p >>= fun info' => gather table info' l

/-- What the first pass leaves: `_version`, `_filename` and the rest of `file_info`, :203-204. -/
structure Result where
  version : Option PyVal
  filename : Option PyVal
  rest : Info

/-- `_get_pre_instance_file_information`, converter.py:193-204. -/
def firstPass (table : Table) (doc : Elem) : Py Result := do
  let info ← gather table [] (read (table.map Prod.fst) doc)
  .ok { version := aget .version info
        filename := aget .filename info
        rest := adel .filename (adel .version info) }

/-! ### The mapping of ILCD files (ILCD1_to_ECS2_conversion.py) -/

/-- The class attributes of a mapping that outlive a file; `none` is `None`. -/
structure Shared where
  language : Option PyVal
  flows : Option PyVal

/-- `_set_post_instance_file_information`, converter.py:206-209. -/
def post (rest : Info) (s : Shared) : Shared :=
  { language := (aget .language rest).or s.language
    flows := (aget .flows rest).or s.flows }

/-- One entry of the dictionary at ILCD1_to_ECS2_conversion.py:1390. The identifiers are strings. -/
def addFlow (d : List (Str × PyVal)) : PyVal → Py (List (Str × PyVal))
  | .list [.str i, n] => .ok (aset i n d)
  | _ => .error .typeError

/-- `set_file_info`, ILCD1_to_ECS2_conversion.py:1386-1391: the names of the flows by internal
number. The attribute is `None` or a list. -/
def flowNames : Option PyVal → Py (List (Str × PyVal))
  | some (.list l) => l.foldlM addFlow []
  | _ => .error .typeError

/-- `delete`, ILCD1_to_ECS2_conversion.py:1379-1381, after an error. -/
def delete (s : Shared) : Shared := { s with flows := none }

/-- The first pass of one file in a run and the names available for it: what the class keeps from
file to file is `Shared`, converter.py:219-232. -/
def fileInfo (doc : Elem) (s : Shared) : Py (Shared × List (Str × PyVal)) := do
  let r ← firstPass ilcdTable doc
  let s' := post r.rest s
  let d ← flowNames s'.flows
  .ok (s', d)

end Verif.FirstPass
