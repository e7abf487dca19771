/-
The course of a conversion.
Models src/Lavoisier/converter.py:158-280 (`Converter`: options, `start_conversion`, `iterate`,
`reset_conversion`, `end_conversion`, `convert`), src/Lavoisier/formats/abstractions.py:82-87 and
105-157 (`_yield_files`, `OutputTemplate`), src/Lavoisier/formats/ILCD1_format.py:55-122
(`ILCD1Output`) and src/Lavoisier/formats/ECS2_format.py:24-43 (`ECS2Output`).

The field mapping, the structure of a data set and the parsing of a file are parameters (`Ops`): they
may do anything to their own state and may fail at any point. A step that fails says in which state it
leaves the mapping and the data set.

Simplifications: of the temporary directory of an ILCD output only the processes are modelled; the
logs are not; input/output errors of the disk are not, except writing into a temporary directory that
has been removed.
-/
import Verif.Model.OutputName
import Verif.Model.Assoc

namespace Verif.Driver

/-- The two output managers. -/
inductive Kind where
  | ilcd
  | ecs2
  deriving DecidableEq

/-- What a file in the output directory holds: one process, or the processes of an archive by file
name. -/
inductive Content (O : Type) where
  | process (o : O)
  | archive (l : List (Str × O))

/-- The parts of the program the driver calls. `F`: input files, `V`: versions, `I`: information read
in advance, `P`: the settings and options of a converter, `M`: field mappings, `S`: data sets under
construction, `O`: documents. -/
structure Ops (F V I P M S O : Type) where
  kind : Kind
  /-- `_get_pre_instance_file_information`, converter.py:193-204: version and other information -/
  info : F → Py (Option V × List (Str × I))
  /-- `structure()` -/
  empty : S
  /-- `get_mapping`, converter.py:224 -/
  create : Option V → Py M
  /-- `_set_field_mapping`, converter.py:184-187, 225 -/
  setup : P → M → M × Option PyErr
  /-- the error of `start_conversion` of the output manager: for EcoSpold 2 a file without a name for
  its log (ECS2_format.py:27), for ILCD a file of the program that is not there (ILCD1_format.py:89-92) -/
  opens : F → Option PyErr
  /-- `set_output_class_defaults`, `set_file_info`, the options of the converter and `start_conversion`
  of the mapping, with the class attributes in force, converter.py:226, 230-234 -/
  begin : P → M → List (Str × I) → M × Option PyErr
  /-- `iterate`, converter.py:244-250 -/
  fill : M → S → F → M × S × Option PyErr
  /-- `reset_conversion` or `end_conversion` of the mapping -/
  finish : M → S → M × S × Option PyErr
  /-- `delete` of the mapping -/
  delete : M → Option PyErr
  /-- what `delete` makes of the class attributes: EcoSpold 2 to ILCD takes the default language back
  (ECS2_to_ILCD1_conversion.py:1828), ILCD to EcoSpold 2 leaves the references to flows in force
  (ILCD1_to_ECS2_conversion.py:1262-1278) -/
  deleteAttrs : List (Str × I) → List (Str × I)
  /-- `handle_error` of the input manager -/
  inputCleanup : Option PyErr
  /-- `struct.get_dict()` and writing as XML -/
  doc : S → Py O
  /-- the identifier of the data set -/
  uuid : S → Str
  /-- `struct.get_filename(hash)` -/
  fileName : Str → S → Py Str

/-- An output manager instance: `struct`, `multi_files`, and the temporary directory. -/
structure Data (S O : Type) where
  struct : S
  multi : Bool
  temp : Option (List (Str × O))

/-- A converter (`data`, `mapping`, `version`, `hash`, `settings`) and what it shares with all other
converters: the output directory, the class attribute `_hash` of the output manager and the class
attributes of the mapping. -/
structure St (V I P M S O : Type) where
  data : Option (Data S O)
  mapping : Option M
  version : Option V
  hash : Str
  settings : P
  dir : List (Str × Content O)
  classHash : Str
  attrs : List (Str × I)

variable {F V I P M S O : Type} [DecidableEq V]

/-- A new instance of the output manager, converter.py:220-222. -/
def openData (ops : Ops F V I P M S O) (s : St V I P M S O) : St V I P M S O :=
  match s.data with
  | some _ => s
  | none => { s with data := some ⟨ops.empty, false, none⟩, classHash := s.hash }

/-- A new mapping is made, converter.py:223. -/
def newMapping (old new : Option V) : Bool := old ≠ new || (old == none && new == none)

/-- The mapping used for a file, converter.py:223-224. -/
def chooseMapping (ops : Ops F V I P M S O) (old new : Option V) (s : St V I P M S O) : Py M :=
  if newMapping old new then ops.create new
  else match s.mapping with
    | some m => .ok m
    | none => .error .attributeError

/-- A new mapping gets its settings, converter.py:225. -/
def setupMapping (ops : Ops F V I P M S O) (old new : Option V) (p : P) (m : M) : M × Option PyErr :=
  if newMapping old new then ops.setup p m else (m, none)

/-- `start_conversion` of the output manager, converter.py:227-229: ILCD makes a temporary directory. -/
def startData (ops : Ops F V I P M S O) (d : Data S O) : Data S O :=
  if d.multi then d else
    match ops.kind with
    | .ilcd => { d with temp := some [] }
    | .ecs2 => d

/-- The error of `start_conversion` of the output manager, which is not called for the later files of a
database, converter.py:227. -/
def startError (ops : Ops F V I P M S O) (s : St V I P M S O) (f : F) : Option PyErr :=
  match s.data with
  | some d => if d.multi then none else ops.opens f
  | none => none

/-- `Converter.start_conversion`, converter.py:216-234. -/
def start (ops : Ops F V I P M S O) (s : St V I P M S O) (f : F) : St V I P M S O × Option PyErr :=
  match ops.info f with
  | .error e => (s, some e)
  | .ok (v, fields) =>
    let s1 := openData ops { s with version := v }
    match chooseMapping ops s.version v s1 with
    | .error e => (s1, some e)
    | .ok m =>
      let r := setupMapping ops s.version v s.settings m
      let s2 : St V I P M S O := { s1 with mapping := some r.1 }
      match r.2 with
      | some e => (s2, some e)
      | none =>
        let s3 : St V I P M S O := { s2 with data := s2.data.map (startData ops) }
        match startError ops s2 f with
        | some e => (s3, some e)
        | none =>
          let s4 : St V I P M S O := { s3 with attrs := fields.foldl (fun a p => aset p.1 p.2 a) s3.attrs }
          let b := ops.begin s.settings r.1 s4.attrs
          ({ s4 with mapping := some b.1 }, b.2)

/-- Run a step of the mapping on the data set. -/
def mappingStep (s : St V I P M S O) (step : M → S → M × S × Option PyErr) :
    St V I P M S O × Option PyErr :=
  match s.mapping, s.data with
  | some m, some d =>
    let r := step m d.struct
    ({ s with mapping := some r.1, data := some { d with struct := r.2.1 } }, r.2.2)
  | _, _ => (s, some .attributeError)

/-- `write_process`: ILCD1_format.py:97-104 writes `uuid.xml` into the temporary directory,
ECS2_format.py:31-38 a new file. Returns the name of the file. -/
def writeProcess (ops : Ops F V I P M S O) (s : St V I P M S O) (d : Data S O) :
    Py (St V I P M S O × Str) :=
  match ops.doc d.struct with
  | .error e => .error e
  | .ok o =>
    match ops.kind with
    | .ilcd =>
      match d.temp with
      | none => .error .osError
      | some l =>
        .ok ({ s with data := some { d with temp := some (aset (ops.uuid d.struct ++ c!".xml") o l) } }, [])
    | .ecs2 =>
      match ops.fileName s.classHash d.struct with
      | .error e => .error e
      | .ok n =>
        let name := Output.checkName (s.dir.map Prod.fst) n c!".spold"
        .ok ({ s with dir := aset (name ++ c!".spold") (.process o) s.dir }, name)

/-- `end_single_output_file`, abstractions.py:126-129: a new data set, `multi_files` off. -/
def endSingle (ops : Ops F V I P M S O) (s : St V I P M S O) : Py (St V I P M S O × Str) :=
  match s.data with
  | none => .error .attributeError
  | some d =>
    match writeProcess ops s d with
    | .error e => .error e
    | .ok (s1, name) =>
      .ok ({ s1 with data := s1.data.map fun d => { d with struct := ops.empty, multi := false } }, name)

/-- `reset_conversion` of the output manager, abstractions.py:148-150. -/
def resetData (ops : Ops F V I P M S O) (s : St V I P M S O) : St V I P M S O × Option PyErr :=
  match endSingle ops s with
  | .error e => (s, some e)
  | .ok (s1, _) => ({ s1 with data := s1.data.map fun d => { d with multi := true } }, none)

/-- The name of an archive, ILCD1_format.py:107. -/
def archiveName (ops : Ops F V I P M S O) (s : St V I P M S O) (d : Data S O) : Py Str :=
  if d.multi then .ok (c!"ILCD" ++ s.classHash) else ops.fileName s.classHash d.struct

/-- The archive is written and the temporary directory removed, ILCD1_format.py:109-117. -/
def writeArchive (s : St V I P M S O) (n : Str) : St V I P M S O × Str :=
  let name := Output.checkName (s.dir.map Prod.fst) n c!".zip" ++ c!".zip"
  let l := (s.data.bind Data.temp).getD []
  ({ s with dir := aset name (.archive l) s.dir, data := s.data.map fun d => { d with temp := none } }, name)

/-- `end_conversion` of the output manager: ILCD1_format.py:106-117, ECS2_format.py:40-43. -/
def endData (ops : Ops F V I P M S O) (s : St V I P M S O) : St V I P M S O × Py Str :=
  match ops.kind, s.data with
  | _, none => (s, .error .attributeError)
  | .ilcd, some d =>
    match archiveName ops s d with
    | .error e => (s, .error e)
    | .ok n =>
      match endSingle ops s with
      | .error e => (s, .error e)
      | .ok (s1, _) => ((writeArchive s1 n).1, .ok (writeArchive s1 n).2)
  | .ecs2, some _ =>
    match endSingle ops s with
    | .error e => (s, .error e)
    | .ok (s1, name) => (s1, .ok (name ++ c!".spold"))

/-- One file, converter.py:260-266: the new state, and the name of the output if there is one. -/
def oneFile (ops : Ops F V I P M S O) (ends : Bool) (s : St V I P M S O) (f : F) :
    St V I P M S O × Py (Option Str) :=
  match start ops s f with
  | (s1, some e) => (s1, .error e)
  | (s1, none) =>
    match mappingStep s1 (fun m d => ops.fill m d f) with
    | (s2, some e) => (s2, .error e)
    | (s2, none) =>
      match mappingStep s2 ops.finish with
      | (s3, some e) => (s3, .error e)
      | (s3, none) =>
        if ends then
          match endData ops s3 with
          | (s4, .ok n) => (s4, .ok (some n))
          | (s4, .error e) => (s4, .error e)
        else
          match resetData ops s3 with
          | (s4, none) => (s4, .ok none)
          | (s4, some e) => (s4, .error e)

/-- The `except` clause, converter.py:268-280. -/
def handleError (ops : Ops F V I P M S O) (s : St V I P M S O) (e : PyErr) : St V I P M S O × PyErr :=
  match ops.inputCleanup with
  | some e' => (s, e')
  | none =>
    let s1 : St V I P M S O := { s with data := s.data.map fun d => { d with temp := none } }
    match s1.mapping with
    | none => (s1, e)
    | some m =>
      match ops.delete m with
      | some e' => (s1, e')
      | none => ({ s1 with mapping := none, attrs := ops.deleteAttrs s1.attrs }, e)

/-- The loop of `convert`, converter.py:259-267. -/
def loop (ops : Ops F V I P M S O) (toFile : Bool) :
    St V I P M S O → List (F × Bool) → List Str → St V I P M S O × Py (List Str)
  | s, [], names => (s, .ok names)
  | s, (f, last) :: fs, names =>
    match oneFile ops (last || toFile) s f with
    | (s1, .ok n) => loop ops toFile s1 fs (names ++ n.toList)
    | (s1, .error e) => ((handleError ops s1 e).1, .error (handleError ops s1 e).2)

/-- `Converter.convert`, converter.py:252-280. -/
def convert (ops : Ops F V I P M S O) (toFile : Bool) (s : St V I P M S O) (files : List (F × Bool)) :
    St V I P M S O × Py (List Str) := loop ops toFile s files []

/-- `_yield_files`, abstractions.py:82-87. -/
def yieldFiles : List F → List (F × Bool)
  | [] => []
  | [f] => [(f, true)]
  | f :: g :: l => (f, false) :: yieldFiles (g :: l)

/-- A new converter in a given surrounding. -/
def fresh (hash : Str) (settings : P) (dir : List (Str × Content O)) (classHash : Str)
    (attrs : List (Str × I)) : St V I P M S O :=
  { data := none, mapping := none, version := none, hash, settings, dir, classHash, attrs }

end Verif.Driver
