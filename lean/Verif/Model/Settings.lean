/-
The parts of a converter that a user may exchange, and the text a converter prints.
Models src/Lavoisier/converter.py:46-56 (the parts at the beginning), 70-78 (`__str__`), 87-153 (the properties and
their setters), the places of converter.py:193-225 where the parts are used (`_get_pre_instance_file_information`,
`start_conversion`), src/Lavoisier/formats/configurations.py:24-109 (the parts of the formats, `DefaultMappingConfig`),
src/Lavoisier/formats/abstractions.py:13-18 (`AbstractDataclass`), src/Lavoisier/conversions/factories.py:67-75
(`get_mapping`) and src/Lavoisier/data_structures/factories.py:12-36 (`StructureFactory`).

Simplifications: a Python object is a class, an instance, a dictionary with texts as keys, a dictionary from versions to
structures, or `None`; of a class or an instance the base class is given, and of an instance whether it can be called
and subscripted. `isinstance` of a class is false (no metaclasses derived from the templates), classes cannot be
subscripted (no `__class_getitem__`). The elementary flow table is in `Model/MapFile`, the options are in
`Model/Options`. Of `__str__` the lines of the options and the step that can fail are modelled. `capitalize` is that of
ASCII.
-/
import Verif.Model.Options

namespace Verif.Settings

/-- The base classes that the setters ask for: `Iterator`, `InputTemplate`, `OutputTemplate`, `StructureTemplate`, or
another one. -/
inductive Base where
  | iterator
  | input
  | output
  | struct
  | other
  deriving DecidableEq

/-- A version as it is used for a key: `None` or two texts. -/
abbrev Version := Option (Str × Str)

/-- Python objects. -/
inductive Obj where
  | none
  | cls (b : Base)
  | inst (b : Base) (callable subscriptable : Bool)
  | dict (keys : List Str)
  | versions (l : List Version)
  deriving DecidableEq

/-- `isinstance(x, base)`. -/
def isInst (b : Base) : Obj → Bool
  | .inst b' _ _ => b' = b
  | _ => false

/-- `x(...)` is possible. -/
def callable : Obj → Bool
  | .cls _ => true
  | .inst _ c _ => c
  | _ => false

/-- The parts of a converter. `config` is `_mapping_config`: the class `DefaultMappingConfig` (`false`) or an instance of
it (`true`); in both cases `mapping_class` is `None`, configurations.py:28-30. -/
structure Conv where
  output : Str
  input : Obj
  iterator : Obj
  manager : Obj
  struct : Obj
  version : Version
  config : Bool
  deriving DecidableEq

/-- `output_structure` of the formats, configurations.py:87, 98, 109. -/
def structures (output : Str) : Obj :=
  if output = c!"EcoSpold2" then .versions [none, some (c!"2", c!"0")]
  else .versions [none, some (c!"1", c!"1")]

/-- A new converter, converter.py:46-56. -/
def new (output : Str) : Conv :=
  { output, input := .inst .input false false, iterator := .cls .iterator, manager := .cls .output,
    struct := structures output, version := none, config := false }

/-- An assignment by the user. -/
inductive Assign where
  | iterator (x : Obj)
  | input (x : Obj)
  | manager (x : Obj)
  | struct (x : Obj)
  | version (v : Version)
  | mapping (x : Obj)

/-- `DefaultMappingConfig(**x)`, converter.py:124: `x` must be a dictionary; the `__init__` that `dataclass` has made for
`AbstractDataclass` (abstractions.py:12-18) takes no arguments. -/
def makeConfig : Obj → Py Bool
  | .dict [] => .ok true
  | .versions [] => .ok true
  | _ => .error .typeError

/-- The setters, converter.py:94-146. -/
def set (c : Conv) : Assign → Py Conv
  | .iterator x => if isInst .iterator x then .ok { c with iterator := x } else .error .typeError
  | .input x => if isInst .input x then .ok { c with input := x } else .error .typeError
  | .manager x => if isInst .output x then .ok { c with manager := x } else .error .typeError
  | .struct x => if isInst .struct x then .ok { c with struct := x } else .error .typeError
  | .version v => .ok { c with version := v }
  | .mapping x =>
    match makeConfig x with
    | .error e => .error e
    | .ok b => .ok { c with config := b }

/-- What is left after an assignment, whether it raised or not. -/
def assign (c : Conv) (a : Assign) : Conv :=
  match set c a with
  | .ok c' => c'
  | .error _ => c

/-- The object that a property gives back, converter.py:94-148; `mapping` is `mapping_class`, which is `None` for the
class and for its instances. -/
def readBack (c : Conv) : List Assign :=
  [.iterator c.iterator, .input c.input, .manager c.manager, .struct c.struct, .version c.version, .mapping .none]

/-- The structures of `StructureFactory` by the name of the format, data_structures/factories.py:14-30; the key for
EcoSpold2 is `ECS2`, which is not the name of the format. -/
def factory (output : Str) : Option (List Version) :=
  aget output [(c!"ILCD1", [none, some (c!"1", c!"1")]), (c!"OLCAILCD1", [none, some (c!"1", c!"1")]),
    (c!"ECS2", [none, some (c!"2", c!"0")])]

/-- `d[version]` for a dictionary. -/
def pick (l : List Version) (v : Version) : Py Unit := if v ∈ l then .ok () else .error .keyError

/-- `StructureFactory.get_structure`, data_structures/factories.py:32-36. -/
def getStructure (c : Conv) : Py Unit :=
  match c.struct with
  | .none =>
    match factory c.output with
    | none => .error .typeError
    | some l => pick l c.version
  | .versions l => pick l c.version
  | .dict _ => .error .keyError
  | .inst _ _ s => if s then .ok () else .error .typeError
  | .cls _ => .error .typeError

/-- The use of the parts for the first file: the iterator is called (converter.py:197), then the structure is chosen and
the output manager called (converter.py:221). -/
def use (c : Conv) : Py Unit :=
  if !callable c.iterator then .error .typeError else
    match getStructure c with
    | .error e => .error e
    | .ok () => if callable c.manager then .ok () else .error .typeError

/-- `s.capitalize()`. -/
def capitalize : Str → Str
  | [] => []
  | c :: s => c.toUpper :: s.map Char.toLower

/-- `s.replace("_", " ")`. -/
def spaces (s : Str) : Str := s.map fun c => if c = '_' then ' ' else c

/-- The line of an option, converter.py:78; `full` is `conf.name + '_' + name`, converter.py:162. -/
def optionLine (full value : Str) : Str :=
  c!"[" ++ ((splitOn '_' full).head?.getD []) ++ c!"] " ++
    capitalize (spaces (join c!"_" (splitOn '_' full).tail)) ++ c!" : " ++ value

/-- `__str__`, converter.py:72-78: `asdict(self._mapping_config())` calls the configuration, then come the lines of the
options. -/
def toText (c : Conv) (options : List ((Str × Str) × Str)) : Py (List Str) :=
  if c.config then .error .typeError
  else .ok (options.map fun o => optionLine (o.1.1 ++ c!"_" ++ o.1.2) o.2)

end Verif.Settings
