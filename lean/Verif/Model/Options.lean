/-
Making a converter and setting its options.
Models src/Lavoisier/converter.py:158-169 (`_start_configurations`, `__setattr__`),
converter.py:384-405 and 442-475 (`ConverterFactory.get_converter`, `get_converter`),
src/Lavoisier/formats/abstractions.py:48-77 (`PathVerifier`, `InputTemplate.__init__`),
src/Lavoisier/formats/configurations.py:31-109 (extensions and options of the formats) and
src/Lavoisier/conversions/factories.py:46-86 (`MappingFactory.default_mappings`, `get_mapping`).

Simplifications: a Python value is a boolean, an integer, a float (by its rational value, if it is
finite), a text, or something else that is equal to no boolean. The file system is a function from the
text of a path to what is there. The reading of the mapping files is left out.
-/
import Verif.Py
import Verif.Model.Assoc
import Mathlib.Data.Rat.Defs

namespace Verif.Options

/-- Python values, as far as the options can tell them apart. -/
inductive Val where
  | bool (b : Bool)
  | int (n : Int)
  | float (q : ℚ)
  | str (s : Str)
  | other (n : Nat)
  deriving DecidableEq

/-- The number a value is equal to, if it is equal to one: `True == 1 == 1.0`. -/
def Val.num : Val → Option ℚ
  | .bool b => some (if b then 1 else 0)
  | .int n => some n
  | .float q => some q
  | .str _ => none
  | .other _ => none

/-- `value in (True, False)`: equal to one of them, converter.py:167. -/
def isFlag (v : Val) : Bool := v.num == some 1 || v.num == some 0

/-- The attributes of a converter that are guarded, converter.py:167: the options of the formats and
the two fixed ones. -/
def guarded (options : List Str) (key : Str) : Bool :=
  options.contains key || key == c!"quiet" || key == c!"convert_additional_fields"

/-- `Converter.__setattr__`, converter.py:165-169, after `_options` is there. -/
def setAttr (options : List Str) (attrs : List (Str × Val)) (key : Str) (v : Val) : Py (List (Str × Val)) :=
  if guarded options key && !isFlag v then .error .typeError else .ok (aset key v attrs)

/-- What the user is left with after an assignment, whether it raised or not. -/
def assign (options : List Str) (attrs : List (Str × Val)) (p : Str × Val) : List (Str × Val) :=
  match setAttr options attrs p.1 p.2 with
  | .ok a => a
  | .error _ => attrs

/-- The option names of the input formats, configurations.py:54-73. -/
def inputOptions (name : Str) : List (Str × Bool) :=
  if name = c!"EcoSpold2" then [(c!"convert_properties", true), (c!"convert_system_review", true)] else []

/-- The option names of the output formats, configurations.py:84-109. -/
def outputOptions (name : Str) : List (Str × Bool) :=
  if name = c!"EcoSpold2" then
    [(c!"ignore_string_length_restrictions", true), (c!"sum_same_elementary_amounts", false),
     (c!"convert_user_data", true), (c!"use_master_data_properties", true)]
  else
    [(c!"ignore_string_length_restrictions", true), (c!"sum_same_elementary_amounts", false),
     (c!"convert_parameterization", true)]

/-- A converter as it is made: `_start_configurations`, converter.py:64-66, 158-163. -/
structure Conv where
  input : Str × Str
  output : Str × Str
  options : List Str
  attrs : List (Str × Val)

/-- The options and the two fixed ones with their first values. -/
def defaults (i o : Str) : List (Str × Bool) :=
  (c!"convert_additional_fields", false) :: (c!"quiet", true) :: (inputOptions i ++ outputOptions o)

/-- What is at a path of the file system. -/
inductive Entry where
  | missing
  | dir
  /-- a file, by its last name -/
  | file (name : Str)
  /-- neither a file nor a directory, for instance a pipe -/
  | special
  deriving DecidableEq

/-- Argument of `get_converter`: a text, or something else that may be used as a key or not. -/
inductive Arg where
  | str (s : Str)
  | other (hashable : Bool)
  deriving DecidableEq

/-- `VALID["type"]`, converter.py:444. -/
def formats : List Str := [c!"EcoSpold2", c!"ILCD1", c!"OLCAILCD1"]

/-- `VALID["ef_type"][x]`, converter.py:445-447. -/
def efTypes : Arg → Py (List Str)
  | .other true => .error .keyError
  | .other false => .error .typeError
  | .str s => match aget s [(c!"EcoSpold2", [c!"ecoinvent3.7"]), (c!"ILCD1", [c!"EF3.0"]),
      (c!"OLCAILCD1", [c!"EF3.0"])] with
    | some l => .ok l
    | none => .error .keyError

/-- One round of the checks, converter.py:454-460. -/
def checkArg (same : Bool) (x : Arg) (valid : List Str) : Py Str :=
  match x with
  | .other _ => .error .typeError
  | .str s => if !valid.contains s && !same then .error .attributeError else .ok s

/-- The extensions of the input formats, ECS2_format.py:16, ILCD1_format.py:20. -/
def extensions (name : Str) : List Str :=
  if name = c!"EcoSpold2" then [c!".spold", c!".SPOLD"] else [c!".zip", c!".ZIP", c!".xml"]

/-- `PathVerifier` and `InputTemplate.__init__`, abstractions.py:48-77. -/
def verifyInput (name : Str) : Entry → Py Unit
  | .missing => .error .osError
  | .dir => .ok ()
  | .file n => if (extensions name).any (fun e => e.isSuffixOf n) then .ok () else .error .osError
  | .special => .error .valueError

/-- `Converter.__init__`, converter.py:28-67, and `_start_configurations`, 158-163. -/
def makeConv (i o : Str × Str) : Conv :=
  let d := defaults i.1 o.1
  { input := i, output := o,
    options := (inputOptions i.1 ++ outputOptions o.1).map Prod.fst,
    attrs := d.foldl (fun a p => aset p.1 (.bool p.2) a) [] }

/-- `get_converter`, converter.py:442-475. -/
def getConverter (fs : Str → Entry) (i o : Arg × Arg) (path save : Str) : Py Conv := do
  let vi ← efTypes i.1
  let vo ← efTypes o.1
  let same := i.1 == o.1
  let i0 ← checkArg same i.1 formats
  let o0 ← checkArg same o.1 formats
  let i1 ← checkArg same i.2 vi
  let o1 ← checkArg same o.2 vo
  if fs path = .missing then throw .osError
  if fs save ≠ .dir then throw .osError
  verifyInput i0 (fs path)
  return makeConv (i0, i1) (o0, o1)

/-- `default_mappings`, conversions/factories.py:46-60: the versions for which there is a mapping. -/
def defaultMappings : List ((Str × Str) × List (Option (Str × Str))) :=
  [((c!"EcoSpold2", c!"ILCD1"), [none, some (c!"1", c!"0"), some (c!"2", c!"0")]),
   ((c!"ILCD1", c!"EcoSpold2"), [none, some (c!"1", c!"1")]),
   ((c!"OLCAILCD1", c!"OLCAILCD1"), [none, some (c!"1", c!"1")])]

/-- `MappingFactory.get_mapping`, conversions/factories.py:68-79, with the default configuration. -/
def getMapping (names : Str × Str) (version : Option (Str × Str)) : Py Unit :=
  match aget names defaultMappings with
  | none => .error .valueError
  | some l => if l.contains version then .ok () else .error .keyError

end Verif.Options
