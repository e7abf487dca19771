/-
The flow data sets an EcoSpold2 data set brings along, and the references to them.
Models src/Lavoisier/conversions/ECS2_to_ILCD1_conversion.py:1185-1228 (`get_flow_dict` of the intermediate exchanges),
1337-1367 (`get_flow_dict` of the elementary exchanges), 1418-1463 (the name of the file), 1538-1612 (`get_version`,
`produce_new_version`, the reference and its `complete_info`), 1631-1642 (`make_dataset` for flows), 1925-1938 (what is
reset between two data sets), and src/Lavoisier/converter.py:254-269 (one output for each data set, or one for all).

Simplifications: the properties written to the file (`fp`, of type `P`) and the rest of it (names, classification, type:
of type `I`) are taken as they are; of a default file only the version is looked at. Of the type of an exchange only what
matters here is kept. An error stops the whole conversion and the folder is thrown away, so that the state after an error
is not kept. `int` reads what `parseInt` reads.
-/
import Verif.Model.Assoc
import Verif.Model.Refs
import Verif.Model.Validators
import Verif.Model.Uncertainty
import Verif.Py

namespace Verif.FlowFiles

open Verif.Validators (CharClasses patternValidate uuidRe versionRe)

/-- A reference to a flow data set; the short description is left out. -/
structure Ref where
  id : Str
  version : Str
  uri : Str
  deriving DecidableEq

/-- What is in a file of the folder `flows`: a data set made from an exchange, or a copy of the default file. -/
inductive Content (P I : Type) where
  | made (version : Str) (props : P) (info : I)
  | copied (target : Str)
  deriving DecidableEq

/-- An exchange: its identifier, the properties, the rest; for elementary exchanges the flow of the target list. -/
inductive Exchange (P I : Type) where
  | intermediate (fid : Str) (props : P) (info : I)
  | elementary (fid target : Str) (props : P)
  deriving DecidableEq

/-- What is outside: the conversion of identifiers, the version in a default file, the classes of characters. -/
structure Env where
  conv : Str → Py Str
  version : Str → Option Str
  cls : CharClasses

/-- `_all_flow_prop_values` and the folder `flows`. -/
structure State (P I : Type) where
  values : List (Str × List (Nat × P))
  files : List (Str × Content P I)
  deriving DecidableEq

/-- `f'{...:0>3}'` -/
def pad3 (s : Str) : Str := List.replicate (3 - s.length) '0' ++ s

/-- `'01.00.'+f'{add:0>3}'`, :1225, 1610. -/
def versionText (add : Nat) : Str := c!"01.00." ++ pad3 (natStr add)

/-- `produce_new_version`, :1539-1543. -/
def newVersion (version : Str) (add : Nat) : Py Str :=
  match splitOn '.' version with
  | a :: b :: c :: _ =>
    match parseInt c with
    | some n => .ok (join c!"." [a, b, pad3 (intStr (n + add))])
    | none => .error .valueError
  | _ => .error .indexError

/-- `self.uri`, :1591. -/
def uriOf (id : Str) : Str := c!"../flows/" ++ id

/-- `self.field.refObjectId = ...`, :1595. -/
def setId (id : Str) : Py Str := patternValidate uuidRe (.str id)

/-- `self.field.version = ...`, :1606, 1611, 1635. -/
def setVersion (env : Env) (v : Str) : Py Str := patternValidate (versionRe env.cls) (.str v)

/-- `filename+".xml"`, :1460-1461. -/
def fileOf (id v : Str) : Str := id ++ c!"_" ++ v ++ c!".xml"

/-- `max(....keys())`, :1223; there is always a key. -/
def maxKey {P : Type} (vs : List (Nat × P)) : Nat := (vs.map (·.1)).foldr max 0

section

variable {P I : Type} [DecidableEq P]

/-- `send_data_to_make_dataset`, :1193-1207 and 1631-1636. -/
def send (env : Env) (s : State P I) (id v : Str) (fp : P) (info : I) : Py (State P I × Ref) := do
  let v' ← setVersion env v
  .ok ({ s with files := aset (fileOf id v) (.made v fp info) s.files }, ⟨id, v', uriOf id ++ c!"_" ++ v⟩)

/-- `get_flow_dict`, :1185-1228. -/
def intermediate (env : Env) (s : State P I) (fid : Str) (fp : P) (info : I) : Py (State P I × Ref) := do
  let id ← setId (← env.conv fid)
  match aget fid s.values with
  | some vs =>
    match vs.find? fun p => p.2 = fp with
    | some p => do
      let v ← setVersion env (versionText p.1)
      .ok (s, ⟨id, v, uriOf id ++ c!"_" ++ versionText p.1⟩)
    | none =>
      let n := maxKey vs + 1
      send env { s with values := aset fid (vs ++ [(n, fp)]) s.values } id (versionText n) fp info
  | none => send env { s with values := aset fid [(1, fp)] s.values } id c!"01.00.001" fp info

/-- `get_flow_dict`, :1337-1367, with `complete_info` (:1602-1607) and `copy_file` (conversions/utils.py:85-89). -/
def elementary (env : Env) (s : State P I) (fid target : Str) (fp : P) : Py (State P I × Ref) := do
  let id ← setId target
  match env.version target with
  | none => .error .osError
  | some t =>
    let v ← setVersion env (← newVersion t 0)
    .ok (⟨aset fid [(0, fp)] s.values, aset (target ++ c!".xml") (.copied target) s.files⟩, ⟨id, v, uriOf id⟩)

def step (env : Env) (s : State P I) : Exchange P I → Py (State P I × Ref)
  | .intermediate fid fp info => intermediate env s fid fp info
  | .elementary fid target fp => elementary env s fid target fp

/-- The exchanges of a data set, one after the other. -/
def run (env : Env) (s : State P I) : List (Exchange P I) → Py (State P I × List Ref)
  | [] => .ok (s, [])
  | x :: l => do
    let (s, r) ← step env s x
    let (s, rs) ← run env s l
    .ok (s, r :: rs)

/-- A conversion into one output: the versions are forgotten after each data set (:1933), the folder is kept. -/
def database (env : Env) (files : List (Str × Content P I)) :
    List (List (Exchange P I)) → Py (List (Str × Content P I) × List (List Ref))
  | [] => .ok (files, [])
  | d :: ds => do
    let (s, rs) ← run env ⟨[], files⟩ d
    let (files, rss) ← database env s.files ds
    .ok (files, rs :: rss)

/-- A conversion into one output for each data set. -/
def eachFile (env : Env) : List (List (Exchange P I)) → Py (List (List (Str × Content P I) × List Ref))
  | [] => .ok []
  | d :: ds => do
    let (s, rs) ← run env ⟨[], []⟩ d
    let l ← eachFile env ds
    .ok ((s.files, rs) :: l)

end

end Verif.FlowFiles
