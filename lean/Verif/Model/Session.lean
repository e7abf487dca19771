/-
What a conversion leaves behind in the classes of the program, which all converters of a process share.
Models, for EcoSpold2 to ILCD, src/Lavoisier/conversions/ECS2_to_ILCD1_conversion.py:1826-1839 (`delete`), 1890-1899
(`end_conversion`), 1925-1938 (`reset_conversion` of the basic mapping), 2050-2116 (`reset_conversion` and
`end_conversion` of the mapping); for ILCD to EcoSpold2, src/Lavoisier/conversions/ILCD1_to_ECS2_conversion.py:1262-1278,
1327-1344, 1448-1537; and the handling of errors in src/Lavoisier/converter.py:236-242, 254-280.

Simplifications: of an exchange only what decides about errors and what stays is kept. What goes wrong while a file is
read, in a formula, when amounts are added or when the data set is written is given with the file (`fails`, `broken`,
`bad`, `unwritable`). Amounts that belong to no exchange are left out: an error in their formulas is that of an exchange.
The classifications and the texts that both passes set are not unique in the format and set without error.
-/
import Verif.Lemmas.Assoc
import Mathlib.Data.List.Dedup
import Verif.Py

namespace Verif.Session

/-! ## EcoSpold2 to ILCD -/

/-- An exchange in `_all_flows`. -/
structure Flow where
  /-- the target and the direction, ECS2_to_ILCD1_conversion.py:2070 -/
  key : Str × Str
  elementary : Bool
  /-- the amount gets a variable -/
  named : Bool
  /-- the error of `construct_variable` -/
  broken : Option PyErr
  /-- the field `referencesToDataSource` is set -/
  source : Bool
  /-- the error of adding its amount -/
  bad : Option PyErr
  /-- `_var` of the amount is set -/
  var : Bool
  /-- `referenceToVariable` of the field is set -/
  refVar : Bool
  deriving DecidableEq

/-- The loop over the amounts, :2061-2064. -/
def construct : List Flow → List Flow × Option PyErr
  | [] => ([], none)
  | f :: l =>
    match f.broken with
    | some e => (f :: l, some e)
    | none => ({ f with var := f.var || f.named } :: (construct l).1, (construct l).2)

/-- `kdf`, :2067-2071: the keys of the elementary exchanges that occur more than once. -/
def doubled (l : List Flow) : List (Str × Str) :=
  let ks := (l.filter (·.elementary)).map (·.key)
  (ks.filter fun k => 1 < ks.count k).dedup

/-- The loop over the exchanges, :2073-2084; `skip` are the keys that are summed. The field is unique. -/
def setVars (skip : List (Str × Str)) : List Flow → List Flow × Option PyErr
  | [] => ([], none)
  | f :: l =>
    if f.key ∈ skip then (f :: (setVars skip l).1, (setVars skip l).2)
    else if f.var then
      if f.refVar then (f :: l, some .valueError)
      else ({ f with refVar := true } :: (setVars skip l).1, (setVars skip l).2)
    else (f :: (setVars skip l).1, (setVars skip l).2)

/-- Adding the other exchanges of a group to the first, :2088-2099: the sources of the first are looked up when another
one has some. -/
def sumGroup (first : Flow) : List Flow → Option PyErr
  | [] => none
  | f :: l =>
    if f.source && !first.source then some .typeError
    else match f.bad with
      | some e => some e
      | none => sumGroup first l

/-- The loop over the groups, :2086-2109. -/
def sumAll (l : List Flow) : List (Str × Str) → Option PyErr
  | [] => none
  | k :: ks =>
    match l.filter fun f => f.elementary && f.key = k with
    | [] => sumAll l ks
    | h :: t =>
      match sumGroup h t with
      | some e => some e
      | none => sumAll l ks

/-- The options that matter: `convert_parameterization` and `sum_same_elementary_amounts`. -/
structure Opts where
  param : Bool
  sum : Bool
  deriving DecidableEq

/-- The work of `reset_conversion`, :2050-2109. -/
def pass (o : Opts) (l : List Flow) : List Flow × Option PyErr :=
  let a := if o.param then construct l else (l, none)
  match a.2 with
  | some e => (a.1, some e)
  | none =>
    let skip := if o.sum then doubled a.1 else []
    let b := setVars skip a.1
    match b.2 with
    | some e => (b.1, some e)
    | none => (b.1, if o.sum then sumAll b.1 skip else none)

/-- `reset_conversion` and `end_conversion` for what is kept here, :2111-2116, 1890-1899, 1925-1938: after the work the
list is emptied. -/
def finish (o : Opts) (l : List Flow) : List Flow × Option PyErr :=
  match pass o l with
  | (l', some e) => (l', some e)
  | (_, none) => ([], none)

/-- `delete`, :1826-1839: the options are taken back, then the list is treated twice. -/
def delete (l : List Flow) : List Flow × Option PyErr :=
  match finish ⟨false, false⟩ l with
  | (l', some e) => (l', some e)
  | (l', none) => finish ⟨false, false⟩ l'

/-- A file: its exchanges up to the first error and the error, and the error of writing its data set. -/
structure File where
  flows : List Flow
  fails : Option PyErr
  unwritable : Option PyErr

/-- The conversion of one file, converter.py:236-242, 259-266. -/
def oneFile (o : Opts) (l : List Flow) (f : File) : List Flow × Option PyErr :=
  match f.fails with
  | some e => (l ++ f.flows, some e)
  | none =>
    match finish o (l ++ f.flows) with
    | (l', some e) => (l', some e)
    | (l', none) => (l', f.unwritable)

/-- `convert`, converter.py:257-280: on an error the mapping is deleted, and what goes wrong then is the error reported. -/
def convert (o : Opts) : List Flow → List File → List Flow × Option PyErr
  | l, [] => (l, none)
  | l, f :: fs =>
    match oneFile o l f with
    | (l', none) => convert o l' fs
    | (l', some e) => ((delete l').1, some ((delete l').2.getD e))

/-! ## ILCD to EcoSpold2 -/

/-- A variable in `_available_variables`; `bad` is the error of writing it as a parameter. -/
structure Var where
  used : Bool
  bad : Option PyErr
  deriving DecidableEq

/-- What the classes hold, ILCD1_to_ECS2_conversion.py:1331-1344: the variables, the elementary exchanges to sum (by
their target and direction, with the error of adding them) and the identifiers given to exchanges. -/
structure Shared where
  vars : List (Str × Var)
  flows : List ((Str × Str) × Option PyErr)
  ids : List Str
  deriving DecidableEq

def Shared.empty : Shared := ⟨[], [], []⟩

/-- The parameters written: the variables that are not used by an exchange. `create_parameters`, :317-345. -/
def parameters : List (Str × Var) → Py (List Str)
  | [] => .ok []
  | (n, v) :: l =>
    if v.used then parameters l
    else match v.bad with
      | some e => .error e
      | none => (parameters l).map (n :: ·)

/-- Adding the elementary exchanges with the same key, :1499-1530. The order of the set does not matter here: the first
error of the list is taken. -/
def sumShared (l : List ((Str × Str) × Option PyErr)) : Option PyErr :=
  (l.filter fun f => 1 < (l.map (·.1)).count f.1).findSome? (·.2)

/-- The work of `reset_conversion`, :1448-1530; `bad` is the error of setting the system model, `model` says that the
system model of the data set is set already, which is unique. The result has the parameters written. -/
def passI (sum : Bool) (bad : Option PyErr) (model : Bool) (s : Shared) : Py (List Str) :=
  match bad with
  | some e => .error e
  | none =>
    if model then .error .valueError
    else match parameters s.vars with
    | .error e => .error e
    | .ok ps => if sum then match sumShared s.flows with
        | some e => .error e
        | none => .ok ps
      else .ok ps

/-- A file of ILCD: what reading it does to what is shared, its error, and the error of writing the data set. -/
structure FileI where
  vars : List (Str × Var)
  flows : List ((Str × Str) × Option PyErr)
  ids : List Str
  fails : Option PyErr
  /-- the error of setting the system model -/
  model : Option PyErr
  unwritable : Option PyErr

/-- Reading a file: a variable replaces one of the same name, :309-310. -/
def Shared.read (s : Shared) (f : FileI) : Shared :=
  ⟨f.vars.foldl (fun l v => aset v.1 v.2 l) s.vars, s.flows ++ f.flows, s.ids ++ f.ids⟩

/-- `delete`, :1262-1278: the options are taken back and `reset_conversion` is called, on the data set of the file. -/
def deleteI (bad : Option PyErr) (model : Bool) (s : Shared) : Shared × Option PyErr :=
  match passI false bad model s with
  | .error e => (s, some e)
  | .ok _ => (.empty, none)

/-- The conversion of one file, and the end of the conversion on an error. The data set object is new for every file.
The result has the parameters written. -/
def oneFileI (sum : Bool) (s : Shared) (f : FileI) : Shared × Py (List Str) :=
  let failed (model : Bool) (s : Shared) (e : PyErr) : Shared × Py (List Str) :=
    ((deleteI f.model model s).1, .error ((deleteI f.model model s).2.getD e))
  match f.fails with
  | some e => failed false (s.read f) e
  | none =>
    match passI sum f.model false (s.read f) with
    | .error e => failed true (s.read f) e
    | .ok ps =>
      match f.unwritable with
      | some e => failed true .empty e
      | none => (.empty, .ok ps)

/-- `convert`: the parameters of the data sets written, up to the first error. -/
def convertI (sum : Bool) : Shared → List FileI → Shared × Py (List (List Str))
  | s, [] => (s, .ok [])
  | s, f :: fs =>
    match oneFileI sum s f with
    | (s', .error e) => (s', .error e)
    | (s', .ok ps) =>
      match convertI sum s' fs with
      | (s2, .error e) => (s2, .error e)
      | (s2, .ok l) => (s2, .ok (ps :: l))

end Verif.Session
