/-
The exchanges of an ILCD data set on their way to EcoSpold2.
Models src/Lavoisier/conversions/ILCD1_to_ECS2_conversion.py:194-260 (`ILCD1ToECS2Amount`), 370-424
(`ILCD1ToECS2FlowConversion`: construction), 611-705 (`get_elementary_flow_info`, `get_intermediate_flow_info`), 707-778
(`finish_flow_info`, `set_field`), 980-1063 (`ILCD1ToECS2FlowReferenceConversion`) and 1498-1530
(`reset_conversion`: the summing of equal elementary flows).

Simplifications: an exchange is a record of the texts the code takes out of the dictionary of the element, and
the file of its flow a record of the fields the code reads. `float`, the unit library (a dimension and a factor per
unit), the hash of `uuid3`, the conversion of identifiers and the finding of files are functions of an environment.
The variable of an exchange is given with it (see Verif.IlcdVars), its uncertainty is given with its parameters
already computed (see Verif.Uncertainty). Properties are in Verif.IlcdProps. CAS numbers, synonyms and sources, which
are copied, are left out. An object is identified by its number; the lists of the data set hold the objects of the
flows, so that one list stands for both.
-/
import Mathlib.Algebra.Field.Defs
import Verif.Model.Assoc

namespace Verif.IlcdFlows

/-- An uncertainty of ILCD with the parameters computed in `_get_data`, :94-110. -/
inductive Unc (K : Type) where
  | lognormal (var : K)
  | normal (var : K)
  | triangular (lo hi : K)
  | uniform (lo hi : K)
  | other
  deriving DecidableEq

/-- An uncertainty as it is written, :128-172. -/
inductive WUnc (K : Type) where
  | lognormal (mean var : K)
  | normal (mean var : K)
  | triangular (lo mode hi : K)
  | uniform (lo hi : K)
  | other
  deriving DecidableEq

/-- An `exchange` of ILCD: `fid`, `version` and `uri` are those of the reference to its flow (missing attributes are empty);
`var` is the name and the formula of its variable in EcoSpold2. -/
structure Exch (K : Type) where
  fid : Str
  version : Str
  uri : Str
  shortNames : List Str
  resulting : Option Str
  mean : Option Str
  comments : List Str
  var : Option (Str × Option Str)
  dir : Str
  internalId : Str
  unc : Option (Unc K)
  deriving DecidableEq

/-- What is read from the file of a flow, :992-1020: the type, the base names, and the identifier of the reference
flow property, if it is among the flow properties. -/
structure FlowFile where
  typ : Option Str
  names : List Str
  refProperty : Option Str
  deriving DecidableEq

/-- A row of the table of elementary flows. -/
structure Row where
  mapType : Str
  target : Str
  name : Str
  context : Str
  unit : Str
  factor : Str
  deriving DecidableEq

/-- What surrounds the conversion of a data set. `D` are the dimensions of units. `unit` is the parsing of a unit
by pint; `units` is `ilcd_to_ecs2_un`, from the flow property to the identifier and the name of the unit; `file` is the flow data set a
reference with the given identifier, version and address leads to (`get_file`, :803-831). -/
structure Env (K D : Type) where
  flt : Str → Py K
  hash : Str → Str
  convId : Str → Py Str
  process : Str
  refs : List Str
  row : Str → Option Row
  subcompartment : Str → Option Str
  file : Str → Str → Str → Option FlowFile
  unit : Str → Py (D × K)
  units : List (Str × (Str × Str))

/-- The exchange in the data set of EcoSpold2. -/
structure Written (K : Type) where
  id : Str
  target : Str
  name : Str
  unitName : Str
  unitId : Str
  amount : K
  inputGroup : Option Nat
  outputGroup : Option Nat
  comments : List Str
  variableName : Option Str
  relation : Option Str
  unc : Option (WUnc K)
  deriving DecidableEq

/-- A flow being converted: the exchange, whether it is elementary, its number (which stands for the object), the
amount with its unit (`_a`) and uncertainty (`_unc`), the first base name, the variable (an attribute that can be
deleted), and the exchange written. -/
structure Flow (K : Type) where
  src : Exch K
  elem : Bool
  typ : Str
  num : Nat
  m : K
  unit : Str
  unc : Option (Unc K)
  base : Str
  var : Option (Str × Option Str)
  field : Written K
  deriving DecidableEq

/-- The state of the conversion of a data set: `_all_flow_ids`, the exchanges of the data set, the entries of the
master data (number of the flow they were made for, whether it is elementary, and identifier), the exchanges reported to the user, and those
with an entry in the log only. -/
structure St (K : Type) where
  next : Nat
  ids : List Str
  flows : List (Flow K)
  master : List (Nat × Bool × Str)
  reported : List (Exch K)
  logged : List (Exch K)
  deriving DecidableEq

def St.empty {K : Type} : St K := ⟨0, [], [], [], [], []⟩

section
variable {K D : Type} [Field K] [DecidableEq K] [DecidableEq D]

/-- `calculate`, :128-172, for the value `m` and the factor `f`; the comments and the pedigree are left out. -/
def Unc.write (u : Unc K) (m f : K) : WUnc K :=
  match u with
  | .lognormal v => .lognormal m v
  | .normal v => .normal m (v * f ^ 2)
  | .triangular lo hi => .triangular (lo * f) m (hi * f)
  | .uniform lo hi => .uniform (lo * f) (hi * f)
  | .other => .other

/-- The uncertainty kept with the amount, `self._var`, :146-156. -/
def Unc.scaled (u : Unc K) (f : K) : Unc K :=
  match u with
  | .normal v => .normal (v * f ^ 2)
  | u => u

/-- `float(x.get('resultingAmount', x.get('meanAmount')))`, :394. -/
def amountOf (env : Env K D) (x : Exch K) : Py K :=
  match x.resulting with
  | some t => env.flt t
  | none =>
    match x.mean with
    | some t => env.flt t
    | none => .error .typeError

/-- The loop of :711-716; the fuel is used up when all candidates are taken. -/
def searchId (hash : Str → Str) (ids : List Str) (base : Str) : Nat → Nat → Option Str
  | 0, _ => none
  | fuel + 1, i =>
    if hash (base ++ natStr i) ∈ ids then searchId hash ids base fuel (i + 1) else some (hash (base ++ natStr i))

/-- :708-719; `none` stands for a loop without end. -/
def freshId (hash : Str → Str) (ids : List Str) (base : Str) : Option Str :=
  if hash base ∈ ids then searchId hash ids base (ids.length + 1) 1 else some (hash base)

/-- The dictionary of :728-733. -/
def inputCode (typ : Str) : Option Nat :=
  if typ = c!"Elementary flow" then some 4
  else if typ = c!"Product flow" then some 5
  else if typ = c!"Waste flow" then some 5
  else if typ = c!"Other flow" then some 5
  else none

/-- The dictionary of :735-740. -/
def outputCode (typ : Str) : Option Nat :=
  if typ = c!"Elementary flow" then some 4
  else if typ = c!"Product flow" then some 2
  else if typ = c!"Waste flow" then some 3
  else if typ = c!"Other flow" then some 2
  else none

/-- A field that accepts the given codes, ECS2_validators.py:50-53; `None` is rejected. -/
def accept (codes : List Nat) : Option Nat → Py Nat
  | none => .error .typeError
  | some n => if n ∈ codes then .ok n else .error .valueError

/-- The codes a field accepts, ECS2_structure.py:767-768, 787-788. -/
def inputCodes (elem : Bool) : List Nat := if elem then [4] else [1, 2, 3, 5]

def outputCodes (elem : Bool) : List Nat := if elem then [4] else [0, 2, 3, 5]

/-- The groups of an exchange, :724-740. -/
def groups (elem isRef : Bool) (dir typ : Str) : Py (Option Nat × Option Nat) :=
  if isRef then (accept (outputCodes elem) (some 0)).map fun n => (none, some n)
  else if dir = c!"Input" then (accept (inputCodes elem) (inputCode typ)).map fun n => (some n, none)
  else (accept (outputCodes elem) (outputCode typ)).map fun n => (none, some n)

/-- `self.field.variableName`, :742-743; without the attribute the field is left alone. -/
def variableNameOf (fl : Flow K) : Option Str :=
  match fl.var with
  | some v => some v.1
  | none => fl.field.variableName

/-- `self.field.mathematicalRelation`, :745-746. -/
def relationOf (fl : Flow K) : Option Str :=
  match fl.var with
  | some (_, some f) => if f = [] then fl.field.relation else some f
  | _ => fl.field.relation

/-- `finish_flow_info`, :707-762: the identifier, the comments, the amount, the groups and the variable. -/
def finish (env : Env K D) (s : St K) (fl : Flow K) : Py (St K × Flow K) :=
  match freshId env.hash s.ids (env.process ++ fl.base) with
  | none => .error (.other 0)
  | some i =>
    match groups fl.elem (decide (fl.src.internalId ∈ env.refs)) fl.src.dir fl.typ with
    | .error e => .error e
    | .ok g =>
      .ok ({ s with ids := s.ids ++ [i] },
        { fl with field := { fl.field with
            id := i
            comments := fl.field.comments ++ fl.src.comments
            amount := fl.m
            inputGroup := g.1
            outputGroup := g.2
            variableName := variableNameOf fl
            relation := relationOf fl } })

/-- `v[1].replace(' ', '_')` -/
def underscore (n : Str) : Str := n.map fun c => if c = ' ' then '_' else c

/-- The unit of a dimension, :650-656: the first one of the table. A unit of the table that pint does not know is an
error when it is reached. -/
def unitFor (env : Env K D) (d : D) : List (Str × (Str × Str)) → Py Str
  | [] => .error .valueError
  | (_, (i, n)) :: l =>
    match env.unit (underscore n) with
    | .error e => .error e
    | .ok (d', _) => if d' = d then .ok i else unitFor env d l

/-- The first base name, :709; a flow without base name has no entry `name`. -/
def baseName (f : FlowFile) : Py Str :=
  match f.names with
  | [] => .error .keyError
  | n :: _ => .ok n

/-- The factor of a row, :645-646. -/
def rowFactor (env : Env K D) (r : Row) : Py K :=
  if r.factor = [] ∨ r.factor = c!"n/a" then .ok 1 else env.flt r.factor

/-- `get_elementary_flow_info`, :611-674, up to the end of `finish_flow_info`. -/
def elementary (env : Env K D) (s : St K) (x : Exch K) (a : K) (f : FlowFile) (r : Row) : Py (St K × Flow K) := do
  match env.subcompartment r.context with
  | none => .error .valueError
  | some _ =>
    if (splitOn '/' r.context).length < 2 then .error .indexError
    else
      let cf ← rowFactor env r
      let (d, _) ← env.unit r.unit
      let i ← unitFor env d env.units
      let base ← baseName f
      finish env s ⟨x, true, c!"Elementary flow", s.next, a * cf, r.unit, x.unc.map fun u => u.scaled cf, base, x.var,
        ⟨[], r.target, r.name, r.unit, i, a * cf, none, none, [], none, none, x.unc.map fun u => u.write (a * cf) cf⟩⟩

/-- `get_intermediate_flow_info`, :676-705, up to the end of `finish_flow_info`; `none` if the unit is not known. -/
def intermediate (env : Env K D) (s : St K) (x : Exch K) (a : K) (f : FlowFile) (t : Str) : Py (Option (St K × Flow K)) := do
  let target ← env.convId x.fid
  let base ← baseName f
  match f.refProperty.bind fun p => aget p env.units with
  | none => .ok none
  | some (i, n) =>
    let _ ← env.unit (underscore n)
    let r ← finish env s ⟨x, false, t, s.next, a, underscore n, x.unc, base, x.var,
      ⟨[], target, base, n, i, a, none, none, [], none, none, x.unc.map fun u => u.write a 1⟩⟩
    .ok (some r)

/-- The kinds of rows that are no mapping, :1030. -/
def noMatch : List Str := [c!"NO_MATCH_MAPPING", c!"NO MATCH", c!"NO_FLOW_MATCH_MANUAL", c!"NO_MAPPING"]

/-- The row of a flow if it is a mapping, :1028-1030. -/
def rowOf (env : Env K D) (fid : Str) : Option Row :=
  match env.row fid with
  | none => none
  | some r => if strip r.mapType ∈ noMatch then none else some r

/-- `setattr(master_field, mtype, master)`, :761-762, and `set_field`, :764-778. -/
def St.put (s : St K) (fl : Flow K) : St K :=
  { s with next := s.next + 1, flows := s.flows ++ [fl], master := s.master ++ [(fl.num, fl.elem, fl.field.target)] }

/-- An exchange, :1934-1938 with :390-424 and :991-1063. -/
def convertOne (env : Env K D) (s : St K) (x : Exch K) : Py (St K) := do
  if x.shortNames = [] then .error .indexError
  else
    let a ← amountOf env x
    match env.file x.fid x.version x.uri with
    | none => .ok { s with reported := s.reported ++ [x] }
    | some f =>
      match f.typ with
      | none => .error .keyError
      | some t =>
        if t = c!"Elementary flow" then
          match rowOf env x.fid with
          | none => .ok { s with reported := s.reported ++ [x] }
          | some r => do
            let (s', fl) ← elementary env s x a f r
            .ok (s'.put fl)
        else do
          match ← intermediate env s x a f t with
          | none => .ok { s with logged := s.logged ++ [x] }
          | some (s', fl) => .ok (s'.put fl)

/-- All exchanges of a data set. -/
def convertAll (env : Env K D) : St K → List (Exch K) → Py (St K)
  | s, [] => .ok s
  | s, x :: l => (convertOne env s x).bind fun s' => convertAll env s' l

/-! ### Summing equal elementary flows -/

/-- The uncertainty of a sum, `sum_`, :237-243: with two normal distributions the field is changed too. -/
def sumUnc (x y : Flow K) : Py (Option (Unc K) × Option (WUnc K)) :=
  match x.unc, y.unc with
  | some (.normal v), some (.normal w) =>
    if v = 0 ∨ w = 0 then .error .typeError else .ok (some (.normal (v + w)), some (.normal (x.m + y.m) (v + w)))
  | some _, some _ => .ok (none, x.field.unc)
  | u, _ => .ok (u, x.field.unc)

/-- `sum_`, :236-247: pint adds in the unit of the first amount. -/
def sum (env : Env K D) (x y : Flow K) : Py (Flow K) := do
  let u ← sumUnc x y
  let (d, c) ← env.unit x.unit
  let (d', c') ← env.unit y.unit
  if d = d' then .ok { x with m := x.m + y.m * (c' / c), unc := u.1, field := { x.field with unc := u.2 } }
  else .error (.other 1)

def sumAll (env : Env K D) : Flow K → List (Flow K) → Py (Flow K)
  | x, [] => .ok x
  | x, y :: l => (sum env x y).bind fun x' => sumAll env x' l

/-- The key of :1500: the target and the direction. -/
def Flow.key (fl : Flow K) : Str × Str := (fl.field.target, fl.src.dir)

/-- `double_el_flow[key].append(flow)`, :1499-1500. -/
def addGroup (d : List ((Str × Str) × List (Flow K))) (fl : Flow K) : List ((Str × Str) × List (Flow K)) :=
  aset fl.key ((aget fl.key d).getD [] ++ [fl]) d

/-- The groups of more than one flow, :1501. The code goes over a set, so the order of the flows is arbitrary. -/
def doubled (em : List (Flow K)) : List (List (Flow K)) :=
  ((em.foldl addGroup []).filter fun p => 1 < p.2.length).map (·.2)

/-- What becomes of an exchange of the data set, :1523-1530. -/
def place (first : Flow K) (rest : List (Flow K)) (g : Flow K) : Option (Flow K) :=
  if g.num = first.num then some first
  else if g.num ∈ rest.map (·.num) then none
  else some g

/-- The treatment of a group, :1503-1530. -/
def mergeGroup (env : Env K D) (s : St K) : List (Flow K) → Py (St K)
  | [] => .ok s
  | x :: rest => do
    let x1 ← sumAll env x rest
    let (s', x2) ← finish env s { x1 with var := none }
    .ok { s' with
      flows := s.flows.filterMap (place x2 rest)
      master := (s.master.filter fun e => e.1 ∉ (x :: rest).map (·.num)) ++ [(x2.num, x2.elem, x2.field.target)] }

def mergeAll (env : Env K D) : St K → List (List (Flow K)) → Py (St K)
  | s, [] => .ok s
  | s, g :: l => (mergeGroup env s g).bind fun s' => mergeAll env s' l

/-- The end of a data set, :1498-1530, for an order `em` of the set of elementary flows. -/
def merge (env : Env K D) (s : St K) (em : List (Flow K)) : Py (St K) := mergeAll env s (doubled em)

end

end Verif.IlcdFlows
