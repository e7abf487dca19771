/-
The exchanges of an EcoSpold2 data set on their way to ILCD.
Models src/Lavoisier/conversions/ECS2_to_ILCD1_conversion.py:925-1031 (`ECS2ToILCD1FlowConversion`:
construction, `basic_initialization`, `get_direction`, `get_allocation`), 1145-1256
(`ECS2ToILCD1IntermediateFlowConversion`: construction and `get_flow_dict`), 1266-1391
(`ECS2ToILCD1ElementaryFlowConversion`), 1577-1640 (identifier, version and file of a flow reference)
and 2062-2112 (`reset_conversion`: amounts and the summing of equal elementary flows).

Simplifications: an exchange is a record of the texts the code takes out of the dictionary of the
element. `float`, the unit library, the conversion of identifiers, the version in the file of an
elementary flow and the flow properties of a product are functions of an environment. The fields of the
exchange that stand only for themselves (comments, production volume, variables) are left out; the amounts
and uncertainties are those of `Verif.Uncertainty`. The exchange in the data set and `flow.field` are the
same object in the code, so one list stands for both.
-/
import Verif.Model.Assoc
import Verif.Model.Uncertainty

namespace Verif.EcsFlows
open Uncertainty

inductive Dir where
  | input
  | output
  deriving DecidableEq, Repr

/-- The types of flows in ILCD the code writes, :996, 1001-1009. -/
inductive FType where
  | product
  | waste
  | elementary
  deriving DecidableEq, Repr

/-- An `intermediateExchange` or `elementaryExchange` (`isElem`). `sources` are the identifiers of the
sources the exchange refers to, `byProduct` its "By-product classification", `specific` an attribute
`specificAllocationProperty` (the format only has `specificAllocationPropertyId`), `props` the identifiers
and amounts of its properties. -/
structure Exch where
  isElem : Bool
  id : Str
  fid : Str
  name : Str
  unit : Str
  amount : Str
  inputGroup : Option Str
  outputGroup : Option Str
  unc : Option Unc
  byProduct : Option Str
  sources : List Str
  specific : Option Str
  props : List (Str × Str)

/-- A row of the table of elementary flows. -/
structure Row where
  mapType : Str
  target : Str
  name : Str
  unit : Str
  factor : Str

/-- What surrounds the conversion. `FP` is the list of flow properties of a product. -/
structure Env (FP : Type) where
  flt : Str → Py ℝ
  showF : Str → Str
  unitFactor : Str → Py ℝ
  conv : Str → Py Str
  elemVersion : Str → Py Str
  fp : Exch → Py FP
  mapping : List (Str × Row)

/-- An exchange of the ILCD data set. `bounds` are the fields of the uncertainty, `mean` is
`meanAmount` and `resultingAmount`. -/
structure Flow where
  src : Exch
  target : Str
  version : Str
  internalId : Nat
  dir : Dir
  ftype : Option FType
  amount : Amt
  bounds : Option Written
  sources : List Str
  mean : Option ℝ

/-- The state shared by the exchanges of a data set (class attributes, :645-660, 1925-1938) and what was
written: the exchanges, the reference flows, the name of the functional unit, the files of flows
(identifier and version), the exchanges reported as not converted. `main` is the class attribute
`main_property`, `underMain` is `_main_property`, `shares` is `_allocation_properties`. -/
structure St (FP : Type) where
  main : Option Str
  underMain : Option Str
  shares : List (Str × ℝ)
  counter : Nat
  refs : List Nat
  funcUnit : Option Str
  versions : List (Str × List (Nat × FP))
  files : List ((Str × Str) × FP)
  flows : List Flow
  reported : List Exch

/-- `reset_conversion`, :1925-1938; the files of earlier data sets stay in the directory. -/
def fresh {FP : Type} (files : List ((Str × Str) × FP)) : St FP := ⟨none, none, [], 1, [], none, [], files, [], []⟩

/-- The attribute `masterAllocationPropertyId` of the activity, :2207-2209: `main_property` is set. -/
def setMaster {FP : Type} (s : St FP) (x : Str) : St FP := { s with main := some x }

/-- `x.get(key)` as a condition: neither missing nor empty. -/
def given : Option Str → Option Str
  | some [] => none
  | o => o

/-- The direction and the group, :993-994. -/
def direction (x : Exch) : Py (Dir × Str) :=
  match given x.inputGroup with
  | some g => .ok (.input, g)
  | none =>
    match x.outputGroup with
    | some g => .ok (.output, g)
    | none => .error .keyError

/-- The type of the flow, :995-1009. -/
def flowType (byProduct : Option Str) (dir : Dir) (group : Str) : Option FType :=
  match byProduct with
  | some c => if c = c!"Waste" then some .waste else some .product
  | none =>
    match dir with
    | .output =>
      if group = c!"0" then some .product
      else if group = c!"2" then some .product
      else if group = c!"3" then some .waste
      else if group = c!"4" then some .elementary
      else if group = c!"5" then some .product
      else none
    | .input => if group = c!"4" then some .elementary else some .product

/-- The field `dataSetInternalID` takes at most six digits (ILCD1_validators.py:22). -/
def int6 (n : Nat) : Py Unit := if n < 1000000 then .ok () else .error .valueError

/-- `functionalUnitFlowProperties`, :1016-1021. -/
def nameUnit (text : Str) : Option Str → Option Str
  | none => some text
  | some _ => none

/-- The text of the functional unit, :1019. -/
def unitText {FP : Type} (env : Env FP) (x : Exch) : Str :=
  x.name ++ c!", " ++ env.showF x.amount ++ c!" " ++ x.unit

/-- `get_direction`, :1012-1022: the identifier of the exchange and the reference flows. An elementary
exchange has no `units`. -/
def number {FP : Type} (env : Env FP) (s : St FP) (x : Exch) (dir : Dir) (group : Str) : Py (St FP) :=
  match int6 s.counter with
  | .error e => .error e
  | .ok () =>
    if dir = .output ∧ group = c!"0" then
      if x.isElem then .error .attributeError
      else .ok { s with counter := s.counter + 1, refs := s.refs ++ [s.counter],
                        funcUnit := nameUnit (unitText env x) s.funcUnit }
    else .ok { s with counter := s.counter + 1 }

/-- `basic_initialization`, :978-990, with the conversion to the unit of ILCD, :512-524. The first number
is the original value, `amount.o.m`. -/
noncomputable def basicAmount {FP : Type} (env : Env FP) (x : Exch) : Py (ℝ × Amt) :=
  match env.flt x.amount with
  | .error e => .error e
  | .ok a =>
    match env.unitFactor x.unit with
    | .error e => .error e
    | .ok c => .ok (a, (init a x.unc).toUnit c)

/-- The factor of the table, :1314-1315. -/
noncomputable def rowFactor {FP : Type} (env : Env FP) (r : Row) : Py ℝ :=
  if r.factor = [] ∨ r.factor = c!"n/a" then .ok 1 else env.flt r.factor

/-- The amount of an elementary exchange, :1314-1321. -/
noncomputable def elemAmount {FP : Type} (env : Env FP) (x : Exch) (r : Row) : Py (ℝ × Amt) :=
  match rowFactor env r with
  | .error e => .error e
  | .ok k =>
    match env.flt x.amount with
    | .error e => .error e
    | .ok a =>
      match env.unitFactor r.unit with
      | .error e => .error e
      | .ok c => .ok (a * k, (elementary a k x.unc).toUnit c)

/-- `allocation_property`, :938-939. -/
def allocProperty {FP : Type} (s : St FP) (x : Exch) : Option Str :=
  match x.specific with
  | some p => some p
  | none => s.underMain

/-- The share of an exchange, :1036-1044, for the value `o` of the exchange. -/
noncomputable def addShares {FP : Type} (env : Env FP) (prop : Option Str) (x : Exch) (o : ℝ) :
    List (Str × Str) → List (Str × ℝ) → Py (List (Str × ℝ))
  | [], d => .ok d
  | (pid, t) :: l, d =>
    match env.flt t with
    | .error e => .error e
    | .ok a => addShares env prop x o l (if some pid = prop then aset x.id (a * o) d else d)

/-- `f'{n:0>3}'` -/
def pad3 (n : Nat) : Str := List.replicate (3 - (natStr n).length) '0' ++ natStr n

/-- The version of a flow of ILCD, :1225 and 1611. -/
def versionText (n : Nat) : Str := c!"01.00." ++ pad3 n

/-- `max(d.keys())`, 0 for no keys (not reached, the dictionaries are not empty). -/
def maxKey {FP : Type} (d : List (Nat × FP)) : Nat := d.foldl (fun m p => max m p.1) 0

/-- The number of the version and the dictionary of versions afterwards, :1216-1228; the flag says
whether the file is written. -/
def chooseVersion {FP : Type} [DecidableEq FP] (fp : FP) :
    Option (List (Nat × FP)) → Nat × List (Nat × FP) × Bool
  | none => (1, [(1, fp)], true)
  | some d =>
    match d.find? (fun p => decide (p.2 = fp)) with
    | some p => (p.1, d, false)
    | none => (maxKey d + 1, aset (maxKey d + 1) fp d, true)

/-- `ECS2ToILCD1IntermediateFlowConversion.__init__`, :1145-1183. -/
noncomputable def intermediate {FP : Type} [DecidableEq FP] (env : Env FP) (s : St FP) (x : Exch) : Py (St FP) :=
  match basicAmount env x with
  | .error e => .error e
  | .ok (o, amt) =>
    match direction x with
    | .error e => .error e
    | .ok (dir, group) =>
      match number env s x dir group with
      | .error e => .error e
      | .ok s1 =>
       match addShares env (allocProperty s x) x o x.props s.shares with
       | .error e => .error e
       | .ok sh =>
        match env.fp x with
        | .error e => .error e
        | .ok fp =>
          match env.conv x.fid with
          | .error e => .error e
          | .ok u =>
            let v := chooseVersion fp (aget x.fid s.versions)
            .ok { s1 with
              shares := sh
              versions := aset x.fid v.2.1 s.versions
              files := if v.2.2 then aset (u, versionText v.1) fp s.files else s.files
              flows := s.flows ++ [⟨x, u, versionText v.1, s.counter, dir, flowType x.byProduct dir group, amt,
                amt.written, x.sources, none⟩] }

/-- The row of the table with which an elementary exchange is converted, :1304-1330. -/
def rowOf {FP : Type} (env : Env FP) (x : Exch) : Option Row :=
  match aget x.fid env.mapping with
  | none => none
  | some r => if r.mapType = c!"NO_MATCH_MAPPING" ∨ r.mapType = c!"NO MATCH" then none else some r

/-- `ECS2ToILCD1ElementaryFlowConversion.__init__`, :1266-1302, and `set_field`, :1389-1391. -/
noncomputable def elementaryFlow {FP : Type} (env : Env FP) (s : St FP) (x : Exch) : Py (St FP) :=
  match rowOf env x with
  | none =>
    match basicAmount env x with
    | .error e => .error e
    | .ok _ => .ok { s with reported := s.reported ++ [x] }
  | some r =>
    match elemAmount env x r with
    | .error e => .error e
    | .ok (o, amt) =>
      match direction x with
      | .error e => .error e
      | .ok (dir, group) =>
        match number env s x dir group with
        | .error e => .error e
        | .ok s1 =>
         match addShares env (allocProperty s x) x o x.props s.shares with
         | .error e => .error e
         | .ok sh =>
          match env.fp x with
          | .error e => .error e
          | .ok fp =>
            match env.elemVersion r.target with
            | .error e => .error e
            | .ok v =>
              .ok { s1 with
                shares := sh
                versions := aset x.fid [(0, fp)] s.versions
                flows := s.flows ++ [⟨x, r.target, v, s.counter, dir, flowType none dir group, amt,
                  amt.written, x.sources, none⟩] }

/-- One exchange, :2302-2303 and 2327-2328. -/
noncomputable def step {FP : Type} [DecidableEq FP] (env : Env FP) (s : St FP) (x : Exch) : Py (St FP) :=
  if x.isElem then elementaryFlow env s x else intermediate env s x

/-- All exchanges of a data set. -/
noncomputable def run {FP : Type} [DecidableEq FP] (env : Env FP) : List Exch → St FP → Py (St FP)
  | [], s => .ok s
  | x :: l, s =>
    match step env s x with
    | .error e => .error e
    | .ok s' => run env l s'

/-! ### The end of a data set -/

/-- By what elementary flows are compared, :2070. -/
def Flow.key (f : Flow) : Str × Dir := (f.target, f.dir)

/-- `flow.ftype == 'Elementary flow'`, :2069. -/
def Flow.isElementary (f : Flow) : Bool := f.ftype == some .elementary

/-- One step of :2068-2070. -/
def addGroup (d : List ((Str × Dir) × List Flow)) (f : Flow) : List ((Str × Dir) × List Flow) :=
  if f.isElementary then aset f.key ((aget f.key d).getD [] ++ [f]) d else d

/-- `double_el_flow`, :2067-2070. -/
def groups (flows : List Flow) : List ((Str × Dir) × List Flow) := flows.foldl addGroup []

/-- `get_allocation`, :1024-1031, called with the shares of the exchanges with an allocation property.
The assignment in the last line fails for every exchange that has one, since the field `allocations` is
unique and was made by the access in the line before the last but two (main.py:73-75, 116-118; see
`Verif.Props.EcsFlows`). -/
noncomputable def getAllocation (shares : List (Str × ℝ)) (f : Flow) : Py Unit :=
  match aget f.src.id shares with
  | none => .ok ()
  | some _ =>
    open Classical in
    if (shares.map Prod.snd).sum = 0 then .error .zeroDivisionError else .error .valueError

/-- The sources of a merged exchange, :2089-2092. -/
def mergeSources (a b : List Str) : Py (List Str) :=
  if b = [] then .ok a
  else if a = [] then .error .typeError
  else .ok (b.foldl (fun acc n => if n ∈ acc then acc else acc ++ [n]) a)

/-- The fields of the uncertainty of a merged exchange, :2097-2099: written anew when the sum has an
uncertainty, otherwise left as they are. -/
noncomputable def mergeBounds (old : Option Written) (sum : Amt) : Option Written :=
  match sum.written with
  | some w => some w
  | none => old

/-- One exchange added to the first of its group, :2088-2099. -/
noncomputable def mergeOne (f0 f : Flow) : Py Flow :=
  match mergeSources f0.sources f.sources with
  | .error e => .error e
  | .ok src =>
    match f0.amount.add f.amount with
    | .error e => .error e
    | .ok a => .ok { f0 with sources := src, amount := a, bounds := mergeBounds f0.bounds a }

/-- All exchanges of a group but the first added to it. -/
noncomputable def mergeRest : Flow → List Flow → Py Flow
  | f0, [] => .ok { f0 with mean := some f0.amount.m }
  | f0, f :: l =>
    match mergeOne f0 f with
    | .error e => .error e
    | .ok f1 => mergeRest f1 l

/-- The groups of more than one exchange, merged, :2087-2102. -/
noncomputable def mergeGroups : List ((Str × Dir) × List Flow) → Py (List ((Str × Dir) × Flow))
  | [] => .ok []
  | (k, f0 :: f1 :: l) :: g =>
    match mergeRest f0 (f1 :: l) with
    | .error e => .error e
    | .ok m =>
      match mergeGroups g with
      | .error e => .error e
      | .ok r => .ok ((k, m) :: r)
  | _ :: g => mergeGroups g

/-- The exchange as it is in the data set at the end, or nothing if it was removed, :2073-2084 and
2101-2109. -/
noncomputable def place (merged : List ((Str × Dir) × Flow)) (f : Flow) : Option Flow :=
  match aget f.key merged with
  | none => some { f with mean := some f.amount.m }
  | some m => if f.isElementary then (if f.internalId = m.internalId then some m else none) else some f

/-- The allocations of the exchanges that are not summed, :2073-2077. -/
noncomputable def allocate (shares : List (Str × ℝ)) (skip : List (Str × Dir)) : List Flow → Py Unit
  | [] => .ok ()
  | f :: l =>
    if f.key ∈ skip then allocate shares skip l
    else match getAllocation shares f with
      | .error e => .error e
      | .ok () => allocate shares skip l

/-- The keys of the groups of more than one exchange, `kdf`, :2071. -/
def doubled (flows : List Flow) : List (Str × Dir) :=
  ((groups flows).filter fun p => decide (1 < p.2.length)).map Prod.fst

/-- `reset_conversion`, :2062-2109: the exchanges of the data set at the end. -/
noncomputable def finish (sumSame : Bool) (shares : List (Str × ℝ)) (flows : List Flow) : Py (List Flow) :=
  match allocate shares (if sumSame then doubled flows else []) flows with
  | .error e => .error e
  | .ok () =>
    match (if sumSame then mergeGroups (groups flows) else .ok []) with
    | .error e => .error e
    | .ok merged => .ok (flows.filterMap (place merged))

end Verif.EcsFlows
