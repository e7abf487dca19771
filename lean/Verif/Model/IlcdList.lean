/-
The exchanges of an ILCD data set on their way to another list of elementary flows.
Models src/Lavoisier/conversions/ILCD1_to_ILCD1_conversion.py:46-343 (`ILCD1ToILCD1ElementaryFlowConversion`) and 449-450
(the variables it starts with).

Simplifications: of an exchange, a variable and a file the fields that the code reads or sets are given. `float` is a
parameter, numbers are those of a field. The files of the archive are given by their paths within it, as texts; which
default files the program has and what they contain is a parameter. `shutil.copy` is recorded as the name of the file
in the target folder. `lower` is that of ASCII.
-/
import Mathlib.Algebra.Field.Defs
import Verif.Model.IlcdVars
import Verif.Model.Refs
import Verif.Model.UnitTables

namespace Verif.IlcdList

/-- A value of the dictionary of an element: a text of the document or a number that the program has put there. -/
inductive Num (K : Type) where
  | text (s : Str)
  | num (k : K)
  deriving DecidableEq

/-- The fields of an uncertainty. -/
structure Unc (K : Type) where
  typ : Option Str
  rsd : Option (Num K)
  lo : Option (Num K)
  hi : Option (Num K)
  deriving DecidableEq

/-- A reference to a data set. -/
structure FRef where
  id : Str
  uri : Option Str
  version : Option Str
  deriving DecidableEq

/-- An exchange. -/
structure Exch (K : Type) where
  ref : FRef
  short : Refs.Short
  amount : Option (Num K)
  unitId : Option Str
  propertyId : Option Str
  mean : Option (Num K)
  resulting : Option (Num K)
  unc : Unc K
  var : Option Str
  deriving DecidableEq

/-- A variable. -/
structure Var (K : Type) where
  name : Str
  formula : Option Str
  mean : Option (Num K)
  unc : Unc K
  deriving DecidableEq

/-- A flow property of a flow. -/
structure FlowProp where
  internalId : Str
  ref : FRef
  mean : Str

/-- A unit of a unit group. -/
structure GUnit where
  internalId : Str
  olcaId : Option Str
  name : Str
  mean : Str

/-- The files of the archive. `prefixed` says whether the namespace of the file has a prefix, `at3` what `root[3][0][0]`
refers to, if there is such an element with such an attribute. -/
inductive File where
  | flow (prefixed : Bool) (main : Str) (props : List FlowProp) (at3 : Option Str)
  | property (prefixed : Bool) (group : FRef)
  | group (prefixed : Bool) (ref : Str) (units : List GUnit)

abbrev Archive := Str → Option File

/-- A row of the table of elementary flows. -/
structure Row where
  mapType : Str
  target : Str
  name : Str
  factor : Str
  sourceUnit : Str
  targetUnit : Str

/-- What surrounds the conversion. `original` are the default files by kind and name. -/
structure Env (K : Type) where
  flt : Str → Py K
  table : List (Str × Row)
  original : Str → Str → Option File

/-- What changes from exchange to exchange: the variables, the files of the archive that was unpacked, and the files
saved with their folders. -/
structure St (K : Type) where
  vars : List (Var K)
  arch : Archive
  saved : List (Str × Str)

/-- What is entered in the log. -/
inductive Report where
  | noUnit
  | noMatch
  deriving DecidableEq

section
variable {K : Type} [Field K]

/-- `float(x)` -/
def Num.float (flt : Str → Py K) : Num K → Py K
  | .text s => flt s
  | .num k => .ok k

/-- `float(x[key])` -/
def floatOf (flt : Str → Py K) : Option (Num K) → Py K
  | none => .error .keyError
  | some x => x.float flt

/-- A text that counts as true. -/
def given : Option Str → Bool
  | some (_ :: _) => true
  | _ => false

/-- `self.nx.get('@amount')` as a condition; the value is that of the document. -/
def amountGiven (x : Exch K) : Bool :=
  match x.amount with
  | none => false
  | some (.text s) => !s.isEmpty
  | some (.num _) => true

/-- `get_uri`, :252-263. -/
def getUri (a : Archive) (dir : Str) (r : FRef) : Py Str :=
  let first := match r.uri with
    | some (c :: l) => [IlcdVars.replaceAll c!"../" [] (c :: l)]
    | _ => []
  match (first ++ [dir ++ r.id ++ c!".xml", dir ++ r.id ++ c!"_" ++ r.version.getD [] ++ c!".xml"]).find?
      fun p => (a p).isSome with
  | some p => .ok p
  | none => .error (.other 1)

/-- The units found, by kind, in the order in which they were found. -/
structure Units (K : Type) where
  olca : List (Str × K)
  main : List (Str × K)
  sec : List (Str × K)

def Units.add (u : Units K) (main : Bool) (x : Str × K) : Units K :=
  if main then { u with main := u.main ++ [x] } else { u with sec := u.sec ++ [x] }

/-- A unit with the identifier of the unit of the exchange, :301-304. -/
def olcaUnit (flt : Str → Py K) (olca : Option Str) (u : Units K) (g : GUnit) : Py (Units K) :=
  if given olca then
    match g.olcaId with
    | none => .error .keyError
    | some i =>
      if some i = olca then do
        let f ← flt g.mean
        .ok { u with olca := u.olca ++ [(g.name, f)] }
      else .ok u
  else .ok u

/-- The reference unit, :305-306. -/
def refUnit (flt : Str → Py K) (ref : Str) (main : Bool) (mv : Str) (u : Units K) (g : GUnit) : Py (Units K) :=
  if g.internalId = ref then do
    let f ← flt mv
    .ok (u.add main (g.name, f))
  else .ok u

/-- The loop over the units of a group, :299-306. -/
def loopUnits (flt : Str → Py K) (olca : Option Str) (ref : Str) (main : Bool) (mv : Str) :
    Units K → List GUnit → Py (Units K)
  | u, [] => .ok u
  | u, g :: l => do
    let u ← olcaUnit flt olca u g
    let u ← refUnit flt ref main mv u g
    loopUnits flt olca ref main mv u l

/-- :296-312. With a prefix a single unit is a dictionary, of which the loop takes the keys; whatever goes wrong leads to
the fields without a prefix, which are not there. Without a prefix only a single unit can be read. -/
def groupUnits (flt : Str → Py K) (olca : Option Str) (main : Bool) (mv : Str) (u : Units K) : File → Py (Units K)
  | .group true ref us =>
    match us with
    | [] => .error .keyError
    | [_] => .error .keyError
    | us =>
      match loopUnits flt olca ref main mv u us with
      | .ok u => .ok u
      | .error _ => .error .keyError
  | .group false ref us =>
    match us with
    | [] => .error .keyError
    | [g] => refUnit flt ref main mv u g
    | _ => .error .typeError
  | _ => .error .indexError

/-- `open` and reading. -/
def readFile (a : Archive) (p : Str) : Py File :=
  match a p with
  | some f => .ok f
  | none => .error .osError

/-- The unit group of a flow property, :283-291. -/
def groupUri (a : Archive) : File → Py Str
  | .property true g =>
    match getUri a c!"unitgroups/" g with
    | .ok p => .ok p
    | .error _ => .error .keyError
  | .property false g => getUri a c!"unitgroups/" g
  | _ => .error .indexError

/-- One flow property, :273-315. -/
def propUnits (flt : Str → Py K) (a : Archive) (olca : Option Str) (mainId : Str) (u : Units K) (p : FlowProp) :
    Py (Units K) := do
  let path ← getUri a c!"flowproperties/" p.ref
  let f ← readFile a path
  let path ← groupUri a f
  let g ← readFile a path
  let u ← groupUnits flt olca (p.internalId == mainId) p.mean u g
  if u.olca.isEmpty && u.main.isEmpty && u.sec.isEmpty then .error (.other 2) else .ok u

def propsUnits (flt : Str → Py K) (a : Archive) (olca : Option Str) (mainId : Str) :
    Units K → List FlowProp → Py (Units K)
  | u, [] => .ok u
  | u, p :: l => do
    let u ← propUnits flt a olca mainId u p
    propsUnits flt a olca mainId u l

/-- `get_unit`, :265-322. -/
def getUnit (flt : Str → Py K) (a : Archive) (uri : Str) (olca : Option Str) : Py (Units K) := do
  let f ← readFile a uri
  match f with
  | .flow true main props _ =>
    match props with
    | [] => .error .keyError
    | props => propsUnits flt a olca main ⟨[], [], []⟩ props
  | .flow false _ _ _ => .error .keyError
  | _ => .error .indexError

/-- `.replace('kBq', 'kbq')` -/
def lowBq (s : Str) : Str := IlcdVars.replaceAll c!"kBq" c!"kbq" s

/-- The amount, its unit and the unit of the flow, :71-78. -/
def amountOf (flt : Str → Py K) (x : Exch K) (u : Units K) : Py (K × Str × Str) :=
  match u.olca with
  | (n, f) :: _ => do
    let a ← floatOf flt x.amount
    match u.main with
    | [] => .error .indexError
    | m :: _ => .ok (a * f, lowBq n, lowBq m.1)
  | [] => do
    let a ← floatOf flt x.resulting
    match u.main with
    | [] => .error .indexError
    | m :: _ => .ok (a, lowBq m.1, lowBq m.1)

/-- `get_unc`, :234-250. The second sum of the last case is made of the new minimum. -/
def getUnc (flt : Str → Py K) (x : Unc K) (m f : K) : Py (Unc K) :=
  match x.typ with
  | none => .error .keyError
  | some t =>
    if t = c!"lognormal" then .ok x
    else if t = c!"normal" then do
      let r ← floatOf flt x.rsd
      let s := r / 2 * f
      .ok { x with rsd := some (.num s), lo := some (.num (m - s)), hi := some (.num (m + s)) }
    else if t = c!"triangular" ∨ t = c!"uniform" then do
      let lo ← floatOf flt x.lo
      let hi ← floatOf flt x.hi
      .ok { x with lo := some (.num (lo * f)), hi := some (.num (hi * f)) }
    else if t = c!"undefined" then do
      let r ← floatOf flt x.rsd
      let s := r * f
      let lo ← floatOf flt x.lo
      let hi ← floatOf flt x.hi
      let lo' := (lo + hi) * f / 2 - s
      let hi' := (lo' + hi) * f / 2 + s
      .ok { x with rsd := some (.num s), lo := some (.num lo'), hi := some (.num hi') }
    else .ok x

/-- The name of the factor between two units. -/
def factorName (unit nunit : Str) : Str := c!"__" ++ unit ++ c!"_to_" ++ nunit ++ c!"__"

/-- `var_name.replace('temp_olca_param', 'p_')` where it occurs. -/
def paramName (n : Str) : Str := IlcdVars.replaceAll c!"temp_olca_param" c!"p_" n

/-- The first variable of a name is replaced. -/
def replaceVar (n : Str) (f : Var K → Py (Var K)) : List (Var K) → Py (List (Var K))
  | [] => .error .indexError
  | v :: l =>
    if v.name = n then do
      let v ← f v
      .ok (v :: l)
    else do
      let l ← replaceVar n f l
      .ok (v :: l)

/-- `get_var` with a conversion, :206-222. -/
def getVar (flt : Str → Py K) (vars : List (Var K)) (n unit nunit : Str) (factor amount : K) : Py (Str × List (Var K)) := do
  let name := paramName n ++ c!"_from_" ++ unit ++ c!"_to_" ++ nunit
  let vars := vars ++ [⟨factorName unit nunit, none, some (.num factor), ⟨none, none, none, none⟩⟩]
  let vars ← replaceVar n (fun v => do
    match v.formula with
    | none => .error .keyError
    | some e => do
      let u ← if given v.unc.typ then getUnc flt v.unc amount factor else .ok v.unc
      .ok ⟨name, some (c!"(" ++ e ++ c!")*" ++ factorName unit nunit), some (.num amount), u⟩) vars
  .ok (name, vars)

/-- `get_var` without, :224-230. -/
def keepVar (vars : List (Var K)) (n : Str) : Py (Str × List (Var K)) := do
  let vars ← replaceVar n (fun v => .ok { v with name := paramName n }) vars
  .ok (paramName n, vars)

/-- `save_original`, :329-343. -/
def saveOriginal (env : Env K) (dir kind name : Str) (s : St K) : Py (St K) :=
  match env.original kind name with
  | none => .error .osError
  | some _ => .ok { s with saved := s.saved ++ [(dir, name)] }

/-- `save_file`, :324-327. -/
def saveFile (uri : Str) (s : St K) : St K := { s with saved := s.saved ++ [(c!"flows", Refs.lastSegment uri)] }

/-- The fields of openLCA, :119-124 and 133-138. -/
def scaleAttr (nunit : Str) (r : K) (x : Exch K) : Py (Exch K) :=
  if amountGiven x then
    match aget nunit Units.olcaUnitToFp with
    | none => .error .keyError
    | some info => .ok { x with amount := some (.num r), unitId := some info.2.1, propertyId := some info.1 }
  else .ok x

/-- :125-126 and 139-140. -/
def scaleUnc (flt : Str → Py K) (r factor : K) (x : Exch K) : Py (Exch K) :=
  if given x.unc.typ then do
    let u ← getUnc flt x.unc r factor
    .ok { x with unc := u }
  else .ok x

/-- :127-128 and 141-142. -/
def scaleVar (flt : Str → Py K) (s : St K) (unit nunit : Str) (amount factor : K) (x : Exch K) : Py (Exch K × St K) :=
  match x.var with
  | some (c :: n) => do
    let (name, vars) ← getVar flt s.vars (c :: n) unit nunit factor amount
    .ok ({ x with var := some name }, { s with vars := vars })
  | _ => .ok (x, s)

/-- The two cases in which the amount is multiplied, :117-128 and 129-142. -/
def scaled (env : Env K) (s : St K) (x : Exch K) (unit nunit : Str) (amount factor : K) : Py (Exch K × St K) := do
  let r := amount * factor
  let x ← scaleAttr nunit r { x with resulting := some (.num r) }
  let x ← scaleUnc env.flt r factor x
  scaleVar env.flt s unit nunit amount factor x

/-- Where the variable only gets its name, :114-116 and 159-165. -/
def kept (s : St K) (x : Exch K) (amount : K) : Py (Exch K × St K) :=
  let x := { x with resulting := some (.num amount) }
  match x.var with
  | some (c :: n) => do
    let (name, vars) ← keepVar s.vars (c :: n)
    .ok ({ x with var := some name }, { s with vars := vars })
  | _ => .ok (x, s)

/-- The reference to the target, :86-89. -/
def retarget (n : Row) (x : Exch K) : Py (Exch K) :=
  match x.short with
  | .absent => .error .keyError
  | .one _ => .ok { x with
      ref := ⟨n.target, some (c!"../flows/" ++ n.target ++ c!".xml"), none⟩, short := .one n.name }
  | _ => .error .typeError

/-- The factor of a row, :91. -/
def rowFactor (flt : Str → Py K) (n : Row) : Py K :=
  if n.factor = [] ∨ n.factor = c!"n/a" then .ok 1 else flt n.factor

/-- The flow property and the unit group of the target, :98-101. -/
def saveUnit (env : Env K) (n : Row) (s : St K) : Py (St K) :=
  match aget n.targetUnit Units.ilcdUnitToFp with
  | none => .error .keyError
  | some info => do
    let s ← saveOriginal env c!"flowproperties" c!"flow property" (info.1 ++ c!".xml") s
    saveOriginal env c!"unitgroups" c!"unit group" (info.2.1 ++ c!".xml") s

/-- The comparison of the units, :113-149; `x0` is the exchange of the document. -/
def byUnit (env : Env K) (s : St K) (x0 x : Exch K) (n : Row) (u : Units K) (amount : K) (unit : Str) (cf : K) :
    Py (Exch K × St K × Option Report) :=
  if n.targetUnit = unit then do
    let (y, s) ← kept s x amount
    .ok (y, s, none)
  else if n.sourceUnit = unit then do
    let (y, s) ← scaled env s x unit n.targetUnit amount cf
    .ok (y, s, none)
  else
    match aget n.sourceUnit u.sec with
    | some v => do
      let (y, s) ← scaled env s x unit n.targetUnit amount (cf * v)
      .ok (y, s, none)
    | none => do
      let uri ← getUri s.arch c!"flows/" x0.ref
      .ok (x, saveFile uri s, some .noUnit)

/-- A flow of the table, :81-149. -/
def matched (env : Env K) (s : St K) (x0 : Exch K) (n : Row) (u : Units K) (amount : K) (unit : Str) :
    Py (Exch K × St K × Option Report) := do
  let s ← saveOriginal env c!"flows" c!"elementary flow" (n.target ++ c!".xml") s
  let x ← retarget n x0
  let cf ← rowFactor env.flt n
  let s ← saveUnit env n s
  byUnit env s x0 x n u amount unit cf

/-- The unit by which the flow property is looked up, :167-168. -/
def lookupUnit (u : Str) : Str :=
  if u ≠ c!"EUR" ∧ isInfix c!"Item" u = false then u.map Char.toLower else u

/-- The first flow property of the file of the flow is replaced if it is another one, :182-193. -/
def redirect (env : Env K) (info : Str × Str × Str) (uri : Str) (s : St K) : Py (St K) :=
  match s.arch uri with
  | some (.flow pre main props (some i)) =>
    if i = info.1 then .ok s
    else
      let first := match props with
        | p :: l => { p with ref := ⟨info.1, some (c!"../flowproperties/" ++ info.1 ++ c!".xml"), p.ref.version⟩ } :: l
        | [] => []
      .ok { s with arch := fun p =>
        if p = uri then some (.flow pre main first (some info.1))
        else if p = c!"flowproperties/" ++ info.1 ++ c!".xml" then env.original c!"flow property" (info.1 ++ c!".xml")
        else if p = c!"unitgroups/" ++ info.2.1 ++ c!".xml" then env.original c!"unit group" (info.2.1 ++ c!".xml")
        else s.arch p }
  | _ => .error .indexError

/-- A flow that is not in the table, :155-199. -/
def unmapped (env : Env K) (s : St K) (x0 : Exch K) (amount : K) (mainUnit : Str) : Py (Exch K × St K) := do
  let (x, s) ← kept s x0 amount
  match aget (lookupUnit mainUnit) Units.olcaUnitToFp with
  | none => .error .keyError
  | some info => do
    let s ← saveOriginal env c!"flowproperties" c!"flow property" (info.1 ++ c!".xml") s
    let s ← saveOriginal env c!"unitgroups" c!"unit group" (info.2.1 ++ c!".xml") s
    let uri ← getUri s.arch c!"flows/" x0.ref
    let s ← redirect env info uri s
    .ok (if amountGiven x0 then
        { x with amount := some (.num amount), unitId := some info.2.1, propertyId := some info.1 }
      else x, saveFile uri s)

/-- `__init__`, :62-201. -/
def convert (env : Env K) (s : St K) (x : Exch K) : Py (Exch K × St K × Option Report) := do
  let uri ← getUri s.arch c!"flows/" x.ref
  let u ← getUnit env.flt s.arch uri x.unitId
  let (amount, unit, mainUnit) ← amountOf env.flt x u
  match aget x.ref.id env.table with
  | some n =>
    if n.mapType = c!"NO_MATCH_MAPPING" ∨ n.mapType = c!"NO MATCH" then do
      let uri ← getUri s.arch c!"flows/" x.ref
      .ok (x, saveFile uri s, some .noMatch)
    else matched env s x n u amount unit
  | none => do
    let (y, s) ← unmapped env s x amount mainUnit
    .ok (y, s, none)

/-- The exchanges of a data set in their order. -/
def convertAll (env : Env K) : St K → List (Exch K) → Py (List (Exch K × Option Report) × St K)
  | s, [] => .ok ([], s)
  | s, x :: l => do
    let (y, s, r) ← convert env s x
    let (ys, s) ← convertAll env s l
    .ok ((y, r) :: ys, s)

end

end Verif.IlcdList
