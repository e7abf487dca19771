/-
The properties of a flow of ILCD on their way to EcoSpold2.
Models src/Lavoisier/conversions/ILCD1_to_ECS2_conversion.py:419-423 (allocation), 425-611 (`Property`, `get_properties`,
`get_master_data_properties`) and 749-758 (the properties of an exchange).

Simplifications: a flow property in the file of a flow is a record of the texts the code reads. `float`, the check of a
unit by the unit library and the hash are functions of an environment. Uncertainties and comments are left out. The
unit of the exchange is the text that the unit library prints for it (`str(flow.amount.u)`).
-/
import Mathlib.Algebra.Field.Defs
import Verif.Model.UnitTables

namespace Verif.IlcdProps
open Units

/-- A `flowProperty` of the file of a flow: `names` are the texts of its short description. -/
structure FileProp where
  internalId : Str
  names : List Str
  id : Str
  value : Str
  deriving DecidableEq

/-- The property in the data set of EcoSpold2. -/
structure Written (K : Type) where
  propId : Option Str
  name : Option Str
  unitName : Str
  unitId : Str
  amount : Option K
  deriving DecidableEq

/-- A property being converted; `fp` is the entry of the table, which properties made by the program lack. -/
structure Pr (K : Type) where
  id : Str
  name : Str
  fp : Option Ecs
  m : K
  field : Written K
  deriving DecidableEq

/-- The marks of `_energy`, :470-473. -/
inductive Energy where
  | net
  | gross
  deriving DecidableEq

/-- A row of the properties of the master data, :439-450. -/
structure MasterRow where
  name : Str
  amount : Str
  unitName : Str
  deriving DecidableEq

/-- What surrounds the conversion. -/
structure Env (K : Type) where
  flt : Str → Py K
  unit : Str → Py Unit
  hash : Str → Str

section
variable {K : Type} [Field K] [DecidableEq K]

/-- `x['referenceToFlowPropertyDataSet']['shortDescription']['#text']`, :457, 599: a list of texts has no text. -/
def shortName (x : FileProp) : Py Str :=
  match x.names with
  | [] => .error .keyError
  | [n] => .ok n
  | _ => .error .typeError

/-- The mark of a heating value, :470-473. -/
def energyOf (fp : Ecs) : List Energy :=
  if fp.name = c!"heating value, gross" then [.gross]
  else if fp.name = c!"heating value, net" then [.net]
  else []

/-- `normal_init`, :454-482; `none` stands for a property that is not convertible. -/
def normalInit (env : Env K) (x : FileProp) : Py (Option (Pr K) × List Energy) := do
  let n ← shortName x
  match aget x.id ilcdToEcsFp with
  | none => .ok (none, [])
  | some fp => do
    let a ← env.flt x.value
    let _ ← env.unit fp.unitName
    .ok (some ⟨x.id, n, some fp, a, ⟨none, none, fp.unitName, fp.unitId, none⟩⟩, energyOf fp)

/-- `get_properties`, :595-606: the properties by their names, without the reference property. -/
def readProps (env : Env K) (reference : Str) :
    List (Str × Option (Pr K)) × List Energy → List FileProp → Py (List (Str × Option (Pr K)) × List Energy)
  | s, [] => .ok s
  | s, x :: l =>
    if x.internalId = reference then readProps env reference s l
    else do
      let n ← shortName x
      let (p, e) ← normalInit env x
      readProps env reference (aset n p s.1, s.2 ++ e) l

/-- `{k: v for k, v in self.properties.items() if v.isConvertible}`, :750-751. -/
def convertible (d : List (Str × Option (Pr K))) : List (Str × Pr K) := d.filterMap fun e => e.2.map fun p => (e.1, p)

/-- The identifier of the unit of a row of the master data, :446: the first unit with the name. -/
def unitIdOf (n : Str) : List (Str × (Str × Str)) → Py Str
  | [] => .error .indexError
  | (_, (i, m)) :: l => if m = n then .ok i else unitIdOf n l

/-- `master_data`, :436-451. -/
def masterInit (env : Env K) (id : Str) (r : MasterRow) : Py (Pr K) := do
  let a ← env.flt (r.amount.map fun c => if c = ',' then '.' else c)
  let _ ← env.unit r.unitName
  let i ← unitIdOf r.unitName ilcdToEcsUnit
  .ok ⟨id, r.name, none, a, ⟨none, none, r.unitName, i, none⟩⟩

/-- `get_master_data_properties`, :609-611. -/
def readMaster (env : Env K) : List (Str × Pr K) → List (Str × MasterRow) → Py (List (Str × Pr K))
  | d, [] => .ok d
  | d, (i, r) :: l => (masterInit env i r).bind fun p => readMaster env (aset r.name p d) l

/-- The identifiers of :551-556. -/
def wetId : Str := c!"67f102e2-9cb6-4d20-aa16-bf74d8a03326"
/-- See `wetId`. -/
def dryId : Str := c!"3a0af1d6-04c3-41c6-a3da-92c4f61e0eaa"
/-- See `wetId`. -/
def waterId : Str := c!"6d9e1462-80e3-4f10-b3f4-71febd6f1168"

/-- `mass_prop_init`, :520-536. -/
def massProp (a : K) (name id : Str) : Pr K :=
  ⟨[], [], none, a, ⟨some id, some name, c!"kg", c!"487df68b-4994-4027-8fdc-a4dc298257b7", none⟩⟩

/-- The masses that follow from the water content, :546-556. -/
def addMasses (unit : Str) (props : List (Str × Pr K)) : List (Str × Pr K) :=
  match aget c!"water content" props with
  | none => props
  | some w =>
    if unit = c!"m**3" then props
    else aset c!"water in wet mass" (massProp w.m c!"water in wet mass" waterId)
      (aset c!"dry mass" (massProp (1 - w.m) c!"dry mass" dryId)
        (aset c!"wet mass" (massProp 1 c!"wet mass" wetId) props))

/-- The identifier of the property is set already (`prop.field.get('propertyId')`). -/
def placed (p : Pr K) : Bool :=
  match p.field.propId with
  | none => false
  | some i => !i.isEmpty

/-- The value of a content relative to the dry mass, :575-581. -/
def perDry (dry : Option K) (a : K) : K :=
  match dry with
  | none => a / 1
  | some d => if d = 0 then 0 else a / d

/-- A content, :559-584. -/
def contentProp (unit : Str) (dry : Option K) (p : Pr K) : Py (Pr K) :=
  match p.fp with
  | none => .error .attributeError
  | some fp =>
    match decide (unit = c!"kg"), fp.mass with
    | true, some v =>
      .ok { p with field := { p.field with unitName := c!"kg/kg", unitId := c!"83ecd334-1b5b-4784-8938-6a0d0a9d8954",
                                           propId := some v.1, name := some v.2 } }
    | _, _ =>
      match decide (unit = c!"m**3"), fp.volume with
      | true, some v =>
        .ok { p with field := { p.field with unitName := c!"kg/m3", unitId := c!"cacb6d36-694d-4e4f-9e79-6c9c73146839",
                                             propId := some v.1, name := some v.2 } }
      | _, _ => .ok { p with m := perDry dry p.m, field := { p.field with propId := some fp.id, name := some fp.name } }

/-- The loop body, :558-591. -/
def placeProp (unit : Str) (dry : Option K) (k : Str) (p : Pr K) : Py (Pr K) := do
  let q ←
    if placed p then .ok p
    else if isInfix c!" content" k then contentProp unit dry p
    else
      match p.fp with
      | none => .error .attributeError
      | some fp => .ok { p with field := { p.field with propId := some fp.id, name := some fp.name } }
  .ok { q with field := { q.field with amount := some q.m } }

/-- `convert_properties` without master data, :546-593. -/
def convertProps (unit : Str) (props : List (Str × Pr K)) : Py (List (Written K)) :=
  let all := addMasses unit props
  let dry := (aget c!"dry mass" all).map (·.m)
  all.mapM fun e => (placeProp unit dry e.1 e.2).map (·.field)

/-- `convert_properties` with master data, :540-544: the identifier and the name the property came with. -/
def convertMaster (props : List (Str × Pr K)) : List (Written K) :=
  props.map fun e => { e.2.field with propId := some e.2.id, name := some e.2.name, amount := some e.2.m }

/-- The allocations of an exchange: the element `allocation` may be missing, occur once or several times. Each has a
co-product and a fraction. -/
inductive Allocs where
  | absent
  | one (ref fraction : Str)
  | many (l : List (Str × Str))

/-- The loop of :421-423 over a list. -/
def readAllocs (env : Env K) (refs : List (Str × Str)) : List (Str × K) → List (Str × Str) → Py (List (Str × K))
  | d, [] => .ok d
  | d, (r, t) :: l =>
    match aget r refs with
    | none => .error .keyError
    | some n => (env.flt t).bind fun a => readAllocs env refs (aset (c!"allocation for " ++ n) a d) l

/-- `alloc_properties`, :419-423: a single element is a dictionary, whose keys are texts. -/
def allocations (env : Env K) (refs : List (Str × Str)) : Allocs → Py (List (Str × K))
  | .absent => .ok []
  | .one _ _ => .error .typeError
  | .many l => readAllocs env refs [] l

/-- `allocation_init`, :485-517. -/
def allocProp (env : Env K) (e : Str × K) : Written K :=
  ⟨some (env.hash e.1), some e.1, c!"dimensionless", c!"577e242a-461f-44a7-922c-d8e1c3d2bf45", some e.2⟩

/-- The properties of an exchange, :749-758, for an exchange that takes its properties from the file of its flow; `md` is
the option to use master data. -/
def exchangeProps (env : Env K) (md : Bool) (unit reference : Str) (refs : List (Str × Str)) (allocs : Allocs)
    (file : List FileProp) : Py (List (Written K) × List Energy) := do
  let al ← allocations env refs allocs
  let (d, e) ← readProps env reference ([], []) file
  let ps ← if md then .ok (convertMaster (convertible d)) else convertProps unit (convertible d)
  .ok (ps ++ al.map (allocProp env), e)

/-- The properties of an elementary exchange with the option to use master data, :669-670 and 749-758. -/
def masterProps (env : Env K) (refs : List (Str × Str)) (allocs : Allocs) (rows : List (Str × MasterRow)) :
    Py (List (Written K)) := do
  let al ← allocations env refs allocs
  let d ← readMaster env [] rows
  .ok (convertMaster d ++ al.map (allocProp env))

end

end Verif.IlcdProps
