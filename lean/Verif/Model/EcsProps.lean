/-
The properties of an exchange of EcoSpold2 on their way to ILCD.
Models src/Lavoisier/conversions/ECS2_to_ILCD1_conversion.py:662-923 (`Property`) and 1034-1052 (`get_properties`).

Simplifications: a property is a record of the texts the code reads. `float` and the unit library are functions of an
environment: for the text of a unit, the text printed for it, the text printed for the unit of ILCD it is converted to,
and the factor; and the check whether a unit has the dimension of the exchange. Uncertainties, formulas, comments,
sources and what is reported in the list of data not converted are left out.
-/
import Mathlib.Algebra.Field.Defs
import Mathlib.Order.Defs.LinearOrder
import Verif.Model.UnitTables

namespace Verif.EcsProps
open Units

/-- A `property` of an exchange. -/
structure EProp where
  name : Str
  id : Str
  amount : Str
  units : List Str
  unitId : Option Str
  deriving DecidableEq

/-- A property being converted: the flow property of ILCD if there is one, `is_considered`, `dataSetInternalID`, the
amount, and the texts of its unit before and after the conversion to a unit of ILCD. -/
structure Pr (K : Type) where
  equiv : Option Ilcd
  considered : Bool
  num : Nat
  m : K
  o : Str
  u : Str
  deriving DecidableEq

/-- What surrounds the conversion: the amount of the exchange in the unit of ILCD (`flow.amount.a`) and its factor
(`flow.amount.f`). -/
structure Env (K : Type) where
  flt : Str → Py K
  unit : Str → Py (Str × Str × K)
  check : Str → Py Bool
  amount : K
  factor : K

section
variable {K : Type} [Field K] [LinearOrder K]

/-- `x.get('@unitId') and x.get('unitName')`, :720, 724. -/
def hasUnit (x : EProp) : Bool := (match x.unitId with | some (_ :: _) => true | _ => false) && !x.units.isEmpty

/-- `Property.__init__`, :674-756; `n` is the counter of internal identifiers. -/
def construct (env : Env K) (n : Nat) (x : EProp) : Py (Pr K × Nat) := do
  let a ← env.flt x.amount
  let (o, u, f) ← env.unit (x.units.headD c!"dimensionless")
  match aget x.id pintToIlcdFp with
  | none => .ok (⟨none, hasUnit x, 0, a * f, o, u⟩, n)
  | some e => if hasUnit x then .ok (⟨some e, true, n, a * f, o, u⟩, n + 1) else .ok (⟨none, false, 0, a * f, o, u⟩, n)

/-- `get_properties`, :1035-1046: the properties that are considered, by name. -/
def readProps (env : Env K) : List (Str × Pr K) × Nat → List EProp → Py (List (Str × Pr K) × Nat)
  | s, [] => .ok s
  | s, x :: l => do
    let (p, n) ← construct env s.2 x
    readProps env (if p.considered then aset x.name p s.1 else s.1, n) l

/-- The properties and the names that have been treated (`mnames`). -/
structure St (K : Type) where
  props : List (Str × Pr K)
  done : List Str

/-- `correction_for_flow_unit_conversion`, :778-785. -/
def divFactor (env : Env K) (k : Str) (p : Pr K) (s : St K) : Py (St K) :=
  if env.factor = 1 then .ok ⟨s.props, s.done ++ [k]⟩
  else if env.factor = 0 then .error .zeroDivisionError
  else .ok ⟨aset k { p with m := p.m / env.factor } s.props, s.done ++ [k]⟩

/-- `correction_for_dry_mass`, :787-800. -/
def mulDry (k : Str) (p : Pr K) (s : St K) : Py (St K) :=
  match aget c!"dry mass" s.props with
  | some d => .ok ⟨aset k { p with m := p.m * d.m } s.props, s.done ++ [k]⟩
  | none => .ok ⟨aset k { p with considered := false } s.props, s.done ++ [k]⟩

/-- `correction_for_flow_amount`, :802-812. -/
def mulAmount (env : Env K) (k : Str) (p : Pr K) (s : St K) : Py (St K) :=
  .ok ⟨aset k { p with m := p.m * (env.amount * (if env.amount ≥ 0 then 1 else -1)) } s.props, s.done ++ [k]⟩

/-- The names of :815. -/
def perFlow : List Str :=
  [c!"dry mass", c!"wet mass", c!"water in wet mass", c!"price", c!"true value relation", c!"lifetime"]

/-- The first loop, :815-817. -/
def firstLoop (env : Env K) : St K → List Str → Py (St K)
  | s, [] => .ok s
  | s, k :: l =>
    match aget k s.props with
    | none => firstLoop env s l
    | some p => (divFactor env k p s).bind fun s' => firstLoop env s' l

/-- The names of :820. -/
def perDryMass : List Str := [c!"water content", c!"carbon content, fossil", c!"carbon content, non-fossil"]

/-- The water content that follows from the masses, :823-831. The unit `kg` is the one of ILCD. -/
def estimated (w d : K) (n : Nat) : Py (Pr K) :=
  match aget c!"a9358458-9724-4f03-b622-106eda248916" pintToIlcdFp with
  | none => .error .keyError
  | some e => .ok ⟨some e, true, n, w - d, c!"kilogram", c!"kilogram"⟩

/-- The second loop, :820-831. -/
def secondLoop : St K × Nat → List Str → Py (St K × Nat)
  | s, [] => .ok s
  | (s, n), k :: l =>
    match aget k s.props with
    | some p => (mulDry k p s).bind fun s' => secondLoop (s', n) l
    | none =>
      match decide (k = c!"water content"), aget c!"dry mass" s.props, aget c!"wet mass" s.props with
      | true, some d, some w =>
        (estimated w.m d.m n).bind fun p => secondLoop (⟨aset k p s.props, s.done ++ [k]⟩, n + 1) l
      | _, _, _ => secondLoop (s, n) l

/-- `str(props[p].amount.o.u).replace(" ", "").split("/")`, :837. -/
def unitParts (o : Str) : List Str := splitOn '/' (o.filter fun c => c ≠ ' ')

/-- The property is not considered, :848, 861-863. -/
def drop (k : Str) (p : Pr K) (s : St K) : St K := ⟨aset k { p with considered := false } s.props, s.done⟩

/-- The general correction, :835-863. -/
def general (env : Env K) (k : Str) (p : Pr K) (s : St K) : Py (St K) :=
  if k ∈ s.done then .ok s
  else if isInfix c!"content" k then
    if p.u = c!"kilogram" ∨ p.u = c!"megajoule" then divFactor env k p s
    else if p.u = c!"dimensionless" then mulDry k p s
    else .ok (drop k p s)
  else if isInfix c!"concentration, " k ∧ 1 < (unitParts p.o).length then
    (env.check ((unitParts p.o).getLastD [])).bind fun b => if b then mulAmount env k p s else .ok (drop k p s)
  else if isInfix c!"heating value, " k ∧ p.o = c!"megajoule" then divFactor env k p s
  else if isInfix c!"lifetime capacity" k then divFactor env k p s
  else .ok (drop k p s)

/-- The third loop, :834-863, over the names at its beginning. -/
def thirdLoop (env : Env K) : St K → List Str → Py (St K)
  | s, [] => .ok s
  | s, k :: l =>
    match aget k s.props with
    | none => thirdLoop env s l
    | some p => (general env k p s).bind fun s' => thirdLoop env s' l

/-- `get_ilcd_equivalent`, :772-868. -/
def equivalent (env : Env K) (props : List (Str × Pr K)) (n : Nat) : Py (List (Str × Pr K)) := do
  let s1 ← firstLoop env ⟨props, []⟩ perFlow
  let (s2, _) ← secondLoop (s1, n) perDryMass
  let s3 ← thirdLoop env s2 (s2.props.map Prod.fst)
  .ok (if (aget c!"water content" s3.props).isSome then adel c!"water in wet mass" s3.props else s3.props)

/-- A flow property of the flow in ILCD. -/
structure Out (K : Type) where
  num : Nat
  fp : Str
  name : Str
  value : K
  deriving DecidableEq

/-- `remaining_properties`, :1049-1052, and `get_dict`, :914-922. -/
def outOf (p : Pr K) : Option (Out K) :=
  match p.considered, p.equiv with
  | true, some e => some ⟨p.num, e.fp, e.name, p.m⟩
  | _, _ => none

/-- The properties of an exchange, :1034-1052, 1189-1191. -/
def convert (env : Env K) (xs : List EProp) : Py (List (Out K)) := do
  let (d, n) ← readProps env ([], 1) xs
  let r ← equivalent env d n
  .ok (r.filterMap fun e => outOf e.2)

end

end Verif.EcsProps
