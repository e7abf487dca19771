/-
What is said about the exchanges of an ILCD data set that moves to another list of elementary flows.
-/
import Verif.Model.IlcdList
import Mathlib.Data.List.Forall2

namespace Verif.IlcdList.Spec

section
variable {K : Type} [Field K]

/-- The address of a reference within the archive. -/
def clean (u : Str) : Str := IlcdVars.replaceAll c!"../" [] u

/-- The file of a reference: that of its address, otherwise that of its identifier, otherwise that of its identifier and
version. -/
def Leads (a : Archive) (dir : Str) (r : FRef) (p : Str) : Prop :=
  (∃ f, a p = some f) ∧
  ((∃ u, r.uri = some u ∧ u ≠ [] ∧ p = clean u) ∨
    ((∀ u, r.uri = some u → u ≠ [] → a (clean u) = none) ∧
      (p = dir ++ r.id ++ c!".xml" ∨
        (a (dir ++ r.id ++ c!".xml") = none ∧ p = dir ++ r.id ++ c!"_" ++ r.version.getD [] ++ c!".xml"))))

/-- A flow property leads to a unit group of two or more units, one of which is the reference unit; `name` is its name,
`v` the value of the flow property, and `ol` are the units with the identifier that is looked for. -/
def Well (flt : Str → Py K) (a : Archive) (olca : Option Str) (p : FlowProp) (name : Str) (v : K) (ol : List (Str × K)) :
    Prop :=
  ∃ pp gp pre g us ref, Leads a c!"flowproperties/" p.ref pp ∧ a pp = some (.property pre g) ∧
    Leads a c!"unitgroups/" g gp ∧ a gp = some (.group true ref us) ∧ 2 ≤ us.length ∧ flt p.mean = .ok v ∧
    (∃ l u r, us = l ++ u :: r ∧ u.internalId = ref ∧ u.name = name ∧ ∀ w ∈ l ++ r, w.internalId ≠ ref) ∧
    (given olca = false → ol = []) ∧
    (given olca = true → (∀ u ∈ us, u.olcaId ≠ none) ∧
      List.Forall₂ (fun u x => x.1 = u.name ∧ flt u.mean = .ok x.2) (us.filter fun u => u.olcaId = olca) ol)

/-- What is read for an exchange: the units of its flow, the amount, its unit, and the unit of the flow. -/
def Read (env : Env K) (s : St K) (x : Exch K) (u : Units K) (a : K) (unit main : Str) : Prop :=
  ∃ path, Leads s.arch c!"flows/" x.ref path ∧ getUnit env.flt s.arch path x.unitId = .ok u ∧
    amountOf env.flt x u = .ok (a, unit, main)

/-- The flow is in the table and has a counterpart. -/
def Mapped (env : Env K) (x : Exch K) (n : Row) : Prop :=
  aget x.ref.id env.table = some n ∧ n.mapType ≠ c!"NO_MATCH_MAPPING" ∧ n.mapType ≠ c!"NO MATCH"

/-- The flow is in the table and has none. -/
def NoMatch (env : Env K) (x : Exch K) : Prop :=
  ∃ n, aget x.ref.id env.table = some n ∧ (n.mapType = c!"NO_MATCH_MAPPING" ∨ n.mapType = c!"NO MATCH")

/-- The factor of a row of the table. -/
def Factor (flt : Str → Py K) (n : Row) (cf : K) : Prop :=
  ((n.factor = [] ∨ n.factor = c!"n/a") ∧ cf = 1) ∨ ((n.factor ≠ [] ∧ n.factor ≠ c!"n/a") ∧ flt n.factor = .ok cf)

/-- The first of the other units of a flow that has a name. -/
def FirstSec (u : Units K) (name : Str) (v : K) : Prop :=
  ∃ l r, u.sec = l ++ (name, v) :: r ∧ ∀ w ∈ l, w.1 ≠ name

/-- What an amount in a unit is to be multiplied by. -/
def Rate (flt : Str → Py K) (u : Units K) (n : Row) (unit : Str) (f : K) : Prop :=
  ∃ cf, Factor flt n cf ∧
    ((n.sourceUnit = unit ∧ f = cf) ∨ (n.sourceUnit ≠ unit ∧ ∃ v, FirstSec u n.sourceUnit v ∧ f = cf * v))

/-- The value of a field. -/
def Value (flt : Str → Py K) (o : Option (Num K)) (v : K) : Prop := ∃ n, o = some n ∧ n.float flt = .ok v

/-- One field is a multiple of another. -/
def Times (flt : Str → Py K) (f : K) (o o' : Option (Num K)) : Prop := ∀ v, Value flt o v → Value flt o' (v * f)

/-- An uncertainty is multiplied: the bounds are, the deviation is or is a relative one. -/
def UncTimes (flt : Str → Py K) (f : K) (x y : Unc K) : Prop :=
  y.typ = x.typ ∧ Times flt f x.lo y.lo ∧ Times flt f x.hi y.hi ∧ (Times flt f x.rsd y.rsd ∨ y.rsd = x.rsd)

/-- A name that a formula can refer to. -/
def Identifier (n : Str) : Prop := ∀ c ∈ n, c.isAlphanum = true ∨ c = '_'

end

end Verif.IlcdList.Spec
