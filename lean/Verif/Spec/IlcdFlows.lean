/-
What is expected of the exchanges of an EcoSpold2 data set, in terms of the exchanges of the ILCD data set.
-/
import Verif.Model.IlcdFlows
import Mathlib.Algebra.BigOperators.Group.List.Basic

namespace Verif.IlcdFlows.Spec

section
variable {K D : Type}

/-- The table of elementary flows has a counterpart for the flow. -/
def Mapped (env : Env K D) (fid : Str) (r : Row) : Prop :=
  env.row fid = some r ∧ strip r.mapType ≠ c!"NO_MATCH_MAPPING" ∧ strip r.mapType ≠ c!"NO MATCH" ∧
    strip r.mapType ≠ c!"NO_FLOW_MATCH_MANUAL" ∧ strip r.mapType ≠ c!"NO_MAPPING"

/-- The flow of the exchange has a data set of the type `Elementary flow`. -/
def IsElementary (env : Env K D) (x : Exch K) (f : FlowFile) : Prop :=
  env.file x.fid x.version x.uri = some f ∧ f.typ = some c!"Elementary flow"

/-- The flow of the exchange has a data set of another type. -/
def IsProduct (env : Env K D) (x : Exch K) (f : FlowFile) : Prop :=
  env.file x.fid x.version x.uri = some f ∧ f.typ ≠ some c!"Elementary flow"

/-- The unit of a product is that of its reference flow property. -/
def HasUnit (env : Env K D) (f : FlowFile) (i n : Str) : Prop :=
  ∃ p, f.refProperty = some p ∧ aget p env.units = some (i, n)

/-- The exchange is to be written: it is an elementary exchange with a counterpart, or a product with a unit. -/
def ToWrite (env : Env K D) (x : Exch K) : Prop :=
  (∃ f r, IsElementary env x f ∧ Mapped env x.fid r) ∨ (∃ f i n, IsProduct env x f ∧ HasUnit env f i n)

/-- The exchange is to be reported to the user: its flow has no data set, or is elementary without counterpart. -/
def ToReport (env : Env K D) (x : Exch K) : Prop :=
  env.file x.fid x.version x.uri = none ∨ ∃ f, IsElementary env x f ∧ ∀ r, ¬ Mapped env x.fid r

/-- The exchange is a product without a unit. -/
def Unitless (env : Env K D) (x : Exch K) : Prop :=
  ∃ f, IsProduct env x f ∧ ∀ i n, ¬ HasUnit env f i n

/-- The value of an exchange: `resultingAmount`, or `meanAmount` without it. -/
def Value (env : Env K D) (x : Exch K) (a : K) : Prop :=
  ∃ t, (x.resulting = some t ∨ (x.resulting = none ∧ x.mean = some t)) ∧ env.flt t = .ok a

/-- The factor of a row. -/
def Factor [One K] (env : Env K D) (r : Row) (c : K) : Prop :=
  ((r.factor = [] ∨ r.factor = c!"n/a") ∧ c = 1) ∨ (r.factor ≠ [] ∧ r.factor ≠ c!"n/a" ∧ env.flt r.factor = .ok c)

/-- The flow is an elementary exchange, converted as the table says: the target, its name and unit, and the value
and the uncertainty multiplied with the factor. The identifier of the unit is that of a unit of the same dimension. -/
def AsElementary [Field K] (env : Env K D) (fl : Flow K) : Prop :=
  ∃ f r a cf d c c' p n, IsElementary env fl.src f ∧ Mapped env fl.src.fid r ∧ Value env fl.src a ∧ Factor env r cf ∧
    fl.elem = true ∧ fl.typ = c!"Elementary flow" ∧ fl.unit = r.unit ∧ fl.field.target = r.target ∧
    fl.field.name = r.name ∧ fl.field.unitName = r.unit ∧ fl.m = a * cf ∧
    fl.field.unc = (fl.src.unc.map fun u => u.write (a * cf) cf) ∧
    env.unit r.unit = .ok (d, c) ∧ (p, (fl.field.unitId, n)) ∈ env.units ∧ env.unit (underscore n) = .ok (d, c')

/-- The flow is a product, with the value of the source and the unit of its reference flow property. -/
def AsProduct [Field K] (env : Env K D) (fl : Flow K) : Prop :=
  ∃ f a i n, IsProduct env fl.src f ∧ HasUnit env f i n ∧ Value env fl.src a ∧ fl.elem = false ∧
    f.typ = some fl.typ ∧ env.convId fl.src.fid = .ok fl.field.target ∧ fl.field.unitName = n ∧
    fl.field.unitId = i ∧ fl.m = a ∧ fl.field.unc = (fl.src.unc.map fun u => u.write a 1) ∧
    f.names.head? = some fl.field.name

/-- A pair of groups EcoSpold2 accepts: one of the two, with a code of the kind of exchange. -/
def ValidGroups (elem : Bool) (w : Written K) : Prop :=
  (∃ n, w.inputGroup = some n ∧ w.outputGroup = none ∧ (if elem then n = 4 else n ∈ [1, 2, 3, 5])) ∨
  (∃ n, w.inputGroup = none ∧ w.outputGroup = some n ∧ (if elem then n = 4 else n ∈ [0, 2, 3, 5]))

/-- The total of the exchanges with one target and one direction, in the base unit. -/
def total [AddCommMonoid K] [Mul K] (scale : Str → K) (flows : List (Flow K)) (t d : Str) : K :=
  ((flows.filter fun f => f.elem && decide (f.field.target = t ∧ f.src.dir = d)).map
    fun f => f.field.amount * scale f.unit).sum

end

end Verif.IlcdFlows.Spec
