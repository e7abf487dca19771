/-
What is expected of the exchanges of a converted data set, in terms of the exchanges of the source.
-/
import Verif.Model.EcsFlows
import Mathlib.Algebra.BigOperators.Group.List.Basic

namespace Verif.EcsFlows.Spec
open Uncertainty

/-- The table of elementary flows has a counterpart for the flow. -/
def Mapped (table : List (Str × Row)) (fid : Str) (r : Row) : Prop :=
  aget fid table = some r ∧ r.mapType ≠ c!"NO_MATCH_MAPPING" ∧ r.mapType ≠ c!"NO MATCH"

/-- The exchange has a counterpart in ILCD: it is a product, or its flow is in the table. -/
def Convertible (table : List (Str × Row)) (x : Exch) : Prop :=
  x.isElem = false ∨ ∃ r, Mapped table x.fid r

/-- The exchange is a reference product: it has no input group and the output group 0. -/
def IsReference (x : Exch) : Prop :=
  (x.inputGroup = none ∨ x.inputGroup = some []) ∧ x.outputGroup = some c!"0"

/-- The total of the elementary exchanges of one flow in one direction. -/
noncomputable def total (flows : List Flow) (target : Str) (dir : Dir) : ℝ :=
  ((flows.filter fun f => decide (f.ftype = some .elementary ∧ f.target = target ∧ f.dir = dir)).map
    fun f => f.amount.m).sum

end Verif.EcsFlows.Spec
