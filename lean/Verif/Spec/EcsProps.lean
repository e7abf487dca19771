/-
What is expected of the flow properties of a flow of ILCD, in terms of the properties of the exchange of EcoSpold2.
-/
import Mathlib.Algebra.Order.Group.Unbundled.Abs
import Verif.Model.EcsProps

namespace Verif.EcsProps.Spec
open Verif.Units

/-- What the value of a property relates to: a unit of the flow, a unit of dry mass, or a unit of the flow in a ratio
that the program multiplies with the amount of the exchange. -/
inductive Basis where
  | unit
  | dry
  | amount
  deriving DecidableEq

def Contains (w k : Str) : Prop := ∃ a b, k = a ++ w ++ b

/-- The properties per unit of the flow that are known by name. -/
def unitNames : List Str :=
  [c!"dry mass", c!"wet mass", c!"water in wet mass", c!"price", c!"true value relation", c!"lifetime"]

/-- The properties per dry mass that are known by name. -/
def dryNames : List Str := [c!"water content", c!"carbon content, fossil", c!"carbon content, non-fossil"]

section
variable {K : Type}

/-- The unit is a ratio of something and a unit of the dimension of the exchange. -/
def PerFlowUnit (env : Env K) (o : Str) : Prop :=
  ∃ num den, o.filter (fun c => c ≠ ' ') = num ++ '/' :: den ∧ '/' ∉ den ∧ env.check den = .ok true

/-- The unit is a ratio. -/
def Ratio (o : Str) : Prop := '/' ∈ o

/-- What a property with the name `k`, in the unit `o`, in ILCD `u`, relates to. -/
inductive BasisOf (env : Env K) (k o u : Str) : Basis → Prop
  | named (h : k ∈ unitNames) : BasisOf env k o u .unit
  | dryNamed (h : k ∈ dryNames) : BasisOf env k o u .dry
  | content (h : Contains c!"content" k) (hn : k ∉ dryNames) (hu : u = c!"kilogram" ∨ u = c!"megajoule") :
    BasisOf env k o u .unit
  | contentDry (h : Contains c!"content" k) (hn : k ∉ dryNames) (hu : u = c!"dimensionless") : BasisOf env k o u .dry
  | concentration (h : ¬ Contains c!"content" k) (hn : Contains c!"concentration, " k) (hu : PerFlowUnit env o) :
    BasisOf env k o u .amount
  | heating (h : ¬ Contains c!"content" k) (hn : ¬ (Contains c!"concentration, " k ∧ Ratio o))
    (hh : Contains c!"heating value, " k) (hu : o = c!"megajoule") : BasisOf env k o u .unit
  | lifetime (h : ¬ Contains c!"content" k) (hn : ¬ (Contains c!"concentration, " k ∧ Ratio o))
    (hh : Contains c!"lifetime capacity" k) : BasisOf env k o u .unit

/-- The property has a unit. -/
def HasUnit (x : EProp) : Prop := (∃ i, x.unitId = some i ∧ i ≠ []) ∧ x.units ≠ []

/-- The amount of a property in the unit of ILCD, and the texts of its units. -/
def Amount [Mul K] (env : Env K) (x : EProp) (a : K) (o u : Str) : Prop :=
  ∃ t f, env.flt x.amount = .ok t ∧ env.unit (x.units.headD c!"dimensionless") = .ok (o, u, f) ∧ a = t * f

/-- The property with the name is given with a unit. -/
def Known [Mul K] (env : Env K) (xs : List EProp) (k : Str) (a : K) : Prop :=
  ∃ x ∈ xs, x.name = k ∧ HasUnit x ∧ ∃ o u, Amount env x a o u

/-- The value written for the amount `a`: per unit of the flow in ILCD, of which `factor` make up one of EcoSpold2. -/
def ValueOf [Field K] [LinearOrder K] (env : Env K) (xs : List EProp) (a : K) : Basis → K → Prop
  | .unit, v => v = a / env.factor
  | .dry, v => ∃ d, Known env xs c!"dry mass" d ∧ v = a * d / env.factor
  | .amount, v => v = a * |env.amount|

/-- The flow property of a property of the source. -/
def FromSource [Field K] [LinearOrder K] (env : Env K) (xs : List EProp) (x : EProp) (fp name : Str) (v : K) : Prop :=
  ∃ e a o u b, HasUnit x ∧ aget x.id pintToIlcdFp = some e ∧ fp = e.fp ∧ name = e.name ∧ Amount env x a o u ∧
    BasisOf env x.name o u b ∧ ValueOf env xs a b v

/-- The water content that follows from the wet and the dry mass. -/
def FromMasses [Field K] (env : Env K) (xs : List EProp) (fp name : Str) (v : K) : Prop :=
  (∀ a, ¬ Known env xs c!"water content" a) ∧ fp = c!"7ec8d70e-4ffc-4024-86b7-6141cc0a2bf5" ∧ name = c!"water content" ∧
    ∃ w d, Known env xs c!"wet mass" w ∧ Known env xs c!"dry mass" d ∧ v = (w - d) / env.factor

end

end Verif.EcsProps.Spec
