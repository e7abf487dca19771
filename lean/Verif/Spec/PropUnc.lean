/-
What is expected of the uncertainties of the properties of an exchange.
-/
import Verif.Model.PropUnc
import Verif.Props.Uncertainty
import Verif.Spec.EcsProps

namespace Verif.PropUnc.Spec
open Uncertainty
open EcsProps (Env)

/-- The property has the amount `a`, in a unit of which one makes up `c` of the unit of ILCD. -/
def Given (env : Env ℝ) (y : UProp) (a c : ℝ) : Prop :=
  env.flt y.x.amount = .ok a ∧ ∃ o u, env.unit (y.x.units.headD c!"dimensionless") = .ok (o, u, c)

/-- The unit of ILCD of the property. -/
def UnitIs (env : Env ℝ) (y : UProp) (u : Str) : Prop :=
  ∃ o c, env.unit (y.x.units.headD c!"dimensionless") = .ok (o, u, c)

/-- The property is given per dry mass: it is known by its name as such, or it is a content without a unit. -/
def PerDryMass (env : Env ℝ) (y : UProp) : Prop :=
  y.x.name ∈ EcsProps.Spec.dryNames ∨ EcsProps.Spec.Contains c!"content" y.x.name ∧ UnitIs env y c!"dimensionless"

/-- The dry mass of the exchange. -/
def IsDryMass (z : UProp) : Prop := z.x.name = c!"dry mass" ∧ EcsProps.Spec.HasUnit z.x

/-- What a user may expect of an exchange: the names of its properties are distinct, units are converted by positive
factors, the amount is not zero, the uncertainties describe distributions around the amounts, and the dry mass is
positive. -/
structure Sane (env : Env ℝ) (xs : List UProp) : Prop where
  names : (xs.map fun y => y.x.name).Nodup
  factor : 0 < env.factor
  amount : env.amount ≠ 0
  units : ∀ y ∈ xs, ∀ a c, Given env y a c → 0 < c
  uncs : ∀ y ∈ xs, ∀ a c d, Given env y a c → y.unc = some d → d = .other ∨ Valid a d
  dry : ∀ y ∈ xs, y.x.name = c!"dry mass" → ∀ a c, Given env y a c → 0 < a

/-- Both uncertainties are lognormal. -/
def BothLog (d e : Unc) : Prop := ∃ v w, d = .lognormal v ∧ e = .lognormal w

/-- ILCD has a word for the distribution. -/
def Known (d : Unc) : Prop := d ≠ .other

end Verif.PropUnc.Spec
