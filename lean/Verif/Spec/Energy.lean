/-
The kind of calorific value, as the codes of EcoSpold2 and the files of the flow properties state it.
-/
import Verif.Model.RefUnitTables
import Verif.Model.Assoc

namespace Verif.Energy.Spec

open Verif.RefUnits

/-- Net or gross. -/
inductive Kind where
  | net
  | gross
  deriving DecidableEq

/-- The name of the flow property. -/
def Kind.name : Kind → Str
  | .net => c!"Net calorific value"
  | .gross => c!"Gross calorific value"

/-- What the activity states: gross is the code 2; net is also what is taken if nothing is stated. -/
def stated (code : Option Str) : Kind := if code = some c!"2" then .gross else .net

/-- The dimension of energy, in either order of its factors. -/
def IsEnergy (dim : Str) : Prop :=
  dim = c!"[length] ** 2 * [mass] / [time] ** 2" ∨ dim = c!"[mass] * [length] ** 2 / [time] ** 2"

/-- The flow property with the identifier `fp` is that of the kind, by its file. -/
def IsOf (fp : Str) (k : Kind) : Prop := ∃ f, aget fp fpFiles = some f ∧ f.name = k.name

end Verif.Energy.Spec
