import Verif.Spec.UncText
import Verif.Model.Params

/-! What should come back of the unit and the comments of a parameter, and how units are shown. -/

namespace Verif.Params.Spec
open UncText.Spec (Visible)

/-- The text has an opening and, later on the same line, a closing bracket. -/
def Bracketed (t : Str) : Prop := ∃ a b c, t = a ++ '[' :: (b ++ ']' :: c) ∧ '\n' ∉ b

/-- The unit of a parameter with these names of a unit: the first; without a name it has no dimension. -/
inductive UnitOf : List Str → Str → Prop
  | none : UnitOf [] c!"dimensionless"
  | first (s : Str) (l : List Str) : UnitOf (s :: l) s

/-- The comments of a language that are not blank. -/
def inLang (cs : List (Str × Str)) (L : Str) : List Str :=
  (cs.filter fun c => decide (c.1 = L) && decide (Visible c.2)).map (·.2)

/-- A power of a unit. -/
structure Factor where
  sym : Str
  exp : Nat
  deriving DecidableEq

/-- A unit: the factors above and below the fraction line. -/
structure UnitExpr where
  pos : List Factor
  neg : List Factor
  deriving DecidableEq

/-- How `pint` shows a power in its short format. -/
def Factor.shown (f : Factor) : Str := if f.exp = 1 then f.sym else f.sym ++ c!" ** " ++ natStr f.exp

/-- How `pint` shows a unit in its short format: `kg * m / s ** 2`, `1 / s`, nothing for a unit without dimension. -/
def UnitExpr.shown (u : UnitExpr) : Str :=
  if u.pos = [] ∧ u.neg = [] then []
  else join c!" / " ((if u.pos = [] then c!"1" else join c!" * " (u.pos.map Factor.shown)) :: u.neg.map Factor.shown)

/-- A symbol without digits, underscores and the characters of the formula. -/
def Factor.Plain (f : Factor) : Prop := f.sym ≠ [] ∧ ∀ c ∈ f.sym, c ∉ c!" /*._0123456789"

def UnitExpr.Plain (u : UnitExpr) : Prop := ∀ f ∈ u.pos ++ u.neg, f.Plain

instance (f : Factor) : Decidable f.Plain := by unfold Factor.Plain; infer_instance
instance (u : UnitExpr) : Decidable u.Plain := by unfold UnitExpr.Plain; infer_instance

end Verif.Params.Spec
