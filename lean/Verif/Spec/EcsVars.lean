/-
What is expected of the variables and formulas of an EcoSpold2 data set, and how formulas with references and
conversions of units are written.
-/
import Verif.Model.EcsVars

namespace Verif.EcsVars.Spec

/-- A text with marked pieces: before each piece a text, and a text at the end. `mark` says how a piece is
written. -/
def rend (mark : Str → Str) : List (Str × Str) → Str → Str
  | [], last => last
  | (t, e) :: l, last => t ++ (mark e ++ rend mark l last)

/-- How a reference is written in a formula. -/
def refMark (e : Str) : Str := c!"Ref('" ++ e ++ c!"')"

/-- A reference that does not end early, has no line break, and in which no other reference can begin. -/
structure PlainRef (e : Str) : Prop where
  close : ¬ c!"')" <:+: e
  line : '\n' ∉ e
  start : 'R' ∉ e

/-- What a reference stands for: the amount of an exchange, or its production volume. -/
inductive RefValue {K : Type} (env : Env K) : Str → Str → Prop
  | amount {i : Str} {v : K} {p : Option K} : '\'' ∉ i → env.flow i = some (v, p) → RefValue env i (env.str v)
  | volume {i sep : Str} {v p : K} : '\'' ∉ i → '\'' ∉ sep → env.flow i = some (v, some p) →
      RefValue env (i ++ c!"'" ++ sep ++ c!"'ProductionVolume") (env.str p)

/-- How a conversion of units is written in a formula. -/
def unitMark (e : Str) : Str := c!"UnitConversion" ++ (c!"(" ++ e ++ c!")")

/-- The arguments of a conversion of units. -/
structure UnitCall where
  arg : Str
  src : Str
  dst : Str

/-- The arguments as they are written. -/
def UnitCall.text (c : UnitCall) : Str := c.arg ++ (c!", '" ++ (c.src ++ (c!"', '" ++ (c.dst ++ c!"'"))))

/-- Arguments without quotes, parentheses and commas followed by a space. -/
structure PlainCall (c : UnitCall) : Prop where
  quotes : '\'' ∉ c.arg ∧ '\'' ∉ c.src ∧ '\'' ∉ c.dst
  commas : ¬ c!", " <:+: c.arg ∧ ¬ c!", " <:+: c.src ∧ ¬ c!", " <:+: c.dst
  opening : '(' ∉ c.text
  closing : ')' ∉ c.text
  start : ¬ c!"UnitConversion" <:+: c.text

variable {K : Type}

/-- What stands in a product for an argument: a number (with a comma or a point) as it is shown, anything else in
parentheses. -/
inductive Factor (env : Env K) (x : Str) : Str → Prop
  | number {t : Str} : env.flt ((x.map fun c => if c = ',' then '.' else c).filter fun c => c ≠ '_') = some t →
      Factor env x t
  | formula : env.flt ((x.map fun c => if c = ',' then '.' else c).filter fun c => c ≠ '_') = none →
      Factor env x (c!"(" ++ x ++ c!")")

/-- An exchange whose amount changes its unit. -/
def Converted [One K] (q : Quantity K) : Prop := q.factor ≠ 1 ∧ q.kind = c!"flow"

/-- The value that goes with the variable an amount refers to: in the new unit for an exchange that is
converted, else as in the source. -/
def Refers [Mul K] [One K] (q : Quantity K) (v : K) : Prop :=
  (Converted q → v = q.value * q.factor) ∧ (¬ Converted q → v = q.value)

/-- An assignment of values to names with which all amounts agree under the names they are given. -/
structure Agree [Mul K] [One K] (val : Str → K) (env : Env K) (rs : List (Quantity K × Option Str)) : Prop where
  units : ∀ a b ua ub f, env.conv a b = .ok (ua, ub, f) → val (convStr ua ub) = f
  refs : ∀ q n, (q, some n) ∈ rs → Refers q (val n)
  names : ∀ q r n, (q, r) ∈ rs → q.name = some n → val n = q.value
  factors : ∀ q r, (q, r) ∈ rs → Converted q → val (convStr q.unitFrom q.unitTo) = q.factor

end Verif.EcsVars.Spec
