/-
The texts of units: products and quotients of powers of named units, as EcoSpold2 writes them and as `pint` reads them.
-/
import Mathlib.Algebra.Order.Field.Rat
import Verif.Py

namespace Verif.UnitNames.Spec

/-- A power of a named unit. -/
structure Factor where
  sym : Str
  exp : Nat
  deriving DecidableEq

/-- Multiplied by, or divided by. -/
inductive Op where
  | times
  | per
  deriving DecidableEq

/-- Powers that are multiplied by and divided by, one after the other. -/
structure Expr where
  first : Factor
  rest : List (Op × Factor)
  deriving DecidableEq

/-- The substances whose formulas occur in names of units. -/
def substances : List Str := [c!"NH3", c!"N2O", c!"NO3", c!"P2O5", c!"PO4"]

/-- A letter. -/
def Letter (c : Char) : Prop := ('a' ≤ c ∧ c ≤ 'z') ∨ ('A' ≤ c ∧ c ≤ 'Z')

/-- A name is made of letters, spaces, hyphens and underscores, and an exponent from 2 to 4 follows a letter. -/
structure Factor.Plain (f : Factor) : Prop where
  chars : ∀ c ∈ f.sym, Letter c ∨ c = '_' ∨ c = ' ' ∨ c = '-'
  exp : f.exp = 1 ∨ ((f.exp = 2 ∨ f.exp = 3 ∨ f.exp = 4) ∧ ∃ c, f.sym.getLast? = some c ∧ Letter c)

/-- All its powers are plain. -/
def Expr.Plain (e : Expr) : Prop := e.first.Plain ∧ ∀ p ∈ e.rest, p.2.Plain

/-- `m2`; an exponent 1 is left out. -/
def Factor.eco (f : Factor) : Str := f.sym ++ if f.exp = 1 then [] else natStr f.exp

/-- The signs of EcoSpold2. -/
def Op.eco : Op → Char
  | .times => '.'
  | .per => '/'

/-- The signs of `pint`. -/
def Op.pint : Op → Char
  | .times => '*'
  | .per => '/'

/-- The way EcoSpold2 writes a unit: `kg.km/m2`. -/
def Expr.eco (e : Expr) : Str :=
  e.first.eco ++ e.rest.flatMap fun p => p.1.eco :: p.2.eco

/-- Names in `pint` have underscores instead of spaces and hyphens. -/
def pintName (s : Str) : Str := s.map fun c => if c = ' ' ∨ c = '-' then '_' else c

/-- `m**2` -/
def Factor.pint (f : Factor) : Str := pintName f.sym ++ if f.exp = 1 then [] else c!"**" ++ natStr f.exp

/-- The way `pint` writes a unit: `kg*km/m**2`. -/
def Expr.pint (e : Expr) : Str :=
  e.first.pint ++ e.rest.flatMap fun p => p.1.pint :: p.2.pint

/-- The text in which the exponents stay digits of the names: `kg*km/m2`. -/
def Factor.stuck (f : Factor) : Str := pintName f.sym ++ if f.exp = 1 then [] else natStr f.exp

@[inherit_doc Factor.stuck] def Expr.stuck (e : Expr) : Str :=
  e.first.stuck ++ e.rest.flatMap fun p => p.1.pint :: p.2.stuck

/-- How `pint` reads a text: names, powers and brackets, multiplied and divided from left to right. The sizes of the names are
given. -/
inductive Reads (size : Str → ℚ) : Bool → Str → ℚ → Prop
  | name {n : Str} : (∀ c ∈ n, c ≠ '*' ∧ c ≠ '/' ∧ c ≠ '(' ∧ c ≠ ')') → Reads size false n (size n)
  | power {n : Str} (k : Nat) : (∀ c ∈ n, c ≠ '*' ∧ c ≠ '/' ∧ c ≠ '(' ∧ c ≠ ')') →
      Reads size false (n ++ c!"**" ++ natStr k) (size n ^ k)
  | bracket {s : Str} {x : ℚ} : Reads size true s x → Reads size false (c!"(" ++ s ++ c!")") x
  | one {s : Str} {x : ℚ} : Reads size false s x → Reads size true s x
  | times {s t : Str} {x y : ℚ} : Reads size true s x → Reads size false t y → Reads size true (s ++ c!"*" ++ t) (x * y)
  | per {s t : Str} {x y : ℚ} : Reads size true s x → Reads size false t y → Reads size true (s ++ c!"/" ++ t) (x / y)

/-- The value of a power. -/
def Factor.value (size : Str → ℚ) (f : Factor) : ℚ := size (pintName f.sym) ^ f.exp

/-- The value of a unit: each power is multiplied by or divided by, as its own sign says. -/
def Expr.value (size : Str → ℚ) (e : Expr) : ℚ :=
  e.rest.foldl (fun v p => match p.1 with | .times => v * p.2.value size | .per => v / p.2.value size) (e.first.value size)

end Verif.UnitNames.Spec
