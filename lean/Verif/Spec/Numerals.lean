/-
The integers that Python reads from values.
-/
import Verif.Model.PyVal

namespace Verif.Numerals.Spec

/-- A digit and its value. -/
def Digit (c : Char) (d : Nat) : Prop := (c!"0123456789")[d]? = some c

/-- Digits, with single underscores between them, and the number they stand for. -/
inductive Numeral : Str → Nat → Prop
  | first (c : Char) (d : Nat) : Digit c d → Numeral [c] d
  | next (s : Str) (n : Nat) (c : Char) (d : Nat) : Numeral s n → Digit c d → Numeral (s ++ [c]) (n * 10 + d)
  | apart (s : Str) (n : Nat) (c : Char) (d : Nat) : Numeral s n → Digit c d → Numeral (s ++ ['_', c]) (n * 10 + d)

/-- A numeral with or without a sign. -/
inductive Signed : Str → Int → Prop
  | plain (s : Str) (n : Nat) : Numeral s n → Signed s n
  | plus (s : Str) (n : Nat) : Numeral s n → Signed ('+' :: s) n
  | minus (s : Str) (n : Nat) : Numeral s n → Signed ('-' :: s) (-n)

/-- The integer read from a value: white space around a numeral does not matter, of a fraction what is behind the point
is cut. -/
inductive Reads : PyVal → Int → Prop
  | yes : Reads (.bool true) 1
  | no : Reads (.bool false) 0
  | int (i : Int) : Reads (.int i) i
  | cut (n : Nat) (d k : Nat) : k * d ≤ n → n < (k + 1) * d → Reads (.float n d) k
  | cutNeg (n : Nat) (d k : Nat) : k * d ≤ n → n < (k + 1) * d → Reads (.float (-n) d) (-k)
  | text (a s b : Str) (i : Int) : (∀ c ∈ a, pySpace c = true) → (∀ c ∈ b, pySpace c = true) → Signed s i →
      Reads (.str (a ++ s ++ b)) i

/-- The denominator of a fraction is positive. -/
def Proper : PyVal → Prop
  | .float _ d => 0 < d
  | _ => True

end Verif.Numerals.Spec
