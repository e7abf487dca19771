/-
What it means that a year stands in a line.
-/
import Verif.Py

namespace Verif.Citations.Spec

/-- Four digits. -/
def Year (d : Char → Bool) (y : Str) : Prop := y.length = 4 ∧ ∀ c ∈ y, d c = true

/-- A year in brackets or after a blank or comma, and closed by a bracket, stands in a line with `pre` before it,
followed by `mark` and `rest`. -/
def At (d : Char → Bool) (mark line pre y rest : Str) : Prop :=
  ∃ s z, s ∈ [' ', '(', '[', ','] ∧ z ∈ [')', ']'] ∧ Year d y ∧ line = pre ++ s :: (y ++ z :: (mark ++ rest))

/-- The last one. -/
def LastAt (d : Char → Bool) (mark line pre y rest : Str) : Prop :=
  At d mark line pre y rest ∧ ∀ p' y' r', At d mark line p' y' r' → p'.length ≤ pre.length

/-- There is none. -/
def NoYear (d : Char → Bool) (mark line : Str) : Prop := ∀ p y r, ¬ At d mark line p y r

/-- The last line: what follows the last end of a line, not counting one at the very end. -/
def LastLine (x l : Str) : Prop :=
  '\n' ∉ l ∧ ∃ a, (a = [] ∨ a.getLast? = some '\n') ∧
    (x = a ++ l ++ ['\n'] ∨ (x = a ++ l ∧ x.getLast? ≠ some '\n'))

/-- What Python takes for digits: none of the characters around a year, and no white space. -/
structure Digits (d : Char → Bool) : Prop where
  space : ∀ c, d c = true → pySpace c = false
  sign : ∀ c ∈ [' ', '(', '[', ',', ')', ']', 'p', '.'], d c = false

end Verif.Citations.Spec
