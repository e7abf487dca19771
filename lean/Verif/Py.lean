/-
Basic vocabulary shared by all parts of the model: Python texts as lists of characters,
Python exceptions as values, and the few built-in text operations the code uses.
-/
import Lean.Elab.Command

namespace Verif

/-- A Python `str`, as the list of its code points. -/
abbrev Str := List Char

open Lean in
/-- `c!"abc"` is the character list `['a', 'b', 'c']`. -/
macro:max "c!" s:str : term => do
  let mut t ← `(([] : Str))
  for c in s.getString.toList.reverse do
    t ← `(($(Lean.Syntax.mkCharLit c) : Char) :: $t)
  return t

/-- The exceptions the modelled code can raise. Messages are not modelled. -/
inductive PyErr
  | attributeError
  | valueError
  | typeError
  | keyError
  | indexError
  | nameError            -- includes UnboundLocalError
  | osError
  | stopIteration
  | zeroDivisionError
  | other (tag : Nat)    -- an exception of the environment (parser, disk, ...)
  deriving DecidableEq, Repr

abbrev Py (α : Type) := Except PyErr α

/-- Equality on outcomes is decidable, for the examples and witnesses. -/
instance {ε α : Type} [DecidableEq ε] [DecidableEq α] : DecidableEq (Except ε α)
  | .ok a, .ok b => if h : a = b then isTrue (by rw [h]) else isFalse (by intro e; cases e; exact h rfl)
  | .error a, .error b => if h : a = b then isTrue (by rw [h]) else isFalse (by intro e; cases e; exact h rfl)
  | .ok _, .error _ => isFalse (by intro e; cases e)
  | .error _, .ok _ => isFalse (by intro e; cases e)

/-- White space in the sense of `str.isspace`, `str.strip` and `str.split()`. -/
def pySpace (c : Char) : Bool :=
  let n := c.toNat
  (9 ≤ n && n ≤ 13) || (28 ≤ n && n ≤ 32) || n == 0x85 || n == 0xa0 || n == 0x1680 ||
  (0x2000 ≤ n && n ≤ 0x200a) || n == 0x2028 || n == 0x2029 || n == 0x202f || n == 0x205f ||
  n == 0x3000

/-- `x.isspace()`: non-empty and only white space. -/
def isSpaceStr (x : Str) : Bool := !x.isEmpty && x.all pySpace

/-- `x.lstrip()` -/
def lstrip (x : Str) : Str := x.dropWhile pySpace

/-- `x.rstrip()` -/
def rstrip (x : Str) : Str := (x.reverse.dropWhile pySpace).reverse

/-- `x.strip()` -/
def strip (x : Str) : Str := rstrip (lstrip x)

/-- `x.split(sep)` for a one-character separator: always at least one piece. -/
def splitOn (sep : Char) : Str → List Str
  | [] => [[]]
  | c :: cs =>
    if c = sep then [] :: splitOn sep cs
    else match splitOn sep cs with
      | [] => [[c]]            -- not reached: `splitOn` is never empty
      | w :: ws => (c :: w) :: ws

/-- `sep.join(l)` -/
def join (sep : Str) : List Str → Str
  | [] => []
  | [x] => x
  | x :: y :: l => x ++ sep ++ join sep (y :: l)

/-- `x in s` / `s.startswith(x)` helpers. -/
def startsWith (x s : Str) : Bool := x.isPrefixOf s

def endsWith (x s : Str) : Bool := x.isSuffixOf s

/-- `x in s` for texts: substring search. -/
def isInfix (x : Str) : Str → Bool
  | [] => x.isEmpty
  | c :: s => startsWith x (c :: s) || isInfix x s

/-- The decimal digits of a number, most significant first: `str(n)`. -/
def natStr (n : Nat) : Str := Nat.toDigits 10 n

/-- `str(n)` for an integer. -/
def intStr (n : Int) : Str :=
  match n with
  | .ofNat k => natStr k
  | .negSucc k => '-' :: natStr (k + 1)

/-- Insertion into a list sorted for `le`, in front of the elements it is `le` to. -/
def insertBy {α : Type} (le : α → α → Bool) (a : α) : List α → List α
  | [] => [a]
  | b :: l => if le a b then a :: b :: l else b :: insertBy le a l

/-- `sorted(l, key=...)`: the stable sort, as an insertion sort. -/
def sortBy {α : Type} (le : α → α → Bool) : List α → List α
  | [] => []
  | a :: l => insertBy le a (sortBy le l)

end Verif
