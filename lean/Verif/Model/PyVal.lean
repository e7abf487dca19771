/-
Python values handed to the validators, and `int(x)` on them.
-/
import Verif.Py

namespace Verif

/-- A dynamically typed value. `float` stands for a finite binary float given by its exact value as
a fraction; the three special floats are separate. `opaque` is any other object. -/
inductive PyVal where
  | none
  | bool (b : Bool)
  | int (i : Int)
  | float (num : Int) (den : Nat)
  | inf
  | ninf
  | nan
  | str (s : Str)
  | list (l : List PyVal)
  | dict (l : List (Str × PyVal))
  | opaque (n : Nat)

/-- The value of an ASCII digit. -/
def digitVal (c : Char) : Option Nat :=
  if '0' ≤ c ∧ c ≤ '9' then some (c.toNat - '0'.toNat) else none

/-- Digits read after the value `acc`; single underscores between digits are allowed. -/
def parseDigits : Nat → Str → Option Nat
  | acc, [] => some acc
  | acc, '_' :: c :: l =>
    match digitVal c with
    | some d => parseDigits (acc * 10 + d) l
    | Option.none => Option.none
  | acc, c :: l =>
    match digitVal c with
    | some d => parseDigits (acc * 10 + d) l
    | Option.none => Option.none

/-- An unsigned integer literal: at least one digit. -/
def parseNat : Str → Option Nat
  | [] => Option.none
  | c :: l =>
    match digitVal c with
    | some d => parseDigits d l
    | Option.none => Option.none

/-- `int(s)` for a text: surrounding white space, a sign, digits. (Digits outside ASCII, which
Python also reads, are not modelled.) -/
def parseInt (s : Str) : Option Int :=
  match strip s with
  | '-' :: l => (parseNat l).map fun n => -(n : Int)
  | '+' :: l => (parseNat l).map fun n => (n : Int)
  | l => (parseNat l).map fun n => (n : Int)

/-- `int(x)`; `none` stands for any exception. Floats are truncated towards zero. -/
def PyVal.toInt : PyVal → Option Int
  | .bool b => some (if b then 1 else 0)
  | .int i => some i
  | .float n d => some (n.tdiv d)
  | .str s => parseInt s
  | _ => Option.none

end Verif
