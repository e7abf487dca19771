/-
The reading of the dates of the time period.
Models src/Lavoisier/conversions/ECS2_to_ILCD1_conversion.py:2164-2170 (`get_time_object`) and 2275-2280, with
`time.strptime` of the library of Python for the three formats used there: the fields are those of the regular
expressions of `_strptime.py` for %Y, %m, %d, %H, %M, %S and %f, the letters T and Z are matched without regard to
case, the whole text has to be matched, and the day has to exist in the calendar.

Simplifications: digits are those of ASCII (Python also takes the decimal digits of other scripts). The text is cut
at the separators of the format, which occur in none of the fields. Only the day of the result is kept, the code uses
no more than the year.
-/
import Verif.Model.Admin

namespace Verif.Dates
open Verif.Admin (Day)

/-- A number of one or two digits within bounds: %m, %H, %M and %S. -/
def num (lo hi : Nat) (s : Str) : Option Nat :=
  if (s.length = 1 ∨ s.length = 2) ∧ s.all Char.isDigit then
    (parseNat s).filter fun n => lo ≤ n ∧ n ≤ hi
  else none

/-- %d: a space may stand for the first digit. -/
def dayNum (s : Str) : Option Nat :=
  match s with
  | ' ' :: r => if r.length = 1 then num 1 9 r else none
  | _ => num 1 31 s

/-- %Y: four digits. -/
def yearNum (s : Str) : Option Nat :=
  if s.length = 4 ∧ s.all Char.isDigit then parseNat s else none

/-- A leap year of the calendar of `datetime`. -/
def leap (y : Nat) : Bool := y % 4 = 0 ∧ (y % 100 ≠ 0 ∨ y % 400 = 0)

/-- The days of a month. -/
def monthDays (y m : Nat) : Nat :=
  if m = 2 then (if leap y then 29 else 28)
  else if m = 4 ∨ m = 6 ∨ m = 9 ∨ m = 11 then 30 else 31

/-- %Y-%m-%d, with the test of `datetime.date` for the day. -/
def readDay (s : Str) : Option Day :=
  match splitOn '-' s with
  | [y, m, d] =>
    match yearNum y, num 1 12 m, dayNum d with
    | some y, some m, some d => if 1 ≤ y ∧ d ≤ monthDays y m then some ⟨y, m, d⟩ else none
    | _, _, _ => none
  | _ => none

/-- %f: up to six digits. -/
def fraction (s : Str) : Bool := 1 ≤ s.length ∧ s.length ≤ 6 ∧ s.all Char.isDigit

/-- %H:%M:%S -/
def clock (s : Str) : Bool :=
  match splitOn ':' s with
  | [h, m, s] => (num 0 23 h).isSome && (num 0 59 m).isSome && (num 0 61 s).isSome
  | _ => false

/-- %H:%M:%S or %H:%M:%S.%f -/
def clockOrFraction (s : Str) : Bool :=
  match splitOn '.' s with
  | [s] => clock s
  | [s, f] => clock s && fraction f
  | _ => false

/-- The letters T and Z in either case. -/
def upperTZ (s : Str) : Str := s.map fun c => if c = 't' then 'T' else if c = 'z' then 'Z' else c

/-- The text without the Z at its end. -/
def dropZ (s : Str) : Option Str := if s.getLast? = some 'Z' then some s.dropLast else none

/-- %Y-%m-%dT%H:%M:%SZ and %Y-%m-%dT%H:%M:%S.%fZ -/
def readTime (s : Str) : Option Day :=
  match splitOn 'T' (upperTZ s) with
  | [d, c] =>
    match dropZ c with
    | some c => if clockOrFraction c then readDay d else none
    | none => none
  | _ => none

/-- `get_time_object`, 2164-2170: the three formats one after the other. -/
def getTimeObject (s : Str) : Py Day :=
  match readDay s with
  | some d => .ok d
  | none =>
    match readTime s with
    | some d => .ok d
    | none => .error .valueError

/-- The two years of the time period, 2275-2280. -/
def timePeriod (start «end» : Str) : Py (Int × Int) := do
  let s ← getTimeObject start
  let a ← Admin.referenceYear s
  let e ← getTimeObject «end»
  let b ← Admin.validUntil e
  .ok (a, b)

end Verif.Dates
