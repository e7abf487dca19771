/-
What dates are, and how they are written.
-/
import Verif.Spec.Admin

namespace Verif.Dates.Spec
open Verif.Admin (Day)

/-- A day of the calendar, with a year of at most four digits. -/
def IsDate (d : Day) : Prop :=
  1 ≤ d.year ∧ d.year ≤ 9999 ∧ 1 ≤ d.day ∧
    ((d.month ∈ [1, 3, 5, 7, 8, 10, 12] ∧ d.day ≤ 31) ∨ (d.month ∈ [4, 6, 9, 11] ∧ d.day ≤ 30) ∨
      (d.month = 2 ∧ (d.day ≤ 28 ∨ (d.day = 29 ∧ 4 ∣ d.year ∧ (100 ∣ d.year → 400 ∣ d.year)))))

/-- The digits of a number below one hundred. -/
def dd (n : Nat) : Str := [Nat.digitChar (n / 10), Nat.digitChar (n % 10)]

/-- A date as the schema writes it: four, two and two digits. -/
def dateText (d : Day) : Str :=
  dd (d.year / 100) ++ dd (d.year % 100) ++ c!"-" ++ dd d.month ++ c!"-" ++ dd d.day

/-- A time as the schema writes it, without the zone. -/
def clockText (h m s : Nat) : Str := dd h ++ c!":" ++ dd m ++ c!":" ++ dd s

end Verif.Dates.Spec
