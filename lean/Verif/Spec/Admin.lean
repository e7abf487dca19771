/-
What is said about version, time period, type, status and access.
-/
import Verif.Model.Admin

namespace Verif.Admin.Spec

/-- The types of process of the ILCD format. -/
def ilcdTypes : List Str := [c!"Unit process, single operation", c!"Unit process, black box", c!"LCI result",
  c!"Partly terminated system", c!"Avoided product system"]

/-- The kinds of license of the ILCD format. -/
def ilcdLicenses : List Str := [c!"Free of charge for all users and uses",
  c!"Free of charge for some user types or use types", c!"Free of charge for members only", c!"License fee", c!"Other"]

/-- The code of a kind of license: 0 for what is free, 1 for the other kinds. -/
def licenseCode (l : Str) : Option Int :=
  if l = c!"Free of charge for all users and uses" then some 0
  else if l ∈ ilcdLicenses then some 1 else none

/-- The part of a text before the first semicolon. -/
def Head (t h : Str) : Prop := ';' ∉ h ∧ (t = h ∨ ∃ r, t = h ++ ';' :: r)

/-- The names of the codes. -/
def names : List Str := [c!"Public", c!"Licensees", c!"Results only", c!"Restricted to "]

/-- A text that begins with the name of a code. -/
def Says (t : Str) (i : Nat) : Prop := ∃ h, Head t h ∧ names[i]? = some h

/-- What decides about the access: a reference to a company or a license. -/
def decisive : Ev → Bool
  | .restriction _ => false
  | _ => true

/-- The last decisive entry of a document. -/
def LastDecisive (l : List Ev) (e : Ev) : Prop :=
  decisive e = true ∧ ∃ a b, l = a ++ e :: b ∧ ∀ x ∈ b, decisive x = false

/-- The last text that begins with the name of a code. -/
def LastText (l : List Ev) (i : Nat) : Prop :=
  ∃ a t b, l = a ++ .restriction t :: b ∧ Says t i ∧ ∀ t' j, .restriction t' ∈ b → ¬ Says t' j

/-- Nobody is restricted by name. -/
def Unrestricted (l : List Ev) : Prop := ∀ t, .restriction t ∈ l → ¬ Says t 3

/-- A day of the calendar (as far as needed). -/
def IsDay (d : Day) : Prop := 1 ≤ d.month ∧ d.month ≤ 12 ∧ 1 ≤ d.day ∧ d.day ≤ 31

/-- One day is not after another. -/
def NotAfter (a b : Day) : Prop :=
  a.year < b.year ∨ (a.year = b.year ∧ (a.month < b.month ∨ (a.month = b.month ∧ a.day ≤ b.day)))

/-- Two digits. -/
def two (n : Nat) : Str := if n < 10 then c!"0" ++ natStr n else natStr n

/-- The usual notation of a day. -/
def dayText (d : Day) : Str := natStr d.year ++ c!"-" ++ two d.month ++ c!"-" ++ two d.day

end Verif.Admin.Spec
