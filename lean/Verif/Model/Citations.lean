/-
How a source is named in ILCD, and how its author, year and pages are read from the name.
Models src/Lavoisier/formats/helpers.py:66-75 (`source_short_ref`) and
src/Lavoisier/conversions/ILCD1_to_ECS2_conversion.py:885-919 (`get_source` of a regular source).

The regular expressions `(.*)[ \(\[,](\d{4})[\)\]] p\. (.*)$` and `(.*)[ \(\[,](\d{4})[\)\]](?:.*)$` are modelled by
their meaning: the last part has to reach the end of the text and a point does not match the end of a line, so both
match in the last line only, from its beginning, and the first part is as long as possible. Which characters are digits
is a parameter.

Simplification: texts are given as plain texts; the file of the source and its identifier are in `Refs`.
-/
import Verif.Py

namespace Verif.Citations

/-- `source_short_ref`, helpers.py:66-75. -/
def shortRef : Option Str → Option Str → Option Str → Str
  | none, _, _ => c!"Source"
  | some a, none, _ => a
  | some a, some y, none => a ++ c!", (" ++ y ++ c!")"
  | some a, some y, some p => a ++ c!", (" ++ y ++ c!") p. " ++ p

/-- `[ \(\[,]` -/
def sep (c : Char) : Bool := c = ' ' || c = '(' || c = '[' || c = ','
/-- `[\)\]]` -/
def close (c : Char) : Bool := c = ')' || c = ']'

/-- The year at the beginning of the text, with what opens, closes and follows it: the year and the rest. -/
def core (d : Char → Bool) (mark : Str) : Str → Option (Str × Str)
  | s :: a :: b :: c :: e :: z :: l =>
    if sep s && d a && d b && d c && d e && close z && mark.isPrefixOf l then
      some ([a, b, c, e], l.drop mark.length)
    else none
  | _ => none

/-- The last year of a line: what is before it, the year and what is after it. -/
def lastCore (d : Char → Bool) (mark : Str) : Str → Option (Str × Str × Str)
  | [] => none
  | x :: l =>
    match lastCore d mark l with
    | some (pre, y, rest) => some (x :: pre, y, rest)
    | none => (core d mark (x :: l)).map fun r => ([], r.1, r.2)

/-- The line in which a match that reaches the end lies. -/
def lastLine (x : Str) : Str :=
  let y := if x.getLast? = some '\n' then x.dropLast else x
  (y.reverse.takeWhile (· ≠ '\n')).reverse

/-- What is read from a name; the year of the master data is "0000" without a year. -/
structure Cited where
  author : Str
  year : Option Str
  page : Option Str
  deriving DecidableEq

/-- ILCD1_to_ECS2_conversion.py:887-919; `name` is the short name and `citation` the citation of the source. -/
def cite (d : Char → Bool) (name : Str) (citation : Option Str) : Py Cited :=
  let text := citation.getD name
  match lastCore d c!" p. " (lastLine text) with
  | some (pre, y, rest) => .ok ⟨(strip pre).dropLast, some (strip y), some (strip rest)⟩
  | none =>
    match lastCore d [] (lastLine text) with
    | some _ =>
      match lastCore d [] (lastLine (strip text)) with
      | none => .error .attributeError
      | some (pre, y, _) => .ok ⟨(strip pre).dropLast, some (strip y), none⟩
    | none => .ok ⟨strip name, none, none⟩

end Verif.Citations
