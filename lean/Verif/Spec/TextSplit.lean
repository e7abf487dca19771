/-
Vocabulary for the properties of text splitting (C05, C06). Independent of the model.
-/
import Verif.Py

namespace Verif.TextSplit

/-- The characters of a text that are neither white space nor the separator `;`
(the splitting code may add or remove those). -/
def keepChar (c : Char) : Bool := !pySpace c && c != ';'

/-- The characters of a text that must survive, in their order. -/
def content (s : Str) : Str := s.filter keepChar

/-- `z` occurs in `f`. -/
def Occurs (z f : Str) : Prop := ∃ u v, f = u ++ z ++ v

/-- A text that neither starts nor ends with white space. -/
def Trimmed (z : Str) : Prop :=
  (∀ c, z.head? = some c → pySpace c = false) ∧ (∀ c, z.getLast? = some c → pySpace c = false)

end Verif.TextSplit
