/-
A text of ILCD: its language, which may be left out, and its content. An element with white space only has no
content.
-/
import Verif.Py

namespace Verif.Shapes.Spec

/-- A text element of a file. -/
structure Text where
  lang : Option Str
  text : Option Str

/-- Its content. -/
def Text.content (t : Text) : Str :=
  match t.text with
  | none => []
  | some s => if isSpaceStr s then [] else s

/-- Its language; the schema says that it is English if it is left out. -/
def Text.language (t : Text) : Str := t.lang.getD c!"en"

end Verif.Shapes.Spec
