/-
Descriptions of a technology, stated on texts alone.
-/
import Verif.Spec.Comments

namespace Verif.Included.Spec
open Verif.Comments.Spec

/-- The marks looked for in a description. -/
def marks : List Str := [c!"Activity Start: ", c!"Activity End: ", c!"Technology Level: "]

/-- What EcoSpold2 says in one language: the paragraphs of the comment, the start and the end of the included
activities. -/
structure Part where
  lang : Str
  others : List Str
  started : Str
  ended : Str

/-- The lines of its description in ILCD. -/
def Part.lines (p : Part) : List Str :=
  p.others ++ [c!"Activity Start: " ++ p.started, c!"Activity End: " ++ p.ended]

/-- A part whose lines can be told from one another. -/
structure Part.Good (p : Part) : Prop where
  started : OneLine p.started
  ended : OneLine p.ended
  visible : (∃ c ∈ p.started, pySpace c = false) ∧ ∃ c ∈ p.ended, pySpace c = false
  clear : (¬ c!"Activity Start: " <:+: p.ended)
  others : ∀ x ∈ p.others, ∀ q ∈ marks, ¬ q <:+: x

end Verif.Included.Spec
