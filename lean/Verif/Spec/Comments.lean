/-
Marked lines in comments, stated on texts alone.
-/
import Verif.Py

namespace Verif.Comments.Spec

/-- The text without line feed. -/
def OneLine (s : Str) : Prop := '\n' ∉ s

instance (s : Str) : Decidable (OneLine s) := by unfold OneLine; infer_instance

/-- `a` stands before the first place where `q` occurs in the text, `r` after it. -/
def FirstMark (q text a r : Str) : Prop :=
  text = a ++ q ++ r ∧ ∀ a' r', text = a' ++ q ++ r' → a.length ≤ a'.length

/-- The first line of the text. -/
def FirstLine (text g : Str) : Prop := OneLine g ∧ (text = g ∨ ∃ r, text = g ++ '\n' :: r)

/-- The text left after the marked parts of lines are taken out: from the mark to the end of the line,
with the line feed; lines without the mark stay as they are. -/
inductive Left (q : Str) : List Str → Str → Prop
  | lastPlain {l} : ¬ q <:+: l → Left q [l] l
  | lastMarked {l a b} : FirstMark q l a b → Left q [l] a
  | plain {l l' ls t} : ¬ q <:+: l → Left q (l' :: ls) t → Left q (l :: l' :: ls) (l ++ '\n' :: t)
  | marked {l l' ls a b t} : FirstMark q l a b → Left q (l' :: ls) t → Left q (l :: l' :: ls) (a ++ t)

/-- The marks looked for in the general comment. -/
def marks : List Str :=
  [c!"Activity Linkable Id: ", c!"Activity Subtype: ", c!"Inheritance: ", c!"Parent Id: ", c!"Tag: "]

/-- The paragraphs of a general comment: identifier of the name, kind of activity, kind of inheritance, parent,
tags (each after an empty line, separated by semicolons), then the others. -/
def paragraphs (nameId kind : Str) (inheritance parent : Option Str) (tags others : List Str) : List Str :=
  [c!"Activity Linkable Id: " ++ nameId, c!"Activity Subtype: " ++ kind] ++
  (match inheritance with | some t => [c!"Inheritance: " ++ t] | none => []) ++
  (match parent with | some p => [c!"Parent Id: " ++ p] | none => []) ++
  (if tags = [] then [] else [join c!"; " (tags.map fun t => c!"\nTag: " ++ t)]) ++ others

/-- A tag that can be told from the rest of the comment. -/
def GoodTag (t : Str) : Prop := OneLine t ∧ ¬ c!"; " <:+: t ∧ ∀ q ∈ marks, ¬ q <:+: t

instance (t : Str) : Decidable (GoodTag t) := by unfold GoodTag; infer_instance

end Verif.Comments.Spec
