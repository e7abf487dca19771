/-
The start and the end of the included activities and the level of technology, read from the descriptions of the
technology in all languages.
Models src/Lavoisier/conversions/ILCD1_to_ECS2_conversion.py:1595-1612 (`tech_comment`) with what its assignments do
to the fields `includedActivitiesStart`, `includedActivitiesEnd` (src/Lavoisier/data_structures/ECS2_structure.py:586-587)
and `technologyLevel`, for every description delivered by the reader (:1732-1734).

Simplification: of the comment left (`technology.comment`, with its running index) the language and the text are kept,
in order.
-/
import Verif.Model.Comments
import Verif.Model.Naming

namespace Verif.Included
open Verif.LangText (Entry TextCls)

/-- `String32000`, ECS2_validators.py:142-143. -/
def textCls : TextCls := LangText.base 32000

/-- The fields. -/
structure Fields where
  started : List Entry
  ended : List Entry
  level : Option Str
  comment : List (Str × Str)

def Fields.empty : Fields := ⟨[], [], none, []⟩

/-- `setattr(activity, …, ILCD1Helper.text_dict_from_text(index, text))`, :1597-1599 and :1602-1604: the language is
English whatever that of the description (helpers.py:51-55). -/
def setText (index : Int) (x : List Entry) : Option Str → Py (List Entry)
  | none => .ok x
  | some s => LangText.add textCls (LangText.validateEntry none) x (Naming.entryDict index (.str c!"en") s)

/-- `tech_comment` for one description, :1595-1612. -/
def techStep (f : Fields) (lang text : Str) : Py Fields :=
  match Comments.techComment text with
  | .error e => .error e
  | .ok (t, rest) =>
    match setText 1 f.started t.started with
    | .error e => .error e
    | .ok s =>
      match setText 2 f.ended t.ended with
      | .error e => .error e
      | .ok e => .ok ⟨s, e, match t.level with | some l => some l | none => f.level, f.comment ++ [(lang, rest)]⟩

/-- All descriptions in the order of the file. -/
def techBack (f : Fields) : List (Str × Str) → Py Fields
  | [] => .ok f
  | (lang, text) :: l =>
    match techStep f lang text with
    | .error e => .error e
    | .ok f => techBack f l

end Verif.Included
