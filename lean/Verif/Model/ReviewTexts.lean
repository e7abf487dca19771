/-
The texts of a review of ILCD in EcoSpold2: type, scopes, indicators of quality and details.
Models src/Lavoisier/conversions/ILCD1_to_ECS2_conversion.py:1158-1184, 1205-1219 (`ILCD1ToECS2ReviewConversion`),
src/Lavoisier/conversions/utils.py:49-65 (`ensure_list` without `ensure_text`), and
src/Lavoisier/data_structures/ECS2_structure.py:227-231, 663-664 (the fields).

The value of a review is what `XmlStream` makes of its element. Date, version and reviewers are in `Reviews`.

Simplifications: attributes are texts, as they are in every value that is read from a file. All the texts are made before
the first is given to the field, so that another error may come first.
-/
import Verif.Model.ExchComments
import Verif.Model.Reviews

namespace Verif.ReviewTexts

open Shapes (english member)
open LangText (Entry)
open Naming (entryDict)

/-- `ensure_list(x)`, utils.py:49-62. -/
def asMembers : PyVal → Py (List PyVal)
  | .dict d => .ok (if d.isEmpty then [] else [.dict d])
  | .str s => .ok (if s ≠ [] then [english (.str s)] else [])
  | .list l => .ok (l.map member)
  | _ => .error .typeError

/-- `x.get('@name', '-')` in a text. -/
def nameOf : PyVal → Py Str
  | .dict d =>
    match aget c!"@name" d with
    | none => .ok c!"-"
    | some (.str s) => .ok s
    | some _ => .error .typeError
  | _ => .error .attributeError

/-- The methods of a scope, :1166-1168. -/
def methodLines : List PyVal → Py Str
  | [] => .ok []
  | m :: l => do
    let n ← nameOf m
    let r ← methodLines l
    .ok (c!"\t\t" ++ n ++ c!"\n" ++ r)

/-- The methods, if there are any. -/
def methods (v : PyVal) : Py Str :=
  match v with
  | .dict d =>
    match aget c!"method" d with
    | none => .ok []
    | some v => do
      let l ← asMembers v
      methodLines l
  | _ => .error .typeError

/-- The scopes, :1163-1168. -/
def scopeLines : List PyVal → Py Str
  | [] => .ok []
  | s :: l => do
    let n ← nameOf s
    let ms ← methods s
    let r ← scopeLines l
    .ok (c!"\t" ++ n ++ c!". Validation methods:\n" ++ ms ++ r)

/-- The text of the scopes, :1161-1169. -/
def scopeText (d : List (Str × PyVal)) : Py (Option Str) :=
  match aget c!"scope" d with
  | none => .ok none
  | some v => do
    let l ← asMembers v
    let r ← scopeLines l
    .ok (some (c!"Review done for Scopes:\n" ++ r))

/-- `x[k]` in a text. -/
def required (k : Str) : PyVal → Py Str
  | .dict d =>
    match aget k d with
    | none => .error .keyError
    | some (.str s) => .ok s
    | some _ => .error .typeError
  | _ => .error .typeError

/-- The indicators, :1173-1174. -/
def indicatorLines : List PyVal → Py Str
  | [] => .ok []
  | q :: l => do
    let n ← required c!"@name" q
    let v ← required c!"@value" q
    let r ← indicatorLines l
    .ok (c!"\t" ++ n ++ c!": " ++ v ++ c!"\n" ++ r)

/-- The text of the indicators, :1171-1175. -/
def indicatorText (d : List (Str × PyVal)) : Py (Option Str) :=
  match aget c!"dataQualityIndicators" d with
  | none => .ok none
  | some (.dict q) => do
    let l ← asMembers ((aget c!"dataQualityIndicator" q).getD (.dict []))
    let r ← indicatorLines l
    .ok (some (c!"Data Quality Indicators:\n" ++ r))
  | some _ => .error .attributeError

/-- The text of the type, :1158-1159. -/
def typeText (d : List (Str × PyVal)) : Py (Option Str) :=
  match aget c!"@type" d with
  | none => .ok none
  | some (.str s) => .ok (some (c!"Review type: " ++ s))
  | some _ => .error .typeError

/-- What `review_comment` leaves of a text, :1205-1219. -/
def stripped (date : Str → Option Str) (x : Str) : Py Str :=
  let x := match Comments.search Reviews.versionMatch x with
    | some _ => Comments.remove Reviews.versionMatch 0 x
    | none => x
  match Comments.search Reviews.dateMatch x with
  | some d =>
    match date d with
    | none => .error .valueError
    | some _ => .ok (Comments.remove Reviews.dateMatch 0 x)
  | none => .ok x

/-- The same for each of some texts with their languages. -/
def stripAll (date : Str → Option Str) : List (PyVal × Str) → Py (List (PyVal × Str))
  | [] => .ok []
  | (l, x) :: r => do
    let y ← stripped date x
    let s ← stripAll date r
    .ok ((l, y) :: s)

/-- Texts that take two running numbers each, `text_add_index(text_add_index(x))`, :1179. -/
def countedTwice : Int → List (PyVal × Str) → List PyVal
  | _, [] => []
  | n, t :: l => entryDict (n + 1) t.1 t.2 :: countedTwice (n + 2) l

/-- What is given to the details of the review, :1158-1179. -/
def given (date : Str → Option Str) (dflt : PyVal) (n : Int) (d : List (Str × PyVal)) : Py (List PyVal) := do
  let t ← typeText d
  let s ← scopeText d
  let q ← indicatorText d
  let x ← Shapes.each dflt ((aget c!"reviewDetails" d).getD (.dict []))
  let y ← stripAll date x
  .ok (t.toList.map (entryDict 1 (.str c!"en")) ++ s.toList.map (entryDict 2 (.str c!"en")) ++
    q.toList.map (entryDict 3 (.str c!"en")) ++ countedTwice n y)

/-- The details of the review. -/
def details (date : Str → Option Str) (dflt : PyVal) (n : Int) (d : List (Str × PyVal)) : Py (List Entry) := do
  let vs ← given date dflt n d
  ExchComments.putAll (LangText.base 32000) none [] vs

/-- They as they are written: index, language and text. -/
def written (ignore : Bool) (sent : Str → List Str) (x : List Entry) : Py (List ((Int × Str) × Str)) :=
  LangText.endIndexedMulti (LangText.base 32000) ignore sent x

/-- The other details, :1181-1182. -/
def other (dflt : PyVal) (n : Int) (d : List (Str × PyVal)) : Py (List Entry) := do
  let x ← Shapes.each dflt ((aget c!"otherReviewDetails" d).getD (.dict []))
  ExchComments.putAll (LangText.base 32000) none [] (ExchComments.counted n x)

end Verif.ReviewTexts
