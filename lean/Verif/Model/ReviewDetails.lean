/-
The texts of a review of EcoSpold2 in ILCD.
Models src/Lavoisier/conversions/ECS2_to_ILCD1_conversion.py:1741-1744, 1759-1770, 1794-1799 (`ECS2ToILCD1ReviewConversion`), 2124-2138
(the texts of `ECS2TTextAndImage`), and src/Lavoisier/data_structures/ILCD1_structure.py:320, 322 (the fields).

The value of a review is what `XmlStream` makes of its element. Kind of review and reviewers are in `Reviews`, images in
`TextImage`.

Simplifications: attributes are texts, as they are in every value that is read from a file. Images, which come between the
texts and may stop the conversion, are left out.
-/
import Verif.Model.ReviewTexts
import Verif.Model.TextImage

namespace Verif.ReviewDetails

open LangText (Entry)
open Naming (entryDict)
open ReviewTexts (required)

/-- `[v] if isinstance(v, dict) else v`, :2125-2126, and the loop over it. -/
def blockOf : PyVal → Py (List PyVal)
  | .dict d => .ok [.dict d]
  | v => ExchComments.iterate v

/-- `(k["@name"], k["#text"])`, :2132. -/
def readVars : List PyVal → Py (List (Str × Str))
  | [] => .ok []
  | v :: l => do
    let n ← required c!"@name" v
    let t ← required c!"#text" v
    let r ← readVars l
    .ok ((n, t) :: r)

/-- The variables, :2130-2132. -/
def readVariables (d : List (Str × PyVal)) : Py (List (Str × Str)) :=
  match aget c!"variable" d with
  | none => .ok []
  | some v => do
    let l ← blockOf v
    readVars l

/-- One text, :2136-2138; it is only looked at if there are variables. -/
def fill (vars : List (Str × Str)) (t : PyVal) : Py PyVal :=
  if vars = [] then .ok t
  else match t with
    | .dict d => do
      let s ← required c!"#text" t
      .ok (.dict (aset c!"#text" (.str (TextImage.subst vars s)) d))
    | _ => .error .typeError

def fillAll (vars : List (Str × Str)) : List PyVal → Py (List PyVal)
  | [] => .ok []
  | t :: l => do
    let a ← fill vars t
    let r ← fillAll vars l
    .ok (a :: r)

/-- `ECS2TTextAndImage(x, …).ILCDProcess().text`, :2124-2138. -/
def texts (d : List (Str × PyVal)) : Py (List PyVal) := do
  let vars ← readVariables d
  match aget c!"text" d with
  | none => .ok []
  | some v => do
    let l ← blockOf v
    fillAll vars l

/-- `get_version`, :1794-1799. -/
def version (x : List (Str × PyVal)) : Py Str := do
  let a ← required c!"@reviewedMajorRelease" (.dict x)
  let b ← required c!"@reviewedMajorRevision" (.dict x)
  let c ← required c!"@reviewedMinorRelease" (.dict x)
  let e ← required c!"@reviewedMinorRevision" (.dict x)
  .ok (join c!"." [a, b, c, e])

/-- The details of the review, :1741-1744 and 1759-1767; each member of the list is given to the field
(data_structures/main.py:65-79). -/
def details (langs : List Str) (x : List (Str × PyVal)) : Py (List Entry) := do
  let date ← required c!"@reviewDate" (.dict x)
  let v ← version x
  let a ← ExchComments.putAll LangText.unlimited (some langs) []
    [entryDict (-2) (.str c!"en") (c!"Date of Review: " ++ date), entryDict (-1) (.str c!"en") (c!"Review Version: " ++ v)]
  match aget c!"details" x with
  | none => .ok a
  | some (.dict []) => .ok a
  | some (.dict d) => do
    let ts ← texts d
    ExchComments.putAll LangText.unlimited (some langs) a ts
  | some (.str []) => .ok a
  | some _ => .error .attributeError

/-- The other details, :1768-1770. -/
def other (langs : List Str) (dflt : PyVal) (x : List (Str × PyVal)) : Py (List Entry) :=
  match aget c!"otherDetails" x with
  | none => .ok []
  | some v =>
    if Shapes.truthy v then do
      let t ← Shapes.addIndex dflt [] v
      ExchComments.putAll LangText.unlimited (some langs) [] [entryDict 1 t.1 t.2]
    else .ok []

/-- Details as they are written: language and text. -/
def written (ignore : Bool) (sent : Str → List Str) (x : List Entry) : Py (List (Str × Str)) :=
  LangText.endMulti LangText.unlimited ignore sent x

end Verif.ReviewDetails
