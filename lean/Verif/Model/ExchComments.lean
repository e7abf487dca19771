/-
The comment of an exchange: comments, tags, uncertainty and production volume.
Models src/Lavoisier/conversions/ECS2_to_ILCD1_conversion.py:944-954 (comments, tags and uncertainty of an exchange), 1122-1124
(comments of the production volume), 2087-2099 (the comments of exchanges that are summed), and
src/Lavoisier/conversions/ILCD1_to_ECS2_conversion.py:403-408, 719 (the comment of an exchange of ILCD).

The value of an exchange is what `XmlStream` makes of its element; the texts of an uncertainty are those of `UncText`.

Simplifications: all the texts are read before the first is given to the field, so that another error may come first. The
running number of `text_add_index` is a parameter: one for the comments and one for those of the production volume, which
come later (comments of properties are numbered in between).
-/
import Verif.Model.Products
import Verif.Model.UncText

namespace Verif.ExchComments

open LangText (Entry)
open Shapes (truthy)
open Naming (entryDict)

/-! ### EcoSpold2 to ILCD -/

/-- `[t for t in x]`: a text gives its characters, a dictionary its keys. -/
def iterate : PyVal → Py (List PyVal)
  | .list l => .ok l
  | .str s => .ok (s.map fun c => .str [c])
  | .dict d => .ok (d.map fun p => .str p.1)
  | _ => .error .typeError

/-- The text of the tags, :947-949. -/
def tagText (d : List (Str × PyVal)) : Py (Option Str) :=
  match aget c!"tag" d with
  | none => .ok none
  | some v =>
    if truthy v then do
      let l ← iterate v
      let s ← Products.strs l
      .ok (some (c!"Tag " ++ join c!"; " s))
    else .ok none

/-- Texts with the running number. -/
def counted : Int → List (PyVal × Str) → List PyVal
  | _, [] => []
  | n, t :: l => entryDict n t.1 t.2 :: counted (n + 1) l

/-- An entry as it is given to the field. -/
def valueOf (e : Entry) : PyVal := entryDict e.index (.str e.lang) e.text

/-- The comments of the production volume, for products with one, :1162 and 1122-1124. -/
def volumeTexts (dflt : PyVal) (d : List (Str × PyVal)) : Py (List (PyVal × Str)) :=
  if (aget c!"@productionVolumeAmount" d).any truthy then Products.volumeComments dflt d else .ok []

/-- What is given to the comment of an exchange, in order. `unc` are the texts of the uncertainty, `n` and `m` the running
numbers. -/
def given (dflt : PyVal) (n m : Int) (unc : List Entry) (d : List (Str × PyVal)) : Py (List PyVal) := do
  let cs ← Shapes.each dflt ((aget c!"comment" d).getD (.dict []))
  let tag ← tagText d
  let vs ← volumeTexts dflt d
  .ok (counted n cs ++ tag.toList.map (entryDict (-1) (.str c!"en")) ++ unc.map valueOf ++ counted m vs)

/-- `field.comment = v` for each value. -/
def putAll (t : LangText.TextCls) (langs : Option (List Str)) : List Entry → List PyVal → Py (List Entry)
  | x, [] => .ok x
  | x, v :: l => do
    let x' ← LangText.add t (LangText.validateEntry langs) x v
    putAll t langs x' l

/-- The comment of an exchange (data_structures/ILCD1_structure.py:453). -/
def exchange (langs : Option (List Str)) (dflt : PyVal) (n m : Int) (unc : List Entry) (d : List (Str × PyVal)) :
    Py (List Entry) := do
  let vs ← given dflt n m unc d
  putAll LangText.ilcdString langs [] vs

/-- The comment as it is written: language and text. -/
def written (ignore : Bool) (sent : Str → List Str) (x : List Entry) : Py (List (Str × Str)) :=
  LangText.endMulti LangText.ilcdString ignore sent x

/-- An exchange is added to the first one of its kind, :2093-2099: `other` is its comment, `unc` are the texts of the
uncertainty of the first, if the sum still has one. The comment is read with `get`, which ends it
(data_structures/main.py:96-105). -/
def mergeOne (langs : Option (List Str)) (ignore : Bool) (sent : Str → List Str) (x other : List Entry)
    (unc : List Entry) : Py (List Entry) := do
  let ts ← written ignore sent other
  putAll LangText.ilcdString langs x (ts.map (fun t => entryDict 100 (.str c!"en") t.2) ++ unc.map valueOf)

/-- All the other exchanges of the kind. -/
def merge (langs : Option (List Str)) (ignore : Bool) (sent : Str → List Str) :
    List Entry → List (List Entry × List Entry) → Py (List Entry)
  | x, [] => .ok x
  | x, o :: l => do
    let x' ← mergeOne langs ignore sent x o.1 o.2
    merge langs ignore sent x' l

/-! ### ILCD to EcoSpold2 -/

/-- The elements that are written into the comment, :406. -/
def infoNames : List Str := [c!"location", c!"functionType", c!"dataSourceType", c!"dataDerivationTypeStatus"]

/-- One of them, :407-408: language and text. -/
def infoText (dflt : PyVal) (d : List (Str × PyVal)) (n : Str) : Py (List (PyVal × Str)) :=
  match aget n d with
  | none => .ok []
  | some (.str []) => .ok []
  | some v => do
    let a ← Shapes.addIndex dflt (n ++ c!": ") v
    .ok [a]

/-- All of some. -/
def infoTexts (dflt : PyVal) (d : List (Str × PyVal)) : List Str → Py (List (PyVal × Str))
  | [] => .ok []
  | n :: l => do
    let a ← infoText dflt d n
    let r ← infoTexts dflt d l
    .ok (a ++ r)

/-- The texts of the comment, :403-408. -/
def ilcdTexts (dflt : PyVal) (d : List (Str × PyVal)) : Py (List (PyVal × Str)) := do
  let cs ← Shapes.each dflt ((aget c!"generalComment" d).getD (.dict []))
  let is ← infoTexts dflt d infoNames
  .ok (cs ++ is)

/-- The comment of the exchange in EcoSpold2, :719 (data_structures/ECS2_structure.py:177-193, 553): each member of the list is
given to the field (data_structures/main.py:65-79). -/
def ilcdExchange (dflt : PyVal) (n : Int) (d : List (Str × PyVal)) : Py (List Entry) := do
  let ts ← ilcdTexts dflt d
  putAll (LangText.base 32000) none [] (counted n ts)

/-- It as it is written. -/
def ilcdWritten (ignore : Bool) (sent : Str → List Str) (x : List Entry) : Py (List (Str × Str)) :=
  LangText.endMulti (LangText.base 32000) ignore sent x

end Verif.ExchComments
