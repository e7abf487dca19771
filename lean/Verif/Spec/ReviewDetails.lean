/-
What the details of a review of EcoSpold2 say: texts with index and language, and places for variables.
-/
import Verif.Spec.ExchComments
import Verif.Spec.TextImage

namespace Verif.ReviewDetails.Spec

open Verif.Xml
open Verif.Xml.Spec (Visible)
open Products.Spec (attr kids)
open LangText.Spec (Given)
open TextImage.Spec (Piece)

/-- One of the details. -/
structure Detail where
  index : Int
  lang : Str
  pieces : List Piece

/-- What it says. -/
def Detail.given (vars : List (Str × Str)) (t : Detail) : Given := ⟨t.index, t.lang, TextImage.Spec.filled vars t.pieces⟩

/-- The element is the text `t`: it has an index and a language, and nothing else. -/
def IsDetail (k : Elem) (t : Detail) : Prop :=
  k.children = [] ∧ (∀ a ∈ k.attrs, localName a.1 = c!"index" ∨ localName a.1 = c!"lang") ∧
  attr k c!"lang" = some t.lang ∧ (∃ s, attr k c!"index" = some s ∧ parseInt s = some t.index) ∧
  (∃ s, k.text = some s ∧ Visible s ∧ s = TextImage.Spec.written t.pieces) ∧ ∀ p ∈ t.pieces, p.Plain

/-- The element is the variable `v`: name and value. -/
def IsVariable (k : Elem) (v : Str × Str) : Prop :=
  attr k c!"name" = some v.1 ∧ (k.text = some v.2 ∧ Visible v.2) ∧ TextImage.Spec.PlainVar v

/-- The review has the details `ts` with the variables `vars`. -/
def Details (e : Elem) (vars : List (Str × Str)) (ts : List Detail) : Prop :=
  (vars = [] ∧ ts = [] ∧ kids e c!"details" = []) ∨
  ∃ k, kids e c!"details" = [k] ∧ k.children ≠ [] ∧
    List.Forall₂ IsVariable (kids k c!"variable") vars ∧ List.Forall₂ IsDetail (kids k c!"text") ts

/-- What is said of the details: blank texts are left out. -/
def said (vars : List (Str × Str)) (ts : List Detail) : List Given :=
  (ts.map (Detail.given vars)).filter fun g => decide (LangText.Spec.Visible g.text)

/-- The lines on date and version of a review; the four numbers in the order in which they are written. -/
def headLines (date : Str) (v : Str × Str × Str × Str) : List Str :=
  [c!"Date of Review: " ++ date, c!"Review Version: " ++ v.1 ++ c!"." ++ v.2.1 ++ c!"." ++ v.2.2.1 ++ c!"." ++ v.2.2.2]

/-- The details in a language: the head comes first, in English. -/
def withHead (head : List Str) (ps : Str → List Str) (L : Str) : List Str := (if L = c!"en" then head else []) ++ ps L

/-- What comes back of a review with the type `typ`, the version line `ver` and the paragraphs `ps`. -/
inductive Back (typ : Option Str) (ver : Str) (ps : Str → List Str) : Str → Str → Prop
  | type (t : Str) : typ = some t → Back typ ver ps c!"en" (c!"Review type: " ++ t)
  | details (L : Str) : ps L ≠ [] → Back typ ver ps L (join c!"\n" (ps L))
  | version : ps c!"en" = [] → Back typ ver ps c!"en" ver

/-- What should come back: the type and the paragraphs, and nothing else. -/
inductive Wanted (typ : Option Str) (ps : Str → List Str) : Str → Str → Prop
  | type (t : Str) : typ = some t → Wanted typ ps c!"en" (c!"Review type: " ++ t)
  | details (L : Str) : ps L ≠ [] → Wanted typ ps L (join c!"\n" (ps L))

end Verif.ReviewDetails.Spec
