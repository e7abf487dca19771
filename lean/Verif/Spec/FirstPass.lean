/-
What a file says about itself.
-/
import Verif.Spec.XmlStream

namespace Verif.FirstPass.Spec
open Verif.Xml Verif.Xml.Spec

/-- A text that comes with an attribute (such as its language) or with child elements, or an empty
element that has a language. -/
def Labelled (e : Elem) (s : Str) : Prop :=
  (e.text = some s ∧ Visible s ∧ (e.attrs ≠ [] ∨ e.children ≠ [])) ∨
  ((∀ t, e.text = some t → ¬ Visible t) ∧ s = [] ∧ e.children = [] ∧
    ∃ a ∈ e.attrs, localName a.1 = c!"lang")

/-- A text with or without attributes. -/
def Written (e : Elem) (s : Str) : Prop :=
  (e.text = some s ∧ Visible s) ∨ Labelled e s

/-- The children of an element with a given name. -/
def named (n : Str) (e : Elem) : List Elem := e.children.filter fun c => localName c.tag = n

/-- The exchange has the number `i` and its only flow has one description, `s`. -/
def FlowOf (e : Elem) (i s : Str) : Prop :=
  (∃ a ∈ e.attrs, localName a.1 = c!"dataSetInternalID" ∧ a.2 = i) ∧
  ∃ r, named c!"referenceToFlowDataSet" e = [r] ∧ ∃ d, named c!"shortDescription" r = [d] ∧ Labelled d s

def namePath : List Str :=
  [c!"processDataSet", c!"processInformation", c!"dataSetInformation", c!"name", c!"baseName"]

def exchangePath : List Str := [c!"processDataSet", c!"exchanges", c!"exchange"]

/-- The values of an attribute (without namespace) of the elements. -/
def attrValues (a : Str) (l : List Elem) : List Str :=
  l.flatMap fun e => (e.attrs.filter fun p => p.1 = a).map Prod.snd

/-- `s` is the name of the last exchange numbered `i`. -/
def LastNamed (exs : List Elem) (i s : Str) : Prop :=
  ∃ l e m, exs = l ++ e :: m ∧ FlowOf e i s ∧ ∀ e' ∈ m, ∀ s', ¬ FlowOf e' i s'

/-- The two kinds of data set of an EcoSpold2 file. -/
inductive Kind where
  | activity
  | child

def Kind.tag : Kind → Str
  | .activity => c!"activityDataset"
  | .child => c!"childActivityDataset"

def Kind.other : Kind → Kind
  | .activity => .child
  | .child => .activity

def activityNames (k : Kind) (doc : Elem) : List Elem :=
  select [c!"ecoSpold", k.tag, c!"activityDescription", c!"activity", c!"activityName"] [doc]

def fileAttributes (k : Kind) (doc : Elem) : List Elem :=
  select [c!"ecoSpold", k.tag, c!"administrativeInformation", c!"fileAttributes"] [doc]

/-- The name of a data set as its kind asks for it. -/
def NameFor : Kind → Elem → Str → Prop
  | .activity => Written
  | .child => Labelled

end Verif.FirstPass.Spec
