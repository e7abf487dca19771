/-
What the element of a product says: its names, synonyms and comments as texts, its attributes, and the statement of its
production volume.
-/
import Verif.Model.XmlStream
import Verif.Spec.Shapes
import Verif.Spec.XmlStream

namespace Verif.Products.Spec

open Verif.Xml
open Verif.Shapes.Spec (Text)

/-- The attribute of an element with a local name. -/
def attr (e : Elem) (n : Str) : Option Str := (e.attrs.find? fun a => localName a.1 = n).map Prod.snd

/-- The children of an element with a local name. -/
def kids (e : Elem) (n : Str) : List Elem := e.children.filter fun c => localName c.tag = n

/-- The children with a name are the texts `l`: the only attribute is `xml:lang`, there are no children. -/
def Texts (e : Elem) (n : Str) (l : List Text) : Prop :=
  ∃ tag, kids e n = l.map fun t =>
    .mk tag (t.lang.toList.map fun x => (c!"{http://www.w3.org/XML/1998/namespace}lang", x)) t.text [] none

/-- The statement of the production volume of the element `e`, called `name`; `float` reads and `text` writes
numbers. -/
inductive States {K : Type} (float : Str → Option K) (text : K → Str) (unit name : Str) (e : Elem) : Option Str → Prop
  | without : attr e c!"productionVolumeAmount" = none ∨ attr e c!"productionVolumeAmount" = some [] →
      States float text unit name e none
  | volume (a : Str) (k : K) : attr e c!"productionVolumeAmount" = some a → a ≠ [] → float a = some k →
      States float text unit name e
        (some (c!"Production volume for " ++ name ++ c!" is " ++ text k ++ c!" " ++ unit))

/-- All lines in one English text. -/
def english (l : List Str) : List (Str × Str) := if l = [] then [] else [(c!"en", join c!"\n" l)]

end Verif.Products.Spec
