/-
Documents of a format, and what it means that a field mapping sees a part of a document.
-/
import Verif.Model.MappingKeys
import Verif.Spec.XmlStream

namespace Verif.Mapping.Spec

open Verif.DotDict Verif.Schema Verif.Xml

/-- A field written as an attribute. -/
def IsAttr (f : Field Str) : Prop := f.xmlType = some c!"attribute"
/-- A field written as a child element (the third kind is the text of the element). -/
def IsElem (f : Field Str) : Prop := f.xmlType ≠ some c!"attribute" ∧ f.xmlType ≠ some c!"text"

instance (f : Field Str) : Decidable (IsAttr f) := inferInstanceAs (Decidable (_ = _))
instance (f : Field Str) : Decidable (IsElem f) := inferInstanceAs (Decidable (_ ∧ _))

/-- `e` may occur as a child of an element of class `c`: its name is that of a field of the class,
and its attributes and children are fields of its own class, at every depth. Whether mandatory fields
are present and values are valid does not matter here; the attributes of the outermost groups (version,
name spaces, classes beginning with a slash) and of fields without a class (language, index) are free. -/
inductive Legal (S : Schema Str) : Cls → Elem → Prop
  | group (c : Cls) (f : Field Str) (d : Cls) (tag attrs text children tail) :
      (localName tag, f) ∈ S c → IsElem f → f.type = .sub d →
      (d.head? ≠ some '/' → ∀ a ∈ attrs, ∃ g, (localName a.1, g) ∈ S d ∧ IsAttr g) →
      (∀ e ∈ children, Legal S d e) → Legal S c (.mk tag attrs text children tail)
  | leaf (c : Cls) (f : Field Str) (v : Str) (tag attrs text tail) :
      (localName tag, f) ∈ S c → IsElem f → f.type = .leaf v →
      Legal S c (.mk tag attrs text [] tail)

/-- The fields of a class and of its groups, by their paths. -/
inductive IsField (S : Schema Str) : Cls → MKey → Prop
  | attr (c k f) : (k, f) ∈ S c → IsAttr f → IsField S c ([], some k)
  | leaf (c k f v) : (k, f) ∈ S c → IsElem f → f.type = .leaf v → IsField S c ([k], none)
  | group (c k f d ns a) : (k, f) ∈ S c → IsElem f → f.type = .sub d → IsField S d (ns, a) →
      IsField S c (k :: ns, a)

/-- A field lies on or below a mapped path. -/
def Covered (keys : List MKey) (k : MKey) : Prop :=
  k ∈ keys ∨ ∃ p ∈ keys, p.2 = none ∧ p.1 <+: k.1

/-- Replace the elements reached by a path. -/
def editAt (f : Elem → List Elem) : List Str → List Elem → List Elem
  | [], l => l
  | [n], l => l.flatMap fun e => if localName e.tag = n then f e else [e]
  | n :: m :: ns, l => l.map fun e =>
    if localName e.tag = n then .mk e.tag e.attrs e.text (editAt f (m :: ns) e.children) e.tail else e

/-- A document without what is found at a path below its root. -/
def without (k : MKey) (doc : Elem) : Elem :=
  match k with
  | (_ :: ns, none) => .mk doc.tag doc.attrs doc.text (editAt (fun _ => []) ns doc.children) doc.tail
  | (_ :: ns, some a) => .mk doc.tag doc.attrs doc.text
      (editAt (fun e => [.mk e.tag (e.attrs.filter fun p => p.1 ≠ a) e.text e.children e.tail]) ns
        doc.children) doc.tail
  | ([], _) => doc

end Verif.Mapping.Spec
