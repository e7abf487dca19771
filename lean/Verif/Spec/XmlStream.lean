/-
What reading an XML document should mean.
-/
import Verif.Model.XmlStream

namespace Verif.Xml.Spec

/-- The elements of the document reached by a path of names from the root, in document order: the
XPath `/n1/n2/...`. -/
def select : List Str → List Elem → List Elem
  | [], _ => []
  | [n], l => l.filter fun e => localName e.tag = n
  | n :: m :: ns, l => (l.filter fun e => localName e.tag = n).flatMap fun e => select (m :: ns) e.children

/-- The text of a path. -/
def pathText : List Str → Str
  | [] => []
  | n :: ns => '/' :: n ++ pathText ns

mutual
/-- The elements of a tree with their paths, in closing order. -/
def closing (above : List Str) : Elem → List (List Str × Elem)
  | .mk t a x c y =>
    closingOf (above ++ [localName t]) c ++ [(above ++ [localName t], .mk t a x c y)]
def closingOf (above : List Str) : List Elem → List (List Str × Elem)
  | [] => []
  | e :: l => closing above e ++ closingOf above l
end

/-- A name that can occur in an XML document. -/
def Name (n : Str) : Prop := n ≠ [] ∧ ∀ c ∈ n, c ≠ '/' ∧ c ≠ '@' ∧ c ≠ '#'

instance (n : Str) : Decidable (Name n) := inferInstanceAs (Decidable (_ ∧ _))

/-- All element and attribute names of a tree are names, and no element has two attributes of one
local name. -/
inductive WellNamed : Elem → Prop
  | mk (tag attrs text children tail) :
      Name (localName tag) → (∀ a ∈ attrs, Name (localName a.1)) →
      (attrs.map fun a => localName a.1).Nodup → (∀ e ∈ children, WellNamed e) →
      WellNamed (.mk tag attrs text children tail)

/-- Text that is more than white space. -/
def Visible (s : Str) : Prop := ∃ c ∈ s, pySpace c = false

/-- The values of a name as written in a file (once or several times). -/
def ManyAs (vs : List PyVal) : Option PyVal → Prop
  | none => vs = []
  | some v => vs = [v] ∨ ∃ l, v = .list l ∧ vs = l ∧ 2 ≤ l.length

/-- The value represents the element: everything in it is found in the value, in order, at every
depth, and nothing else. -/
inductive Represents : Elem → PyVal → Prop
  /-- An element with only a text is given by the text. -/
  | text (tag s tail) : Visible s → Represents (.mk tag [] (some s) [] tail) (.str s)
  /-- Any other element is given by a dictionary. -/
  | dict (tag attrs text children tail) (d : List (Str × PyVal)) (value : Elem → PyVal) :
      (attrs ≠ [] ∨ children ≠ [] ∨ ∀ s, text = some s → ¬ Visible s) →
      (∀ e ∈ children, Represents e (value e)) →
      (∀ n v, Name n → (aget ('@' :: n) d = some v ↔ ∃ a ∈ attrs, localName a.1 = n ∧ v = .str a.2)) →
      (∀ n, Name n →
        ManyAs ((children.filter fun e => localName e.tag = n).map value) (aget n d)) →
      (∀ s, text = some s → Visible s → aget c!"#text" d = some (.str s)) →
      ((∀ s, text = some s → ¬ Visible s) → aget c!"#text" d = none ∨ aget c!"#text" d = some (.str [])) →
      (∀ k ∈ d.map Prod.fst, k = c!"#text" ∨ (∃ a ∈ attrs, k = '@' :: localName a.1) ∨
        ∃ e ∈ children, k = localName e.tag) →
      Represents (.mk tag attrs text children tail) (.dict d)

end Verif.Xml.Spec
