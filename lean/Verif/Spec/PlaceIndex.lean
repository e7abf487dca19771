/-
What numbering the texts of a data set should mean.
-/
import Verif.Spec.XmlStream

namespace Verif.PlaceIndex.Spec
open Verif.Xml Verif.Xml.Spec

/-- `e` is `d` with the number `n` under `@index`: instead of the one it had, or at the end. -/
def Numbered (n : Int) (d e : List (Str × PyVal)) : Prop :=
  (c!"@index" ∉ d.map Prod.fst ∧ e = d ++ [(c!"@index", .int n)]) ∨
  ∃ a v b, d = a ++ (c!"@index", v) :: b ∧ c!"@index" ∉ a.map Prod.fst ∧
    e = a ++ (c!"@index", .int n) :: b

/-- `w` is `v` with the number `n` on every text that has a language, at every depth; nothing else is
different. Members of lists are dictionaries. -/
inductive Indexed (n : Int) : PyVal → PyVal → Prop
  | text (d e) : c!"@lang" ∈ d.map Prod.fst → Numbered n d e → Indexed n (.dict d) (.dict e)
  | group (d e) : c!"@lang" ∉ d.map Prod.fst → d.map Prod.fst = e.map Prod.fst →
      (∀ p ∈ d.zip e, Indexed n p.1.2 p.2.2) → Indexed n (.dict d) (.dict e)
  | several (l m) : l.length = m.length → (∀ x ∈ l, ∃ d, x = .dict d) →
      (∀ p ∈ l.zip m, Indexed n p.1 p.2) → Indexed n (.list l) (.list m)
  | other (v) : (∀ d, v ≠ .dict d) → (∀ l, v ≠ .list l) → Indexed n v v

/-- An element of only text: no attribute, no child. -/
def Bare (e : Elem) : Prop := e.attrs = [] ∧ e.children = [] ∧ ∃ s, e.text = some s ∧ Visible s

/-- The element has a language. -/
def Tongue (e : Elem) : Prop := ∃ a ∈ e.attrs, localName a.1 = c!"lang"

/-- Somewhere in the element, not below a text with a language, a bare text has a sibling of the same
name. -/
inductive Stuck : Elem → Prop
  | here (e : Elem) (p q : Nat) (c c' : Elem) : ¬ Tongue e → p ≠ q → e.children[p]? = some c →
      e.children[q]? = some c' → localName c.tag = localName c'.tag → Bare c → Stuck e
  | deep (e c : Elem) : ¬ Tongue e → c ∈ e.children → Stuck c → Stuck e

end Verif.PlaceIndex.Spec
