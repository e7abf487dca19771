/-
What the names, identifiers and the location of an activity should be, stated on the elements of the file.
-/
import Verif.Model.Naming
import Verif.Spec.LangText
import Verif.Spec.Validators

namespace Verif.Naming.Spec
open Verif.LangText.Spec

/-- The language and the text of an element: a bare text and a text without a language are English. -/
inductive Says : PyVal → Str → Str → Prop
  | bare (s : Str) : Says (.str s) c!"en" s
  | tagged {d : List (Str × PyVal)} {l s : Str} : Has d c!"#text" (.str s) → Has d c!"@lang" (.str l) →
      Says (.dict d) l s
  | untagged {d : List (Str × PyVal)} {s : Str} : Has d c!"#text" (.str s) → (∀ p ∈ d, p.1 ≠ c!"@lang") →
      Says (.dict d) c!"en" s

/-- The text names an identifier: the first whole line end `Activity Linkable Id: ` with an identifier. -/
def Link (t u : Str) : Prop :=
  ∃ a r, t = a ++ (c!"Activity Linkable Id: " ++ (u ++ '\n' :: r)) ∧ Validators.Spec.UuidText u ∧
    ∀ a' u' r', t = a' ++ (c!"Activity Linkable Id: " ++ (u' ++ '\n' :: r')) → Validators.Spec.UuidText u' →
      a.length ≤ a'.length

/-- What an element says about the identifier of the name: the name itself, of which it is computed, or a line of
the comment. -/
inductive Tells (hash : Str → Str) : Item → Option Str → Prop
  | base {x l s} : Says x l s → Tells hash (.baseName x) (some (hash s))
  | link {x l s u} : Says x l s → Link s u → Tells hash (.comment x) (some u)
  | noLink {x l s} : Says x l s → (∀ u, ¬ Link s u) → Tells hash (.comment x) none
  | uuid {x} : Tells hash (.uuid x) none
  | part {x} : Tells hash (.namePart x) none
  | year {x} : Tells hash (.year x) none
  | validUntil {x} : Tells hash (.validUntil x) none
  | location {x} : Tells hash (.location x) none

/-- The last of the values that are there. -/
def lastSome {α : Type} (l : List (Option α)) : Option α := (l.filterMap id).getLast?

/-- The element is part of the name and says this. -/
inductive Part : Item → Str × Str → Prop
  | base {x l s} : Says x l s → Part (.baseName x) (l, s)
  | part {x l s} : Says x l s → Part (.namePart x) (l, s)

/-- The elements that are parts of the name. -/
def isName : Item → Bool
  | .baseName _ => true
  | .namePart _ => true
  | _ => false

/-- The parts of the name that show, in the order of the file. -/
def Parts (items : List Item) (ps : List (Str × Str)) : Prop :=
  ∃ qs, List.Forall₂ Part (items.filter isName) qs ∧ ps = qs.filter fun p => Visible p.2

/-- The identifier listed for a location. -/
def Listed (x g : Str) : Prop := ∃ a b, geographies = a ++ (x, g) :: b ∧ ∀ p ∈ a, p.1 ≠ x

/-- The location is not listed. -/
def Unlisted (x : Str) : Prop := ∀ p ∈ geographies, p.1 ≠ x

/-- The identifier of a location. -/
def PlaceId (hash : Str → Str) (x g : Str) : Prop := Listed x g ∨ (Unlisted x ∧ g = hash x)

/-- The texts of one language, in order. -/
def inLang (L : Str) (ps : List (Str × Str)) : List Str := (ps.filter fun p => p.1 = L).map Prod.snd

/-- One text for each language, by language: the texts of the language joined by semicolons. -/
def Joined (ps out : List (Str × Str)) : Prop :=
  (out.map Prod.fst).Pairwise Before ∧ (∀ L, L ∈ out.map Prod.fst ↔ L ∈ ps.map Prod.fst) ∧
    ∀ q ∈ out, q.2 = join c!"; " (inLang q.1 ps)

end Verif.Naming.Spec
