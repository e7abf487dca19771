/-
What the text fields should hold, stated on the entries given.
-/
import Verif.Model.PyVal
import Mathlib.Data.List.Forall2

namespace Verif.LangText.Spec

/-- `d` associates `v` to the key `k`. -/
def Has (d : List (Str × PyVal)) (k : Str) (v : PyVal) : Prop :=
  ∃ a b, d = a ++ (k, v) :: b ∧ ∀ p ∈ a, p.1 ≠ k

/-- A triple of index, language and text. -/
structure Given where
  index : Int
  lang : Str
  text : Str
  deriving DecidableEq

/-- `x` is a well-formed entry: a dictionary with exactly the keys `@index` (an integer or the text
of one), `@lang` (two characters, one of `langs` if there is such a list) and `#text` (a text). -/
def IsEntry (langs : Option (List Str)) (x : PyVal) (e : Given) : Prop :=
  ∃ d v, x = .dict d ∧ (∀ p ∈ d, p.1 = c!"@index" ∨ p.1 = c!"@lang" ∨ p.1 = c!"#text") ∧
    Has d c!"#text" (.str e.text) ∧ Has d c!"@index" v ∧ v.toInt = some e.index ∧
    Has d c!"@lang" (.str e.lang) ∧ e.lang.length = 2 ∧ ∀ ls, langs = some ls → e.lang ∈ ls

/-- The items of an argument: a list of entries or a single one. -/
def items : PyVal → List PyVal
  | .list l => l
  | x => [x]

/-- The text is not blank. -/
def Visible (s : Str) : Prop := ∃ c ∈ s, pySpace c = false

instance (s : Str) : Decidable (Visible s) := by unfold Visible; infer_instance

/-- The entries accepted in a history of additions: an addition counts if all its entries are
well-formed; blank texts are left out. -/
inductive Accepted (langs : Option (List Str)) : List PyVal → List Given → Prop
  | nil : Accepted langs [] []
  | good {o os es r} : List.Forall₂ (IsEntry langs) (items o) es → Accepted langs os r →
      Accepted langs (o :: os) (es.filter (fun e => Visible e.text) ++ r)
  | bad {o os r} : (¬ ∃ es, List.Forall₂ (IsEntry langs) (items o) es) → Accepted langs os r →
      Accepted langs (o :: os) r

/-- Texts with the same index and language: joined by the separator, or the last one. -/
def combine (sep : Option Str) (l : List Str) : Str :=
  match sep with
  | some s => join s l
  | none => l.getLastD []

/-- The texts given for an index and a language, in order. -/
def textsOf (es : List Given) (i : Int) (L : Str) : List Str :=
  (es.filter fun e => e.index = i ∧ e.lang = L).map (·.text)

/-- The text of language `L`: one paragraph per index used, by increasing index. -/
def IsText (sep : Option Str) (es : List Given) (L t : Str) : Prop :=
  ∃ idx : List Int, idx.Pairwise (· < ·) ∧
    (∀ i, i ∈ idx ↔ ∃ e ∈ es, e.lang = L ∧ e.index = i) ∧
    t = join c!"\n" (idx.map fun i => combine sep (textsOf es i L))

/-- Strictly before, in the order of code points. -/
def Before (a b : Str) : Prop :=
  (∃ t, t ≠ [] ∧ b = a ++ t) ∨ ∃ p x y s t, a = p ++ x :: s ∧ b = p ++ y :: t ∧ x < y

end Verif.LangText.Spec
