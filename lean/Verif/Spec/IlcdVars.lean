/-
What a formula means, without its grammar: the sequence of its words, with the values of the variables in
the places of their names. Two formulas with the same sequence have the same value in every grammar.
-/
import Verif.Model.IlcdVars

namespace Verif.IlcdVars.Spec

/-- A character of a name. -/
def wordChar (c : Char) : Bool :=
  isLetter c || (decide ('0' ≤ c) && decide (c ≤ '9')) || c = '_'

/-- The words of a formula: the longest runs of characters of names, and the other characters. -/
def tokens : Str → List Str
  | [] => []
  | c :: s =>
    if wordChar c then
      match s, tokens s with
      | d :: _, t :: ts => if wordChar d then (c :: t) :: ts else [c] :: t :: ts
      | _, ts => [c] :: ts
    else [c] :: tokens s

/-- A name: not empty and only characters of names. -/
def IsWord (n : Str) : Prop := n ≠ [] ∧ ∀ c ∈ n, wordChar c = true

/-- The words of a formula with values for the variables. -/
def meaning {α : Type} (value : Str → Option α) (f : Str) : List (α ⊕ Str) :=
  (tokens f).map fun t => match value t with
    | some v => .inl v
    | none => .inr t

/-- No name stands inside another word of the formula. -/
def Separate (names : List Str) (f : Str) : Prop :=
  ∀ t ∈ tokens f, ∀ n ∈ names, (∃ a b, t = a ++ n ++ b) → n = t

/-- A definition that uses the name it defines. -/
def Circular (d : Def) : Prop := ∃ f, d.formula = some f ∧ d.name ∈ tokens f

end Verif.IlcdVars.Spec
