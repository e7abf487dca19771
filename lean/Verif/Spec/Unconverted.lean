/-
What the format allows for the attributes that are recorded.
-/
import Verif.Py

namespace Verif.Unconverted.Spec

/-- An attribute that is there and not empty has the value `v`. -/
def Has (x : List (Str × Str)) (a v : Str) : Prop := v ≠ [] ∧ (x.find? (fun p => p.1 == a)).map Prod.snd = some v

/-- A value of `xs:boolean`. -/
def IsBool (v : Str) : Prop := v = c!"true" ∨ v = c!"false" ∨ v = c!"1" ∨ v = c!"0"

/-- A value of `xs:boolean`, or the words Python uses. -/
def LooseBool (v : Str) : Prop := IsBool v ∨ v = c!"True" ∨ v = c!"False"

/-- The attribute is there, perhaps empty. -/
def There (x : List (Str × Str)) (a : Str) : Prop := a ∈ x.map Prod.fst

/-- The attribute is missing or empty. -/
def Lacks (x : List (Str × Str)) (a : Str) : Prop := ∀ v, ¬Has x a v

/-- The attributes of `x` named in `l` are such values, if they are there and not empty. -/
def Bools (x : List (Str × Str)) (l : List Str) : Prop := ∀ a ∈ l, ∀ v, Has x a v → LooseBool v

end Verif.Unconverted.Spec
