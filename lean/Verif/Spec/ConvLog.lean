import Verif.Model.ConvLog

/-! What the list of flows that were not converted should hold. -/

namespace Verif.ConvLog.Spec

/-- The events of a log: the beginning of a flow, a flow that is not converted, anything else. -/
inductive Event where
  | start (name id : Str)
  | lost (inTable : Bool)
  | other (e : Entry)

/-- The entry of an event. -/
def entry : Event → Entry
  | .start n i => started n i
  | .lost b => notConverted b
  | .other e => e

/-- The flows whose beginning is directly followed by the message that they are not converted. -/
def reported : List Event → List (Str × Str)
  | .start n i :: .lost b :: l => (n, i) :: reported (.lost b :: l)
  | _ :: l => reported l
  | [] => []

/-- A name that fits on a line: not empty, no white space other than blanks. -/
def PlainName (n : Str) : Prop := n ≠ [] ∧ ∀ c ∈ n, pySpace c = false ∨ c = ' '

/-- An identifier of 36 small hexadecimal digits and hyphens. -/
def PlainId (i : Str) : Prop := i.length = 36 ∧ ∀ c ∈ i, idChar c = true

/-- `x` occurs in `s`. -/
def Occurs (x s : Str) : Prop := ∃ a b, s = a ++ x ++ b

/-- An entry that is not taken for another one: it does not hold the beginning of an entry, and apart from signs in
front it does not begin like the entries of flows. -/
def Quiet (word : Char → Bool) (e : Entry) : Prop :=
  ¬ Occurs c!"INFO -" e.msg ∧
  ∀ w r, e.msg = w ++ r → (∀ c ∈ w, word c = false) →
    (e.level = .info → ¬ ∃ b, r = c!"Starting conversion of flow " ++ b) ∧
    (e.level = .warning → ¬ ∃ b, r = c!"Flow not converted " ++ b)

/-- An event of this kind. -/
def Plain (word : Char → Bool) : Event → Prop
  | .start n i => PlainName n ∧ PlainId i ∧ ¬ Occurs c!"INFO -" n
  | .lost _ => True
  | .other e => Quiet word e

/-- What is asked of `\w`: letters of the fixed texts are word characters, blanks, tabulators and line ends are not. -/
structure Words (word : Char → Bool) : Prop where
  s : word 'S' = true
  f : word 'F' = true
  i : word 'I' = true
  w : word 'W' = true
  blank : word ' ' = false
  tab : word '\t' = false
  newline : word '\n' = false

/-- The flow is not converted. -/
def IsLost : Fate → Prop
  | .lost _ => True
  | .converted _ => False

instance : DecidablePred IsLost := fun f => by cases f <;> unfold IsLost <;> infer_instance

/-- The further entries of a flow are not taken for others. -/
def QuietFate (word : Char → Bool) : Fate → Prop
  | .lost _ => True
  | .converted l => ∀ e ∈ l, Quiet word e

/-- A normal or lognormal distribution without a basic variance. -/
def NoBasic (x : Exch) : Prop := (x.unc = some c!"normal" ∨ x.unc = some c!"log-normal") ∧ x.basic = false

instance : DecidablePred NoBasic := fun x => by unfold NoBasic; infer_instance

/-- ASCII letters, digits and the underscore: an instance of `\w`. -/
def asciiWord (c : Char) : Bool := c.isAlphanum || c = '_'

end Verif.ConvLog.Spec
