/-
What the flow data sets of a conversion should be, without the way they are made.
-/
import Verif.Model.FlowFiles
import Verif.Spec.Validators

namespace Verif.FlowFiles.Spec

open Verif.Validators.Spec (firstOccurrences UuidText VersionText)

variable {P I : Type}

/-- The properties of the intermediate exchanges of the flow `fid`, in their order. -/
def propsOf (fid : Str) (l : List (Exchange P I)) : List P :=
  l.filterMap fun
    | .intermediate f fp _ => if f = fid then some fp else none
    | .elementary .. => none

/-- The different sets of properties of a flow in a data set, in the order of their first appearance. -/
def sets [DecidableEq P] (fid : Str) (l : List (Exchange P I)) : List P := firstOccurrences (propsOf fid l)

/-- The description in the first exchange of the flow with these properties. -/
def firstInfo [DecidableEq P] (fid : Str) (fp : P) (l : List (Exchange P I)) : Option I :=
  l.findSome? fun
    | .intermediate f fp' i => if f = fid ∧ fp' = fp then some i else none
    | .elementary .. => none

/-- The target `../flows/name` stands for the file `name.xml` in the folder. -/
def LeadsTo (files : List (Str × Content P I)) (r : Ref) (c : Content P I) : Prop :=
  ∃ name, r.uri = c!"../flows/" ++ name ∧ aget (name ++ c!".xml") files = some c

/-- No intermediate exchange has the identifier of an elementary one. -/
def Apart (l : List (Exchange P I)) : Prop :=
  ∀ f fp i t fp', Exchange.intermediate f fp i ∈ l → Exchange.elementary f t fp' ∉ l

/-- Different flows have different identifiers in ILCD, and identifiers have no `_`. -/
structure Names (env : Env) (l : List (Exchange P I)) : Prop where
  inj : ∀ f fp i f' fp' i' id, Exchange.intermediate f fp i ∈ l → Exchange.intermediate f' fp' i' ∈ l →
    env.conv f = .ok id → env.conv f' = .ok id → f = f'
  bare : ∀ f fp i id, Exchange.intermediate f fp i ∈ l → env.conv f = .ok id → '_' ∉ id
  target : ∀ f t fp, Exchange.elementary f t fp ∈ l → '_' ∉ t

/-- The last data set with at least `k + 1` sets of properties of the flow: the `k`th one there and its description. -/
def lastSet [DecidableEq P] (fid : Str) (k : Nat) : List (List (Exchange P I)) → Option (P × I)
  | [] => none
  | d :: ds =>
    match lastSet fid k ds with
    | some x => some x
    | none => (sets fid d)[k]?.bind fun fp => (firstInfo fid fp d).map fun i => (fp, i)

/-- The version in a default file is of the form `dd.dd.ddd`. -/
def ThreeParts (v : Str) : Prop :=
  ∃ a b c, v = a ++ c!"." ++ b ++ c!"." ++ c ∧ a.length = 2 ∧ b.length = 2 ∧ c.length = 3 ∧
    ∀ x ∈ a ++ b ++ c, x.isDigit = true

/-- The version of a reference to a default file with the version `v`: its first three parts, the third as a number of at
least three digits. -/
def VersionOf (v w : Str) : Prop :=
  ∃ a b c rest n, splitOn '.' v = a :: b :: c :: rest ∧ parseInt c = some n ∧
    w = a ++ c!"." ++ b ++ c!"." ++ List.replicate (3 - (intStr n).length) '0' ++ intStr n

/-- What an exchange needs to be converted. -/
def Convertible (env : Env) : Exchange P I → Prop
  | .intermediate fid _ _ => ∃ id, env.conv fid = .ok id ∧ UuidText (id.take 36)
  | .elementary _ t _ => UuidText (t.take 36) ∧ ∃ v w x y, env.version t = some v ∧ VersionOf v w ∧ w = x ++ y ∧
      VersionText (fun c => env.cls.digit c = true) x

/-- What the exchange should find at its reference: its own properties, in the version of the reference; or the default
file of its target. -/
def Finds [DecidableEq P] (l : List (Exchange P I)) (files : List (Str × Content P I)) (r : Ref) : Exchange P I → Prop
  | .intermediate fid fp _ => ∃ i, firstInfo fid fp l = some i ∧ LeadsTo files r (.made r.version fp i)
  | .elementary _ t _ => LeadsTo files r (.copied t)

end Verif.FlowFiles.Spec
