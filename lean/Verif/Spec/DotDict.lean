/-
Vocabulary of the statements about data set trees, independent of how assignments are executed.
-/
import Verif.Model.DotDict

namespace Verif.DotDict

variable {K V R O : Type}

/-- The shape a field prescribes for its stored value: a validator object, or a list of instances
that is not empty and, for a single-valued field, has one element. -/
def ShapeOk (f : Field K) : Val V → Prop
  | .leaf _ => ∃ kind, f.type = .leaf kind
  | .nodes l => (∃ c, f.type = .sub c) ∧ l ≠ [] ∧ (f.unique = true → l.length = 1)

/-- A tree that only holds fields of the format, at every depth, each at most once and with the
prescribed shape. -/
inductive WF (S : Schema K) : Node V → Prop where
  | mk {c : Cls} {items : List (Key × Val V)}
      (known : ∀ k v, (k, v) ∈ items → ∃ f, lookup k (S c) = some f ∧ ShapeOk f v)
      (nodup : (items.map Prod.fst).Nodup)
      (deep : ∀ k l, (k, Val.nodes l) ∈ items → ∀ m ∈ l, WF S m) : WF S (.mk c items)

/-- A tree whose nested instances are of the class the format prescribes, at every depth. -/
inductive Classes (S : Schema K) : Node V → Prop where
  | mk {c : Cls} {items : List (Key × Val V)}
      (cls : ∀ k l, (k, Val.nodes l) ∈ items → ∀ f, lookup k (S c) = some f →
        ∀ m ∈ l, f.type = .sub m.cls)
      (deep : ∀ k l, (k, Val.nodes l) ∈ items → ∀ m ∈ l, Classes S m) : Classes S (.mk c items)

/-- Assigned values all of whose ready-made instances satisfy `P`. -/
inductive ArgOk (P : Node V → Prop) : Arg V R → Prop where
  | raw (r : R) : ArgOk P (.raw r)
  | absent : ArgOk P .absent
  | dict (items : List (Key × List (Arg V R)))
      (h : ∀ k as, (k, as) ∈ items → ∀ a ∈ as, ArgOk P a) : ArgOk P (.dict items)
  | node (n : Node V) (h : P n) : ArgOk P (.node n)

/-- Operations all of whose values are `ArgOk`. -/
def OpOk (P : Node V → Prop) : Op V R → Prop
  | .set _ _ value => ∀ a ∈ value, ArgOk P a
  | .read _ => True

/-- The instance at the end of a path, if it is there. -/
def nodeAt : List Key → Node V → Option (Node V)
  | [], n => some n
  | k :: ks, n =>
    match lookup k n.items with
    | some (.nodes (m :: _)) => nodeAt ks m
    | _ => none

/-- The validator object stored under a field at the end of a path. -/
def leafAt (path : List Key) (k : Key) (n : Node V) : Option V :=
  match nodeAt path n with
  | none => none
  | some m =>
    match lookup k m.items with
    | some (.leaf v) => some v
    | _ => none

/-- A tree that can be written: at every depth the mandatory fields are there and the values of the
fields are accepted by their final check. -/
inductive Complete (S : Schema K) (vs : Validators K V R O) : Node V → Prop where
  | mk {c : Cls} {items : List (Key × Val V)}
      (mand : ∀ k f, (k, f) ∈ S c → f.mandatory = true → ∃ v, (k, v) ∈ items)
      (leaf : ∀ k v, (k, Val.leaf v) ∈ items → ∃ o, vs.fin v = .ok o)
      (deep : ∀ k l, (k, Val.nodes l) ∈ items → ∀ m ∈ l, Complete S vs m) :
      Complete S vs (.mk c items)

/-- The XML name a field is written with. -/
inductive XmlName : Key → Field K → Str → Prop where
  | plain {k f} : f.xmlType = none → f.xmlNms = none → XmlName k f k
  | nms {k f n} : f.xmlType = none → f.xmlNms = some n → XmlName k f (n ++ ':' :: k)
  | attr {k f} : f.xmlType = some c!"attribute" → f.xmlNms = none → XmlName k f ('@' :: k)
  | attrNms {k f n} : f.xmlType = some c!"attribute" → f.xmlNms = some n →
      XmlName k f ('@' :: n ++ ':' :: k)
  | common {k f} : f.xmlType = some c!"nms:common" → f.xmlNms = none →
      XmlName k f (c!"common:" ++ k)
  | text {k f} : f.xmlType = some c!"text" → f.xmlNms = none → XmlName k f ('#' :: k)

end Verif.DotDict
