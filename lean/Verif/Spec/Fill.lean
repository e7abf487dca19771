/-
What a list of assignments gives to a data set, stated on the list alone: the groups it touches, the
fields it gives a value, and the single-valued fields it gives several.
-/
import Verif.Model.DotDict
import Verif.Spec.DotDict

namespace Verif.DotDict

variable {K V R O : Type}

/-- The group an operation works on. -/
def Op.path : Op V R → List Key
  | .set p _ _ => p
  | .read p => p

/-- A group that is touched: the data set itself, or a group on the way to an operation. -/
def Reached (ops : List (Op V R)) (p : List Key) : Prop := p = [] ∨ ∃ op ∈ ops, p <+: op.path

/-- A field that is assigned a value. -/
def Assigned (ops : List (Op V R)) (p : List Key) (k : Key) : Prop :=
  ∃ v, Op.set p k v ∈ ops ∧ v ≠ []

/-- A field that is there at the end: assigned, or a group that is touched. -/
def Given (ops : List (Op V R)) (p : List Key) (k : Key) : Prop :=
  Assigned ops p k ∨ Reached ops (p ++ [k])

/-- The class of a group of a data set of class `c`. -/
def classAt (S : Schema K) : Cls → List Key → Option Cls
  | c, [] => some c
  | c, k :: p =>
    match lookup k (S c) with
    | some f =>
      match f.type with
      | .sub c' => if f.unique then classAt S c' p else none
      | .leaf _ => none
    | none => none

/-- Every touched group has its mandatory fields. -/
def AllMandatory (S : Schema K) (c : Cls) (ops : List (Op V R)) : Prop :=
  ∀ p c', Reached ops p → classAt S c p = some c' →
    ∀ k f, (k, f) ∈ S c' → f.mandatory = true → Given ops p k

/-- The single-valued field an operation assigns, once for every value. -/
def singles (S : Schema K) (c : Cls) : Op V R → List (List Key × Key)
  | .read _ => []
  | .set p k v =>
    match classAt S c p with
    | none => []
    | some c' =>
      match lookup k (S c') with
      | some f => if f.unique then List.replicate v.length (p, k) else []
      | none => []

/-- No single-valued field is assigned twice. -/
def OnceEach (S : Schema K) (c : Cls) (ops : List (Op V R)) : Prop :=
  (ops.flatMap (singles S c)).Nodup

/-- A value the field takes: its validator accepts it whatever is stored already, or an instance can
be made of it. -/
def Accepted (S : Schema K) (vs : Validators K V R O) (asRaw : Arg V R → R) (f : Field K)
    (a : Arg V R) : Prop :=
  match f.type with
  | .leaf kind => ∀ s, ∃ s', vs.add kind s (asRaw a) = .ok s'
  | .sub c => ∃ m, construct S vs asRaw c a = .ok m

/-- An operation on an existing group and field of the format with accepted values. -/
def Fits (S : Schema K) (vs : Validators K V R O) (asRaw : Arg V R → R) (c : Cls) (op : Op V R) :
    Prop :=
  match op with
  | .read p => ∃ c', classAt S c p = some c'
  | .set p k v => normKey k = some k ∧ ∃ c' f, classAt S c p = some c' ∧ lookup k (S c') = some f ∧
      ∀ a ∈ v, Accepted S vs asRaw f a

/-- The instances made of values assigned to a field for instances have their mandatory fields. -/
def GoodValues (S : Schema K) (vs : Validators K V R O) (asRaw : Arg V R → R) (c : Cls) (op : Op V R) :
    Prop :=
  match op with
  | .read _ => True
  | .set p k v => ∀ c' f d, classAt S c p = some c' → lookup k (S c') = some f → f.type = .sub d →
      ∀ a ∈ v, ∀ m, construct S vs asRaw d a = .ok m → Complete S vs m

/-- No field is both assigned and used as a group. -/
def NoClash (ops : List (Op V R)) : Prop :=
  ∀ p k v, Op.set p k v ∈ ops → ∀ op ∈ ops, ¬ (p ++ [k] <+: op.path)

end Verif.DotDict
