/-
What the classifications of an ILCD data set should be, without the way they are made.
-/
import Verif.Model.Classes

namespace Verif.Classes.Spec

/-- Every category of a section of the classification file, given by the way that leads to it: the pairs of
identifier and name from the main category down. -/
def ways (sec : List ((Str × Str) × List (Str × Str))) : List (List (Str × Str)) :=
  sec.flatMap fun p => [p.1] :: p.2.map fun q => [p.1, q]

/-- The classes of a classification are a category of the file, with its identifiers and names. -/
def Listed (sec : List ((Str × Str) × List (Str × Str))) (path : List Class) : Prop :=
  ∃ w ∈ ways sec, path = w.mapIdx fun i p => ⟨i, p.1, p.2⟩

/-- The same for the names alone. -/
def NameListed (sec : List ((Str × Str) × List (Str × Str))) (names : List Str) : Prop :=
  ∃ w ∈ ways sec, names = w.map (·.2)

instance (sec : List ((Str × Str) × List (Str × Str))) (path : List Class) : Decidable (Listed sec path) :=
  inferInstanceAs (Decidable (∃ w ∈ ways sec, _))

instance (sec : List ((Str × Str) × List (Str × Str))) (ns : List Str) : Decidable (NameListed sec ns) :=
  inferInstanceAs (Decidable (∃ w ∈ ways sec, _))

/-- The classes stand for the class `cls` of the row: numbered from 0, the names put together with "/" are
`cls`, none of them contains a "/". -/
structure Path (cls : Str) (path : List Class) : Prop where
  ne : path ≠ []
  level : ∀ i (k : Class), path[i]? = some k → k.level = i
  names : join c!"/" (path.map fun k => k.text) = cls
  single : ∀ k ∈ path, '/' ∉ k.text

/-- `i` is the part of the identifier `full` before one of its dots, the `n`-th one, or `full` itself where it
has fewer. -/
def IdPart (n : Nat) (i full : Str) : Prop :=
  (∃ rest, full = i ++ '.' :: rest ∧ i.count '.' = n) ∨ (i = full ∧ full.count '.' ≤ n)

/-- A text without the blanks that follow a colon directly (one blank for each colon). -/
def tight : Str → Str
  | ':' :: ' ' :: r => ':' :: tight r
  | c :: r => c :: tight r
  | [] => []

/-- The row belongs to the mapping file that comes with the package. -/
def Shipped (m : Mapping) : Prop := ∀ e ∈ m, (e.2.clsId, e.2.cls) ∈ mappedPairs

/-- A target in a file of the folder `folder`, seen from the folder of the data base: `..` leads back there. -/
def resolve (folder uri : Str) : Str :=
  match uri with
  | '.' :: '.' :: '/' :: r => r
  | r => folder ++ c!"/" ++ r

end Verif.Classes.Spec
