/-
What is expected of the properties of an exchange of EcoSpold2, in terms of the flow properties in the file of the flow.
-/
import Verif.Model.IlcdProps

namespace Verif.IlcdProps.Spec
open Verif.Units

/-- The last flow property with the name `n` besides the reference property. -/
def LastNamed (file : List FileProp) (ref n : Str) (x : FileProp) : Prop :=
  ∃ l r, file = l ++ x :: r ∧ x.internalId ≠ ref ∧ x.names = [n] ∧ ∀ y ∈ r, y.internalId ≠ ref → y.names ≠ [n]

def Contains (w k : Str) : Prop := ∃ a b, k = a ++ w ++ b

section
variable {K : Type}

/-- The file gives the value `a` under the name `n`, for a property that EcoSpold2 knows as `fp`. -/
def Given (env : Env K) (file : List FileProp) (ref n : Str) (fp : Ecs) (a : K) : Prop :=
  ∃ x, LastNamed file ref n x ∧ aget x.id ilcdToEcsFp = some fp ∧ env.flt x.value = .ok a

/-- The file gives a water content, and the masses follow from it. -/
def Water (env : Env K) (file : List FileProp) (ref unit : Str) (w : K) : Prop :=
  unit ≠ c!"m**3" ∧ ∃ fp, Given env file ref c!"water content" fp w

/-- The names that the masses have in EcoSpold2. -/
def massNames : List Str := [c!"wet mass", c!"dry mass", c!"water in wet mass"]

variable [Field K]

/-- The mass of dry matter in a unit of the product. -/
inductive Dry (env : Env K) (file : List FileProp) (ref unit : Str) : Option K → Prop
  | water {w : K} (h : Water env file ref unit w) : Dry env file ref unit (some (1 - w))
  | given {fp : Ecs} {d : K} (hn : ∀ w, ¬ Water env file ref unit w) (h : Given env file ref c!"dry mass" fp d) :
    Dry env file ref unit (some d)
  | unknown (hn : ∀ w, ¬ Water env file ref unit w) (hd : ∀ fp d, ¬ Given env file ref c!"dry mass" fp d) :
    Dry env file ref unit none

/-- `b` is the content per dry mass for the content `a` per unit of the product; where the dry mass is not known it
counts as 1, and a product without dry matter gets 0. -/
def PerDry (dry : Option K) (a b : K) : Prop :=
  match dry with
  | none => b = a
  | some d => (d ≠ 0 → b * d = a) ∧ (d = 0 → b = 0)

/-- A property that is not a content, or a content without a variant for the unit of the product. -/
inductive Expected (unit : Str) (dry : Option K) (n : Str) (fp : Ecs) (a : K) : Written K → Prop
  | other (h : ¬ Contains c!" content" n) :
    Expected unit dry n fp a ⟨some fp.id, some fp.name, fp.unitName, fp.unitId, some a⟩
  | content (h : Contains c!" content" n) (hm : unit = c!"kg" → fp.mass = none)
    (hv : unit = c!"m**3" → fp.volume = none) {b : K} (hb : PerDry dry a b) :
    Expected unit dry n fp a ⟨some fp.id, some fp.name, fp.unitName, fp.unitId, some b⟩
  | mass (h : Contains c!" content" n) (hu : unit = c!"kg") {i m : Str} (hm : fp.mass = some (i, m)) :
    Expected unit dry n fp a ⟨some i, some m, c!"kg/kg", c!"83ecd334-1b5b-4784-8938-6a0d0a9d8954", some a⟩
  | volume (h : Contains c!" content" n) (hu : unit = c!"m**3") {i m : Str} (hm : fp.volume = some (i, m)) :
    Expected unit dry n fp a ⟨some i, some m, c!"kg/m3", c!"cacb6d36-694d-4e4f-9e79-6c9c73146839", some a⟩

/-- A mass that follows from the water content `w`. -/
inductive Mass (w : K) : Written K → Prop
  | wet : Mass w ⟨some c!"67f102e2-9cb6-4d20-aa16-bf74d8a03326", some c!"wet mass", c!"kg", c!"487df68b-4994-4027-8fdc-a4dc298257b7", some 1⟩
  | dry : Mass w ⟨some c!"3a0af1d6-04c3-41c6-a3da-92c4f61e0eaa", some c!"dry mass", c!"kg", c!"487df68b-4994-4027-8fdc-a4dc298257b7", some (1 - w)⟩
  | water : Mass w ⟨some c!"6d9e1462-80e3-4f10-b3f4-71febd6f1168", some c!"water in wet mass", c!"kg", c!"487df68b-4994-4027-8fdc-a4dc298257b7", some w⟩

/-- A property of the exchange from the file of its flow. -/
inductive FromFile (env : Env K) (file : List FileProp) (ref unit : Str) (o : Written K) : Prop
  | given {n : Str} {fp : Ecs} {a : K} {dry : Option K} (h : Given env file ref n fp a)
    (hn : n ∈ massNames → ∀ w, ¬ Water env file ref unit w) (hd : Dry env file ref unit dry)
    (he : Expected unit dry n fp a o) : FromFile env file ref unit o
  | mass {w : K} (h : Water env file ref unit w) (hm : Mass w o) : FromFile env file ref unit o

end

/-- The name of the heating value of the kind in EcoSpold2. -/
def heatingName : Energy → Str
  | .net => c!"heating value, net"
  | .gross => c!"heating value, gross"

/-- The flow property is a heating value of the kind. -/
def Heating (k : Energy) (x : FileProp) : Prop := (aget x.id ilcdToEcsFp).map (·.name) = some (heatingName k)

instance (k : Energy) (x : FileProp) : Decidable (Heating k x) := inferInstanceAs (Decidable (_ = _))

/-- How many heating values of the kind the file has besides the reference property. -/
def heatings (k : Energy) (ref : Str) (file : List FileProp) : Nat :=
  (file.filter fun x => decide (x.internalId ≠ ref) && decide (Heating k x)).length

end Verif.IlcdProps.Spec
