/-
What a user expects of the exchanges of an ILCD data set that was converted to EcoSpold2 and back.
-/
import Verif.Model.RoundIlcd
import Verif.Spec.RoundTrip

namespace Verif.RoundIlcd.Spec

open IlcdFlows (Exch)
open IlcdFlows.Spec (IsProduct IsElementary HasUnit Value)
open RoundTrip (Doc)

section

variable {P D : Type}

/-- What is taken for granted: the identifiers are converted there and back with the same key, those of the products are UUIDs in
small letters, the flows of the second table are UUIDs, and no product has the identifier of an elementary flow, in ILCD or in
EcoSpold2. -/
structure Setting (env1 : IlcdFlows.Env ℝ D) (env2 : EcsFlows.Env P) (fenv : FlowFiles.Env) (E : Uuid.BlockFn) (xs : List (Exch ℝ)) :
    Prop where
  conv : env1.convId = Uuid.ilcdToEcs E
  conv2 : env2.conv = Uuid.ecsToIlcd E
  fconv : fenv.conv = Uuid.ecsToIlcd E
  ids : ∀ x ∈ xs, ∀ f, IsProduct env1 x f → Uuid.IsLowerUuid x.fid
  targets : ∀ y ∈ xs, ∀ g r r', IsElementary env1 y g → IlcdFlows.Spec.Mapped env1 y.fid r →
    EcsFlows.Spec.Mapped env2.mapping r.target r' → Validators.Spec.UuidText r'.target
  apart : ∀ x ∈ xs, ∀ y ∈ xs, ∀ f g r r', IsProduct env1 x f → IsElementary env1 y g → IlcdFlows.Spec.Mapped env1 y.fid r →
    EcsFlows.Spec.Mapped env2.mapping r.target r' → x.fid ≠ r'.target ∧ Uuid.ilcdToEcs E x.fid ≠ .ok r.target

/-- The numbers written in the EcoSpold2 data set are read as they were written. -/
def Legible (env2 : EcsFlows.Env P) (shown : ℝ → Str) (flows : List (IlcdFlows.Flow ℝ)) : Prop :=
  ∀ fl ∈ flows, env2.flt (shown fl.field.amount) = .ok fl.field.amount

/-- The units have sizes, none of them zero. -/
def Sizes (env1 : IlcdFlows.Env ℝ D) (scale : Str → ℝ) : Prop := ∀ u d c, env1.unit u = .ok (d, c) → scale u = c ∧ c ≠ 0

/-- The exchange is a product that EcoSpold2 has a unit for. -/
def Product (env1 : IlcdFlows.Env ℝ D) (x : Exch ℝ) : Prop := ∃ f i n, IsProduct env1 x f ∧ HasUnit env1 f i n

/-- The exchange is a reference flow of the data set. -/
def Reference (env1 : IlcdFlows.Env ℝ D) (x : Exch ℝ) : Prop := x.internalId ∈ env1.refs

open Classical in
/-- The direction of a product after both conversions: reference flows are outputs. -/
noncomputable def dirBack (env1 : IlcdFlows.Env ℝ D) (x : Exch ℝ) : EcsFlows.Dir :=
  if ¬ Reference env1 x ∧ x.dir = c!"Input" then .input else .output

open Classical in
/-- The type of a flow after both conversions, from the exchange that describes it: an output of the type `Waste flow` that is no
reference flow is a waste, all others are products. -/
noncomputable def typeBack (env1 : IlcdFlows.Env ℝ D) (y : Exch ℝ) (f : IlcdFlows.FlowFile) : EcsFlows.FType :=
  if ¬ Reference env1 y ∧ y.dir ≠ c!"Input" ∧ f.typ = some c!"Waste flow" then .waste else .product

/-- The uncertainty of the amount `a` of ILCD in another unit that is `c` times as small, as ILCD has it: the distribution stays,
with its relative or absolute width. The bounds of the lognormal and the normal distribution are those of the width. -/
def BoundsBack (a c : ℝ) (u : Option (IlcdFlows.Unc ℝ)) (b : Option Uncertainty.Written) : Prop :=
  ∀ w, u = some (RoundTrip.uncOf w) →
    match w.kind, w.std95 with
    | .lognormal, some s => 1 ≤ s → b = some ⟨.lognormal, a * c, a * c / s, a * c * s, some s⟩
    | .normal, some s => 0 ≤ s → b = some ⟨.normal, a * c, a * c - s * c, a * c + s * c, some (s * c)⟩
    | .triangular, _ => b = some ⟨.triangular, a * c, w.min * c, w.max * c, none⟩
    | .uniform, _ => b = some ⟨.uniform, a * c, w.min * c, w.max * c, none⟩
    | _, _ => True

/-- A product that came back as the exchange `g`: the reference leads to the file of its flow, which is described by an exchange of
the same flow; direction, and whether it is a reference flow; the value in the unit of ILCD for the unit of EcoSpold2, with its
uncertainty. -/
structure ProductBack [DecidableEq P] (env1 : IlcdFlows.Env ℝ D) (env2 : EcsFlows.Env P) (ys : List EcsFlows.Exch) (d : Doc P)
    (xs : List (Exch ℝ)) (x : Exch ℝ) (g : EcsFlows.Flow) : Prop where
  target : g.target = x.fid
  dir : g.dir = dirBack env1 x
  reference : g.internalId ∈ d.refs ↔ Reference env1 x
  amount : ∃ f i n a c, IsProduct env1 x f ∧ HasUnit env1 f i n ∧ Value env1 x a ∧ env2.unitFactor n = .ok c ∧
    g.mean = some (a * c) ∧ g.src.unit = n ∧ BoundsBack a c x.unc g.bounds
  file : ∃ r p y f name e, d.links[g.internalId - 1]? = some r ∧ r.id = x.fid ∧ env2.fp g.src = .ok p ∧
    y ∈ xs ∧ y.fid = x.fid ∧ IsProduct env1 y f ∧ f.names.head? = some name ∧
    RoundTrip.Spec.First env2.fp ys g.src e ∧ e.name = name ∧
    RoundTrip.lookup d.files r.id r.version r.uri = some (.made r.version p ⟨name, some (typeBack env1 y f)⟩)

/-- The flow of an elementary exchange in the table to EcoSpold2 and in the table back. -/
def Rows (env1 : IlcdFlows.Env ℝ D) (env2 : EcsFlows.Env P) (x : Exch ℝ) (r : IlcdFlows.Row) (r' : EcsFlows.Row) : Prop :=
  (∃ f, IsElementary env1 x f) ∧ IlcdFlows.Spec.Mapped env1 x.fid r ∧ EcsFlows.Spec.Mapped env2.mapping r.target r'

/-- The direction of an elementary exchange. -/
def toward (x : Exch ℝ) : EcsFlows.Dir := if x.dir = c!"Input" then .input else .output

/-- In the table to EcoSpold2, rows of the data set with the same flow have the same unit. -/
def SameUnits (env1 : IlcdFlows.Env ℝ D) (xs : List (Exch ℝ)) : Prop :=
  ∀ x ∈ xs, ∀ y ∈ xs, ∀ f g r r', IsElementary env1 x f → IsElementary env1 y g → IlcdFlows.Spec.Mapped env1 x.fid r →
    IlcdFlows.Spec.Mapped env1 y.fid r' → r.target = r'.target → r.unit = r'.unit

/-- An elementary exchange that came back: flow, direction and value by both tables. -/
def ElementaryBack (env1 : IlcdFlows.Env ℝ D) (env2 : EcsFlows.Env P) (x : Exch ℝ) (g : EcsFlows.Flow) : Prop :=
  ∃ r r' a k k' c, Rows env1 env2 x r r' ∧ Value env1 x a ∧ IlcdFlows.Spec.Factor env1 r k ∧ RoundTrip.Spec.Factor env2 r' k' ∧
    env2.unitFactor r'.unit = .ok c ∧ g.target = r'.target ∧ g.dir = toward x ∧ g.mean = some (a * k * k' * c)

/-- What an exchange adds to the total of a flow of the table back in one direction: its value multiplied by both factors and that
of the unit of the table back if its flow leads there, and nothing otherwise. -/
def Adds (env1 : IlcdFlows.Env ℝ D) (env2 : EcsFlows.Env P) (t : Str) (dir : EcsFlows.Dir) (x : Exch ℝ) (v : ℝ) : Prop :=
  (∃ r r' a k k' c, toward x = dir ∧ Rows env1 env2 x r r' ∧ r'.target = t ∧ Value env1 x a ∧ IlcdFlows.Spec.Factor env1 r k ∧
    RoundTrip.Spec.Factor env2 r' k' ∧ env2.unitFactor r'.unit = .ok c ∧ v = a * k * k' * c) ∨
  (¬ (toward x = dir ∧ ∃ r r', Rows env1 env2 x r r' ∧ r'.target = t) ∧ v = 0)

/-- The total of the elementary exchanges of one flow in one direction, as it is written. -/
noncomputable def written (d : Doc P) (t : Str) (dir : EcsFlows.Dir) : ℝ :=
  ((d.flows.filter fun g => decide (g.ftype = some .elementary ∧ g.target = t ∧ g.dir = dir)).map fun g => g.mean.getD 0).sum

/-- What is taken for granted of the units: the keys of the table of units are those of their dimensions, and other names of a
unit, or units that differ in size, have the dimension of that unit. -/
structure Dimensions (p : RefUnits.Pint ℝ) (hash : Str → Str) : Prop where
  rows : ∀ r ∈ Units.pintToIlcdDef, hash (RefUnits.correctDim (p.dim r.2.2.2)) = r.1
  same : ∀ q ∈ RoundTrip.Spec.synonyms ++ RoundTrip.Spec.strangers, p.dim q.2 = p.dim q.1

/-- The calorific values and the two flow properties for cubic metres. -/
def netValue : Str := c!"93a60a56-a3c8-11da-a746-0800200c9a66"
def grossValue : Str := c!"93a60a56-a3c8-14da-a746-0800200c9a66"
def volume : Str := c!"93a60a56-a3c8-22da-a746-0800200c9a66"
def normalVolume : Str := c!"93a60a56-a3c8-13da-a746-0800200c9a66"

/-- The flow property of ILCD after both conversions; `energy` is the calorific value the data set in the middle is about. -/
def propertyBack (energy : Option Str) (q : Str) : Str :=
  if q = netValue ∨ q = grossValue then (if energy = some c!"gross calorific value" then grossValue else netValue)
  else if q = normalVolume then volume
  else q

end

end Verif.RoundIlcd.Spec
