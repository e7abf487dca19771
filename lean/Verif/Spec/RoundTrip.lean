/-
What a user expects of the exchanges of an EcoSpold2 data set that was converted to ILCD and back.
-/
import Verif.Model.RoundTrip
import Verif.Spec.EcsFlows
import Verif.Spec.IlcdFlows
import Verif.Spec.Validators
import Verif.Model.RefUnits
import Verif.Props.Uuid

namespace Verif.RoundTrip.Spec

open EcsFlows (Exch)
open Units (ilcdToEcsUnit)

/-- The groups a product can have in EcoSpold2: one of the two, with one of its codes. -/
def ValidGroup (x : Exch) : Prop :=
  (x.outputGroup = none ∧ ∃ g ∈ [c!"1", c!"2", c!"3", c!"5"], x.inputGroup = some g) ∨
  (x.inputGroup = none ∧ ∃ g ∈ [c!"0", c!"2", c!"3", c!"5"], x.outputGroup = some g)

/-- Two products are the same flow with the same properties. -/
def Like {P : Type} (fp : Exch → Py P) (y x : Exch) : Prop :=
  y.isElem = false ∧ y.fid = x.fid ∧ ∃ p, fp y = .ok p ∧ fp x = .ok p

/-- The first exchange of a data set that is the same flow with the same properties. -/
def First {P : Type} (fp : Exch → Py P) (xs : List Exch) (x y : Exch) : Prop :=
  ∃ l m, xs = l ++ y :: m ∧ Like fp y x ∧ ∀ z ∈ l, ¬ Like fp z x

/-- A product is a waste: its by-product classification says so, or it has none and leaves the process in group 3. -/
def IsWaste (y : Exch) : Prop :=
  y.byProduct = some c!"Waste" ∨ (y.byProduct = none ∧ y.inputGroup = none ∧ y.outputGroup = some c!"3")

open Classical in
/-- The groups of a product after both conversions; `y` is the exchange that described the flow. -/
noncomputable def groupsBack (x y : Exch) : Option Nat × Option Nat :=
  if x.inputGroup ≠ none then (some 5, none)
  else if x.outputGroup = some c!"0" then (none, some 0)
  else if IsWaste y then (none, some 3)
  else (none, some 2)

/-- The uncertainty of an amount `a` that is multiplied by `c`, as EcoSpold2 has it. -/
def UncBack (a c : ℝ) (u : Option Uncertainty.Unc) (w : Option (IlcdFlows.WUnc ℝ)) : Prop :=
  match u with
  | some (.lognormal v) => 0 ≤ v → w = some (.lognormal (a * c) v)
  | some (.normal v) => 0 ≤ v → w = some (.normal (a * c) (c * c * v))
  | some (.triangular lo hi) => w = some (.triangular (lo * c) (a * c) (hi * c))
  | some (.uniform lo hi) => w = some (.uniform (lo * c) (hi * c))
  | _ => True

/-- A product that came back: its identifier; name and groups, which are those of the exchange that described the flow; the
value in the unit of ILCD with its uncertainty; the unit of EcoSpold2 for the flow property of its file. -/
structure ProductBack {P : Type} (env : EcsFlows.Env P) (unitProp : P → Str) (xs : List Exch) (x : Exch)
    (w : IlcdFlows.Written ℝ) : Prop where
  target : w.target = x.fid
  described : ∃ y, First env.fp xs x y ∧ w.name = y.name ∧ (w.inputGroup, w.outputGroup) = groupsBack x y
  amount : ∃ a c, env.flt x.amount = .ok a ∧ env.unitFactor x.unit = .ok c ∧ w.amount = a * c ∧ UncBack a c x.unc w.unc
  unit : ∃ p, env.fp x = .ok p ∧ aget (unitProp p) ilcdToEcsUnit = some (w.unitId, w.unitName)

/-- The groups are again those of the source. -/
def SameGroups (x : Exch) (w : IlcdFlows.Written ℝ) : Prop :=
  w.inputGroup.map natStr = x.inputGroup ∧ w.outputGroup.map natStr = x.outputGroup

/-- The flow of an elementary exchange in the table there and in the table back. -/
def Rows {P D : Type} (env : EcsFlows.Env P) (base : IlcdFlows.Env ℝ D) (x : Exch) (r : EcsFlows.Row) (r' : IlcdFlows.Row) :
    Prop := EcsFlows.Spec.Mapped env.mapping x.fid r ∧ IlcdFlows.Spec.Mapped base r.target r'

/-- The factor of a row there. -/
def Factor {P : Type} (env : EcsFlows.Env P) (r : EcsFlows.Row) (k : ℝ) : Prop :=
  ((r.factor = [] ∨ r.factor = c!"n/a") ∧ k = 1) ∨ (r.factor ≠ [] ∧ r.factor ≠ c!"n/a" ∧ env.flt r.factor = .ok k)

/-- An elementary exchange that came back: target, name and unit of the table back; the value multiplied by both factors and
by that of the unit of ILCD. -/
structure ElementaryBack {P D : Type} (env : EcsFlows.Env P) (base : IlcdFlows.Env ℝ D) (x : Exch)
    (w : IlcdFlows.Written ℝ) : Prop where
  found : ∃ r r' a k c k', Rows env base x r r' ∧ env.flt x.amount = .ok a ∧ Factor env r k ∧ env.unitFactor r.unit = .ok c ∧
    IlcdFlows.Spec.Factor base r' k' ∧ w.target = r'.target ∧ w.name = r'.name ∧ w.unitName = r'.unit ∧
    w.amount = a * k * c * k'
  groups : (w.inputGroup, w.outputGroup) = if x.inputGroup ≠ none then (some 4, none) else (none, some 4)

/-- The direction of an elementary exchange. -/
def toward (x : Exch) : Str := if x.inputGroup ≠ none then c!"Input" else c!"Output"

/-- What an exchange adds to the total of a flow of the table back in one direction, with units of the sizes `scale`: its value
multiplied by both factors and that of the unit of ILCD if its flow leads there, and nothing otherwise. -/
def Adds {P D : Type} (env : EcsFlows.Env P) (base : IlcdFlows.Env ℝ D) (scale : Str → ℝ) (t dir : Str) (x : Exch) (v : ℝ) : Prop :=
  (∃ r r' a k c k', x.isElem = true ∧ toward x = dir ∧ Rows env base x r r' ∧ r'.target = t ∧ env.flt x.amount = .ok a ∧
    Factor env r k ∧ env.unitFactor r.unit = .ok c ∧ IlcdFlows.Spec.Factor base r' k' ∧ v = a * k * c * k' * scale r'.unit) ∨
  (¬ (x.isElem = true ∧ toward x = dir ∧ ∃ r r', Rows env base x r r' ∧ r'.target = t) ∧ v = 0)

/-- The numbers written in the data set are read as they were written. (Not all real numbers can be: there are fewer texts.) -/
def Legible {P D : Type} (base : IlcdFlows.Env ℝ D) (shown : ℝ → Str) (d : Doc P) : Prop :=
  ∀ f ∈ d.flows, ∀ v, f.mean = some v → base.flt (shown v) = .ok v

/-- What is taken for granted: the identifiers are converted there and back with the same key, the identifiers of the products
are UUIDs in small letters and their groups those of the format, the targets of the elementary flows are UUIDs of elementary
flows of the package, none of which is the target of a product, and the flow properties of the units of the products have a
unit of EcoSpold2. -/
structure Setting {P : Type} (env : EcsFlows.Env P) (fenv : FlowFiles.Env) (E : Uuid.BlockFn) (unitProp : P → Str)
    (package : Str → IlcdFlows.FlowFile) (xs : List Exch) : Prop where
  conv : env.conv = Uuid.ecsToIlcd E
  fconv : fenv.conv = Uuid.ecsToIlcd E
  ids : ∀ x ∈ xs, x.isElem = false → Uuid.IsLowerUuid x.fid
  groups : ∀ x ∈ xs, x.isElem = false → ValidGroup x
  elems : ∀ x ∈ xs, x.isElem = true → (x.inputGroup = some c!"4" ∧ x.outputGroup = none) ∨
    (x.inputGroup = none ∧ x.outputGroup = some c!"4")
  targets : ∀ x ∈ xs, x.isElem = true → ∀ r, EcsFlows.Spec.Mapped env.mapping x.fid r →
    Validators.Spec.UuidText r.target ∧ (package r.target).typ = some c!"Elementary flow"
  apart : ∀ x ∈ xs, ∀ y ∈ xs, x.isElem = false → y.isElem = true → ∀ r, EcsFlows.Spec.Mapped env.mapping y.fid r →
    Uuid.ecsToIlcd E x.fid ≠ .ok r.target ∧ x.fid ≠ y.fid
  units : ∀ x ∈ xs, x.isElem = false → ∀ p, env.fp x = .ok p → (aget (unitProp p) ilcdToEcsUnit).isSome = true

/-- The units written in ILCD and the units of EcoSpold2 they come back as: other names of the same units. -/
def synonyms : List (Str × Str) := [
  (c!"item", c!"unit"), (c!"MJ", c!"MJ"), (c!"m**3", c!"m3"), (c!"t*km", c!"metric_ton*km"), (c!"m", c!"m"),
  (c!"item*km", c!"person*km"), (c!"kBq", c!"kBq"), (c!"m**2", c!"m2"), (c!"m**2*a", c!"m2*year"),
  (c!"m**3*a", c!"m3*year"), (c!"kg", c!"kg"), (c!"day", c!"day"), (c!"m*a", c!"m*year")]

/-- Units that come back as units of another size. -/
def strangers : List (Str × Str) := [(c!"EUR2000", c!"EUR2005"), (c!"kg*a", c!"kg*day")]

/-- Amount and flow property of an exchange are those of its unit: `u` is the unit of ILCD for its dimension. -/
structure Quantity {P : Type} (env : EcsFlows.Env P) (unitProp : P → Str) (p : RefUnits.Pint ℝ) (hash : Str → Str) (x : Exch)
    (u : Str) : Prop where
  unit : ∃ g n, aget (hash (RefUnits.correctDim (p.dim x.unit))) Units.pintToIlcdDef = some (g, n, u)
  factor : env.unitFactor x.unit = .ok (RefUnits.toIlcdUnit p hash 1 ⟨1, x.unit⟩).2
  property : ∀ fp, env.fp x = .ok fp → ∃ e s r s', RefUnits.unitProperty hash e (p.dim x.unit) s = .ok (r, s') ∧ unitProp fp = r.id

end Verif.RoundTrip.Spec
