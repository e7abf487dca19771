/-
The fields of the two formats that no conversion ever fills.
-/
import Verif.Props.Assign
import Verif.Lemmas.Never

namespace Verif.Assign

open Verif.DotDict Verif.Schema Verif.Mapping

variable {V R O : Type}

theorem toEcs2_never : toEcs2.neverB ecs2Never = true := by decide +kernel

theorem toIlcd_never : toIlcd.neverB ilcdNever = true := by decide +kernel

theorem toEcs2_rest : toEcs2.restB ecs2Never = true := by decide +kernel

theorem toIlcd_rest : toIlcd.restB ilcdNever = true := by decide +kernel

/-- **C193.** Of the groups that the conversion from ILCD works on, exactly the listed fields are never filled, whatever
the file says. -/
theorem ecs2_never_filled_iff {p : List Key} (hp : p ∈ toEcs2.groups) {c : Cls}
    (hc : classAt toEcs2.schema toEcs2.root p = some c) {kf : Key × Field Str} (hk : kf ∈ toEcs2.schema c) :
    (∀ (V R O : Type) (vs : Validators Str V R O) (asRaw : Arg V R → R) (first last : Ev V R) (es : List (Ev V R))
      (n : Node V), exec toEcs2.schema vs asRaw (toEcs2.ops first last es) (.mk toEcs2.root []) = .ok n →
      present n (p ++ [kf.1]) = false) ↔ Listed ecs2Never p kf.1 := by
  constructor
  · intro h
    rcases rest_of toEcs2_rest hp hc hk with h1 | ⟨e, n, he, hn⟩
    · exact h1
    · have := h Unit Unit Unit vsU rawU e e [e] n he
      rw [hn] at this; cases this
  · intro h V R O vs asRaw first last es n hn
    exact never_of toEcs2_never vs asRaw first last es n hn h

/-- **C193.** Of the groups that the conversion from EcoSpold 2 works on, exactly the listed fields are never filled,
whatever the file says. -/
theorem ilcd_never_filled_iff {p : List Key} (hp : p ∈ toIlcd.groups) {c : Cls}
    (hc : classAt toIlcd.schema toIlcd.root p = some c) {kf : Key × Field Str} (hk : kf ∈ toIlcd.schema c) :
    (∀ (V R O : Type) (vs : Validators Str V R O) (asRaw : Arg V R → R) (first last : Ev V R) (es : List (Ev V R))
      (n : Node V), exec toIlcd.schema vs asRaw (toIlcd.ops first last es) (.mk toIlcd.root []) = .ok n →
      present n (p ++ [kf.1]) = false) ↔ Listed ilcdNever p kf.1 := by
  constructor
  · intro h
    rcases rest_of toIlcd_rest hp hc hk with h1 | ⟨e, n, he, hn⟩
    · exact h1
    · have := h Unit Unit Unit vsU rawU e e [e] n he
      rw [hn] at this; cases this
  · intro h V R O vs asRaw first last es n hn
    exact never_of toIlcd_never vs asRaw first last es n hn h

/-- The groups and fields of the two theorems are there: the classification of an activity is one of them. -/
example : [c!"activityDescription"] ∈ toEcs2.groups ∧
    classAt toEcs2.schema toEcs2.root [c!"activityDescription"] = some c!"ActivityDescription" ∧
    (toEcs2.schema c!"ActivityDescription").any (fun kf => decide (kf.1 = c!"classification")) = true ∧
    Listed ecs2Never [c!"activityDescription"] c!"classification" ∧
    ¬ Listed ecs2Never [c!"activityDescription", c!"activity"] c!"id" := by decide +kernel

/-- The same of ILCD: the routes of treatment in the name are never filled, the base name is. -/
example : [c!"dataSetInformation", c!"name"] ∈ toIlcd.groups ∧
    Listed ilcdNever [c!"dataSetInformation", c!"name"] c!"treatmentStandardsRoutes" ∧
    ¬ Listed ilcdNever [c!"dataSetInformation", c!"name"] c!"baseName" := by decide +kernel

/-- **C193.** The classification of an ILCD process is not converted: no EcoSpold 2 data set made from ILCD has
one. -/
theorem classification_lost (vs : Validators Str V R O) (asRaw : Arg V R → R) (first last : Ev V R) (es : List (Ev V R))
    (n : Node V) (h : exec toEcs2.schema vs asRaw (toEcs2.ops first last es) (.mk toEcs2.root []) = .ok n) :
    present n [c!"activityDescription", c!"classification"] = false :=
  never_of toEcs2_never vs asRaw first last es n h (p := [c!"activityDescription"]) (by decide +kernel)

/-- **C193.** No ILCD data set made from EcoSpold 2 has routes of treatment in its name, coordinates, declarations of
compliance or sources of its data. -/
theorem ilcd_lost (vs : Validators Str V R O) (asRaw : Arg V R → R) (first last : Ev V R) (es : List (Ev V R))
    (n : Node V) (h : exec toIlcd.schema vs asRaw (toIlcd.ops first last es) (.mk toIlcd.root []) = .ok n) :
    present n [c!"dataSetInformation", c!"name", c!"treatmentStandardsRoutes"] = false ∧
    present n [c!"geography", c!"locationOfOperationSupplyOrProduction", c!"latitudeAndLongitude"] = false ∧
    present n [c!"modellingAndValidation", c!"complianceDeclarations"] = false ∧
    present n [c!"modellingAndValidation", c!"dataSourcesTreatmentAndRepresentativeness", c!"referenceToDataSource"] =
      false :=
  ⟨never_of toIlcd_never vs asRaw first last es n h (p := [c!"dataSetInformation", c!"name"]) (by decide +kernel),
   never_of toIlcd_never vs asRaw first last es n h (p := [c!"geography", c!"locationOfOperationSupplyOrProduction"])
    (by decide +kernel),
   never_of toIlcd_never vs asRaw first last es n h (p := [c!"modellingAndValidation"]) (by decide +kernel),
   never_of toIlcd_never vs asRaw first last es n h
    (p := [c!"modellingAndValidation", c!"dataSourcesTreatmentAndRepresentativeness"]) (by decide +kernel)⟩

/-- Conversions that go through. -/
example : convertsB toEcs2 endEcs2 sampleIlcd = true ∧ convertsB toIlcd endIlcd sampleEcs2 = true := by decide +kernel

end Verif.Assign
