/-
What a user sees of the two mappings: which elements of the input have to be delivered for the output to have its
mandatory fields, and which elements must not be delivered twice. The lists of elements are part of the
statements; that they are the right ones for the tables of the model is proved.
-/
import Verif.Model.Assign
import Verif.Spec.Fill
import Verif.Spec.DotDict

namespace Verif.Assign

open Verif.DotDict Verif.Schema Verif.Mapping

variable {V R O : Type}

/-- An element with this path for which the condition holds is delivered. -/
def Delivered (es : List (Ev V R)) (b : MKey × Option Str) : Prop :=
  ∃ e ∈ es, e.key = b.1 ∧ b.2.all e.has = true

/-- A mandatory field and the elements it comes from. -/
structure Need where
  /-- The group. -/
  path : List Key
  /-- The field. -/
  key : Key
  /-- The paths whose elements give it, with the condition on the element. -/
  from_ : List (MKey × Option Str)
  /-- Conditions at the end of the conversion under which it is given then. -/
  atEnd : List Str

/-- The field is given by some element or at the end. -/
def Need.Met (n : Need) (last : Ev V R) (es : List (Ev V R)) : Prop :=
  (∃ b ∈ n.from_, Delivered es b) ∨ ∃ c ∈ n.atEnd, last.has c = true

/-- The values are accepted by the fields they are assigned to. -/
def ValuesOk (t : Conv) (vs : Validators Str V R O) (asRaw : Arg V R → R) (ops : List (Op V R)) : Prop :=
  ∀ p k v, Op.set p k v ∈ ops → ∀ c f, classAt t.schema t.root p = some c →
    lookup k (t.schema c) = some f → ∀ a ∈ v, Accepted t.schema vs asRaw f a

/-- The instances among the values are well formed and have their mandatory fields. -/
def ValuesComplete (t : Conv) (vs : Validators Str V R O) (asRaw : Arg V R → R) (ops : List (Op V R)) :
    Prop :=
  ∀ op ∈ ops, GoodValues t.schema vs asRaw t.root op ∧ OpOk (WF t.schema) op

/-- An EcoSpold 2 file delivers this element or attribute. -/
def HasEcs2 (es : List (Ev V R)) (p : List Str) (a : Option Str) : Prop :=
  ∃ d, (d = c!"activityDataset" ∨ d = c!"childActivityDataset") ∧ ∃ e ∈ es, e.key = (c!"ecoSpold" :: d :: p, a)

/-- An ILCD process file delivers this element or attribute. -/
def HasIlcd (es : List (Ev V R)) (p : List Str) (a : Option Str) : Prop :=
  ∃ e ∈ es, e.key = (c!"processDataSet" :: p, a)

/-- An ILCD process file delivers this element and the condition holds for it. -/
def HasIlcdWith (es : List (Ev V R)) (p : List Str) (c : Str) : Prop :=
  ∃ e ∈ es, e.key = (c!"processDataSet" :: p, none) ∧ e.has c = true

/-- A field that takes one value, and the elements that give it one. -/
structure Single where
  /-- The group. -/
  path : List Key
  /-- The field. -/
  key : Key
  /-- The paths whose elements give it, with the condition on the element. -/
  from_ : List (MKey × Option Str)

/-- The element gives the field a value. -/
def Single.By (s : Single) (e : Ev V R) : Prop := ∃ b ∈ s.from_, e.key = b.1 ∧ b.2.all e.has = true

/-- A single-valued field to which one element may give several values. -/
structure Several where
  /-- The path of the element and the condition on it. -/
  at_ : MKey × Option Str
  /-- The group. -/
  path : List Key
  /-- The field. -/
  key : Key

/-- The element gives at most one value. -/
def Several.One (x : Several) (e : Ev V R) : Prop :=
  e.key = x.at_.1 ∧ x.at_.2.all e.has = true → e.more x.path x.key = []

/-- An element or attribute of an EcoSpold 2 data set, of either kind of data set. -/
def ofEcs2 (p : List Str) (a : Option Str) (c : Option Str) : List (MKey × Option Str) :=
  [((c!"ecoSpold" :: c!"activityDataset" :: p, a), c), ((c!"ecoSpold" :: c!"childActivityDataset" :: p, a), c)]

/-- An element or attribute of an ILCD data set. -/
def ofIlcd (p : List Str) (a : Option Str) (c : Option Str) : List (MKey × Option Str) :=
  [((c!"processDataSet" :: p, a), c)]

/-- The mandatory fields of an ILCD data set that come from the input, and the elements of EcoSpold 2 they come from. -/
def ilcdNeeds : List Need := [
  ⟨[c!"administrativeInformation", c!"publicationAndOwnership"], c!"dataSetVersion",
    ofEcs2 [c!"administrativeInformation", c!"fileAttributes"] none none, []⟩,
  ⟨[c!"dataSetInformation"], c!"UUID",
    ofEcs2 [c!"activityDescription", c!"activity"] (some c!"id") none, []⟩,
  ⟨[c!"dataSetInformation", c!"name"], c!"baseName",
    ofEcs2 [c!"activityDescription", c!"activity", c!"activityName"] none none, []⟩,
  ⟨[c!"geography", c!"locationOfOperationSupplyOrProduction"], c!"location",
    ofEcs2 [c!"activityDescription", c!"geography", c!"shortname"] none none, []⟩]

/-- The single-valued fields of an ILCD data set that come from the input. -/
def ilcdSingles : List Single := [
  ⟨[c!"administrativeInformation", c!"dataEntryBy"], c!"referenceToPersonOrEntityEnteringTheData",
    ofEcs2 [c!"administrativeInformation", c!"dataEntryBy"] none none⟩,
  ⟨[c!"administrativeInformation", c!"publicationAndOwnership"], c!"dataSetVersion",
    ofEcs2 [c!"administrativeInformation", c!"fileAttributes"] none none⟩,
  ⟨[c!"administrativeInformation", c!"publicationAndOwnership"], c!"workflowAndPublicationStatus",
    ofEcs2 [c!"administrativeInformation", c!"dataGeneratorAndPublication"] (some c!"dataPublishedIn") none⟩,
  ⟨[c!"administrativeInformation", c!"publicationAndOwnership"], c!"referenceToUnchangedRepublication",
    ofEcs2 [c!"administrativeInformation", c!"dataGeneratorAndPublication"] none (some c!"@publishedSourceId")⟩,
  ⟨[c!"administrativeInformation", c!"publicationAndOwnership"], c!"referenceToOwnershipOfDataSet",
    ofEcs2 [c!"administrativeInformation", c!"dataGeneratorAndPublication"] none none⟩,
  ⟨[c!"administrativeInformation", c!"publicationAndOwnership"], c!"copyright",
    ofEcs2 [c!"administrativeInformation", c!"dataGeneratorAndPublication"] (some c!"isCopyrightProtected") none⟩,
  ⟨[c!"dataSetInformation"], c!"UUID",
    ofEcs2 [c!"activityDescription", c!"activity"] (some c!"id") none⟩,
  ⟨[c!"geography", c!"locationOfOperationSupplyOrProduction"], c!"location",
    ofEcs2 [c!"activityDescription", c!"geography", c!"shortname"] none none⟩,
  ⟨[c!"modellingAndValidation", c!"LCIMethodAndAllocation"], c!"typeOfDataSet",
    ofEcs2 [c!"activityDescription", c!"activity"] (some c!"type") none⟩,
  ⟨[c!"modellingAndValidation", c!"LCIMethodAndAllocation"], c!"LCIMethodPrinciple",
    ofEcs2 [c!"modellingAndValidation", c!"representativeness", c!"systemModelName"] none none⟩,
  ⟨[c!"modellingAndValidation", c!"dataSourcesTreatmentAndRepresentativeness"], c!"percentageSupplyOrProductionCovered",
    ofEcs2 [c!"modellingAndValidation", c!"representativeness"] (some c!"percent") none⟩,
  ⟨[c!"time"], c!"referenceYear",
    ofEcs2 [c!"activityDescription", c!"timePeriod"] (some c!"startDate") none⟩,
  ⟨[c!"time"], c!"dataSetValidUntil",
    ofEcs2 [c!"activityDescription", c!"timePeriod"] (some c!"endDate") none⟩]

/-- The mandatory fields of an EcoSpold 2 data set that come from the input, and the elements of ILCD they come from. -/
def ecs2Needs : List Need := [
  ⟨[c!"activityDescription", c!"activity"], c!"id",
    ofIlcd [c!"processInformation", c!"dataSetInformation", c!"UUID"] none none, []⟩,
  ⟨[c!"activityDescription", c!"activity"], c!"activityNameId",
    ofIlcd [c!"processInformation", c!"dataSetInformation", c!"name", c!"baseName"] none none ++ ofIlcd [c!"processInformation", c!"dataSetInformation", c!"generalComment"] none (some c!"linkable"), []⟩,
  ⟨[c!"activityDescription", c!"activity"], c!"type",
    ofIlcd [c!"modellingAndValidation", c!"LCIMethodAndAllocation", c!"typeOfDataSet"] none none, []⟩,
  ⟨[c!"activityDescription", c!"activity"], c!"energyValues",
    ofIlcd [c!"modellingAndValidation", c!"LCIMethodAndAllocation", c!"modellingConstants"] none (some c!"energy"), [c!"noEnergy"]⟩,
  ⟨[c!"activityDescription", c!"activity"], c!"activityName",
    ofIlcd [c!"processInformation", c!"dataSetInformation", c!"name", c!"baseName"] none none ++ ofIlcd [c!"processInformation", c!"dataSetInformation", c!"name", c!"treatmentStandardsRoutes"] none none ++ ofIlcd [c!"processInformation", c!"dataSetInformation", c!"name", c!"mixAndLocationTypes"] none none ++ ofIlcd [c!"processInformation", c!"dataSetInformation", c!"name", c!"functionalUnitFlowProperties"] none none, []⟩,
  ⟨[c!"activityDescription", c!"geography"], c!"geographyId",
    ofIlcd [c!"processInformation", c!"geography", c!"locationOfOperationSupplyOrProduction"] (some c!"location") none, []⟩,
  ⟨[c!"activityDescription", c!"geography"], c!"shortname",
    ofIlcd [c!"processInformation", c!"geography", c!"locationOfOperationSupplyOrProduction"] (some c!"location") none, []⟩,
  ⟨[c!"activityDescription", c!"timePeriod"], c!"startDate",
    ofIlcd [c!"processInformation", c!"time", c!"referenceYear"] none none, []⟩,
  ⟨[c!"activityDescription", c!"timePeriod"], c!"endDate",
    ofIlcd [c!"processInformation", c!"time", c!"dataSetValidUntil"] none none, []⟩,
  ⟨[c!"administrativeInformation", c!"dataEntryBy"], c!"personId",
    ofIlcd [c!"administrativeInformation", c!"dataEntryBy", c!"referenceToPersonOrEntityEnteringTheData"] none (some c!"@refObjectId") ++ ofIlcd [c!"administrativeInformation", c!"dataEntryBy", c!"referenceToPersonOrEntityEnteringTheData"] none (some c!"file"), []⟩,
  ⟨[c!"administrativeInformation", c!"dataEntryBy"], c!"personName",
    ofIlcd [c!"administrativeInformation", c!"dataEntryBy", c!"referenceToPersonOrEntityEnteringTheData"] none (some c!"@refObjectId"), []⟩,
  ⟨[c!"administrativeInformation", c!"dataEntryBy"], c!"personEmail",
    ofIlcd [c!"administrativeInformation", c!"dataEntryBy", c!"referenceToPersonOrEntityEnteringTheData"] none (some c!"@refObjectId") ++ ofIlcd [c!"administrativeInformation", c!"dataEntryBy", c!"referenceToPersonOrEntityEnteringTheData"] none (some c!"file"), []⟩,
  ⟨[c!"administrativeInformation", c!"dataGeneratorAndPublication"], c!"personId",
    ofIlcd [c!"administrativeInformation", c!"dataGenerator", c!"referenceToPersonOrEntityGeneratingTheDataSet"] none (some c!"@refObjectId") ++ ofIlcd [c!"administrativeInformation", c!"dataGenerator", c!"referenceToPersonOrEntityGeneratingTheDataSet"] none (some c!"file"), []⟩,
  ⟨[c!"administrativeInformation", c!"dataGeneratorAndPublication"], c!"personName",
    ofIlcd [c!"administrativeInformation", c!"dataGenerator", c!"referenceToPersonOrEntityGeneratingTheDataSet"] none (some c!"@refObjectId"), []⟩,
  ⟨[c!"administrativeInformation", c!"dataGeneratorAndPublication"], c!"personEmail",
    ofIlcd [c!"administrativeInformation", c!"dataGenerator", c!"referenceToPersonOrEntityGeneratingTheDataSet"] none (some c!"@refObjectId") ++ ofIlcd [c!"administrativeInformation", c!"dataGenerator", c!"referenceToPersonOrEntityGeneratingTheDataSet"] none (some c!"file"), []⟩,
  ⟨[c!"administrativeInformation", c!"dataGeneratorAndPublication"], c!"isCopyrightProtected",
    ofIlcd [c!"administrativeInformation", c!"publicationAndOwnership", c!"copyright"] none none, []⟩,
  ⟨[c!"flowData"], c!"intermediateExchange",
    ofIlcd [c!"exchanges", c!"exchange"] none (some c!"intermediate"), []⟩,
  ⟨[c!"userMaster", c!"activityIndexEntry"], c!"id",
    ofIlcd [c!"processInformation", c!"dataSetInformation", c!"UUID"] none none, []⟩,
  ⟨[c!"userMaster", c!"activityIndexEntry"], c!"activityNameId",
    ofIlcd [c!"processInformation", c!"dataSetInformation", c!"name", c!"baseName"] none none ++ ofIlcd [c!"processInformation", c!"dataSetInformation", c!"generalComment"] none (some c!"linkable"), []⟩,
  ⟨[c!"userMaster", c!"activityIndexEntry"], c!"geographyId",
    ofIlcd [c!"processInformation", c!"geography", c!"locationOfOperationSupplyOrProduction"] (some c!"location") none, []⟩,
  ⟨[c!"userMaster", c!"activityIndexEntry"], c!"startDate",
    ofIlcd [c!"processInformation", c!"time", c!"referenceYear"] none none, []⟩,
  ⟨[c!"userMaster", c!"activityIndexEntry"], c!"endDate",
    ofIlcd [c!"processInformation", c!"time", c!"dataSetValidUntil"] none none, []⟩]

/-- The single-valued fields of an EcoSpold 2 data set that come from the input. -/
def ecs2Singles : List Single := [
  ⟨[c!"activityDescription", c!"activity"], c!"id",
    ofIlcd [c!"processInformation", c!"dataSetInformation", c!"UUID"] none none⟩,
  ⟨[c!"activityDescription", c!"activity"], c!"parentActivityId",
    ofIlcd [c!"processInformation", c!"dataSetInformation", c!"generalComment"] none (some c!"parent")⟩,
  ⟨[c!"activityDescription", c!"activity"], c!"type",
    ofIlcd [c!"modellingAndValidation", c!"LCIMethodAndAllocation", c!"typeOfDataSet"] none none⟩,
  ⟨[c!"activityDescription", c!"activity"], c!"datasetIcon",
    ofIlcd [c!"processInformation", c!"dataSetInformation", c!"referenceToExternalDocumentation"] none (some c!"datasetIcon")⟩,
  ⟨[c!"activityDescription", c!"geography"], c!"geographyId",
    ofIlcd [c!"processInformation", c!"geography", c!"locationOfOperationSupplyOrProduction"] (some c!"location") none⟩,
  ⟨[c!"activityDescription", c!"timePeriod"], c!"startDate",
    ofIlcd [c!"processInformation", c!"time", c!"referenceYear"] none none⟩,
  ⟨[c!"activityDescription", c!"timePeriod"], c!"endDate",
    ofIlcd [c!"processInformation", c!"time", c!"dataSetValidUntil"] none none⟩,
  ⟨[c!"administrativeInformation", c!"dataGeneratorAndPublication"], c!"dataPublishedIn",
    ofIlcd [c!"administrativeInformation", c!"publicationAndOwnership", c!"workflowAndPublication"] none none⟩,
  ⟨[c!"administrativeInformation", c!"dataGeneratorAndPublication"], c!"isCopyrightProtected",
    ofIlcd [c!"administrativeInformation", c!"publicationAndOwnership", c!"copyright"] none none⟩,
  ⟨[c!"administrativeInformation", c!"dataGeneratorAndPublication"], c!"pageNumbers",
    ofIlcd [c!"administrativeInformation", c!"publicationAndOwnership", c!"referenceToUnchangedRepublication"] none (some c!"page")⟩,
  ⟨[c!"modellingAndValidation", c!"representativeness"], c!"percent",
    ofIlcd [c!"modellingAndValidation", c!"dataSourcesTreatmentAndRepresentativeness", c!"percentageSupplyOrProductionCovered"] none none⟩,
  ⟨[c!"userMaster", c!"activityIndexEntry"], c!"id",
    ofIlcd [c!"processInformation", c!"dataSetInformation", c!"UUID"] none none⟩,
  ⟨[c!"userMaster", c!"activityIndexEntry"], c!"geographyId",
    ofIlcd [c!"processInformation", c!"geography", c!"locationOfOperationSupplyOrProduction"] (some c!"location") none⟩,
  ⟨[c!"userMaster", c!"activityIndexEntry"], c!"startDate",
    ofIlcd [c!"processInformation", c!"time", c!"referenceYear"] none none⟩,
  ⟨[c!"userMaster", c!"activityIndexEntry"], c!"endDate",
    ofIlcd [c!"processInformation", c!"time", c!"dataSetValidUntil"] none none⟩]

/-- The single-valued field that one ILCD element may give several values: the icon, from a source with several files. -/
def ecs2Several : List Several := [
  ⟨(([c!"processDataSet", c!"processInformation", c!"dataSetInformation", c!"referenceToExternalDocumentation"], none), some c!"datasetIcon"), [c!"activityDescription", c!"activity"], c!"datasetIcon"⟩]

end Verif.Assign
