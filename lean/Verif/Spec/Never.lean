/-
Which fields a data set has, and the fields of the two formats that a conversion never fills.
-/
import Verif.Model.DotDict

namespace Verif.DotDict

variable {V : Type}

/-- The field at the end of a path is there. -/
def present (n : Node V) : List Key → Bool
  | [] => true
  | k :: w =>
    match lookup k n.items with
    | none => false
    | some v =>
      match w with
      | [] => true
      | q :: w =>
        match v with
        | .nodes (m :: _) => present m (q :: w)
        | _ => false

end Verif.DotDict

namespace Verif.Assign

open Verif.DotDict

/-- The fields of EcoSpold 2 that are never filled from ILCD, by their groups. -/
def ecs2Never : List (List Key × List Key) := [
  ([c!"activityDescription"], [c!"classification"]),
  ([c!"activityDescription", c!"activity"],
    [c!"activityNameContextId", c!"parentActivityContextId", c!"masterAllocationPropertyId",
     c!"masterAllocationPropertyIdOverwrittenByChild", c!"masterAllocationPropertyContextId"]),
  ([c!"activityDescription", c!"activity", c!"allocationComment"], [c!"imageUrl", c!"variable"]),
  ([c!"activityDescription", c!"activity", c!"generalComment"], [c!"variable"]),
  ([c!"activityDescription", c!"geography"], [c!"geographyContextId"]),
  ([c!"activityDescription", c!"geography", c!"comment"], [c!"imageUrl", c!"variable"]),
  ([c!"activityDescription", c!"technology", c!"comment"], [c!"variable"]),
  ([c!"activityDescription", c!"timePeriod", c!"comment"], [c!"imageUrl", c!"variable"]),
  ([c!"activityDescription", c!"macroEconomicScenario"], [c!"macroEconomicScenarioContextId", c!"comment"]),
  ([c!"flowData"], [c!"impactIndicator"]),
  ([c!"modellingAndValidation", c!"representativeness"], [c!"systemModelContextId"]),
  ([c!"administrativeInformation", c!"dataEntryBy"], [c!"personContextId", c!"isActiveAuthor"]),
  ([c!"administrativeInformation", c!"dataGeneratorAndPublication"],
    [c!"personContextId", c!"publishedSourceIdOverwrittenByChild", c!"publishedSourceContextId",
     c!"companyIdOverwrittenByChild", c!"companyContextId"]),
  ([c!"administrativeInformation", c!"fileAttributes"], [c!"requiredContext"]),
  ([c!"userMaster"],
    [c!"language", c!"systemModel", c!"tag", c!"macroEconomicScenario", c!"compartment", c!"classificationSystem",
     c!"units"])]

/-- The fields of ILCD that are never filled from EcoSpold 2, by their groups. -/
def ilcdNever : List (List Key × List Key) := [
  ([c!"dataSetInformation"], [c!"identifierOfSubDataSet", c!"complementingProcesses"]),
  ([c!"dataSetInformation", c!"name"], [c!"treatmentStandardsRoutes"]),
  ([c!"quantitativeReference"], [c!"functionalUnitOrOther"]),
  ([c!"geography"], [c!"subLocationOfOperationSupplyOrProduction"]),
  ([c!"geography", c!"locationOfOperationSupplyOrProduction"], [c!"latitudeAndLongitude"]),
  ([c!"technology"],
    [c!"referenceToIncludedProcesses", c!"technologicalApplicability", c!"referenceToTechnologyPictogramme",
     c!"referenceToTechnologyFlowDiagrammOrPicture"]),
  ([c!"mathematicalRelations"], [c!"modelDescription"]),
  ([c!"modellingAndValidation"], [c!"completeness", c!"complianceDeclarations"]),
  ([c!"modellingAndValidation", c!"LCIMethodAndAllocation"],
    [c!"deviationsFromModellingConstants", c!"referenceToLCAMethodDetails"]),
  ([c!"modellingAndValidation", c!"dataSourcesTreatmentAndRepresentativeness"],
    [c!"dataCutOffAndCompletenessPrinciples", c!"dataSelectionAndCombinationPrinciples",
     c!"referenceToDataHandlingPrinciples", c!"referenceToDataSource", c!"dataCollectionPeriod", c!"uncertaintyAdjustments",
     c!"useAdviceForDataSet"]),
  ([c!"administrativeInformation"], [c!"commissionerAndGoal"]),
  ([c!"administrativeInformation", c!"dataEntryBy"], [c!"referenceToDataSetUseApproval"]),
  ([c!"administrativeInformation", c!"publicationAndOwnership"],
    [c!"referenceToPrecedingDataSetVersion", c!"permanentDataSetURI", c!"referenceToRegistrationAuthority",
     c!"registrationNumber"])]

/-- A field of a group is in the list. -/
def Listed (l : List (List Key × List Key)) (p : List Key) (k : Key) : Prop := ∃ e ∈ l, e.1 = p ∧ k ∈ e.2

instance (l : List (List Key × List Key)) (p : List Key) (k : Key) : Decidable (Listed l p k) := by
  unfold Listed; infer_instance

end Verif.Assign
