/-
The paths the field mappings wait for, transcribed from the keys of the dictionaries returned by
`mapping` in src/Lavoisier/conversions/, and the top level of the documents of both formats.
A path is a list of element names and, for a path ending in `/@a`, the attribute name.
-/
import Verif.Model.Schema
import Verif.Model.XmlStream

namespace Verif.Mapping

open Verif.DotDict Verif.Schema

/-- A key of a mapping: element names from the root and possibly an attribute. -/
abbrev MKey := List Str × Option Str

/-- The text of a key, as in the source. -/
def keyText (k : MKey) : Str :=
  (k.1.flatMap fun n => '/' :: n) ++ match k.2 with | none => [] | some a => c!"/@" ++ a

/-- ECS2_to_ILCD1_conversion.py:2175-2473 -/
def ecs2Main : List MKey := [
  ([c!"ecoSpold", c!"activityDataset", c!"activityDescription", c!"activity"], some c!"id"),
  ([c!"ecoSpold", c!"activityDataset", c!"activityDescription", c!"activity"], some c!"activityNameId"),
  ([c!"ecoSpold", c!"activityDataset", c!"activityDescription", c!"activity"], some c!"activityNameContextId"),
  ([c!"ecoSpold", c!"activityDataset", c!"activityDescription", c!"activity"], some c!"parentActivityId"),
  ([c!"ecoSpold", c!"activityDataset", c!"activityDescription", c!"activity"], some c!"parentActivityContextId"),
  ([c!"ecoSpold", c!"activityDataset", c!"activityDescription", c!"activity"], some c!"inheritanceDepth"),
  ([c!"ecoSpold", c!"activityDataset", c!"activityDescription", c!"activity"], some c!"type"),
  ([c!"ecoSpold", c!"activityDataset", c!"activityDescription", c!"activity"], some c!"specialActivityType"),
  ([c!"ecoSpold", c!"activityDataset", c!"activityDescription", c!"activity"], some c!"energyValues"),
  ([c!"ecoSpold", c!"activityDataset", c!"activityDescription", c!"activity"], some c!"masterAllocationPropertyId"),
  ([c!"ecoSpold", c!"activityDataset", c!"activityDescription", c!"activity"], some c!"masterAllocationPropertyIdOverwrittenByChild"),
  ([c!"ecoSpold", c!"activityDataset", c!"activityDescription", c!"activity"], some c!"masterAllocationPropertyContextId"),
  ([c!"ecoSpold", c!"activityDataset", c!"activityDescription", c!"activity"], some c!"datasetIcon"),
  ([c!"ecoSpold", c!"activityDataset", c!"activityDescription", c!"activity", c!"activityName"], none),
  ([c!"ecoSpold", c!"activityDataset", c!"activityDescription", c!"activity", c!"synonym"], none),
  ([c!"ecoSpold", c!"activityDataset", c!"activityDescription", c!"activity", c!"includedActivitiesStart"], none),
  ([c!"ecoSpold", c!"activityDataset", c!"activityDescription", c!"activity", c!"includedActivitiesEnd"], none),
  ([c!"ecoSpold", c!"activityDataset", c!"activityDescription", c!"activity", c!"allocationComment"], none),
  ([c!"ecoSpold", c!"activityDataset", c!"activityDescription", c!"activity", c!"generalComment"], none),
  ([c!"ecoSpold", c!"activityDataset", c!"activityDescription", c!"activity", c!"tag"], none),
  ([c!"ecoSpold", c!"activityDataset", c!"activityDescription", c!"classification"], none),
  ([c!"ecoSpold", c!"activityDataset", c!"activityDescription", c!"geography"], some c!"geographyId"),
  ([c!"ecoSpold", c!"activityDataset", c!"activityDescription", c!"geography"], some c!"geographyContextId"),
  ([c!"ecoSpold", c!"activityDataset", c!"activityDescription", c!"geography", c!"shortname"], none),
  ([c!"ecoSpold", c!"activityDataset", c!"activityDescription", c!"geography", c!"comment"], none),
  ([c!"ecoSpold", c!"activityDataset", c!"activityDescription", c!"technology"], some c!"technologyLevel"),
  ([c!"ecoSpold", c!"activityDataset", c!"activityDescription", c!"technology", c!"comment"], none),
  ([c!"ecoSpold", c!"activityDataset", c!"activityDescription", c!"timePeriod"], some c!"startDate"),
  ([c!"ecoSpold", c!"activityDataset", c!"activityDescription", c!"timePeriod"], some c!"endDate"),
  ([c!"ecoSpold", c!"activityDataset", c!"activityDescription", c!"timePeriod"], some c!"isDataValidForEntirePeriod"),
  ([c!"ecoSpold", c!"activityDataset", c!"activityDescription", c!"timePeriod", c!"comment"], none),
  ([c!"ecoSpold", c!"activityDataset", c!"activityDescription", c!"macroEconomicScenario"], some c!"macroEconomicScenarioId"),
  ([c!"ecoSpold", c!"activityDataset", c!"activityDescription", c!"macroEconomicScenario"], some c!"macroEconomicScenarioContextId"),
  ([c!"ecoSpold", c!"activityDataset", c!"activityDescription", c!"macroEconomicScenario", c!"name"], none),
  ([c!"ecoSpold", c!"activityDataset", c!"activityDescription", c!"macroEconomicScenario", c!"comment"], none),
  ([c!"ecoSpold", c!"activityDataset", c!"flowData", c!"intermediateExchange"], none),
  ([c!"ecoSpold", c!"activityDataset", c!"flowData", c!"intermediateExchange"], some c!"sourceId"),
  ([c!"ecoSpold", c!"activityDataset", c!"flowData", c!"intermediateExchange"], some c!"productionVolumeSourceId"),
  ([c!"ecoSpold", c!"activityDataset", c!"flowData", c!"intermediateExchange", c!"property"], some c!"sourceId"),
  ([c!"ecoSpold", c!"activityDataset", c!"flowData", c!"intermediateExchange", c!"uncertainty"], none),
  ([c!"ecoSpold", c!"activityDataset", c!"flowData", c!"intermediateExchange", c!"productionVolumeUncertainty"], none),
  ([c!"ecoSpold", c!"activityDataset", c!"flowData", c!"intermediateExchange", c!"property", c!"uncertainty"], none),
  ([c!"ecoSpold", c!"activityDataset", c!"flowData", c!"intermediateExchange", c!"classification"], none),
  ([c!"ecoSpold", c!"activityDataset", c!"flowData", c!"intermediateExchange", c!"property"], none),
  ([c!"ecoSpold", c!"activityDataset", c!"flowData", c!"elementaryExchange"], none),
  ([c!"ecoSpold", c!"activityDataset", c!"flowData", c!"elementaryExchange"], some c!"sourceId"),
  ([c!"ecoSpold", c!"activityDataset", c!"flowData", c!"elementaryExchange", c!"property"], some c!"sourceId"),
  ([c!"ecoSpold", c!"activityDataset", c!"flowData", c!"elementaryExchange", c!"uncertainty"], none),
  ([c!"ecoSpold", c!"activityDataset", c!"flowData", c!"elementaryExchange", c!"property", c!"uncertainty"], none),
  ([c!"ecoSpold", c!"activityDataset", c!"flowData", c!"elementaryExchange", c!"property"], none),
  ([c!"ecoSpold", c!"activityDataset", c!"flowData", c!"parameter"], none),
  ([c!"ecoSpold", c!"activityDataset", c!"flowData", c!"parameter", c!"uncertainty"], none),
  ([c!"ecoSpold", c!"activityDataset", c!"modellingAndValidation", c!"representativeness"], some c!"percent"),
  ([c!"ecoSpold", c!"activityDataset", c!"modellingAndValidation", c!"representativeness"], some c!"systemModelId"),
  ([c!"ecoSpold", c!"activityDataset", c!"modellingAndValidation", c!"representativeness"], some c!"systemModelContextId"),
  ([c!"ecoSpold", c!"activityDataset", c!"modellingAndValidation", c!"representativeness", c!"systemModelName"], none),
  ([c!"ecoSpold", c!"activityDataset", c!"modellingAndValidation", c!"representativeness", c!"samplingProcedure"], none),
  ([c!"ecoSpold", c!"activityDataset", c!"modellingAndValidation", c!"representativeness", c!"extrapolations"], none),
  ([c!"ecoSpold", c!"activityDataset", c!"modellingAndValidation", c!"review"], none),
  ([c!"ecoSpold", c!"activityDataset", c!"administrativeInformation", c!"dataEntryBy"], none),
  ([c!"ecoSpold", c!"activityDataset", c!"administrativeInformation", c!"dataGeneratorAndPublication"], none),
  ([c!"ecoSpold", c!"activityDataset", c!"administrativeInformation", c!"dataGeneratorAndPublication"], some c!"dataPublishedIn"),
  ([c!"ecoSpold", c!"activityDataset", c!"administrativeInformation", c!"dataGeneratorAndPublication"], some c!"isCopyrightProtected"),
  ([c!"ecoSpold", c!"activityDataset", c!"administrativeInformation", c!"dataGeneratorAndPublication"], some c!"accessRestrictedTo"),
  ([c!"ecoSpold", c!"activityDataset", c!"administrativeInformation", c!"fileAttributes"], none),
  ([c!"ecoSpold", c!"activityDataset", c!"administrativeInformation", c!"fileAttributes", c!"requiredContext"], none)]

/-- ILCD1_to_ECS2_conversion.py:1648-1932 -/
def ilcdKeys : List MKey := [
  ([c!"processDataSet", c!"processInformation", c!"dataSetInformation", c!"UUID"], none),
  ([c!"processDataSet", c!"processInformation", c!"dataSetInformation", c!"name", c!"baseName"], none),
  ([c!"processDataSet", c!"processInformation", c!"dataSetInformation", c!"name", c!"treatmentStandardsRoutes"], none),
  ([c!"processDataSet", c!"processInformation", c!"dataSetInformation", c!"name", c!"mixAndLocationTypes"], none),
  ([c!"processDataSet", c!"processInformation", c!"dataSetInformation", c!"name", c!"functionalUnitFlowProperties"], none),
  ([c!"processDataSet", c!"processInformation", c!"dataSetInformation", c!"identifierOfSubDataSet"], none),
  ([c!"processDataSet", c!"processInformation", c!"dataSetInformation", c!"synonyms"], none),
  ([c!"processDataSet", c!"processInformation", c!"dataSetInformation", c!"complementingProcesses"], none),
  ([c!"processDataSet", c!"processInformation", c!"dataSetInformation", c!"classificationInformation", c!"classification"], none),
  ([c!"processDataSet", c!"processInformation", c!"dataSetInformation", c!"generalComment"], none),
  ([c!"processDataSet", c!"processInformation", c!"dataSetInformation", c!"referenceToExternalDocumentation"], none),
  ([c!"processDataSet", c!"processInformation", c!"quantitativeReference", c!"referenceToReferenceFlow"], none),
  ([c!"processDataSet", c!"processInformation", c!"quantitativeReference", c!"functionalUnitOrOther"], none),
  ([c!"processDataSet", c!"processInformation", c!"quantitativeReference", c!"type"], none),
  ([c!"processDataSet", c!"processInformation", c!"time", c!"referenceYear"], none),
  ([c!"processDataSet", c!"processInformation", c!"time", c!"dataSetValidUntil"], none),
  ([c!"processDataSet", c!"processInformation", c!"time", c!"timeRepresentativenessDescription"], none),
  ([c!"processDataSet", c!"processInformation", c!"geography", c!"locationOfOperationSupplyOrProduction", c!"descriptionOfRestrictions"], none),
  ([c!"processDataSet", c!"processInformation", c!"geography", c!"locationOfOperationSupplyOrProduction"], some c!"location"),
  ([c!"processDataSet", c!"processInformation", c!"geography", c!"locationOfOperationSupplyOrProduction"], some c!"latituteAndLongitude"),
  ([c!"processDataSet", c!"processInformation", c!"geography", c!"subLocationOfOperationSupplyOrProduction", c!"descriptionOfRestrictions"], none),
  ([c!"processDataSet", c!"processInformation", c!"geography", c!"subLocationOfOperationSupplyOrProduction"], none),
  ([c!"processDataSet", c!"processInformation", c!"technology", c!"technologyDescriptionAndIncludedProcesses"], none),
  ([c!"processDataSet", c!"processInformation", c!"technology", c!"referenceToIncludedProcesses"], none),
  ([c!"processDataSet", c!"processInformation", c!"technology", c!"technologyApplicability"], none),
  ([c!"processDataSet", c!"processInformation", c!"technology", c!"referenceToTechnologyPictogramme"], none),
  ([c!"processDataSet", c!"processInformation", c!"technology", c!"referenceToTechnologyFlowDiagrammOrPicture"], none),
  ([c!"processDataSet", c!"processInformation", c!"mathematicalRelations", c!"modelDescription"], none),
  ([c!"processDataSet", c!"processInformation", c!"mathematicalRelations", c!"variableParameter"], none),
  ([c!"processDataSet", c!"modellingAndValidation", c!"LCIMethodAndAllocation", c!"typeOfDataSet"], none),
  ([c!"processDataSet", c!"modellingAndValidation", c!"LCIMethodAndAllocation", c!"LCIMethodPrinciple"], none),
  ([c!"processDataSet", c!"modellingAndValidation", c!"LCIMethodAndAllocation", c!"deviationsFromLCIMethodPrinciple"], none),
  ([c!"processDataSet", c!"modellingAndValidation", c!"LCIMethodAndAllocation", c!"LCIMethodApproaches"], none),
  ([c!"processDataSet", c!"modellingAndValidation", c!"LCIMethodAndAllocation", c!"deviationsFromLCIMethodApproaches"], none),
  ([c!"processDataSet", c!"modellingAndValidation", c!"LCIMethodAndAllocation", c!"modellingConstants"], none),
  ([c!"processDataSet", c!"modellingAndValidation", c!"LCIMethodAndAllocation", c!"deviationsFromModellingConstants"], none),
  ([c!"processDataSet", c!"modellingAndValidation", c!"LCIMethodAndAllocation", c!"referenceToLCAMethodDetails"], none),
  ([c!"processDataSet", c!"modellingAndValidation", c!"dataSourcesTreatmentAndRepresentativeness", c!"dataCutOffAndCompletenessPrinciples"], none),
  ([c!"processDataSet", c!"modellingAndValidation", c!"dataSourcesTreatmentAndRepresentativeness", c!"deviationsFromCutOffAndCompletenessPrinciples"], none),
  ([c!"processDataSet", c!"modellingAndValidation", c!"dataSourcesTreatmentAndRepresentativeness", c!"dataSelectionAndCombinationPrinciples"], none),
  ([c!"processDataSet", c!"modellingAndValidation", c!"dataSourcesTreatmentAndRepresentativeness", c!"deviationsFromSelectionAndCombinationPrinciples"], none),
  ([c!"processDataSet", c!"modellingAndValidation", c!"dataSourcesTreatmentAndRepresentativeness", c!"dataTreatmentAndExtrapolationsPrinciples"], none),
  ([c!"processDataSet", c!"modellingAndValidation", c!"dataSourcesTreatmentAndRepresentativeness", c!"deviationsFromTreatmentAndExtrapolationPrinciples"], none),
  ([c!"processDataSet", c!"modellingAndValidation", c!"dataSourcesTreatmentAndRepresentativeness", c!"referenceToDataHandlingPrinciples"], none),
  ([c!"processDataSet", c!"modellingAndValidation", c!"dataSourcesTreatmentAndRepresentativeness", c!"referenceToDataSource"], none),
  ([c!"processDataSet", c!"modellingAndValidation", c!"dataSourcesTreatmentAndRepresentativeness", c!"percentageSupplyOrProductionCovered"], none),
  ([c!"processDataSet", c!"modellingAndValidation", c!"dataSourcesTreatmentAndRepresentativeness", c!"annualSupplyOrProductionVolume"], none),
  ([c!"processDataSet", c!"modellingAndValidation", c!"dataSourcesTreatmentAndRepresentativeness", c!"samplingProcedure"], none),
  ([c!"processDataSet", c!"modellingAndValidation", c!"dataSourcesTreatmentAndRepresentativeness", c!"dataCollectionPeriod"], none),
  ([c!"processDataSet", c!"modellingAndValidation", c!"dataSourcesTreatmentAndRepresentativeness", c!"uncertaintyAdjustments"], none),
  ([c!"processDataSet", c!"modellingAndValidation", c!"dataSourcesTreatmentAndRepresentativeness", c!"useAdviceForDataSet"], none),
  ([c!"processDataSet", c!"modellingAndValidation", c!"completeness"], none),
  ([c!"processDataSet", c!"modellingAndValidation", c!"validation", c!"review"], none),
  ([c!"processDataSet", c!"modellingAndValidation", c!"complianceDeclarations", c!"compliance"], none),
  ([c!"processDataSet", c!"administrativeInformation", c!"commissionerAndGoal", c!"project"], none),
  ([c!"processDataSet", c!"administrativeInformation", c!"commissionerAndGoal", c!"intendedApplications"], none),
  ([c!"processDataSet", c!"administrativeInformation", c!"dataGenerator", c!"referenceToPersonOrEntityGeneratingTheDataSet"], none),
  ([c!"processDataSet", c!"administrativeInformation", c!"dataEntryBy", c!"timeStamp"], none),
  ([c!"processDataSet", c!"administrativeInformation", c!"dataEntryBy", c!"referenceToDataSetFormat"], none),
  ([c!"processDataSet", c!"administrativeInformation", c!"dataEntryBy", c!"referenceToConvertedOriginalDataSetFrom"], none),
  ([c!"processDataSet", c!"administrativeInformation", c!"dataEntryBy", c!"referenceToPersonOrEntityEnteringTheData"], none),
  ([c!"processDataSet", c!"administrativeInformation", c!"dataEntryBy", c!"referenceToDataSetUseApproval"], none),
  ([c!"processDataSet", c!"administrativeInformation", c!"publicationAndOwnership", c!"dateOfLastRevision"], none),
  ([c!"processDataSet", c!"administrativeInformation", c!"publicationAndOwnership", c!"dataSetVersion"], none),
  ([c!"processDataSet", c!"administrativeInformation", c!"publicationAndOwnership", c!"referenceToPrecedingDataSetVersion"], none),
  ([c!"processDataSet", c!"administrativeInformation", c!"publicationAndOwnership", c!"permanentDataSetURI"], none),
  ([c!"processDataSet", c!"administrativeInformation", c!"publicationAndOwnership", c!"workflowAndPublication"], none),
  ([c!"processDataSet", c!"administrativeInformation", c!"publicationAndOwnership", c!"referenceToUnchangedRepublication"], none),
  ([c!"processDataSet", c!"administrativeInformation", c!"publicationAndOwnership", c!"referenceToRegistrationAuthority"], none),
  ([c!"processDataSet", c!"administrativeInformation", c!"publicationAndOwnership", c!"registrationNumber"], none),
  ([c!"processDataSet", c!"administrativeInformation", c!"publicationAndOwnership", c!"referenceToOwnershipOfDataSet"], none),
  ([c!"processDataSet", c!"administrativeInformation", c!"publicationAndOwnership", c!"copyright"], none),
  ([c!"processDataSet", c!"administrativeInformation", c!"publicationAndOwnership", c!"referenceToEntitiesWithExclusiveAccess"], none),
  ([c!"processDataSet", c!"administrativeInformation", c!"publicationAndOwnership", c!"licenseType"], none),
  ([c!"processDataSet", c!"administrativeInformation", c!"publicationAndOwnership", c!"accessRestrictions"], none),
  ([c!"processDataSet", c!"exchanges", c!"exchange"], none)]

/-- ILCD1_to_ILCD1_conversion.py:439-455 -/
def ilcdSelfKeys : List MKey := [
  ([c!"processDataSet", c!"processInformation", c!"dataSetInformation"], none),
  ([c!"processDataSet", c!"processInformation", c!"quantitativeReference"], none),
  ([c!"processDataSet", c!"processInformation", c!"time"], none),
  ([c!"processDataSet", c!"processInformation", c!"technology"], none),
  ([c!"processDataSet", c!"processInformation", c!"geography"], none),
  ([c!"processDataSet", c!"processInformation", c!"mathematicalRelations"], none),
  ([c!"processDataSet", c!"modellingAndValidation"], none),
  ([c!"processDataSet", c!"administrativeInformation"], none),
  ([c!"processDataSet", c!"exchanges", c!"exchange"], none)]

/-- ECS2_to_ILCD1_conversion.py:2484-2485, `k.replace("activityDataset", "childActivityDataset")`: the
text occurs once in every key, as the second name. -/
def childKey (k : MKey) : MKey :=
  (k.1.map fun n => if n = c!"activityDataset" then c!"childActivityDataset" else n, k.2)

/-- ECS2_to_ILCD1_conversion.py:2174-2486 -/
def ecs2Keys : List MKey := ecs2Main ++ ecs2Main.map childKey

/-- A group that is not a validated class. -/
def grp (c : Cls) : Field Str := fld (.sub c) true 0 true none none

/-- The documents of EcoSpold2: ECS2_structure.py:877-892 (`ECS2Structure.get_dict`), and the
`childActivityDataset` variant of the data set, which the format allows and the mapping reads. Classes
beginning with a slash are the groups written directly by `get_dict`. The user master data is not part
of a process and not read by the mappings. -/
def ecs2Doc : Schema Str := fun c =>
  if c = c!"/" then [(c!"ecoSpold", grp c!"/ecoSpold")]
  else if c = c!"/ecoSpold" then
    [(c!"activityDataset", grp c!"/activityDataset"), (c!"childActivityDataset", grp c!"/activityDataset")]
  else if c = c!"/activityDataset" then
    [(c!"activityDescription", grp c!"ActivityDescription"), (c!"flowData", grp c!"FlowData"),
     (c!"modellingAndValidation", grp c!"ModellingAndValidation"),
     (c!"administrativeInformation", grp c!"AdministrativeInformation")]
  else ecs2 c

/-- The documents of ILCD: ILCD1_structure.py:515-533 (`ILCD1Structure.get_dict`). -/
def ilcdDoc : Schema Str := fun c =>
  if c = c!"/" then [(c!"processDataSet", grp c!"/processDataSet")]
  else if c = c!"/processDataSet" then
    [(c!"processInformation", grp c!"/processInformation"),
     (c!"modellingAndValidation", grp c!"ModellingAndValidation"),
     (c!"administrativeInformation", grp c!"AdministrativeInformation"),
     (c!"exchanges", grp c!"Exchanges")]
  else if c = c!"/processInformation" then
    [(c!"dataSetInformation", grp c!"DataSetInformation"),
     (c!"quantitativeReference", grp c!"QuantitativeReference"), (c!"time", grp c!"Time"),
     (c!"geography", grp c!"Geography"), (c!"technology", grp c!"Technology"),
     (c!"mathematicalRelations", grp c!"MathematicalRelations")]
  else ilcd c

end Verif.Mapping
