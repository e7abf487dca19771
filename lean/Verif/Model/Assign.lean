/-
The assignments every entry of the two `mapping` dictionaries makes to the output data set, together with the ones
made before the first path (`set_output_class_defaults`), at the first path (`default`) and at the end
(`reset_conversion`, `get_filename`), transcribed from src/Lavoisier/conversions/ECS2_to_ILCD1_conversion.py and
ILCD1_to_ECS2_conversion.py on the classes of src/Lavoisier/data_structures/.

The values are left open. A condition under which an entry assigns a field is given by a name, and whether it holds
for a delivered element is left open too. Simplifications: assignments to objects other than the output data set
(`NotConverted`, the log, class attributes, the holder of the activity name) are left out; the deletion and new assignment of
`functionalUnitFlowProperties` and of summed elementary exchanges are left out (fields that are not mandatory and
not unique); a condition is one name although the code may assign a field for several parts of an element.

The conversion of classifications from ILCD is switched off (ILCD1_to_ECS2_conversion.py:1066-1140, 1442-1452 and
1682-1684), so its entry has no rows.
-/
import Verif.Model.Fill
import Verif.Model.MappingKeys

namespace Verif.Assign

open Verif.DotDict Verif.Schema Verif.Mapping

/-- What an entry does to the data set: reads a group (which makes it, main.py:63-86), or assigns a field,
possibly only under a condition, and possibly several values. -/
inductive Row where
  | read (path : List Key)
  | set (cond : Option Str) (path : List Key) (key : Key) (many : Bool)
deriving DecidableEq

/-- A delivered path with the conditions that hold for the element and the values computed from it. -/
structure Ev (V R : Type) where
  /-- The path, a key of the mapping. -/
  key : MKey
  /-- The conditions that hold. -/
  has : Str → Bool
  /-- The value for a field. -/
  val : List Key → Key → Arg V R
  /-- Further values for a field given several. -/
  more : List Key → Key → List (Arg V R)

/-- The operations of an entry. -/
def Row.ops {V R : Type} (e : Ev V R) : Row → List (Op V R)
  | .read p => [.read p]
  | .set c p k many =>
    if c.all e.has then [.set p k (e.val p k :: if many then e.more p k else [])] else []

/-- A mapping with what is done before and after. -/
structure Conv where
  /-- The classes, with one for the output structure itself. -/
  schema : Schema Str
  /-- The output structure. -/
  root : Cls
  /-- `__init__` of the structure and `set_output_class_defaults`. -/
  start : List Row
  /-- `default`. -/
  first : List Row
  /-- `mapping`. -/
  table : List (MKey × List Row)
  /-- `reset_conversion` and `get_filename`. -/
  last : List Row

/-- The entry of a path. -/
def Conv.rows (t : Conv) (k : MKey) : List Row := (t.table.lookup k).getD []

/-- The operations for a file: before the first path, at the first path, for every path in the order of the file, at the end
(converter.py:246-252, 262-283). `first` and `last` give the values of the defaults and of the end. -/
def Conv.ops {V R : Type} (t : Conv) (first last : Ev V R) (es : List (Ev V R)) : List (Op V R) :=
  t.start.flatMap (Row.ops first) ++
    (if es.isEmpty then [] else t.first.flatMap (Row.ops first)) ++
    es.flatMap (fun e => (t.rows e.key).flatMap (Row.ops e)) ++
    t.last.flatMap (Row.ops last)

/-- The parts of an `ILCD1Structure`, ILCD1_structure.py:489-498 and 513-533; they are made with the structure. -/
def ilcdParts : List (Key × Field Str) := [
  (c!"dataSetInformation", fld (.sub c!"DataSetInformation") false 0 true none none),
  (c!"quantitativeReference", fld (.sub c!"QuantitativeReference") false 0 true none none),
  (c!"time", fld (.sub c!"Time") false 0 true none none),
  (c!"technology", fld (.sub c!"Technology") false 0 true none none),
  (c!"geography", fld (.sub c!"Geography") false 0 true none none),
  (c!"modellingAndValidation", fld (.sub c!"ModellingAndValidation") false 0 true none none),
  (c!"administrativeInformation", fld (.sub c!"AdministrativeInformation") false 0 true none none),
  (c!"mathematicalRelations", fld (.sub c!"MathematicalRelations") false 0 true none none),
  (c!"exchanges", fld (.sub c!"Exchanges") false 0 true none none)]

/-- The parts of an `ECS2Structure`, ECS2_structure.py:828-836 and 875-892; they are made with the structure. -/
def ecs2Parts : List (Key × Field Str) := [
  (c!"activityDescription", fld (.sub c!"ActivityDescription") false 0 true none none),
  (c!"flowData", fld (.sub c!"FlowData") false 0 true none none),
  (c!"modellingAndValidation", fld (.sub c!"ModellingAndValidation") false 0 true none none),
  (c!"administrativeInformation", fld (.sub c!"AdministrativeInformation") false 0 true none none),
  (c!"userMaster", fld (.sub c!"ECS2UsedUserMasterData") false 0 true none none)]

/-- The classes of the ILCD output with the structure itself. -/
def ilcdRoot : Schema Str := fun c => if c = c!"ILCD1Structure" then ilcdParts else ilcd c

/-- The classes of the EcoSpold 2 output with the structure itself. -/
def ecs2Root : Schema Str := fun c => if c = c!"ECS2Structure" then ecs2Parts else ecs2 c

/-- ILCD1_structure.py:489-498 and ECS2_to_ILCD1_conversion.py:1945-1961 -/
def toIlcdStart : List Row :=
  [.read [c!"dataSetInformation"],
   .read [c!"quantitativeReference"],
   .read [c!"time"],
   .read [c!"technology"],
   .read [c!"geography"],
   .read [c!"modellingAndValidation"],
   .read [c!"administrativeInformation"],
   .read [c!"mathematicalRelations"],
   .read [c!"exchanges"],
   .read [c!"dataSetInformation", c!"name"],
   .read [c!"modellingAndValidation", c!"dataSourcesTreatmentAndRepresentativeness"],
   .read [c!"modellingAndValidation", c!"validation"],
   .read [c!"dataSetInformation", c!"classificationInformation"],
   .read [c!"modellingAndValidation", c!"LCIMethodAndAllocation"]]

/-- ECS2_to_ILCD1_conversion.py:2008-2038 -/
def toIlcdFirst : List Row :=
  [.set none [c!"quantitativeReference"] c!"type" false,
   .set none [c!"administrativeInformation", c!"publicationAndOwnership"] c!"licenseType" false,
   .set none [c!"administrativeInformation", c!"publicationAndOwnership"] c!"accessRestrictions" false,
   .set none [c!"administrativeInformation", c!"dataEntryBy"] c!"timeStamp" false,
   .set none [c!"administrativeInformation", c!"dataEntryBy"] c!"referenceToDataSetFormat" true,
   .set none [c!"administrativeInformation", c!"dataEntryBy"] c!"referenceToConvertedOriginalDataSetFrom" false]

/-- ECS2_to_ILCD1_conversion.py:2049-2062, 463-500 and ILCD1_structure.py:504-511 -/
def toIlcdLast : List Row :=
  [.set (some c!"classes") [c!"dataSetInformation", c!"classificationInformation"] c!"classification" true,
   .set (some c!"noPrinciple") [c!"modellingAndValidation", c!"LCIMethodAndAllocation"] c!"deviationsFromLCIMethodPrinciple" false,
   .set (some c!"noApproaches") [c!"modellingAndValidation", c!"LCIMethodAndAllocation"] c!"deviationsFromLCIMethodApproaches" false,
   .set none [c!"modellingAndValidation", c!"dataSourcesTreatmentAndRepresentativeness"] c!"deviationsFromCutOffAndCompletenessPrinciples" false,
   .set none [c!"modellingAndValidation", c!"dataSourcesTreatmentAndRepresentativeness"] c!"deviationsFromSelectionAndCombinationPrinciples" false,
   .set none [c!"modellingAndValidation", c!"dataSourcesTreatmentAndRepresentativeness"] c!"deviationsFromTreatmentAndExtrapolationPrinciples" false,
   .set (some c!"variables") [c!"mathematicalRelations"] c!"variableParameter" true,
   .read [c!"dataSetInformation", c!"name"],
   .read [c!"geography", c!"locationOfOperationSupplyOrProduction"]]

/-- ECS2_to_ILCD1_conversion.py:2175-2482, 1012-1022, 1127, 1285-1295 and 2118-2152 -/
def toIlcdMain : List (MKey × List Row) := [
  (([c!"ecoSpold", c!"activityDataset", c!"activityDescription", c!"activity"], some c!"id"),
    [.set none [c!"dataSetInformation"] c!"UUID" false]),
  (([c!"ecoSpold", c!"activityDataset", c!"activityDescription", c!"activity"], some c!"activityNameId"),
    [.set none [c!"dataSetInformation"] c!"generalComment" false]),
  (([c!"ecoSpold", c!"activityDataset", c!"activityDescription", c!"activity"], some c!"activityNameContextId"),
    []),
  (([c!"ecoSpold", c!"activityDataset", c!"activityDescription", c!"activity"], some c!"parentActivityId"),
    [.set none [c!"dataSetInformation"] c!"generalComment" false]),
  (([c!"ecoSpold", c!"activityDataset", c!"activityDescription", c!"activity"], some c!"parentActivityContextId"),
    []),
  (([c!"ecoSpold", c!"activityDataset", c!"activityDescription", c!"activity"], some c!"inheritanceDepth"),
    [.set (some c!"child") [c!"dataSetInformation"] c!"generalComment" false]),
  (([c!"ecoSpold", c!"activityDataset", c!"activityDescription", c!"activity"], some c!"type"),
    [.set none [c!"modellingAndValidation", c!"LCIMethodAndAllocation"] c!"typeOfDataSet" false]),
  (([c!"ecoSpold", c!"activityDataset", c!"activityDescription", c!"activity"], some c!"specialActivityType"),
    [.set none [c!"dataSetInformation"] c!"generalComment" false]),
  (([c!"ecoSpold", c!"activityDataset", c!"activityDescription", c!"activity"], some c!"energyValues"),
    [.set none [c!"modellingAndValidation", c!"LCIMethodAndAllocation"] c!"modellingConstants" false]),
  (([c!"ecoSpold", c!"activityDataset", c!"activityDescription", c!"activity"], some c!"masterAllocationPropertyId"),
    []),
  (([c!"ecoSpold", c!"activityDataset", c!"activityDescription", c!"activity"], some c!"masterAllocationPropertyIdOverwrittenByChild"),
    []),
  (([c!"ecoSpold", c!"activityDataset", c!"activityDescription", c!"activity"], some c!"masterAllocationPropertyContextId"),
    []),
  (([c!"ecoSpold", c!"activityDataset", c!"activityDescription", c!"activity"], some c!"datasetIcon"),
    [.set none [c!"dataSetInformation"] c!"referenceToExternalDocumentation" false]),
  (([c!"ecoSpold", c!"activityDataset", c!"activityDescription", c!"activity", c!"activityName"], none),
    [.set none [c!"dataSetInformation", c!"name"] c!"baseName" false]),
  (([c!"ecoSpold", c!"activityDataset", c!"activityDescription", c!"activity", c!"synonym"], none),
    [.set none [c!"dataSetInformation"] c!"synonyms" false]),
  (([c!"ecoSpold", c!"activityDataset", c!"activityDescription", c!"activity", c!"includedActivitiesStart"], none),
    [.set none [c!"technology"] c!"technologyDescriptionAndIncludedProcesses" false]),
  (([c!"ecoSpold", c!"activityDataset", c!"activityDescription", c!"activity", c!"includedActivitiesEnd"], none),
    [.set none [c!"technology"] c!"technologyDescriptionAndIncludedProcesses" false]),
  (([c!"ecoSpold", c!"activityDataset", c!"activityDescription", c!"activity", c!"allocationComment"], none),
    [.read [c!"modellingAndValidation", c!"LCIMethodAndAllocation"],
     .set (some c!"text") [c!"modellingAndValidation", c!"LCIMethodAndAllocation"] c!"deviationsFromLCIMethodApproaches" true,
     .set (some c!"imageUrl") [c!"dataSetInformation"] c!"referenceToExternalDocumentation" true]),
  (([c!"ecoSpold", c!"activityDataset", c!"activityDescription", c!"activity", c!"generalComment"], none),
    [.read [c!"dataSetInformation"],
     .set (some c!"text") [c!"dataSetInformation"] c!"generalComment" true,
     .set (some c!"imageUrl") [c!"dataSetInformation"] c!"referenceToExternalDocumentation" true]),
  (([c!"ecoSpold", c!"activityDataset", c!"activityDescription", c!"activity", c!"tag"], none),
    [.set (some c!"tag") [c!"dataSetInformation"] c!"generalComment" false]),
  (([c!"ecoSpold", c!"activityDataset", c!"activityDescription", c!"classification"], none),
    []),
  (([c!"ecoSpold", c!"activityDataset", c!"activityDescription", c!"geography"], some c!"geographyId"),
    []),
  (([c!"ecoSpold", c!"activityDataset", c!"activityDescription", c!"geography"], some c!"geographyContextId"),
    []),
  (([c!"ecoSpold", c!"activityDataset", c!"activityDescription", c!"geography", c!"shortname"], none),
    [.set none [c!"geography", c!"locationOfOperationSupplyOrProduction"] c!"location" false,
     .set none [c!"dataSetInformation", c!"name"] c!"mixAndLocationTypes" false]),
  (([c!"ecoSpold", c!"activityDataset", c!"activityDescription", c!"geography", c!"comment"], none),
    [.read [c!"geography", c!"locationOfOperationSupplyOrProduction"],
     .set (some c!"text") [c!"geography", c!"locationOfOperationSupplyOrProduction"] c!"descriptionOfRestrictions" true,
     .set (some c!"imageUrl") [c!"dataSetInformation"] c!"referenceToExternalDocumentation" true]),
  (([c!"ecoSpold", c!"activityDataset", c!"activityDescription", c!"technology"], some c!"technologyLevel"),
    [.set none [c!"technology"] c!"technologyDescriptionAndIncludedProcesses" false]),
  (([c!"ecoSpold", c!"activityDataset", c!"activityDescription", c!"technology", c!"comment"], none),
    [.read [c!"technology"],
     .set (some c!"text") [c!"technology"] c!"technologyDescriptionAndIncludedProcesses" true,
     .set (some c!"imageUrl") [c!"dataSetInformation"] c!"referenceToExternalDocumentation" true]),
  (([c!"ecoSpold", c!"activityDataset", c!"activityDescription", c!"timePeriod"], some c!"startDate"),
    [.set none [c!"time"] c!"referenceYear" false]),
  (([c!"ecoSpold", c!"activityDataset", c!"activityDescription", c!"timePeriod"], some c!"endDate"),
    [.set none [c!"time"] c!"dataSetValidUntil" false]),
  (([c!"ecoSpold", c!"activityDataset", c!"activityDescription", c!"timePeriod"], some c!"isDataValidForEntirePeriod"),
    [.set none [c!"time"] c!"timeRepresentativenessDescription" false]),
  (([c!"ecoSpold", c!"activityDataset", c!"activityDescription", c!"timePeriod", c!"comment"], none),
    [.read [c!"time"],
     .set (some c!"text") [c!"time"] c!"timeRepresentativenessDescription" true,
     .set (some c!"imageUrl") [c!"dataSetInformation"] c!"referenceToExternalDocumentation" true]),
  (([c!"ecoSpold", c!"activityDataset", c!"activityDescription", c!"macroEconomicScenario"], some c!"macroEconomicScenarioId"),
    []),
  (([c!"ecoSpold", c!"activityDataset", c!"activityDescription", c!"macroEconomicScenario"], some c!"macroEconomicScenarioContextId"),
    []),
  (([c!"ecoSpold", c!"activityDataset", c!"activityDescription", c!"macroEconomicScenario", c!"name"], none),
    [.set none [c!"dataSetInformation"] c!"generalComment" false]),
  (([c!"ecoSpold", c!"activityDataset", c!"activityDescription", c!"macroEconomicScenario", c!"comment"], none),
    [.set none [c!"dataSetInformation"] c!"generalComment" false]),
  (([c!"ecoSpold", c!"activityDataset", c!"flowData", c!"intermediateExchange"], none),
    [.set none [c!"exchanges"] c!"exchange" false,
     .set (some c!"reference") [c!"quantitativeReference"] c!"referenceToReferenceFlow" false,
     .set (some c!"reference") [c!"dataSetInformation", c!"name"] c!"functionalUnitFlowProperties" false,
     .set (some c!"volume") [c!"modellingAndValidation", c!"dataSourcesTreatmentAndRepresentativeness"] c!"annualSupplyOrProductionVolume" false]),
  (([c!"ecoSpold", c!"activityDataset", c!"flowData", c!"intermediateExchange"], some c!"sourceId"),
    []),
  (([c!"ecoSpold", c!"activityDataset", c!"flowData", c!"intermediateExchange"], some c!"productionVolumeSourceId"),
    []),
  (([c!"ecoSpold", c!"activityDataset", c!"flowData", c!"intermediateExchange", c!"property"], some c!"sourceId"),
    []),
  (([c!"ecoSpold", c!"activityDataset", c!"flowData", c!"intermediateExchange", c!"uncertainty"], none),
    []),
  (([c!"ecoSpold", c!"activityDataset", c!"flowData", c!"intermediateExchange", c!"productionVolumeUncertainty"], none),
    []),
  (([c!"ecoSpold", c!"activityDataset", c!"flowData", c!"intermediateExchange", c!"property", c!"uncertainty"], none),
    []),
  (([c!"ecoSpold", c!"activityDataset", c!"flowData", c!"intermediateExchange", c!"classification"], none),
    []),
  (([c!"ecoSpold", c!"activityDataset", c!"flowData", c!"intermediateExchange", c!"property"], none),
    []),
  (([c!"ecoSpold", c!"activityDataset", c!"flowData", c!"elementaryExchange"], none),
    [.set (some c!"mapped") [c!"exchanges"] c!"exchange" false,
     .set (some c!"sources") [c!"dataSetInformation"] c!"referenceToExternalDocumentation" true,
     .set (some c!"reference") [c!"quantitativeReference"] c!"referenceToReferenceFlow" false,
     .set (some c!"reference") [c!"dataSetInformation", c!"name"] c!"functionalUnitFlowProperties" false]),
  (([c!"ecoSpold", c!"activityDataset", c!"flowData", c!"elementaryExchange"], some c!"sourceId"),
    []),
  (([c!"ecoSpold", c!"activityDataset", c!"flowData", c!"elementaryExchange", c!"property"], some c!"sourceId"),
    []),
  (([c!"ecoSpold", c!"activityDataset", c!"flowData", c!"elementaryExchange", c!"uncertainty"], none),
    []),
  (([c!"ecoSpold", c!"activityDataset", c!"flowData", c!"elementaryExchange", c!"property", c!"uncertainty"], none),
    []),
  (([c!"ecoSpold", c!"activityDataset", c!"flowData", c!"elementaryExchange", c!"property"], none),
    []),
  (([c!"ecoSpold", c!"activityDataset", c!"flowData", c!"parameter"], none),
    []),
  (([c!"ecoSpold", c!"activityDataset", c!"flowData", c!"parameter", c!"uncertainty"], none),
    []),
  (([c!"ecoSpold", c!"activityDataset", c!"modellingAndValidation", c!"representativeness"], some c!"percent"),
    [.set none [c!"modellingAndValidation", c!"dataSourcesTreatmentAndRepresentativeness"] c!"percentageSupplyOrProductionCovered" false]),
  (([c!"ecoSpold", c!"activityDataset", c!"modellingAndValidation", c!"representativeness"], some c!"systemModelId"),
    []),
  (([c!"ecoSpold", c!"activityDataset", c!"modellingAndValidation", c!"representativeness"], some c!"systemModelContextId"),
    []),
  (([c!"ecoSpold", c!"activityDataset", c!"modellingAndValidation", c!"representativeness", c!"systemModelName"], none),
    [.set none [c!"modellingAndValidation", c!"LCIMethodAndAllocation"] c!"LCIMethodPrinciple" false,
     .set none [c!"modellingAndValidation", c!"LCIMethodAndAllocation"] c!"deviationsFromLCIMethodPrinciple" false,
     .set none [c!"modellingAndValidation", c!"LCIMethodAndAllocation"] c!"LCIMethodApproaches" false]),
  (([c!"ecoSpold", c!"activityDataset", c!"modellingAndValidation", c!"representativeness", c!"samplingProcedure"], none),
    [.set none [c!"modellingAndValidation", c!"dataSourcesTreatmentAndRepresentativeness"] c!"samplingProcedure" false]),
  (([c!"ecoSpold", c!"activityDataset", c!"modellingAndValidation", c!"representativeness", c!"extrapolations"], none),
    [.set none [c!"modellingAndValidation", c!"dataSourcesTreatmentAndRepresentativeness"] c!"dataTreatmentAndExtrapolationsPrinciples" false]),
  (([c!"ecoSpold", c!"activityDataset", c!"modellingAndValidation", c!"review"], none),
    [.set (some c!"convertible") [c!"modellingAndValidation", c!"validation"] c!"review" false,
     .set none [c!"administrativeInformation", c!"publicationAndOwnership"] c!"dateOfLastRevision" false]),
  (([c!"ecoSpold", c!"activityDataset", c!"administrativeInformation", c!"dataEntryBy"], none),
    [.set none [c!"administrativeInformation", c!"dataEntryBy"] c!"referenceToPersonOrEntityEnteringTheData" false]),
  (([c!"ecoSpold", c!"activityDataset", c!"administrativeInformation", c!"dataGeneratorAndPublication"], none),
    [.set none [c!"administrativeInformation", c!"dataGenerator"] c!"referenceToPersonOrEntityGeneratingTheDataSet" false,
     .set none [c!"administrativeInformation", c!"publicationAndOwnership"] c!"referenceToOwnershipOfDataSet" false,
     .set (some c!"@publishedSourceId") [c!"administrativeInformation", c!"publicationAndOwnership"] c!"referenceToUnchangedRepublication" false,
     .set (some c!"@companyId") [c!"administrativeInformation", c!"publicationAndOwnership"] c!"referenceToEntitiesWithExclusiveAccess" false,
     .set (some c!"@companyCode") [c!"administrativeInformation", c!"publicationAndOwnership"] c!"accessRestrictions" false]),
  (([c!"ecoSpold", c!"activityDataset", c!"administrativeInformation", c!"dataGeneratorAndPublication"], some c!"dataPublishedIn"),
    [.set none [c!"administrativeInformation", c!"publicationAndOwnership"] c!"workflowAndPublicationStatus" false]),
  (([c!"ecoSpold", c!"activityDataset", c!"administrativeInformation", c!"dataGeneratorAndPublication"], some c!"isCopyrightProtected"),
    [.set none [c!"administrativeInformation", c!"publicationAndOwnership"] c!"copyright" false]),
  (([c!"ecoSpold", c!"activityDataset", c!"administrativeInformation", c!"dataGeneratorAndPublication"], some c!"accessRestrictedTo"),
    [.set none [c!"administrativeInformation", c!"publicationAndOwnership"] c!"licenseType" false,
     .set none [c!"administrativeInformation", c!"publicationAndOwnership"] c!"accessRestrictions" false]),
  (([c!"ecoSpold", c!"activityDataset", c!"administrativeInformation", c!"fileAttributes"], none),
    [.set none [c!"administrativeInformation", c!"publicationAndOwnership"] c!"dataSetVersion" false]),
  (([c!"ecoSpold", c!"activityDataset", c!"administrativeInformation", c!"fileAttributes", c!"requiredContext"], none),
    [])]

/-- With the entries of child data sets, ECS2_to_ILCD1_conversion.py:2484-2486. -/
def toIlcdTable : List (MKey × List Row) :=
  toIlcdMain ++ toIlcdMain.map fun r => (childKey r.1, r.2)

/-- ECS2_structure.py:828-836 and ILCD1_to_ECS2_conversion.py:1350-1371 -/
def toEcs2Start : List Row :=
  [.read [c!"activityDescription"],
   .read [c!"flowData"],
   .read [c!"modellingAndValidation"],
   .read [c!"administrativeInformation"],
   .read [c!"userMaster"],
   .read [c!"activityDescription", c!"activity"],
   .read [c!"modellingAndValidation", c!"representativeness"],
   .read [c!"administrativeInformation", c!"dataGeneratorAndPublication"]]

/-- ILCD1_to_ECS2_conversion.py:1392-1436 -/
def toEcs2First : List Row :=
  [.set none [c!"activityDescription", c!"macroEconomicScenario"] c!"macroEconomicScenarioId" false,
   .set none [c!"activityDescription", c!"macroEconomicScenario"] c!"name" false,
   .set none [c!"activityDescription", c!"activity"] c!"inheritanceDepth" false,
   .set none [c!"activityDescription", c!"timePeriod"] c!"isDataValidForEntirePeriod" false,
   .set none [c!"activityDescription", c!"activity"] c!"specialActivityType" false,
   .set none [c!"activityDescription", c!"technology"] c!"technologyLevel" false,
   .set none [c!"administrativeInformation", c!"fileAttributes"] c!"defaultLanguage" false,
   .set none [c!"administrativeInformation", c!"fileAttributes"] c!"fileGenerator" false,
   .set none [c!"administrativeInformation", c!"fileAttributes"] c!"lastEditTimestamp" false,
   .set none [c!"administrativeInformation", c!"fileAttributes"] c!"fileTimestamp" false,
   .set none [c!"administrativeInformation", c!"fileAttributes"] c!"creationTimestamp" false,
   .set none [c!"administrativeInformation", c!"fileAttributes"] c!"internalSchemaVersion" false,
   .set none [c!"administrativeInformation", c!"fileAttributes"] c!"majorRelease" false,
   .set none [c!"administrativeInformation", c!"fileAttributes"] c!"minorRelease" false,
   .set none [c!"administrativeInformation", c!"fileAttributes"] c!"majorRevision" false,
   .set none [c!"administrativeInformation", c!"fileAttributes"] c!"minorRevision" false,
   .set none [c!"administrativeInformation", c!"fileAttributes"] c!"contextId" false,
   .set none [c!"administrativeInformation", c!"fileAttributes"] c!"contextName" false,
   .set none [c!"userMaster", c!"activityIndexEntry"] c!"specialActivityType" false]

/-- ILCD1_to_ECS2_conversion.py:1446-1497, 318-346 and ECS2_structure.py:865-871 -/
def toEcs2Last : List Row :=
  [.set none [c!"modellingAndValidation", c!"representativeness"] c!"systemModelId" false,
   .set none [c!"modellingAndValidation", c!"representativeness"] c!"systemModelName" false,
   .set none [c!"userMaster", c!"activityIndexEntry"] c!"systemModelId" false,
   .set (some c!"noEnergy") [c!"activityDescription", c!"activity"] c!"energyValues" false,
   .set (some c!"access") [c!"administrativeInformation", c!"dataGeneratorAndPublication"] c!"accessRestrictedTo" false,
   .set (some c!"parameters") [c!"flowData"] c!"parameter" true,
   .set (some c!"parameters") [c!"userMaster"] c!"parameter" true,
   .set none [c!"userMaster"] c!"activityName" false,
   .read [c!"activityDescription", c!"activity"],
   .read [c!"activityDescription", c!"geography"],
   .read [c!"activityDescription", c!"timePeriod"]]

/-- ILCD1_to_ECS2_conversion.py:1648-1932, 1546-1641, 755-780, 863-955 and 1149-1180 -/
def toEcs2Table : List (MKey × List Row) := [
  (([c!"processDataSet", c!"processInformation", c!"dataSetInformation", c!"UUID"], none),
    [.set none [c!"activityDescription", c!"activity"] c!"id" false,
     .set none [c!"userMaster", c!"activityIndexEntry"] c!"id" false]),
  (([c!"processDataSet", c!"processInformation", c!"dataSetInformation", c!"name", c!"baseName"], none),
    [.set none [c!"activityDescription", c!"activity"] c!"activityName" false,
     .set none [c!"activityDescription", c!"activity"] c!"activityNameId" false,
     .set none [c!"userMaster", c!"activityIndexEntry"] c!"activityNameId" false]),
  (([c!"processDataSet", c!"processInformation", c!"dataSetInformation", c!"name", c!"treatmentStandardsRoutes"], none),
    [.set none [c!"activityDescription", c!"activity"] c!"activityName" false]),
  (([c!"processDataSet", c!"processInformation", c!"dataSetInformation", c!"name", c!"mixAndLocationTypes"], none),
    [.set none [c!"activityDescription", c!"activity"] c!"activityName" false]),
  (([c!"processDataSet", c!"processInformation", c!"dataSetInformation", c!"name", c!"functionalUnitFlowProperties"], none),
    [.set none [c!"activityDescription", c!"activity"] c!"activityName" false]),
  (([c!"processDataSet", c!"processInformation", c!"dataSetInformation", c!"identifierOfSubDataSet"], none),
    [.set none [c!"activityDescription", c!"activity", c!"generalComment"] c!"text" false]),
  (([c!"processDataSet", c!"processInformation", c!"dataSetInformation", c!"synonyms"], none),
    [.set none [c!"activityDescription", c!"activity"] c!"synonym" true]),
  (([c!"processDataSet", c!"processInformation", c!"dataSetInformation", c!"complementingProcesses"], none),
    []),
  (([c!"processDataSet", c!"processInformation", c!"dataSetInformation", c!"classificationInformation", c!"classification"], none),
    []),
  (([c!"processDataSet", c!"processInformation", c!"dataSetInformation", c!"generalComment"], none),
    [.read [c!"activityDescription", c!"activity", c!"generalComment"],
     .set (some c!"linkable") [c!"activityDescription", c!"activity"] c!"activityNameId" false,
     .set (some c!"linkable") [c!"userMaster", c!"activityIndexEntry"] c!"activityNameId" false,
     .set (some c!"subtype") [c!"activityDescription", c!"activity"] c!"specialActivityType" false,
     .set (some c!"subtype") [c!"userMaster", c!"activityIndexEntry"] c!"specialActivityType" false,
     .set (some c!"subtype") [c!"activityDescription", c!"activity"] c!"specialActivityType" false,
     .set (some c!"inheritance") [c!"activityDescription", c!"activity"] c!"inheritanceDepth" false,
     .set (some c!"parent") [c!"activityDescription", c!"activity"] c!"parentActivityId" false,
     .set (some c!"parent") [c!"activityDescription", c!"activity"] c!"inheritanceDepth" false,
     .set (some c!"tag") [c!"activityDescription", c!"activity"] c!"tag" true,
     .set none [c!"activityDescription", c!"activity", c!"generalComment"] c!"text" false]),
  (([c!"processDataSet", c!"processInformation", c!"dataSetInformation", c!"referenceToExternalDocumentation"], none),
    [.read [c!"activityDescription", c!"activity", c!"generalComment"],
     .set (some c!"imageUrl") [c!"activityDescription", c!"activity", c!"generalComment"] c!"imageUrl" true,
     .set (some c!"datasetIcon") [c!"activityDescription", c!"activity"] c!"datasetIcon" true]),
  (([c!"processDataSet", c!"processInformation", c!"quantitativeReference", c!"referenceToReferenceFlow"], none),
    []),
  (([c!"processDataSet", c!"processInformation", c!"quantitativeReference", c!"functionalUnitOrOther"], none),
    []),
  (([c!"processDataSet", c!"processInformation", c!"quantitativeReference", c!"type"], none),
    []),
  (([c!"processDataSet", c!"processInformation", c!"time", c!"referenceYear"], none),
    [.set none [c!"activityDescription", c!"timePeriod"] c!"startDate" false,
     .set none [c!"userMaster", c!"activityIndexEntry"] c!"startDate" false]),
  (([c!"processDataSet", c!"processInformation", c!"time", c!"dataSetValidUntil"], none),
    [.set none [c!"activityDescription", c!"timePeriod"] c!"endDate" false,
     .set none [c!"userMaster", c!"activityIndexEntry"] c!"endDate" false]),
  (([c!"processDataSet", c!"processInformation", c!"time", c!"timeRepresentativenessDescription"], none),
    [.read [c!"activityDescription", c!"timePeriod", c!"comment"],
     .set (some c!"validity") [c!"activityDescription", c!"timePeriod"] c!"isDataValidForEntirePeriod" false,
     .set none [c!"activityDescription", c!"timePeriod", c!"comment"] c!"text" false]),
  (([c!"processDataSet", c!"processInformation", c!"geography", c!"locationOfOperationSupplyOrProduction", c!"descriptionOfRestrictions"], none),
    [.set none [c!"activityDescription", c!"geography", c!"comment"] c!"text" false]),
  (([c!"processDataSet", c!"processInformation", c!"geography", c!"locationOfOperationSupplyOrProduction"], some c!"location"),
    [.set none [c!"activityDescription", c!"geography"] c!"shortname" false,
     .set none [c!"activityDescription", c!"geography"] c!"geographyId" false,
     .set (some c!"unknown") [c!"userMaster"] c!"geography" false,
     .set none [c!"userMaster", c!"activityIndexEntry"] c!"geographyId" false]),
  (([c!"processDataSet", c!"processInformation", c!"geography", c!"locationOfOperationSupplyOrProduction"], some c!"latituteAndLongitude"),
    []),
  (([c!"processDataSet", c!"processInformation", c!"geography", c!"subLocationOfOperationSupplyOrProduction", c!"descriptionOfRestrictions"], none),
    [.set none [c!"activityDescription", c!"geography", c!"comment"] c!"text" false]),
  (([c!"processDataSet", c!"processInformation", c!"geography", c!"subLocationOfOperationSupplyOrProduction"], none),
    []),
  (([c!"processDataSet", c!"processInformation", c!"technology", c!"technologyDescriptionAndIncludedProcesses"], none),
    [.read [c!"activityDescription", c!"technology", c!"comment"],
     .set (some c!"start") [c!"activityDescription", c!"activity"] c!"includedActivitiesStart" false,
     .set (some c!"end") [c!"activityDescription", c!"activity"] c!"includedActivitiesEnd" false,
     .set (some c!"level") [c!"activityDescription", c!"technology"] c!"technologyLevel" false,
     .set none [c!"activityDescription", c!"technology", c!"comment"] c!"text" false]),
  (([c!"processDataSet", c!"processInformation", c!"technology", c!"referenceToIncludedProcesses"], none),
    []),
  (([c!"processDataSet", c!"processInformation", c!"technology", c!"technologyApplicability"], none),
    [.set none [c!"activityDescription", c!"technology", c!"comment"] c!"text" false]),
  (([c!"processDataSet", c!"processInformation", c!"technology", c!"referenceToTechnologyPictogramme"], none),
    [.read [c!"activityDescription", c!"technology", c!"comment"],
     .set (some c!"file") [c!"activityDescription", c!"technology", c!"comment"] c!"imageUrl" true]),
  (([c!"processDataSet", c!"processInformation", c!"technology", c!"referenceToTechnologyFlowDiagrammOrPicture"], none),
    [.read [c!"activityDescription", c!"technology", c!"comment"],
     .set (some c!"file") [c!"activityDescription", c!"technology", c!"comment"] c!"imageUrl" true]),
  (([c!"processDataSet", c!"processInformation", c!"mathematicalRelations", c!"modelDescription"], none),
    [.set none [c!"activityDescription", c!"activity", c!"generalComment"] c!"text" false]),
  (([c!"processDataSet", c!"processInformation", c!"mathematicalRelations", c!"variableParameter"], none),
    []),
  (([c!"processDataSet", c!"modellingAndValidation", c!"LCIMethodAndAllocation", c!"typeOfDataSet"], none),
    [.set none [c!"activityDescription", c!"activity"] c!"type" false]),
  (([c!"processDataSet", c!"modellingAndValidation", c!"LCIMethodAndAllocation", c!"LCIMethodPrinciple"], none),
    []),
  (([c!"processDataSet", c!"modellingAndValidation", c!"LCIMethodAndAllocation", c!"deviationsFromLCIMethodPrinciple"], none),
    [.set (some c!"notNone") [c!"modellingAndValidation", c!"representativeness"] c!"extrapolations" false]),
  (([c!"processDataSet", c!"modellingAndValidation", c!"LCIMethodAndAllocation", c!"LCIMethodApproaches"], none),
    []),
  (([c!"processDataSet", c!"modellingAndValidation", c!"LCIMethodAndAllocation", c!"deviationsFromLCIMethodApproaches"], none),
    [.set (some c!"notNone") [c!"activityDescription", c!"activity", c!"allocationComment"] c!"text" false]),
  (([c!"processDataSet", c!"modellingAndValidation", c!"LCIMethodAndAllocation", c!"modellingConstants"], none),
    [.read [c!"modellingAndValidation", c!"representativeness"],
     .set (some c!"energy") [c!"activityDescription", c!"activity"] c!"energyValues" false,
     .set none [c!"modellingAndValidation", c!"representativeness"] c!"samplingProcedure" false]),
  (([c!"processDataSet", c!"modellingAndValidation", c!"LCIMethodAndAllocation", c!"deviationsFromModellingConstants"], none),
    [.set none [c!"modellingAndValidation", c!"representativeness"] c!"extrapolations" false]),
  (([c!"processDataSet", c!"modellingAndValidation", c!"LCIMethodAndAllocation", c!"referenceToLCAMethodDetails"], none),
    []),
  (([c!"processDataSet", c!"modellingAndValidation", c!"dataSourcesTreatmentAndRepresentativeness", c!"dataCutOffAndCompletenessPrinciples"], none),
    [.set none [c!"modellingAndValidation", c!"representativeness"] c!"samplingProcedure" false]),
  (([c!"processDataSet", c!"modellingAndValidation", c!"dataSourcesTreatmentAndRepresentativeness", c!"deviationsFromCutOffAndCompletenessPrinciples"], none),
    [.set (some c!"notNone") [c!"modellingAndValidation", c!"representativeness"] c!"extrapolations" false]),
  (([c!"processDataSet", c!"modellingAndValidation", c!"dataSourcesTreatmentAndRepresentativeness", c!"dataSelectionAndCombinationPrinciples"], none),
    [.set none [c!"modellingAndValidation", c!"representativeness"] c!"samplingProcedure" false]),
  (([c!"processDataSet", c!"modellingAndValidation", c!"dataSourcesTreatmentAndRepresentativeness", c!"deviationsFromSelectionAndCombinationPrinciples"], none),
    [.set (some c!"notNone") [c!"modellingAndValidation", c!"representativeness"] c!"extrapolations" false]),
  (([c!"processDataSet", c!"modellingAndValidation", c!"dataSourcesTreatmentAndRepresentativeness", c!"dataTreatmentAndExtrapolationsPrinciples"], none),
    [.set none [c!"modellingAndValidation", c!"representativeness"] c!"extrapolations" false]),
  (([c!"processDataSet", c!"modellingAndValidation", c!"dataSourcesTreatmentAndRepresentativeness", c!"deviationsFromTreatmentAndExtrapolationPrinciples"], none),
    [.set (some c!"notNone") [c!"modellingAndValidation", c!"representativeness"] c!"extrapolations" false]),
  (([c!"processDataSet", c!"modellingAndValidation", c!"dataSourcesTreatmentAndRepresentativeness", c!"referenceToDataHandlingPrinciples"], none),
    []),
  (([c!"processDataSet", c!"modellingAndValidation", c!"dataSourcesTreatmentAndRepresentativeness", c!"referenceToDataSource"], none),
    []),
  (([c!"processDataSet", c!"modellingAndValidation", c!"dataSourcesTreatmentAndRepresentativeness", c!"percentageSupplyOrProductionCovered"], none),
    [.set none [c!"modellingAndValidation", c!"representativeness"] c!"percent" false]),
  (([c!"processDataSet", c!"modellingAndValidation", c!"dataSourcesTreatmentAndRepresentativeness", c!"annualSupplyOrProductionVolume"], none),
    []),
  (([c!"processDataSet", c!"modellingAndValidation", c!"dataSourcesTreatmentAndRepresentativeness", c!"samplingProcedure"], none),
    [.set none [c!"modellingAndValidation", c!"representativeness"] c!"samplingProcedure" false]),
  (([c!"processDataSet", c!"modellingAndValidation", c!"dataSourcesTreatmentAndRepresentativeness", c!"dataCollectionPeriod"], none),
    [.set none [c!"modellingAndValidation", c!"representativeness"] c!"samplingProcedure" false]),
  (([c!"processDataSet", c!"modellingAndValidation", c!"dataSourcesTreatmentAndRepresentativeness", c!"uncertaintyAdjustments"], none),
    [.set none [c!"modellingAndValidation", c!"representativeness"] c!"samplingProcedure" false]),
  (([c!"processDataSet", c!"modellingAndValidation", c!"dataSourcesTreatmentAndRepresentativeness", c!"useAdviceForDataSet"], none),
    [.set none [c!"modellingAndValidation", c!"representativeness"] c!"samplingProcedure" false]),
  (([c!"processDataSet", c!"modellingAndValidation", c!"completeness"], none),
    []),
  (([c!"processDataSet", c!"modellingAndValidation", c!"validation", c!"review"], none),
    [.set (some c!"reviewer") [c!"modellingAndValidation"] c!"review" false,
     .set (some c!"newContact") [c!"userMaster"] c!"person" false]),
  (([c!"processDataSet", c!"modellingAndValidation", c!"complianceDeclarations", c!"compliance"], none),
    []),
  (([c!"processDataSet", c!"administrativeInformation", c!"commissionerAndGoal", c!"project"], none),
    [.set none [c!"activityDescription", c!"activity", c!"generalComment"] c!"text" false]),
  (([c!"processDataSet", c!"administrativeInformation", c!"commissionerAndGoal", c!"intendedApplications"], none),
    [.set none [c!"activityDescription", c!"activity", c!"generalComment"] c!"text" false]),
  (([c!"processDataSet", c!"administrativeInformation", c!"dataGenerator", c!"referenceToPersonOrEntityGeneratingTheDataSet"], none),
    [.read [c!"administrativeInformation", c!"dataGeneratorAndPublication"],
     .set (some c!"@refObjectId") [c!"administrativeInformation", c!"dataGeneratorAndPublication"] c!"personId" false,
     .set (some c!"@refObjectId") [c!"administrativeInformation", c!"dataGeneratorAndPublication"] c!"personName" false,
     .set (some c!"@refObjectId") [c!"administrativeInformation", c!"dataGeneratorAndPublication"] c!"personEmail" false,
     .set (some c!"file") [c!"administrativeInformation", c!"dataGeneratorAndPublication"] c!"personId" false,
     .set (some c!"file") [c!"administrativeInformation", c!"dataGeneratorAndPublication"] c!"personEmail" false,
     .set (some c!"newContact") [c!"userMaster"] c!"person" false]),
  (([c!"processDataSet", c!"administrativeInformation", c!"dataEntryBy", c!"timeStamp"], none),
    [.set none [c!"administrativeInformation", c!"fileAttributes"] c!"creationTimestamp" false]),
  (([c!"processDataSet", c!"administrativeInformation", c!"dataEntryBy", c!"referenceToDataSetFormat"], none),
    []),
  (([c!"processDataSet", c!"administrativeInformation", c!"dataEntryBy", c!"referenceToConvertedOriginalDataSetFrom"], none),
    []),
  (([c!"processDataSet", c!"administrativeInformation", c!"dataEntryBy", c!"referenceToPersonOrEntityEnteringTheData"], none),
    [.read [c!"administrativeInformation", c!"dataEntryBy"],
     .set (some c!"@refObjectId") [c!"administrativeInformation", c!"dataEntryBy"] c!"personId" false,
     .set (some c!"@refObjectId") [c!"administrativeInformation", c!"dataEntryBy"] c!"personName" false,
     .set (some c!"@refObjectId") [c!"administrativeInformation", c!"dataEntryBy"] c!"personEmail" false,
     .set (some c!"file") [c!"administrativeInformation", c!"dataEntryBy"] c!"personId" false,
     .set (some c!"file") [c!"administrativeInformation", c!"dataEntryBy"] c!"personEmail" false,
     .set (some c!"newContact") [c!"userMaster"] c!"person" false]),
  (([c!"processDataSet", c!"administrativeInformation", c!"dataEntryBy", c!"referenceToDataSetUseApproval"], none),
    []),
  (([c!"processDataSet", c!"administrativeInformation", c!"publicationAndOwnership", c!"dateOfLastRevision"], none),
    []),
  (([c!"processDataSet", c!"administrativeInformation", c!"publicationAndOwnership", c!"dataSetVersion"], none),
    [.set none [c!"administrativeInformation", c!"fileAttributes"] c!"majorRelease" false,
     .set none [c!"administrativeInformation", c!"fileAttributes"] c!"minorRelease" false,
     .set none [c!"administrativeInformation", c!"fileAttributes"] c!"majorRevision" false,
     .set none [c!"administrativeInformation", c!"fileAttributes"] c!"minorRevision" false]),
  (([c!"processDataSet", c!"administrativeInformation", c!"publicationAndOwnership", c!"referenceToPrecedingDataSetVersion"], none),
    []),
  (([c!"processDataSet", c!"administrativeInformation", c!"publicationAndOwnership", c!"permanentDataSetURI"], none),
    []),
  (([c!"processDataSet", c!"administrativeInformation", c!"publicationAndOwnership", c!"workflowAndPublication"], none),
    [.set none [c!"administrativeInformation", c!"dataGeneratorAndPublication"] c!"dataPublishedIn" false]),
  (([c!"processDataSet", c!"administrativeInformation", c!"publicationAndOwnership", c!"referenceToUnchangedRepublication"], none),
    [.read [c!"administrativeInformation", c!"dataGeneratorAndPublication"],
     .set (some c!"file") [c!"administrativeInformation", c!"dataGeneratorAndPublication"] c!"publishedSourceId" false,
     .set (some c!"page") [c!"administrativeInformation", c!"dataGeneratorAndPublication"] c!"pageNumbers" false,
     .set (some c!"year") [c!"administrativeInformation", c!"dataGeneratorAndPublication"] c!"publishedSourceYear" false,
     .set (some c!"file") [c!"administrativeInformation", c!"dataGeneratorAndPublication"] c!"publishedSourceFirstAuthor" false,
     .set (some c!"newSource") [c!"userMaster"] c!"source" false]),
  (([c!"processDataSet", c!"administrativeInformation", c!"publicationAndOwnership", c!"referenceToRegistrationAuthority"], none),
    []),
  (([c!"processDataSet", c!"administrativeInformation", c!"publicationAndOwnership", c!"registrationNumber"], none),
    []),
  (([c!"processDataSet", c!"administrativeInformation", c!"publicationAndOwnership", c!"referenceToOwnershipOfDataSet"], none),
    []),
  (([c!"processDataSet", c!"administrativeInformation", c!"publicationAndOwnership", c!"copyright"], none),
    [.set none [c!"administrativeInformation", c!"dataGeneratorAndPublication"] c!"isCopyrightProtected" false]),
  (([c!"processDataSet", c!"administrativeInformation", c!"publicationAndOwnership", c!"referenceToEntitiesWithExclusiveAccess"], none),
    [.read [c!"administrativeInformation", c!"dataGeneratorAndPublication"],
     .set (some c!"@refObjectId") [c!"administrativeInformation", c!"dataGeneratorAndPublication"] c!"companyId" false,
     .set (some c!"@refObjectId") [c!"administrativeInformation", c!"dataGeneratorAndPublication"] c!"companyCode" false,
     .set (some c!"file") [c!"administrativeInformation", c!"dataGeneratorAndPublication"] c!"companyId" false,
     .set (some c!"newContact") [c!"userMaster"] c!"company" false]),
  (([c!"processDataSet", c!"administrativeInformation", c!"publicationAndOwnership", c!"licenseType"], none),
    []),
  (([c!"processDataSet", c!"administrativeInformation", c!"publicationAndOwnership", c!"accessRestrictions"], none),
    [.set (some c!"known") [c!"administrativeInformation", c!"dataGeneratorAndPublication"] c!"accessRestrictedTo" false]),
  (([c!"processDataSet", c!"exchanges", c!"exchange"], none),
    [.set (some c!"properties") [c!"userMaster"] c!"property" true,
     .set (some c!"elementary") [c!"userMaster"] c!"elementaryExchange" false,
     .set (some c!"intermediate") [c!"userMaster"] c!"intermediateExchange" false,
     .set (some c!"elementary") [c!"flowData"] c!"elementaryExchange" false,
     .set (some c!"intermediate") [c!"flowData"] c!"intermediateExchange" false])]

/-- EcoSpold 2 to ILCD. -/
def toIlcd : Conv := ⟨ilcdRoot, c!"ILCD1Structure", toIlcdStart, toIlcdFirst, toIlcdTable, toIlcdLast⟩

/-- ILCD to EcoSpold 2. -/
def toEcs2 : Conv := ⟨ecs2Root, c!"ECS2Structure", toEcs2Start, toEcs2First, toEcs2Table, toEcs2Last⟩

end Verif.Assign
