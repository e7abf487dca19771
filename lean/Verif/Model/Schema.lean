/-
The `VALID` tables of both formats, transcribed from
src/Lavoisier/data_structures/ECS2_structure.py and ILCD1_structure.py, one definition per class,
with inherited tables (`A.VALID | {...}`) merged as `dict.__or__` does. Validator classes are given
by name; `return_enum(X)` is `Enum X` and `return_enum(X, list_=True)` is `EnumList X`.

Not transcribed: `ILCD1ToECS2DataNotConverted`, `ECS2ToILCD1DataNotConverted` and their nested
classes, whose fields have no `order` and are never written with `get_dict`.
-/
import Verif.Model.DotDict

namespace Verif.Schema

open Verif.DotDict

/-- One field: type, mandatory, order, unique, xml_type, xml_nms. -/
def fld (type : FType Str) (mandatory : Bool) (order : Nat) (unique : Bool) (xmlType xmlNms : Option Str) :
    Field Str := { type, mandatory, order, unique, xmlType, xmlNms }

/-- `xml_type` attribute -/
def xAttr : Option Str := some c!"attribute"
/-- `xml_type` nms:common -/
def xCommon : Option Str := some c!"nms:common"
/-- `xml_type` text -/
def xText : Option Str := some c!"text"

/-- ECS2_structure.py:69-76 -/
def ecs2_Lognormal : List (Key × Field Str) := [
  (c!"meanValue", fld (.leaf c!"Real") true 0 true xAttr none),
  (c!"mu", fld (.leaf c!"Real") true 0 true xAttr none),
  (c!"variance", fld (.leaf c!"Real") false 0 true xAttr none),
  (c!"varianceWithPedigreeUncertainty", fld (.leaf c!"Real") true 0 true xAttr none)]

/-- ECS2_structure.py:78-84 -/
def ecs2_Normal : List (Key × Field Str) := [
  (c!"meanValue", fld (.leaf c!"Real") true 0 false xAttr none),
  (c!"variance", fld (.leaf c!"Real") false 0 false xAttr none),
  (c!"varianceWithPedigreeUncertainty", fld (.leaf c!"Real") true 0 false xAttr none)]

/-- ECS2_structure.py:86-92 -/
def ecs2_Triangular : List (Key × Field Str) := [
  (c!"minValue", fld (.leaf c!"Real") true 0 true xAttr none),
  (c!"mostLikelyValue", fld (.leaf c!"Real") true 0 true xAttr none),
  (c!"maxValue", fld (.leaf c!"Real") true 0 true xAttr none)]

/-- ECS2_structure.py:94-99 -/
def ecs2_Uniform : List (Key × Field Str) := [
  (c!"minValue", fld (.leaf c!"Real") true 0 true xAttr none),
  (c!"maxValue", fld (.leaf c!"Real") true 0 true xAttr none)]

/-- ECS2_structure.py:101-107 -/
def ecs2_Beta : List (Key × Field Str) := [
  (c!"minValue", fld (.leaf c!"Real") true 0 true xAttr none),
  (c!"mostLikelyValue", fld (.leaf c!"Real") true 0 true xAttr none),
  (c!"maxValue", fld (.leaf c!"Real") true 0 true xAttr none)]

/-- ECS2_structure.py:109-115 -/
def ecs2_Gamma : List (Key × Field Str) := [
  (c!"shape", fld (.leaf c!"Real") true 0 true xAttr none),
  (c!"scale", fld (.leaf c!"Real") true 0 true xAttr none),
  (c!"minValue", fld (.leaf c!"Real") true 0 true xAttr none)]

/-- ECS2_structure.py:117-122 -/
def ecs2_Binomial : List (Key × Field Str) := [
  (c!"n", fld (.leaf c!"Int") true 0 true xAttr none),
  (c!"p", fld (.leaf c!"Real") true 0 true xAttr none)]

/-- ECS2_structure.py:124-130 -/
def ecs2_Undefined : List (Key × Field Str) := [
  (c!"minValue", fld (.leaf c!"Real") true 0 true xAttr none),
  (c!"maxValue", fld (.leaf c!"Real") true 0 true xAttr none),
  (c!"standardDeviation95", fld (.leaf c!"Real") true 0 true xAttr none)]

/-- ECS2_structure.py:132-140 -/
def ecs2_PedigreeMatrix : List (Key × Field Str) := [
  (c!"reliability", fld (.leaf c!"PedigreeINT") true 0 true xAttr none),
  (c!"completeness", fld (.leaf c!"PedigreeINT") true 0 true xAttr none),
  (c!"temporalCorrelation", fld (.leaf c!"PedigreeINT") true 0 true xAttr none),
  (c!"geographicalCorrelation", fld (.leaf c!"PedigreeINT") true 0 true xAttr none),
  (c!"furtherTechnologyCorrelation", fld (.leaf c!"PedigreeINT") true 0 true xAttr none)]

/-- ECS2_structure.py:142-155 -/
def ecs2_ECS2Uncertainty : List (Key × Field Str) := [
  (c!"lognormal", fld (.sub c!"Lognormal") false 1 true none none),
  (c!"normal", fld (.sub c!"Normal") false 2 true none none),
  (c!"triangular", fld (.sub c!"Triangular") false 3 true none none),
  (c!"uniform", fld (.sub c!"Uniform") false 4 true none none),
  (c!"beta", fld (.sub c!"Beta") false 5 true none none),
  (c!"gamma", fld (.sub c!"Gamma") false 6 true none none),
  (c!"binomial", fld (.sub c!"Binomial") false 7 true none none),
  (c!"undefined", fld (.sub c!"Undefined") false 8 true none none),
  (c!"pedigreeMatrix", fld (.sub c!"PedigreeMatrix") false 9 true none none),
  (c!"comment", fld (.leaf c!"String32000") false 10 false none none)]

/-- ECS2_structure.py:159-167 -/
def ecs2_ECS2Source : List (Key × Field Str) := [
  (c!"sourceId", fld (.leaf c!"UUID") false 0 false xAttr none),
  (c!"sourceIdOverwrittenByChild", fld (.leaf c!"Bool") false 0 true xAttr none),
  (c!"sourceContextId", fld (.leaf c!"UUID") false 0 true xAttr none),
  (c!"sourceYear", fld (.leaf c!"UniqueBaseString30") false 0 false xAttr none),
  (c!"sourceFirstAuthor", fld (.leaf c!"UniqueBaseString40") false 0 false xAttr none)]

/-- ECS2_structure.py:171-195 -/
def ecs2_ECS2QuantitativeReference : List (Key × Field Str) := [
  (c!"sourceId", fld (.leaf c!"UUID") false 0 false xAttr none),
  (c!"sourceIdOverwrittenByChild", fld (.leaf c!"Bool") false 0 true xAttr none),
  (c!"sourceContextId", fld (.leaf c!"UUID") false 0 true xAttr none),
  (c!"sourceYear", fld (.leaf c!"UniqueBaseString30") false 0 false xAttr none),
  (c!"sourceFirstAuthor", fld (.leaf c!"UniqueBaseString40") false 0 false xAttr none),
  (c!"amount", fld (.leaf c!"Real") true 0 false xAttr none),
  (c!"mathematicalRelation", fld (.leaf c!"BaseString32000") false 0 true xAttr none),
  (c!"isCalculatedAmount", fld (.leaf c!"Bool") false 0 true xAttr none),
  (c!"comment", fld (.leaf c!"String32000") false 3 false none none),
  (c!"uncertainty", fld (.sub c!"ECS2Uncertainty") false 4 true none none)]

/-- ECS2_structure.py:199-223 -/
def ecs2_ECS2QuantitativeReferenceWithUnit : List (Key × Field Str) := [
  (c!"sourceId", fld (.leaf c!"UUID") false 0 false xAttr none),
  (c!"sourceIdOverwrittenByChild", fld (.leaf c!"Bool") false 0 true xAttr none),
  (c!"sourceContextId", fld (.leaf c!"UUID") false 0 true xAttr none),
  (c!"sourceYear", fld (.leaf c!"UniqueBaseString30") false 0 false xAttr none),
  (c!"sourceFirstAuthor", fld (.leaf c!"UniqueBaseString40") false 0 false xAttr none),
  (c!"amount", fld (.leaf c!"Real") true 0 false xAttr none),
  (c!"mathematicalRelation", fld (.leaf c!"BaseString32000") false 0 true xAttr none),
  (c!"isCalculatedAmount", fld (.leaf c!"Bool") false 0 true xAttr none),
  (c!"comment", fld (.leaf c!"String32000") false 3 false none none),
  (c!"uncertainty", fld (.sub c!"ECS2Uncertainty") false 4 true none none),
  (c!"variableName", fld (.leaf c!"VariableName") false 0 true xAttr none),
  (c!"unitId", fld (.leaf c!"UUID") false 0 false xAttr none),
  (c!"unitContextId", fld (.leaf c!"UUID") false 0 true xAttr none),
  (c!"name", fld (.leaf c!"ExchangeNameString80") true 1 false none none),
  (c!"unitName", fld (.leaf c!"UniqueString40") true 2 false none none)]

/-- ECS2_structure.py:227-233 -/
def ecs2_ECS2TextAndImage : List (Key × Field Str) := [
  (c!"text", fld (.leaf c!"IndexedString32000") false 1 false none none),
  (c!"imageUrl", fld (.leaf c!"IndexedStringSTR") false 2 false none none),
  (c!"variable", fld (.leaf c!"NamedString32000") false 3 false none none)]

/-- ECS2_structure.py:237-244 -/
def ecs2_ECS2Classification : List (Key × Field Str) := [
  (c!"classificationId", fld (.leaf c!"UUID") true 0 true xAttr none),
  (c!"classificationContextId", fld (.leaf c!"UUID") false 0 true xAttr none),
  (c!"classificationSystem", fld (.leaf c!"String255") true 1 false none none),
  (c!"classificationValue", fld (.leaf c!"ClassificationValueString120") true 2 false none none)]

/-- ECS2_structure.py:248-254 -/
def ecs2_ECS2Property : List (Key × Field Str) := [
  (c!"sourceId", fld (.leaf c!"UUID") false 0 false xAttr none),
  (c!"sourceIdOverwrittenByChild", fld (.leaf c!"Bool") false 0 true xAttr none),
  (c!"sourceContextId", fld (.leaf c!"UUID") false 0 true xAttr none),
  (c!"sourceYear", fld (.leaf c!"UniqueBaseString30") false 0 false xAttr none),
  (c!"sourceFirstAuthor", fld (.leaf c!"UniqueBaseString40") false 0 false xAttr none),
  (c!"amount", fld (.leaf c!"Real") true 0 false xAttr none),
  (c!"mathematicalRelation", fld (.leaf c!"BaseString32000") false 0 true xAttr none),
  (c!"isCalculatedAmount", fld (.leaf c!"Bool") false 0 true xAttr none),
  (c!"comment", fld (.leaf c!"String32000") false 4 false none none),
  (c!"uncertainty", fld (.sub c!"ECS2Uncertainty") false 3 true none none),
  (c!"variableName", fld (.leaf c!"VariableName") false 0 true xAttr none),
  (c!"unitId", fld (.leaf c!"UUID") false 0 false xAttr none),
  (c!"unitContextId", fld (.leaf c!"UUID") false 0 true xAttr none),
  (c!"name", fld (.leaf c!"ExchangeNameString80") true 1 false none none),
  (c!"unitName", fld (.leaf c!"UniqueString40") false 2 false none none),
  (c!"propertyId", fld (.leaf c!"UUID") true 0 true xAttr none),
  (c!"propertyContextId", fld (.leaf c!"UUID") false 0 true xAttr none),
  (c!"isDefiningValue", fld (.leaf c!"Bool") false 0 true xAttr none)]

/-- ECS2_structure.py:261-266 -/
def ecs2_ActivityNameMaster : List (Key × Field Str) := [
  (c!"id", fld (.leaf c!"UUID") true 0 false xAttr none),
  (c!"name", fld (.leaf c!"String120") true 1 false none none)]

/-- ECS2_structure.py:270-276 -/
def ecs2_CSClassificationValue : List (Key × Field Str) := [
  (c!"id", fld (.leaf c!"UUID") true 0 true xAttr none),
  (c!"name", fld (.leaf c!"ClassificationValueString120") true 1 false none none),
  (c!"comment", fld (.leaf c!"String32000") false 2 false none none)]

/-- ECS2_structure.py:278-286 -/
def ecs2_ClassificationSystemMaster : List (Key × Field Str) := [
  (c!"id", fld (.leaf c!"UUID") true 0 true xAttr none),
  (c!"type", fld (.leaf c!"TypeINT") true 0 true xAttr none),
  (c!"name", fld (.leaf c!"String255") true 1 false none none),
  (c!"comment", fld (.leaf c!"String32000") false 2 false none none),
  (c!"classificationValue", fld (.sub c!"CSClassificationValue") true 3 false none none)]

/-- ECS2_structure.py:290-298 -/
def ecs2_CompanyMaster : List (Key × Field Str) := [
  (c!"id", fld (.leaf c!"UUID") true 0 true xAttr none),
  (c!"code", fld (.leaf c!"CompanyCode") true 0 true xAttr none),
  (c!"website", fld (.leaf c!"BaseString255") false 0 true xAttr none),
  (c!"name", fld (.leaf c!"String255") false 1 false none none),
  (c!"comment", fld (.leaf c!"String32000") false 2 false none none)]

/-- ECS2_structure.py:302-308 -/
def ecs2_CSubcompartmentMaster : List (Key × Field Str) := [
  (c!"id", fld (.leaf c!"UUID") true 0 true xAttr none),
  (c!"name", fld (.leaf c!"String40") true 1 false none none),
  (c!"comment", fld (.leaf c!"String32000") false 2 false none none)]

/-- ECS2_structure.py:310-317 -/
def ecs2_CompartmentMaster : List (Key × Field Str) := [
  (c!"id", fld (.leaf c!"UUID") true 0 true xAttr none),
  (c!"name", fld (.leaf c!"String40") true 1 false none none),
  (c!"comment", fld (.leaf c!"String32000") false 2 false none none),
  (c!"subcompartment", fld (.sub c!"CSubcompartmentMaster") true 3 false none none)]

/-- ECS2_structure.py:321-328 -/
def ecs2_EMCompartment : List (Key × Field Str) := [
  (c!"subcompartmentId", fld (.leaf c!"UUID") true 0 true xAttr none),
  (c!"subcompartmentContextId", fld (.leaf c!"UUID") false 0 true xAttr none),
  (c!"compartment", fld (.leaf c!"String40") true 1 false none none),
  (c!"subcompartment", fld (.leaf c!"String40") true 2 false none none)]

/-- ECS2_structure.py:330-346 -/
def ecs2_ElementaryMaster : List (Key × Field Str) := [
  (c!"id", fld (.leaf c!"UUID") true 0 true xAttr none),
  (c!"unitId", fld (.leaf c!"UUID") true 0 true xAttr none),
  (c!"unitContextId", fld (.leaf c!"UUID") false 0 true xAttr none),
  (c!"formula", fld (.leaf c!"BaseString40") false 0 true xAttr none),
  (c!"casNumber", fld (.leaf c!"CASNumber") false 0 true xAttr none),
  (c!"defaultVariableName", fld (.leaf c!"VariableName") false 0 true xAttr none),
  (c!"name", fld (.leaf c!"String120") true 1 false none none),
  (c!"unitName", fld (.leaf c!"String40") true 2 false none none),
  (c!"compartment", fld (.sub c!"EMCompartment") true 3 false none none),
  (c!"comment", fld (.leaf c!"String32000") false 4 false none none),
  (c!"synonym", fld (.leaf c!"String80_NLR") false 5 false none none),
  (c!"property", fld (.sub c!"ECS2Property") false 6 false none none),
  (c!"productInformation", fld (.sub c!"ECS2TextAndImage") false 7 true none none)]

/-- ECS2_structure.py:350-365 -/
def ecs2_GeographyMaster : List (Key × Field Str) := [
  (c!"id", fld (.leaf c!"UUID") true 0 true xAttr none),
  (c!"longitude", fld (.leaf c!"Real") false 0 true xAttr none),
  (c!"latitude", fld (.leaf c!"Real") false 0 true xAttr none),
  (c!"ISOTwoLetterCode", fld (.leaf c!"ISOTwoLetterCode") false 0 true xAttr none),
  (c!"ISOThreeLetterCode", fld (.leaf c!"ISOThreeLetterCode") false 0 true xAttr none),
  (c!"uNCode", fld (.leaf c!"Int") false 0 true xAttr none),
  (c!"uNRegionCode", fld (.leaf c!"Int") false 0 true xAttr none),
  (c!"uNSubregionCode", fld (.leaf c!"Int") false 0 true xAttr none),
  (c!"name", fld (.leaf c!"String255") true 1 false none none),
  (c!"shortname", fld (.leaf c!"String40") true 2 false none none),
  (c!"comment", fld (.sub c!"ECS2TextAndImage") false 3 true none none)]

/-- ECS2_structure.py:369-384 -/
def ecs2_IntermediateMaster : List (Key × Field Str) := [
  (c!"id", fld (.leaf c!"UUID") true 0 true xAttr none),
  (c!"unitId", fld (.leaf c!"UUID") true 0 true xAttr none),
  (c!"unitContextId", fld (.leaf c!"UUID") false 0 true xAttr none),
  (c!"casNumber", fld (.leaf c!"CASNumber") false 0 true xAttr none),
  (c!"defaultVariableName", fld (.leaf c!"VariableName") false 0 true xAttr none),
  (c!"name", fld (.leaf c!"String120") true 1 false none none),
  (c!"unitName", fld (.leaf c!"String40") true 2 false none none),
  (c!"classification", fld (.sub c!"ECS2Classification") false 3 false none none),
  (c!"comment", fld (.leaf c!"String32000") false 4 false none none),
  (c!"synonym", fld (.leaf c!"String80_NLR") false 5 false none none),
  (c!"property", fld (.sub c!"ECS2Property") false 6 false none none),
  (c!"productInformation", fld (.sub c!"ECS2TextAndImage") false 7 true none none)]

/-- ECS2_structure.py:388-393 -/
def ecs2_LanguageMaster : List (Key × Field Str) := [
  (c!"code", fld (.leaf c!"Lang") true 0 true xAttr none),
  (c!"comment", fld (.leaf c!"String32000") false 2 false none none)]

/-- ECS2_structure.py:397-403 -/
def ecs2_MacroEconomicScenarioMaster : List (Key × Field Str) := [
  (c!"id", fld (.leaf c!"UUID") true 0 true xAttr none),
  (c!"name", fld (.leaf c!"String80") true 1 false none none),
  (c!"comment", fld (.leaf c!"String32000") false 2 false none none)]

/-- ECS2_structure.py:407-417 -/
def ecs2_ParameterMaster : List (Key × Field Str) := [
  (c!"id", fld (.leaf c!"UUID") true 0 true xAttr none),
  (c!"defaultVariableName", fld (.leaf c!"VariableName") false 0 true xAttr none),
  (c!"unitId", fld (.leaf c!"UUID") false 0 true xAttr none),
  (c!"unitContextId", fld (.leaf c!"UUID") false 0 true xAttr none),
  (c!"name", fld (.leaf c!"String80") true 1 false none none),
  (c!"unitName", fld (.leaf c!"String40") false 2 false none none),
  (c!"comment", fld (.leaf c!"String32000") false 3 false none none)]

/-- ECS2_structure.py:421-433 -/
def ecs2_PersonMaster : List (Key × Field Str) := [
  (c!"id", fld (.leaf c!"UUID") true 0 true xAttr none),
  (c!"name", fld (.leaf c!"BaseString40") true 0 true xAttr none),
  (c!"address", fld (.leaf c!"BaseString255") false 0 true xAttr none),
  (c!"telephone", fld (.leaf c!"BaseString40") false 0 true xAttr none),
  (c!"telefax", fld (.leaf c!"BaseString40") false 0 true xAttr none),
  (c!"email", fld (.leaf c!"BaseString80") true 0 true xAttr none),
  (c!"companyId", fld (.leaf c!"UUID") false 0 true xAttr none),
  (c!"companyContextId", fld (.leaf c!"UUID") false 0 true xAttr none),
  (c!"companyName", fld (.leaf c!"String255") false 1 false none none)]

/-- ECS2_structure.py:437-447 -/
def ecs2_PropertyMaster : List (Key × Field Str) := [
  (c!"id", fld (.leaf c!"UUID") true 0 true xAttr none),
  (c!"defaultVariableName", fld (.leaf c!"VariableName") false 0 true xAttr none),
  (c!"unitId", fld (.leaf c!"UUID") false 0 true xAttr none),
  (c!"unitContextId", fld (.leaf c!"UUID") false 0 true xAttr none),
  (c!"name", fld (.leaf c!"String80") true 1 false none none),
  (c!"unitName", fld (.leaf c!"String40") false 2 false none none),
  (c!"comment", fld (.leaf c!"String32000") false 3 false none none)]

/-- ECS2_structure.py:451-470 -/
def ecs2_SourceMaster : List (Key × Field Str) := [
  (c!"id", fld (.leaf c!"UUID") true 0 true xAttr none),
  (c!"sourceType", fld (.leaf c!"SourceTypeINT") true 0 true xAttr none),
  (c!"year", fld (.leaf c!"BaseString30") false 0 true xAttr none),
  (c!"volumeNo", fld (.leaf c!"Int") false 0 true xAttr none),
  (c!"firstAuthor", fld (.leaf c!"BaseString40") true 0 true xAttr none),
  (c!"additionalAuthors", fld (.leaf c!"BaseString255") false 0 true xAttr none),
  (c!"title", fld (.leaf c!"BaseString255") true 0 true xAttr none),
  (c!"shortName", fld (.leaf c!"BaseString80") false 0 true xAttr none),
  (c!"pageNumbers", fld (.leaf c!"BaseString30") false 0 true xAttr none),
  (c!"nameOfEditors", fld (.leaf c!"BaseString255") false 0 true xAttr none),
  (c!"titleOfAnthology", fld (.leaf c!"BaseString255") false 0 true xAttr none),
  (c!"placeOfPublications", fld (.leaf c!"BaseString32000") false 0 true xAttr none),
  (c!"publisher", fld (.leaf c!"BaseString40") false 0 true xAttr none),
  (c!"journal", fld (.leaf c!"BaseString40") false 0 true xAttr none),
  (c!"issueNo", fld (.leaf c!"BaseString40") false 0 true xAttr none),
  (c!"comment", fld (.leaf c!"String32000") false 1 false none none)]

/-- ECS2_structure.py:474-481 -/
def ecs2_SystemModelMaster : List (Key × Field Str) := [
  (c!"id", fld (.leaf c!"UUID") true 0 true xAttr none),
  (c!"name", fld (.leaf c!"String120") true 1 false none none),
  (c!"shortname", fld (.leaf c!"String20") true 2 false none none),
  (c!"comment", fld (.leaf c!"String32000") false 3 false none none)]

/-- ECS2_structure.py:485-490 -/
def ecs2_TagMaster : List (Key × Field Str) := [
  (c!"name", fld (.leaf c!"BaseString40") true 0 true xAttr none),
  (c!"comment", fld (.leaf c!"String32000") false 1 false none none)]

/-- ECS2_structure.py:494-500 -/
def ecs2_UnitMaster : List (Key × Field Str) := [
  (c!"id", fld (.leaf c!"UUID") true 0 true xAttr none),
  (c!"name", fld (.leaf c!"String40") true 1 false none none),
  (c!"comment", fld (.leaf c!"String32000") false 2 false none none)]

/-- ECS2_structure.py:504-514 -/
def ecs2_ActivityIndexEntryMaster : List (Key × Field Str) := [
  (c!"id", fld (.leaf c!"UUID") true 0 true xAttr none),
  (c!"activityNameId", fld (.leaf c!"UUID") true 0 false xAttr none),
  (c!"geographyId", fld (.leaf c!"UUID") true 0 true xAttr none),
  (c!"startDate", fld (.leaf c!"Date") true 0 true xAttr none),
  (c!"endDate", fld (.leaf c!"Date") true 0 true xAttr none),
  (c!"specialActivityType", fld (.leaf c!"SpecialActivityTypeINT") true 0 false xAttr none),
  (c!"systemModelId", fld (.leaf c!"UUID") true 0 true xAttr none)]

/-- ECS2_structure.py:518-539 -/
def ecs2_ECS2UsedUserMasterData : List (Key × Field Str) := [
  (c!"activityName", fld (.sub c!"ActivityNameMaster") false 0 false none none),
  (c!"language", fld (.sub c!"LanguageMaster") false 1 false none none),
  (c!"geography", fld (.sub c!"GeographyMaster") false 2 false none none),
  (c!"systemModel", fld (.sub c!"SystemModelMaster") false 3 false none none),
  (c!"tag", fld (.sub c!"TagMaster") false 4 false none none),
  (c!"macroEconomicScenario", fld (.sub c!"MacroEconomicScenarioMaster") false 5 false none none),
  (c!"compartment", fld (.sub c!"CompartmentMaster") false 6 false none none),
  (c!"classificationSystem", fld (.sub c!"ClassificationSystemMaster") false 7 false none none),
  (c!"company", fld (.sub c!"CompanyMaster") false 8 false none none),
  (c!"person", fld (.sub c!"PersonMaster") false 9 false none none),
  (c!"source", fld (.sub c!"SourceMaster") false 10 false none none),
  (c!"units", fld (.sub c!"UnitMaster") false 11 false none none),
  (c!"parameter", fld (.sub c!"ParameterMaster") false 12 false none none),
  (c!"property", fld (.sub c!"PropertyMaster") false 13 false none none),
  (c!"elementaryExchange", fld (.sub c!"ElementaryMaster") false 14 false none none),
  (c!"intermediateExchange", fld (.sub c!"IntermediateMaster") false 15 false none none),
  (c!"activityIndexEntry", fld (.sub c!"ActivityIndexEntryMaster") false 16 true none none)]

/-- ECS2_structure.py:543-547 -/
def ecs2_CETransferCoefficient : List (Key × Field Str) := [
  (c!"sourceId", fld (.leaf c!"UUID") false 0 false xAttr none),
  (c!"sourceIdOverwrittenByChild", fld (.leaf c!"Bool") false 0 true xAttr none),
  (c!"sourceContextId", fld (.leaf c!"UUID") false 0 true xAttr none),
  (c!"sourceYear", fld (.leaf c!"UniqueBaseString30") false 0 false xAttr none),
  (c!"sourceFirstAuthor", fld (.leaf c!"UniqueBaseString40") false 0 false xAttr none),
  (c!"amount", fld (.leaf c!"Real") true 0 false xAttr none),
  (c!"mathematicalRelation", fld (.leaf c!"BaseString32000") false 0 true xAttr none),
  (c!"isCalculatedAmount", fld (.leaf c!"Bool") false 0 true xAttr none),
  (c!"comment", fld (.leaf c!"String32000") false 3 false none none),
  (c!"uncertainty", fld (.sub c!"ECS2Uncertainty") false 4 true none none),
  (c!"exchangeId", fld (.leaf c!"UUID") true 0 true xAttr none)]

/-- ECS2_structure.py:551-564 -/
def ecs2_ECS2CustomExchange : List (Key × Field Str) := [
  (c!"sourceId", fld (.leaf c!"UUID") false 0 false xAttr none),
  (c!"sourceIdOverwrittenByChild", fld (.leaf c!"Bool") false 0 true xAttr none),
  (c!"sourceContextId", fld (.leaf c!"UUID") false 0 true xAttr none),
  (c!"sourceYear", fld (.leaf c!"UniqueBaseString30") false 0 false xAttr none),
  (c!"sourceFirstAuthor", fld (.leaf c!"UniqueBaseString40") false 0 false xAttr none),
  (c!"amount", fld (.leaf c!"Real") true 0 false xAttr none),
  (c!"mathematicalRelation", fld (.leaf c!"BaseString32000") false 0 true xAttr none),
  (c!"isCalculatedAmount", fld (.leaf c!"Bool") false 0 true xAttr none),
  (c!"comment", fld (.leaf c!"String32000") false 3 false none none),
  (c!"uncertainty", fld (.sub c!"ECS2Uncertainty") false 4 true none none),
  (c!"variableName", fld (.leaf c!"VariableName") false 0 true xAttr none),
  (c!"unitId", fld (.leaf c!"UUID") false 0 false xAttr none),
  (c!"unitContextId", fld (.leaf c!"UUID") false 0 true xAttr none),
  (c!"name", fld (.leaf c!"ExchangeNameString80") true 1 false none none),
  (c!"unitName", fld (.leaf c!"UniqueString40") true 2 false none none),
  (c!"id", fld (.leaf c!"UUID") true 0 false xAttr none),
  (c!"casNumber", fld (.leaf c!"CASNumber") false 0 true xAttr none),
  (c!"pageNumbers", fld (.leaf c!"BaseString30") false 0 true xAttr none),
  (c!"specificAllocationPropertyId", fld (.leaf c!"UUID") false 0 true xAttr none),
  (c!"specificAllocationPropertyIdOverwrittenByChild", fld (.leaf c!"Bool") false 0 true xAttr none),
  (c!"specificAllocationPropertyContextId", fld (.leaf c!"UUID") false 0 true xAttr none),
  (c!"synonym", fld (.leaf c!"String80_NLR") false 5 false none none),
  (c!"property", fld (.sub c!"ECS2Property") false 6 false none none),
  (c!"transferCoefficient", fld (.sub c!"CETransferCoefficient") false 7 false none none),
  (c!"tag", fld (.leaf c!"BaseString40") false 8 false none none)]

/-- ECS2_structure.py:568-591 -/
def ecs2_Activity : List (Key × Field Str) := [
  (c!"id", fld (.leaf c!"UUID") true 0 true xAttr none),
  (c!"activityNameId", fld (.leaf c!"UUID") true 0 false xAttr none),
  (c!"activityNameContextId", fld (.leaf c!"UUID") false 0 true xAttr none),
  (c!"parentActivityId", fld (.leaf c!"UUID") false 0 true xAttr none),
  (c!"parentActivityContextId", fld (.leaf c!"UUID") false 0 true xAttr none),
  (c!"inheritanceDepth", fld (.leaf c!"InheritanceDepthINT") true 0 false xAttr none),
  (c!"type", fld (.leaf c!"TypeINT") true 0 true xAttr none),
  (c!"specialActivityType", fld (.leaf c!"SpecialActivityTypeINT") true 0 false xAttr none),
  (c!"energyValues", fld (.leaf c!"EnergyValuesINT") true 0 false xAttr none),
  (c!"masterAllocationPropertyId", fld (.leaf c!"UUID") false 0 true xAttr none),
  (c!"masterAllocationPropertyIdOverwrittenByChild", fld (.leaf c!"Bool") false 0 true xAttr none),
  (c!"masterAllocationPropertyContextId", fld (.leaf c!"UUID") false 0 true xAttr none),
  (c!"datasetIcon", fld (.leaf c!"Str") false 0 true xAttr none),
  (c!"activityName", fld (.leaf c!"Name") true 1 false none none),
  (c!"synonym", fld (.leaf c!"String80_NLR") false 2 false none none),
  (c!"includedActivitiesStart", fld (.leaf c!"String32000") false 3 false none none),
  (c!"includedActivitiesEnd", fld (.leaf c!"String32000") false 4 false none none),
  (c!"allocationComment", fld (.sub c!"ECS2TextAndImage") false 5 true none none),
  (c!"generalComment", fld (.sub c!"ECS2TextAndImage") false 6 true none none),
  (c!"tag", fld (.leaf c!"BaseString40") false 7 false none none)]

/-- ECS2_structure.py:593-600 -/
def ecs2_Geography : List (Key × Field Str) := [
  (c!"geographyId", fld (.leaf c!"UUID") true 0 true xAttr none),
  (c!"geographyContextId", fld (.leaf c!"UUID") false 0 true xAttr none),
  (c!"shortname", fld (.leaf c!"String40") true 1 false none none),
  (c!"comment", fld (.sub c!"ECS2TextAndImage") false 2 true none none)]

/-- ECS2_structure.py:602-607 -/
def ecs2_Technology : List (Key × Field Str) := [
  (c!"technologyLevel", fld (.leaf c!"TechnologyLevelINT") true 0 false xAttr none),
  (c!"comment", fld (.sub c!"ECS2TextAndImage") false 1 true none none)]

/-- ECS2_structure.py:609-616 -/
def ecs2_TimePeriod : List (Key × Field Str) := [
  (c!"startDate", fld (.leaf c!"Date") true 0 true xAttr none),
  (c!"endDate", fld (.leaf c!"Date") true 0 true xAttr none),
  (c!"isDataValidForEntirePeriod", fld (.leaf c!"Bool") true 0 false xAttr none),
  (c!"comment", fld (.sub c!"ECS2TextAndImage") false 1 true none none)]

/-- ECS2_structure.py:618-625 -/
def ecs2_MacroEconomicScenario : List (Key × Field Str) := [
  (c!"macroEconomicScenarioId", fld (.leaf c!"UUID") true 0 true xAttr none),
  (c!"macroEconomicScenarioContextId", fld (.leaf c!"UUID") false 0 true xAttr none),
  (c!"name", fld (.leaf c!"String80") true 1 false none none),
  (c!"comment", fld (.leaf c!"String32000") false 2 false none none)]

/-- ECS2_structure.py:627-636 -/
def ecs2_ActivityDescription : List (Key × Field Str) := [
  (c!"activity", fld (.sub c!"Activity") true 1 true none none),
  (c!"classification", fld (.sub c!"ECS2Classification") false 2 false none none),
  (c!"geography", fld (.sub c!"Geography") true 3 true none none),
  (c!"technology", fld (.sub c!"Technology") true 4 true none none),
  (c!"timePeriod", fld (.sub c!"TimePeriod") true 5 true none none),
  (c!"macroEconomicScenario", fld (.sub c!"MacroEconomicScenario") true 6 true none none)]

/-- ECS2_structure.py:640-649 -/
def ecs2_Representativeness : List (Key × Field Str) := [
  (c!"percent", fld (.leaf c!"Percent") false 0 true xAttr none),
  (c!"systemModelId", fld (.leaf c!"UUID") true 0 true xAttr none),
  (c!"systemModelContextId", fld (.leaf c!"UUID") false 0 true xAttr none),
  (c!"systemModelName", fld (.leaf c!"String120") true 1 false none none),
  (c!"samplingProcedure", fld (.leaf c!"String32000") false 2 false none none),
  (c!"extrapolations", fld (.leaf c!"String32000") false 3 false none none)]

/-- ECS2_structure.py:651-665 -/
def ecs2_Review : List (Key × Field Str) := [
  (c!"reviewerId", fld (.leaf c!"UUID") true 0 false xAttr none),
  (c!"reviewerContextId", fld (.leaf c!"UUID") false 0 true xAttr none),
  (c!"reviewerName", fld (.leaf c!"ReviewString") true 0 false xAttr none),
  (c!"reviewerEmail", fld (.leaf c!"UniqueBaseString80") true 0 false xAttr none),
  (c!"reviewDate", fld (.leaf c!"Date") true 0 false xAttr none),
  (c!"reviewedMajorRelease", fld (.leaf c!"Int") true 0 false xAttr none),
  (c!"reviewedMinorRelease", fld (.leaf c!"Int") true 0 false xAttr none),
  (c!"reviewedMajorRevision", fld (.leaf c!"Int") true 0 false xAttr none),
  (c!"reviewedMinorRevision", fld (.leaf c!"Int") true 0 false xAttr none),
  (c!"details", fld (.sub c!"ECS2TextAndImage") false 1 true none none),
  (c!"otherDetails", fld (.leaf c!"String32000") false 2 false none none)]

/-- ECS2_structure.py:667-672 -/
def ecs2_ModellingAndValidation : List (Key × Field Str) := [
  (c!"representativeness", fld (.sub c!"Representativeness") false 1 true none none),
  (c!"review", fld (.sub c!"Review") false 2 false none none)]

/-- ECS2_structure.py:676-684 -/
def ecs2_DataEntryBy : List (Key × Field Str) := [
  (c!"personId", fld (.leaf c!"UUID") true 0 false xAttr none),
  (c!"personContextId", fld (.leaf c!"UUID") false 0 true xAttr none),
  (c!"isActiveAuthor", fld (.leaf c!"Bool") false 0 false xAttr none),
  (c!"personName", fld (.leaf c!"UniqueBaseString40") true 0 false xAttr none),
  (c!"personEmail", fld (.leaf c!"UniqueBaseString80") true 0 false xAttr none)]

/-- ECS2_structure.py:686-706 -/
def ecs2_DataGeneratorAndPublication : List (Key × Field Str) := [
  (c!"personId", fld (.leaf c!"UUID") true 0 false xAttr none),
  (c!"personContextId", fld (.leaf c!"UUID") false 0 true xAttr none),
  (c!"personName", fld (.leaf c!"UniqueBaseString40") true 0 false xAttr none),
  (c!"personEmail", fld (.leaf c!"UniqueBaseString80") true 0 false xAttr none),
  (c!"dataPublishedIn", fld (.leaf c!"DataPublishedInINT") false 0 true xAttr none),
  (c!"publishedSourceId", fld (.leaf c!"UUID") false 0 false xAttr none),
  (c!"publishedSourceIdOverwrittenByChild", fld (.leaf c!"Bool") false 0 true xAttr none),
  (c!"publishedSourceContextId", fld (.leaf c!"UUID") false 0 true xAttr none),
  (c!"publishedSourceYear", fld (.leaf c!"BaseString30") false 0 false xAttr none),
  (c!"publishedSourceFirstAuthor", fld (.leaf c!"BaseString40") false 0 false xAttr none),
  (c!"isCopyrightProtected", fld (.leaf c!"Bool") true 0 true xAttr none),
  (c!"pageNumbers", fld (.leaf c!"BaseString30") false 0 true xAttr none),
  (c!"accessRestrictedTo", fld (.leaf c!"AccessRestrictedToINT") false 0 false xAttr none),
  (c!"companyId", fld (.leaf c!"UUID") false 0 false xAttr none),
  (c!"companyIdOverwrittenByChild", fld (.leaf c!"Bool") false 0 true xAttr none),
  (c!"companyContextId", fld (.leaf c!"UUID") false 0 true xAttr none),
  (c!"companyCode", fld (.leaf c!"CompanyCode") false 0 false xAttr none)]

/-- ECS2_structure.py:708-718 -/
def ecs2_RequiredContextReference : List (Key × Field Str) := [
  (c!"majorRelease", fld (.leaf c!"Int") true 0 false xAttr none),
  (c!"minorRelease", fld (.leaf c!"Int") true 0 false xAttr none),
  (c!"majorRevision", fld (.leaf c!"Int") false 0 false xAttr none),
  (c!"minorRevision", fld (.leaf c!"Int") false 0 false xAttr none),
  (c!"requiredContextId", fld (.leaf c!"UUID") true 0 true xAttr none),
  (c!"requiredContextFileLocation", fld (.leaf c!"Str") false 0 true xAttr none),
  (c!"requiredContextName", fld (.leaf c!"String80") true 1 false none none)]

/-- ECS2_structure.py:720-736 -/
def ecs2_FileAttributes : List (Key × Field Str) := [
  (c!"majorRelease", fld (.leaf c!"Int") true 0 false xAttr none),
  (c!"minorRelease", fld (.leaf c!"Int") true 0 false xAttr none),
  (c!"majorRevision", fld (.leaf c!"Int") true 0 false xAttr none),
  (c!"minorRevision", fld (.leaf c!"Int") true 0 false xAttr none),
  (c!"internalSchemaVersion", fld (.leaf c!"BaseString80") false 0 true xAttr none),
  (c!"defaultLanguage", fld (.leaf c!"Lang") false 0 true xAttr none),
  (c!"creationTimestamp", fld (.leaf c!"CompleteDate") false 0 false xAttr none),
  (c!"lastEditTimestamp", fld (.leaf c!"CompleteDate") false 0 true xAttr none),
  (c!"fileGenerator", fld (.leaf c!"BaseString255") true 0 true xAttr none),
  (c!"fileTimestamp", fld (.leaf c!"CompleteDate") true 0 true xAttr none),
  (c!"contextId", fld (.leaf c!"UUID") true 0 true xAttr none),
  (c!"contextName", fld (.leaf c!"String80") false 1 false none none),
  (c!"requiredContext", fld (.sub c!"RequiredContextReference") false 2 false none none)]

/-- ECS2_structure.py:738-744 -/
def ecs2_AdministrativeInformation : List (Key × Field Str) := [
  (c!"dataEntryBy", fld (.sub c!"DataEntryBy") true 1 true none none),
  (c!"dataGeneratorAndPublication", fld (.sub c!"DataGeneratorAndPublication") true 2 true none none),
  (c!"fileAttributes", fld (.sub c!"FileAttributes") true 3 true none none)]

/-- ECS2_structure.py:748-769 -/
def ecs2_IntermediateExchange : List (Key × Field Str) := [
  (c!"sourceId", fld (.leaf c!"UUID") false 0 false xAttr none),
  (c!"sourceIdOverwrittenByChild", fld (.leaf c!"Bool") false 0 true xAttr none),
  (c!"sourceContextId", fld (.leaf c!"UUID") false 0 true xAttr none),
  (c!"sourceYear", fld (.leaf c!"UniqueBaseString30") false 0 false xAttr none),
  (c!"sourceFirstAuthor", fld (.leaf c!"UniqueBaseString40") false 0 false xAttr none),
  (c!"amount", fld (.leaf c!"Real") true 0 false xAttr none),
  (c!"mathematicalRelation", fld (.leaf c!"BaseString32000") false 0 true xAttr none),
  (c!"isCalculatedAmount", fld (.leaf c!"Bool") false 0 true xAttr none),
  (c!"comment", fld (.leaf c!"String32000") false 3 false none none),
  (c!"uncertainty", fld (.sub c!"ECS2Uncertainty") false 4 true none none),
  (c!"variableName", fld (.leaf c!"VariableName") false 0 true xAttr none),
  (c!"unitId", fld (.leaf c!"UUID") false 0 false xAttr none),
  (c!"unitContextId", fld (.leaf c!"UUID") false 0 true xAttr none),
  (c!"name", fld (.leaf c!"ExchangeNameString80") true 1 false none none),
  (c!"unitName", fld (.leaf c!"UniqueString40") true 2 false none none),
  (c!"id", fld (.leaf c!"UUID") true 0 false xAttr none),
  (c!"casNumber", fld (.leaf c!"CASNumber") false 0 true xAttr none),
  (c!"pageNumbers", fld (.leaf c!"BaseString30") false 0 true xAttr none),
  (c!"specificAllocationPropertyId", fld (.leaf c!"UUID") false 0 true xAttr none),
  (c!"specificAllocationPropertyIdOverwrittenByChild", fld (.leaf c!"Bool") false 0 true xAttr none),
  (c!"specificAllocationPropertyContextId", fld (.leaf c!"UUID") false 0 true xAttr none),
  (c!"synonym", fld (.leaf c!"String80_NLR") false 5 false none none),
  (c!"property", fld (.sub c!"ECS2Property") false 6 false none none),
  (c!"transferCoefficient", fld (.sub c!"CETransferCoefficient") false 7 false none none),
  (c!"tag", fld (.leaf c!"BaseString40") false 8 false none none),
  (c!"intermediateExchangeId", fld (.leaf c!"UUID") true 0 true xAttr none),
  (c!"intermediateExchangeContextId", fld (.leaf c!"UUID") false 0 true xAttr none),
  (c!"activityLinkId", fld (.leaf c!"UUID") false 0 true xAttr none),
  (c!"activityLinkIdOverwrittenByChild", fld (.leaf c!"Bool") false 0 true xAttr none),
  (c!"activityLinkContextId", fld (.leaf c!"UUID") false 0 true xAttr none),
  (c!"productionVolumeAmount", fld (.leaf c!"Real") false 0 true xAttr none),
  (c!"productionVolumeVariableName", fld (.leaf c!"VariableName") false 0 true xAttr none),
  (c!"productionVolumeMathematicalRelation", fld (.leaf c!"BaseString32000") false 0 true xAttr none),
  (c!"productionVolumeSourceId", fld (.leaf c!"UUID") false 0 true xAttr none),
  (c!"productionVolumeSourceIdOverwrittenByChild", fld (.leaf c!"Bool") false 0 true xAttr none),
  (c!"productionVolumeSourceContextId", fld (.leaf c!"UUID") false 0 true xAttr none),
  (c!"productionVolumeSourceYear", fld (.leaf c!"BaseString30") false 0 true xAttr none),
  (c!"productionVolumeSourceFirstAuthor", fld (.leaf c!"BaseString40") false 0 true xAttr none),
  (c!"productionVolumeComment", fld (.leaf c!"String32000") false 9 false none none),
  (c!"productionVolumeUncertainty", fld (.sub c!"ECS2Uncertainty") false 10 true none none),
  (c!"classification", fld (.sub c!"ECS2Classification") false 11 false none none),
  (c!"inputGroup", fld (.leaf c!"InputGroupIntermediateINT") false 12 true none none),
  (c!"outputGroup", fld (.leaf c!"OutputGroupIntermediateINT") false 13 false none none)]

/-- ECS2_structure.py:771-778 -/
def ecs2_Compartment : List (Key × Field Str) := [
  (c!"subcompartmentId", fld (.leaf c!"UUID") true 0 true xAttr none),
  (c!"subcompartmentContextId", fld (.leaf c!"UUID") false 0 true xAttr none),
  (c!"compartment", fld (.leaf c!"String40") true 1 false none none),
  (c!"subcompartment", fld (.leaf c!"String40") true 2 false none none)]

/-- ECS2_structure.py:780-789 -/
def ecs2_ElementaryExchange : List (Key × Field Str) := [
  (c!"sourceId", fld (.leaf c!"UUID") false 0 false xAttr none),
  (c!"sourceIdOverwrittenByChild", fld (.leaf c!"Bool") false 0 true xAttr none),
  (c!"sourceContextId", fld (.leaf c!"UUID") false 0 true xAttr none),
  (c!"sourceYear", fld (.leaf c!"UniqueBaseString30") false 0 false xAttr none),
  (c!"sourceFirstAuthor", fld (.leaf c!"UniqueBaseString40") false 0 false xAttr none),
  (c!"amount", fld (.leaf c!"Real") true 0 false xAttr none),
  (c!"mathematicalRelation", fld (.leaf c!"BaseString32000") false 0 true xAttr none),
  (c!"isCalculatedAmount", fld (.leaf c!"Bool") false 0 true xAttr none),
  (c!"comment", fld (.leaf c!"String32000") false 3 false none none),
  (c!"uncertainty", fld (.sub c!"ECS2Uncertainty") false 4 true none none),
  (c!"variableName", fld (.leaf c!"VariableName") false 0 true xAttr none),
  (c!"unitId", fld (.leaf c!"UUID") false 0 false xAttr none),
  (c!"unitContextId", fld (.leaf c!"UUID") false 0 true xAttr none),
  (c!"name", fld (.leaf c!"ExchangeNameString80") true 1 false none none),
  (c!"unitName", fld (.leaf c!"UniqueString40") true 2 false none none),
  (c!"id", fld (.leaf c!"UUID") true 0 false xAttr none),
  (c!"casNumber", fld (.leaf c!"CASNumber") false 0 true xAttr none),
  (c!"pageNumbers", fld (.leaf c!"BaseString30") false 0 true xAttr none),
  (c!"specificAllocationPropertyId", fld (.leaf c!"UUID") false 0 true xAttr none),
  (c!"specificAllocationPropertyIdOverwrittenByChild", fld (.leaf c!"Bool") false 0 true xAttr none),
  (c!"specificAllocationPropertyContextId", fld (.leaf c!"UUID") false 0 true xAttr none),
  (c!"synonym", fld (.leaf c!"String80_NLR") false 5 false none none),
  (c!"property", fld (.sub c!"ECS2Property") false 6 false none none),
  (c!"transferCoefficient", fld (.sub c!"CETransferCoefficient") false 7 false none none),
  (c!"tag", fld (.leaf c!"BaseString40") false 8 false none none),
  (c!"elementaryExchangeId", fld (.leaf c!"UUID") true 0 true xAttr none),
  (c!"elementaryExchangeContextId", fld (.leaf c!"UUID") false 0 true xAttr none),
  (c!"formula", fld (.leaf c!"BaseString40") false 0 true xAttr none),
  (c!"compartment", fld (.sub c!"Compartment") true 9 true none none),
  (c!"inputGroup", fld (.leaf c!"InputGroupElementaryINT") false 10 false none none),
  (c!"outputGroup", fld (.leaf c!"OutputGroupElementaryINT") false 11 false none none)]

/-- ECS2_structure.py:791-796 -/
def ecs2_Parameter : List (Key × Field Str) := [
  (c!"amount", fld (.leaf c!"Real") true 0 false xAttr none),
  (c!"mathematicalRelation", fld (.leaf c!"BaseString32000") false 0 true xAttr none),
  (c!"isCalculatedAmount", fld (.leaf c!"Bool") false 0 true xAttr none),
  (c!"comment", fld (.leaf c!"String32000") false 4 false none none),
  (c!"uncertainty", fld (.sub c!"ECS2Uncertainty") false 3 true none none),
  (c!"variableName", fld (.leaf c!"VariableName") false 0 true xAttr none),
  (c!"unitId", fld (.leaf c!"UUID") false 0 false xAttr none),
  (c!"unitContextId", fld (.leaf c!"UUID") false 0 true xAttr none),
  (c!"name", fld (.leaf c!"ExchangeNameString80") true 1 false none none),
  (c!"unitName", fld (.leaf c!"UniqueString40") false 2 false none none),
  (c!"parameterId", fld (.leaf c!"UUID") true 0 true xAttr none),
  (c!"parameterContextId", fld (.leaf c!"UUID") false 0 true xAttr none)]

/-- ECS2_structure.py:798-812 -/
def ecs2_ImpactIndicator : List (Key × Field Str) := [
  (c!"impactIndicatorId", fld (.leaf c!"UUID") true 0 true xAttr none),
  (c!"impactIndicatorContextId", fld (.leaf c!"UUID") false 0 true xAttr none),
  (c!"impactMethodId", fld (.leaf c!"UUID") true 0 true xAttr none),
  (c!"impactMethodContextId", fld (.leaf c!"UUID") false 0 true xAttr none),
  (c!"impactCategoryId", fld (.leaf c!"UUID") true 0 true xAttr none),
  (c!"impactCategoryContextId", fld (.leaf c!"UUID") false 0 true xAttr none),
  (c!"amount", fld (.leaf c!"Real") true 0 true xAttr none),
  (c!"impactMethodName", fld (.leaf c!"String120") true 1 false none none),
  (c!"impactCategoryName", fld (.leaf c!"String120") true 2 false none none),
  (c!"name", fld (.leaf c!"String120") true 3 false none none),
  (c!"unitName", fld (.leaf c!"String40") true 4 false none none)]

/-- ECS2_structure.py:814-821 -/
def ecs2_FlowData : List (Key × Field Str) := [
  (c!"intermediateExchange", fld (.sub c!"IntermediateExchange") true 1 false none none),
  (c!"elementaryExchange", fld (.sub c!"ElementaryExchange") false 2 false none none),
  (c!"parameter", fld (.sub c!"Parameter") false 3 false none none),
  (c!"impactIndicator", fld (.sub c!"ImpactIndicator") false 4 false none none)]

/-- All the classes of ECS2_structure.py. -/
def ecs2Table : List (Cls × List (Key × Field Str)) := [
  (c!"Lognormal", ecs2_Lognormal),
  (c!"Normal", ecs2_Normal),
  (c!"Triangular", ecs2_Triangular),
  (c!"Uniform", ecs2_Uniform),
  (c!"Beta", ecs2_Beta),
  (c!"Gamma", ecs2_Gamma),
  (c!"Binomial", ecs2_Binomial),
  (c!"Undefined", ecs2_Undefined),
  (c!"PedigreeMatrix", ecs2_PedigreeMatrix),
  (c!"ECS2Uncertainty", ecs2_ECS2Uncertainty),
  (c!"ECS2Source", ecs2_ECS2Source),
  (c!"ECS2QuantitativeReference", ecs2_ECS2QuantitativeReference),
  (c!"ECS2QuantitativeReferenceWithUnit", ecs2_ECS2QuantitativeReferenceWithUnit),
  (c!"ECS2TextAndImage", ecs2_ECS2TextAndImage),
  (c!"ECS2Classification", ecs2_ECS2Classification),
  (c!"ECS2Property", ecs2_ECS2Property),
  (c!"ActivityNameMaster", ecs2_ActivityNameMaster),
  (c!"CSClassificationValue", ecs2_CSClassificationValue),
  (c!"ClassificationSystemMaster", ecs2_ClassificationSystemMaster),
  (c!"CompanyMaster", ecs2_CompanyMaster),
  (c!"CSubcompartmentMaster", ecs2_CSubcompartmentMaster),
  (c!"CompartmentMaster", ecs2_CompartmentMaster),
  (c!"EMCompartment", ecs2_EMCompartment),
  (c!"ElementaryMaster", ecs2_ElementaryMaster),
  (c!"GeographyMaster", ecs2_GeographyMaster),
  (c!"IntermediateMaster", ecs2_IntermediateMaster),
  (c!"LanguageMaster", ecs2_LanguageMaster),
  (c!"MacroEconomicScenarioMaster", ecs2_MacroEconomicScenarioMaster),
  (c!"ParameterMaster", ecs2_ParameterMaster),
  (c!"PersonMaster", ecs2_PersonMaster),
  (c!"PropertyMaster", ecs2_PropertyMaster),
  (c!"SourceMaster", ecs2_SourceMaster),
  (c!"SystemModelMaster", ecs2_SystemModelMaster),
  (c!"TagMaster", ecs2_TagMaster),
  (c!"UnitMaster", ecs2_UnitMaster),
  (c!"ActivityIndexEntryMaster", ecs2_ActivityIndexEntryMaster),
  (c!"ECS2UsedUserMasterData", ecs2_ECS2UsedUserMasterData),
  (c!"CETransferCoefficient", ecs2_CETransferCoefficient),
  (c!"ECS2CustomExchange", ecs2_ECS2CustomExchange),
  (c!"Activity", ecs2_Activity),
  (c!"Geography", ecs2_Geography),
  (c!"Technology", ecs2_Technology),
  (c!"TimePeriod", ecs2_TimePeriod),
  (c!"MacroEconomicScenario", ecs2_MacroEconomicScenario),
  (c!"ActivityDescription", ecs2_ActivityDescription),
  (c!"Representativeness", ecs2_Representativeness),
  (c!"Review", ecs2_Review),
  (c!"ModellingAndValidation", ecs2_ModellingAndValidation),
  (c!"DataEntryBy", ecs2_DataEntryBy),
  (c!"DataGeneratorAndPublication", ecs2_DataGeneratorAndPublication),
  (c!"RequiredContextReference", ecs2_RequiredContextReference),
  (c!"FileAttributes", ecs2_FileAttributes),
  (c!"AdministrativeInformation", ecs2_AdministrativeInformation),
  (c!"IntermediateExchange", ecs2_IntermediateExchange),
  (c!"Compartment", ecs2_Compartment),
  (c!"ElementaryExchange", ecs2_ElementaryExchange),
  (c!"Parameter", ecs2_Parameter),
  (c!"ImpactIndicator", ecs2_ImpactIndicator),
  (c!"FlowData", ecs2_FlowData)]

/-- The `VALID` table of a class of ECS2_structure.py (no field for other class names). -/
def ecs2 : Schema Str := fun c => (lookup c ecs2Table).getD []

/-- ILCD1_structure.py:61-70 -/
def ilcd_ILCD1Reference : List (Key × Field Str) := [
  (c!"type", fld (.leaf c!"Enum GlobalReferenceTypeValues") true 0 true xAttr none),
  (c!"refObjectId", fld (.leaf c!"UUID") false 0 true xAttr none),
  (c!"version", fld (.leaf c!"Version") false 0 true xAttr none),
  (c!"uri", fld (.leaf c!"Str") false 0 true xAttr none),
  (c!"subReference", fld (.leaf c!"String") false 1 false xCommon none),
  (c!"shortDescription", fld (.leaf c!"STMultiLang") false 2 false xCommon none)]

/-- ILCD1_structure.py:72-86 -/
def ilcd_ILCD1Classification : List (Key × Field Str) := [
  (c!"name", fld (.leaf c!"Str") false 0 true xAttr none),
  (c!"classes", fld (.leaf c!"Str") false 0 true xAttr none),
  (c!"class", fld (.sub c!"ILCD1Classification.__Class") true 1 false xCommon none)]

/-- ILCD1_structure.py:74-80 -/
def ilcd_ILCD1Classification_Class : List (Key × Field Str) := [
  (c!"level", fld (.leaf c!"Int1") true 0 true xAttr none),
  (c!"classId", fld (.leaf c!"Str") true 0 true xAttr none),
  (c!"text", fld (.leaf c!"String") true 0 false xText none)]

/-- ILCD1_structure.py:88-100 -/
def ilcd_ILCD1FlowProperty : List (Key × Field Str) := [
  (c!"dataSetInternalID", fld (.leaf c!"Int6") true 0 true xAttr none),
  (c!"referenceToFlowPropertyDataSet", fld (.sub c!"ILCD1Reference") true 1 true none none),
  (c!"meanValue", fld (.leaf c!"Real") true 2 true none none),
  (c!"minimumValue", fld (.leaf c!"Real") false 3 true none none),
  (c!"maximumValue", fld (.leaf c!"Real") false 4 true none none),
  (c!"uncertaintyDistributionType", fld (.leaf c!"Enum UncertaintyDistributionTypeValues") false 5 true none none),
  (c!"relativeStandardDeviation95In", fld (.leaf c!"Real") false 6 true none none),
  (c!"dataDerivationTypeStatus", fld (.leaf c!"Enum DataDerivationTypeStatusValues") false 7 true none none),
  (c!"generalComment", fld (.leaf c!"StringMultiLang") false 16 false none none)]

/-- ILCD1_structure.py:106-113 -/
def ilcd_Name : List (Key × Field Str) := [
  (c!"baseName", fld (.leaf c!"StringMultiLang") true 1 false none none),
  (c!"treatmentStandardsRoutes", fld (.leaf c!"StringMultiLang") false 2 false none none),
  (c!"mixAndLocationTypes", fld (.leaf c!"StringMultiLang") false 3 false none none),
  (c!"functionalUnitFlowProperties", fld (.leaf c!"StringMultiLang") false 4 false none none)]

/-- ILCD1_structure.py:115-119 -/
def ilcd_ComplementingProcesses : List (Key × Field Str) := [
  (c!"referenceToComplementingProcess", fld (.sub c!"ILCD1Reference") true 1 false none none)]

/-- ILCD1_structure.py:121-125 -/
def ilcd_ClassificationInformation : List (Key × Field Str) := [
  (c!"classification", fld (.sub c!"ILCD1Classification") false 1 false xCommon none)]

/-- ILCD1_structure.py:127-138 -/
def ilcd_DataSetInformation : List (Key × Field Str) := [
  (c!"UUID", fld (.leaf c!"UUID") true 1 true xCommon none),
  (c!"name", fld (.sub c!"Name") false 2 true none none),
  (c!"identifierOfSubDataSet", fld (.leaf c!"String") false 3 true none none),
  (c!"synonyms", fld (.leaf c!"FTMultiLang") false 4 false xCommon none),
  (c!"complementingProcesses", fld (.sub c!"ComplementingProcesses") false 5 true none none),
  (c!"classificationInformation", fld (.sub c!"ClassificationInformation") false 6 true none none),
  (c!"generalComment", fld (.leaf c!"FTMultiLang") false 7 false xCommon none),
  (c!"referenceToExternalDocumentation", fld (.sub c!"ILCD1Reference") false 8 false none none)]

/-- ILCD1_structure.py:142-148 -/
def ilcd_QuantitativeReference : List (Key × Field Str) := [
  (c!"type", fld (.leaf c!"Enum TypeOfQuantitativeReferenceValues") true 0 true xAttr none),
  (c!"referenceToReferenceFlow", fld (.leaf c!"Int6List") false 1 false none none),
  (c!"functionalUnitOrOther", fld (.leaf c!"StringMultiLang") false 2 false none none)]

/-- ILCD1_structure.py:152-158 -/
def ilcd_Time : List (Key × Field Str) := [
  (c!"referenceYear", fld (.leaf c!"Year") false 1 true xCommon none),
  (c!"dataSetValidUntil", fld (.leaf c!"Year") false 2 true xCommon none),
  (c!"timeRepresentativenessDescription", fld (.leaf c!"FTMultiLang") false 3 false xCommon none)]

/-- ILCD1_structure.py:160-165 -/
def ilcd_OLCATime : List (Key × Field Str) := [
  (c!"referenceYear", fld (.leaf c!"Year") false 1 true xCommon none),
  (c!"dataSetValidUntil", fld (.leaf c!"Year") false 2 true xCommon none),
  (c!"timeRepresentativenessDescription", fld (.leaf c!"FTMultiLang") false 3 false xCommon none),
  (c!"startDate", fld (.leaf c!"Int") false 0 true xAttr (some c!"olca")),
  (c!"endDate", fld (.leaf c!"Int") false 0 true xAttr (some c!"olca"))]

/-- ILCD1_structure.py:169-175 -/
def ilcd_LocationOfOperationSupplyOrProduction : List (Key × Field Str) := [
  (c!"location", fld (.leaf c!"NullableString") true 0 true xAttr none),
  (c!"latitudeAndLongitude", fld (.leaf c!"GIS") false 0 true xAttr none),
  (c!"descriptionOfRestrictions", fld (.leaf c!"FTMultiLang") false 1 false none none)]

/-- ILCD1_structure.py:177-183 -/
def ilcd_SubLocationOfOperationSupplyOrProduction : List (Key × Field Str) := [
  (c!"subLocation", fld (.leaf c!"String") false 0 true xAttr none),
  (c!"latitudeAndLongitude", fld (.leaf c!"GIS") false 0 true xAttr none),
  (c!"descriptionOfRestrictions", fld (.leaf c!"FTMultiLang") false 1 false none none)]

/-- ILCD1_structure.py:185-190 -/
def ilcd_Geography : List (Key × Field Str) := [
  (c!"locationOfOperationSupplyOrProduction", fld (.sub c!"LocationOfOperationSupplyOrProduction") false 1 true none none),
  (c!"subLocationOfOperationSupplyOrProduction", fld (.sub c!"SubLocationOfOperationSupplyOrProduction") false 2 false none none)]

/-- ILCD1_structure.py:194-202 -/
def ilcd_Technology : List (Key × Field Str) := [
  (c!"technologyDescriptionAndIncludedProcesses", fld (.leaf c!"FTMultiLang") false 1 false none none),
  (c!"referenceToIncludedProcesses", fld (.sub c!"ILCD1Reference") false 2 false none none),
  (c!"technologicalApplicability", fld (.leaf c!"FTMultiLang") false 3 false none none),
  (c!"referenceToTechnologyPictogramme", fld (.sub c!"ILCD1Reference") false 4 true none none),
  (c!"referenceToTechnologyFlowDiagrammOrPicture", fld (.sub c!"ILCD1Reference") false 5 false none none)]

/-- ILCD1_structure.py:206-217 -/
def ilcd_VariableParameter : List (Key × Field Str) := [
  (c!"name", fld (.leaf c!"MatV") true 0 true xAttr none),
  (c!"formula", fld (.leaf c!"Str") false 1 true none none),
  (c!"meanValue", fld (.leaf c!"Real") false 2 true none none),
  (c!"minimumValue", fld (.leaf c!"Real") false 3 true none none),
  (c!"maximumValue", fld (.leaf c!"Real") false 4 true none none),
  (c!"uncertaintyDistributionType", fld (.leaf c!"Enum UncertaintyDistributionTypeValues") false 5 true none none),
  (c!"relativeStandardDeviation95In", fld (.leaf c!"Real") false 6 true none none),
  (c!"comment", fld (.leaf c!"StringMultiLang") false 7 false none none)]

/-- ILCD1_structure.py:219-223 -/
def ilcd_OLCAVariableParameter : List (Key × Field Str) := [
  (c!"name", fld (.leaf c!"MatV") true 0 true xAttr none),
  (c!"formula", fld (.leaf c!"Str") false 1 true none none),
  (c!"meanValue", fld (.leaf c!"Real") false 2 true none none),
  (c!"minimumValue", fld (.leaf c!"Real") false 3 true none none),
  (c!"maximumValue", fld (.leaf c!"Real") false 4 true none none),
  (c!"uncertaintyDistributionType", fld (.leaf c!"Enum UncertaintyDistributionTypeValues") false 5 true none none),
  (c!"relativeStandardDeviation95In", fld (.leaf c!"Real") false 6 true none none),
  (c!"comment", fld (.leaf c!"StringMultiLang") false 7 false none none),
  (c!"scope", fld (.leaf c!"String") false 0 true xAttr (some c!"olca"))]

/-- ILCD1_structure.py:225-230 -/
def ilcd_MathematicalRelations : List (Key × Field Str) := [
  (c!"modelDescription", fld (.leaf c!"FTMultiLang") false 1 false none none),
  (c!"variableParameter", fld (.sub c!"VariableParameter") false 2 false none none)]

/-- ILCD1_structure.py:232-236 -/
def ilcd_OLCAMathematicalRelations : List (Key × Field Str) := [
  (c!"modelDescription", fld (.leaf c!"FTMultiLang") false 1 false none none),
  (c!"variableParameter", fld (.sub c!"OLCAVariableParameter") false 2 false none none)]

/-- ILCD1_structure.py:240-251 -/
def ilcd_LCIMethodAndAllocation : List (Key × Field Str) := [
  (c!"typeOfDataSet", fld (.leaf c!"Enum TypeOfProcessValues") false 1 true none none),
  (c!"LCIMethodPrinciple", fld (.leaf c!"Enum LCIMethodPrincipleValues") false 2 true none none),
  (c!"deviationsFromLCIMethodPrinciple", fld (.leaf c!"FTMultiLang") false 3 false none none),
  (c!"LCIMethodApproaches", fld (.leaf c!"EnumList LCIMethodApproachesValues") false 4 false none none),
  (c!"deviationsFromLCIMethodApproaches", fld (.leaf c!"FTMultiLang") false 5 false none none),
  (c!"modellingConstants", fld (.leaf c!"FTMultiLang") false 6 false none none),
  (c!"deviationsFromModellingConstants", fld (.leaf c!"FTMultiLang") false 7 false none none),
  (c!"referenceToLCAMethodDetails", fld (.sub c!"ILCD1Reference") false 8 false none none)]

/-- ILCD1_structure.py:253-270 -/
def ilcd_DataSourcesTreatmentAndRepresentativeness : List (Key × Field Str) := [
  (c!"dataCutOffAndCompletenessPrinciples", fld (.leaf c!"FTMultiLang") false 1 false none none),
  (c!"deviationsFromCutOffAndCompletenessPrinciples", fld (.leaf c!"FTMultiLang") false 2 false none none),
  (c!"dataSelectionAndCombinationPrinciples", fld (.leaf c!"FTMultiLang") false 3 false none none),
  (c!"deviationsFromSelectionAndCombinationPrinciples", fld (.leaf c!"FTMultiLang") false 4 false none none),
  (c!"dataTreatmentAndExtrapolationsPrinciples", fld (.leaf c!"FTMultiLang") false 5 false none none),
  (c!"deviationsFromTreatmentAndExtrapolationPrinciples", fld (.leaf c!"FTMultiLang") false 6 false none none),
  (c!"referenceToDataHandlingPrinciples", fld (.sub c!"ILCD1Reference") false 7 false none none),
  (c!"referenceToDataSource", fld (.sub c!"ILCD1Reference") false 8 false none none),
  (c!"percentageSupplyOrProductionCovered", fld (.leaf c!"Real") false 9 true none none),
  (c!"annualSupplyOrProductionVolume", fld (.leaf c!"StringMultiLang") false 10 false none none),
  (c!"samplingProcedure", fld (.leaf c!"FTMultiLang") false 11 false none none),
  (c!"dataCollectionPeriod", fld (.leaf c!"StringMultiLang") false 12 false none none),
  (c!"uncertaintyAdjustments", fld (.leaf c!"FTMultiLang") false 13 false none none),
  (c!"useAdviceForDataSet", fld (.leaf c!"FTMultiLang") false 14 false none none)]

/-- ILCD1_structure.py:272-277 -/
def ilcd_CompletenessElementaryFlows : List (Key × Field Str) := [
  (c!"type", fld (.leaf c!"Enum CompletenessTypeValues") true 0 true xAttr none),
  (c!"value", fld (.leaf c!"Enum CompletenessValues") true 0 true xAttr none)]

/-- ILCD1_structure.py:279-286 -/
def ilcd_Completeness : List (Key × Field Str) := [
  (c!"completenessProductModel", fld (.leaf c!"EnumList CompletenessValues") false 1 false none none),
  (c!"referenceToSupportedImpactAssessmentMethods", fld (.sub c!"ILCD1Reference") false 2 false none none),
  (c!"completenessElementaryFlows", fld (.sub c!"CompletenessElementaryFlows") false 3 false none none),
  (c!"completenessOtherProblemField", fld (.leaf c!"FTMultiLang") false 4 false none none)]

/-- ILCD1_structure.py:288-292 -/
def ilcd_Method : List (Key × Field Str) := [
  (c!"name", fld (.leaf c!"Enum MethodOfReviewValues") true 0 true xAttr none)]

/-- ILCD1_structure.py:294-299 -/
def ilcd_Scope : List (Key × Field Str) := [
  (c!"name", fld (.leaf c!"Enum ScopeOfReviewValues") true 0 true xAttr none),
  (c!"method", fld (.sub c!"Method") false 1 false xCommon none)]

/-- ILCD1_structure.py:301-306 -/
def ilcd_DataQualityIndicator : List (Key × Field Str) := [
  (c!"name", fld (.leaf c!"Enum DataQualityIndicatorValues") true 0 true xAttr none),
  (c!"value", fld (.leaf c!"Enum QualityValues") true 0 true xAttr none)]

/-- ILCD1_structure.py:308-312 -/
def ilcd_DataQualityIndicators : List (Key × Field Str) := [
  (c!"dataQualityIndicator", fld (.sub c!"DataQualityIndicator") true 1 false xCommon none)]

/-- ILCD1_structure.py:314-324 -/
def ilcd_Review : List (Key × Field Str) := [
  (c!"type", fld (.leaf c!"Enum TypeOfReviewValues") false 0 true xAttr none),
  (c!"scope", fld (.sub c!"Scope") false 1 false xCommon none),
  (c!"dataQualityIndicators", fld (.sub c!"DataQualityIndicators") false 2 true xCommon none),
  (c!"reviewDetails", fld (.leaf c!"FTMultiLang") false 3 false xCommon none),
  (c!"referenceToNameOfReviewerAndInstitution", fld (.sub c!"ILCD1Reference") false 4 false xCommon none),
  (c!"otherReviewDetails", fld (.leaf c!"FTMultiLang") false 5 false xCommon none),
  (c!"referenceToCompleteReviewReport", fld (.sub c!"ILCD1Reference") false 6 true xCommon none)]

/-- ILCD1_structure.py:326-330 -/
def ilcd_Validation : List (Key × Field Str) := [
  (c!"review", fld (.sub c!"Review") false 1 false none none)]

/-- ILCD1_structure.py:332-342 -/
def ilcd_Compliance : List (Key × Field Str) := [
  (c!"referenceToComplianceSystem", fld (.sub c!"ILCD1Reference") true 1 true xCommon none),
  (c!"approvalOfOverallCompliance", fld (.leaf c!"Enum ComplianceValues") false 2 true xCommon none),
  (c!"nomenclatureCompliance", fld (.leaf c!"Enum ComplianceValues") false 3 true xCommon none),
  (c!"methodologicalCompliance", fld (.leaf c!"Enum ComplianceValues") false 4 true xCommon none),
  (c!"reviewCompliance", fld (.leaf c!"Enum ComplianceValues") false 5 true xCommon none),
  (c!"documentationCompliance", fld (.leaf c!"Enum ComplianceValues") false 6 true xCommon none),
  (c!"qualityCompliance", fld (.leaf c!"Enum ComplianceValues") false 7 true xCommon none)]

/-- ILCD1_structure.py:344-348 -/
def ilcd_ComplianceDeclarations : List (Key × Field Str) := [
  (c!"compliance", fld (.sub c!"Compliance") true 1 false none none)]

/-- ILCD1_structure.py:350-358 -/
def ilcd_ModellingAndValidation : List (Key × Field Str) := [
  (c!"LCIMethodAndAllocation", fld (.sub c!"LCIMethodAndAllocation") false 1 true none none),
  (c!"dataSourcesTreatmentAndRepresentativeness", fld (.sub c!"DataSourcesTreatmentAndRepresentativeness") false 2 true none none),
  (c!"completeness", fld (.sub c!"Completeness") false 3 true none none),
  (c!"validation", fld (.sub c!"Validation") false 4 true none none),
  (c!"complianceDeclarations", fld (.sub c!"ComplianceDeclarations") false 5 true none none)]

/-- ILCD1_structure.py:362-368 -/
def ilcd_CommissionerAndGoal : List (Key × Field Str) := [
  (c!"referenceToCommissioner", fld (.sub c!"ILCD1Reference") false 1 false xCommon none),
  (c!"project", fld (.leaf c!"StringMultiLang") false 2 false xCommon none),
  (c!"intendedApplications", fld (.leaf c!"FTMultiLang") false 3 false xCommon none)]

/-- ILCD1_structure.py:370-374 -/
def ilcd_DataGenerator : List (Key × Field Str) := [
  (c!"referenceToPersonOrEntityGeneratingTheDataSet", fld (.sub c!"ILCD1Reference") false 1 false xCommon none)]

/-- ILCD1_structure.py:376-384 -/
def ilcd_DataEntryBy : List (Key × Field Str) := [
  (c!"timeStamp", fld (.leaf c!"DateTime") false 1 true xCommon none),
  (c!"referenceToDataSetFormat", fld (.sub c!"ILCD1Reference") false 2 false xCommon none),
  (c!"referenceToConvertedOriginalDataSetFrom", fld (.sub c!"ILCD1Reference") false 3 true xCommon none),
  (c!"referenceToPersonOrEntityEnteringTheData", fld (.sub c!"ILCD1Reference") false 4 true xCommon none),
  (c!"referenceToDataSetUseApproval", fld (.sub c!"ILCD1Reference") false 5 false xCommon none)]

/-- ILCD1_structure.py:386-402 -/
def ilcd_PublicationAndOwnership : List (Key × Field Str) := [
  (c!"dateOfLastRevision", fld (.leaf c!"ReviewDateTime") false 1 false xCommon none),
  (c!"dataSetVersion", fld (.leaf c!"Version") true 2 true xCommon none),
  (c!"referenceToPrecedingDataSetVersion", fld (.sub c!"ILCD1Reference") false 3 false xCommon none),
  (c!"permanentDataSetURI", fld (.leaf c!"Str") false 4 true xCommon none),
  (c!"workflowAndPublicationStatus", fld (.leaf c!"Enum WorkflowAndPublicationStatusValues") false 5 true xCommon none),
  (c!"referenceToUnchangedRepublication", fld (.sub c!"ILCD1Reference") false 6 true xCommon none),
  (c!"referenceToRegistrationAuthority", fld (.sub c!"ILCD1Reference") false 7 true xCommon none),
  (c!"registrationNumber", fld (.leaf c!"String") false 8 true xCommon none),
  (c!"referenceToOwnershipOfDataSet", fld (.sub c!"ILCD1Reference") false 9 true xCommon none),
  (c!"copyright", fld (.leaf c!"Bool") false 10 true xCommon none),
  (c!"referenceToEntitiesWithExclusiveAccess", fld (.sub c!"ILCD1Reference") false 11 false xCommon none),
  (c!"licenseType", fld (.leaf c!"Enum LicenseTypeValues") false 12 false xCommon none),
  (c!"accessRestrictions", fld (.leaf c!"FTMultiLang") false 13 false xCommon none)]

/-- ILCD1_structure.py:404-411 -/
def ilcd_AdministrativeInformation : List (Key × Field Str) := [
  (c!"commissionerAndGoal", fld (.sub c!"CommissionerAndGoal") false 1 true xCommon none),
  (c!"dataGenerator", fld (.sub c!"DataGenerator") false 2 true none none),
  (c!"dataEntryBy", fld (.sub c!"DataEntryBy") false 3 true none none),
  (c!"publicationAndOwnership", fld (.sub c!"PublicationAndOwnership") false 4 true none none)]

/-- ILCD1_structure.py:415-420 -/
def ilcd_Allocation : List (Key × Field Str) := [
  (c!"internalReferenceToCoProduct", fld (.leaf c!"Int6") true 0 true xAttr none),
  (c!"allocatedFraction", fld (.leaf c!"Real") true 0 true xAttr none)]

/-- ILCD1_structure.py:422-426 -/
def ilcd_Allocations : List (Key × Field Str) := [
  (c!"allocation", fld (.sub c!"Allocation") true 1 false none none)]

/-- ILCD1_structure.py:428-432 -/
def ilcd_ReferencesToDataSource : List (Key × Field Str) := [
  (c!"referenceToDataSource", fld (.sub c!"ILCD1Reference") false 1 false none none)]

/-- ILCD1_structure.py:434-454 -/
def ilcd_Exchange : List (Key × Field Str) := [
  (c!"dataSetInternalID", fld (.leaf c!"Int6") true 0 true xAttr none),
  (c!"referenceToFlowDataSet", fld (.sub c!"ILCD1Reference") true 1 true none none),
  (c!"location", fld (.leaf c!"String") false 2 true none none),
  (c!"functionType", fld (.leaf c!"Enum ExchangeFunctionTypeValues") false 3 true none none),
  (c!"exchangeDirection", fld (.leaf c!"Enum ExchangeDirectionValues") false 4 true none none),
  (c!"referenceToVariable", fld (.leaf c!"Str") false 5 true none none),
  (c!"meanAmount", fld (.leaf c!"Real") true 6 false none none),
  (c!"resultingAmount", fld (.leaf c!"Real") false 7 false none none),
  (c!"minimumAmount", fld (.leaf c!"Real") false 8 false none none),
  (c!"maximumAmount", fld (.leaf c!"Real") false 9 false none none),
  (c!"uncertaintyDistributionType", fld (.leaf c!"Enum UncertaintyDistributionTypeValues") false 10 false none none),
  (c!"relativeStandardDeviation95In", fld (.leaf c!"Real") false 11 false none none),
  (c!"allocations", fld (.sub c!"Allocations") false 12 true none none),
  (c!"dataSourceType", fld (.leaf c!"Enum DataSourceTypeValues") false 13 true none none),
  (c!"dataDerivationTypeStatus", fld (.leaf c!"Enum DataDerivationTypeStatusValues") false 14 true none none),
  (c!"referencesToDataSource", fld (.sub c!"ReferencesToDataSource") false 15 true none none),
  (c!"generalComment", fld (.leaf c!"StringMultiLang") false 16 false none none)]

/-- ILCD1_structure.py:456-468 -/
def ilcd_OLCAExchange : List (Key × Field Str) := [
  (c!"dataSetInternalID", fld (.leaf c!"Int6") true 0 true xAttr none),
  (c!"referenceToFlowDataSet", fld (.sub c!"ILCD1Reference") true 1 true none none),
  (c!"location", fld (.leaf c!"String") false 2 true none none),
  (c!"functionType", fld (.leaf c!"Enum ExchangeFunctionTypeValues") false 3 true none none),
  (c!"exchangeDirection", fld (.leaf c!"Enum ExchangeDirectionValues") false 4 true none none),
  (c!"referenceToVariable", fld (.leaf c!"Str") false 5 true none none),
  (c!"meanAmount", fld (.leaf c!"Real") true 6 false none none),
  (c!"resultingAmount", fld (.leaf c!"Real") false 7 false none none),
  (c!"minimumAmount", fld (.leaf c!"Real") false 8 false none none),
  (c!"maximumAmount", fld (.leaf c!"Real") false 9 false none none),
  (c!"uncertaintyDistributionType", fld (.leaf c!"Enum UncertaintyDistributionTypeValues") false 10 false none none),
  (c!"relativeStandardDeviation95In", fld (.leaf c!"Real") false 11 false none none),
  (c!"allocations", fld (.sub c!"Allocations") false 12 true none none),
  (c!"dataSourceType", fld (.leaf c!"Enum DataSourceTypeValues") false 13 true none none),
  (c!"dataDerivationTypeStatus", fld (.leaf c!"Enum DataDerivationTypeStatusValues") false 14 true none none),
  (c!"referencesToDataSource", fld (.sub c!"ReferencesToDataSource") false 15 true none none),
  (c!"generalComment", fld (.leaf c!"StringMultiLang") false 16 false none none),
  (c!"formula", fld (.leaf c!"String") false 0 true xAttr (some c!"olca")),
  (c!"unitId", fld (.leaf c!"UUID") false 0 true xAttr (some c!"olca")),
  (c!"propertyId", fld (.leaf c!"UUID") false 0 true xAttr (some c!"olca")),
  (c!"amount", fld (.leaf c!"Real") false 0 true xAttr (some c!"olca")),
  (c!"pedigreeUncertainty", fld (.leaf c!"String") false 0 true xAttr (some c!"olca")),
  (c!"baseUncertainty", fld (.leaf c!"String") false 0 true xAttr (some c!"olca")),
  (c!"mostLikelyValue", fld (.leaf c!"Real") false 0 true xAttr (some c!"olca")),
  (c!"avoidedProduct", fld (.leaf c!"Bool") false 0 true xAttr (some c!"olca")),
  (c!"defaultProvider", fld (.leaf c!"UUID") false 0 true xAttr (some c!"olca"))]

/-- ILCD1_structure.py:470-474 -/
def ilcd_Exchanges : List (Key × Field Str) := [
  (c!"exchange", fld (.sub c!"Exchange") false 1 false none none)]

/-- ILCD1_structure.py:476-480 -/
def ilcd_OLCAExchanges : List (Key × Field Str) := [
  (c!"exchange", fld (.sub c!"OLCAExchange") false 1 false none none)]

/-- All the classes of ILCD1_structure.py. -/
def ilcdTable : List (Cls × List (Key × Field Str)) := [
  (c!"ILCD1Reference", ilcd_ILCD1Reference),
  (c!"ILCD1Classification", ilcd_ILCD1Classification),
  (c!"ILCD1Classification.__Class", ilcd_ILCD1Classification_Class),
  (c!"ILCD1FlowProperty", ilcd_ILCD1FlowProperty),
  (c!"Name", ilcd_Name),
  (c!"ComplementingProcesses", ilcd_ComplementingProcesses),
  (c!"ClassificationInformation", ilcd_ClassificationInformation),
  (c!"DataSetInformation", ilcd_DataSetInformation),
  (c!"QuantitativeReference", ilcd_QuantitativeReference),
  (c!"Time", ilcd_Time),
  (c!"OLCATime", ilcd_OLCATime),
  (c!"LocationOfOperationSupplyOrProduction", ilcd_LocationOfOperationSupplyOrProduction),
  (c!"SubLocationOfOperationSupplyOrProduction", ilcd_SubLocationOfOperationSupplyOrProduction),
  (c!"Geography", ilcd_Geography),
  (c!"Technology", ilcd_Technology),
  (c!"VariableParameter", ilcd_VariableParameter),
  (c!"OLCAVariableParameter", ilcd_OLCAVariableParameter),
  (c!"MathematicalRelations", ilcd_MathematicalRelations),
  (c!"OLCAMathematicalRelations", ilcd_OLCAMathematicalRelations),
  (c!"LCIMethodAndAllocation", ilcd_LCIMethodAndAllocation),
  (c!"DataSourcesTreatmentAndRepresentativeness", ilcd_DataSourcesTreatmentAndRepresentativeness),
  (c!"CompletenessElementaryFlows", ilcd_CompletenessElementaryFlows),
  (c!"Completeness", ilcd_Completeness),
  (c!"Method", ilcd_Method),
  (c!"Scope", ilcd_Scope),
  (c!"DataQualityIndicator", ilcd_DataQualityIndicator),
  (c!"DataQualityIndicators", ilcd_DataQualityIndicators),
  (c!"Review", ilcd_Review),
  (c!"Validation", ilcd_Validation),
  (c!"Compliance", ilcd_Compliance),
  (c!"ComplianceDeclarations", ilcd_ComplianceDeclarations),
  (c!"ModellingAndValidation", ilcd_ModellingAndValidation),
  (c!"CommissionerAndGoal", ilcd_CommissionerAndGoal),
  (c!"DataGenerator", ilcd_DataGenerator),
  (c!"DataEntryBy", ilcd_DataEntryBy),
  (c!"PublicationAndOwnership", ilcd_PublicationAndOwnership),
  (c!"AdministrativeInformation", ilcd_AdministrativeInformation),
  (c!"Allocation", ilcd_Allocation),
  (c!"Allocations", ilcd_Allocations),
  (c!"ReferencesToDataSource", ilcd_ReferencesToDataSource),
  (c!"Exchange", ilcd_Exchange),
  (c!"OLCAExchange", ilcd_OLCAExchange),
  (c!"Exchanges", ilcd_Exchanges),
  (c!"OLCAExchanges", ilcd_OLCAExchanges)]

/-- The `VALID` table of a class of ILCD1_structure.py (no field for other class names). -/
def ilcd : Schema Str := fun c => (lookup c ilcdTable).getD []

end Verif.Schema
