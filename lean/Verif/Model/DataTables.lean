/-
The tables of codes, transcribed from src/Lavoisier/conversions/data.py (generated from its text).
A table is a list of pairs in the order of the source. The tables defined by comprehension
`{v: k for k, v in d.items()}` are `inverse d`.
-/
import Verif.Model.Assoc

namespace Verif.Tables

/-- `{v: k for k, v in d.items()}`: of several keys with the same value the last one counts. -/
def inverse {κ α : Type} [DecidableEq α] (d : List (κ × α)) : List (α × κ) :=
  d.foldl (fun acc p => aset p.2 p.1 acc) []

/-- `child_type`, data.py:9-13 -/
def childType : List (Str × Option Str) := [
  (c!"0", none),
  (c!"-1", some c!"child from: "),
  (c!"1", some c!"geography child from: "),
  (c!"2", some c!"technological child from: "),
  (c!"3", some c!"macroeconomic child from: ")]

/-- `type_process`, data.py:17-18 -/
def typeProcess : List (Str × Str) := [
  (c!"1", c!"Unit process, black box"),
  (c!"2", c!"LCI result")]

/-- `type_process_`, data.py:20-24 -/
def typeProcessBack : List (Str × Str) := [
  (c!"Unit process, single operation", c!"1"),
  (c!"Unit process, black box", c!"1"),
  (c!"LCI result", c!"2"),
  (c!"Partly terminated system", c!"1"),
  (c!"Avoided product system", c!"1")]

/-- `special_activity`, data.py:26-36 -/
def specialActivity : List (Str × Str) := [
  (c!"0", c!"ordinary transforming activity"),
  (c!"1", c!"market activity"),
  (c!"2", c!"IO activity"),
  (c!"3", c!"residual activity"),
  (c!"4", c!"production mix"),
  (c!"5", c!"import activity"),
  (c!"6", c!"supply mix"),
  (c!"7", c!"export activity"),
  (c!"8", c!"re-Export activity"),
  (c!"9", c!"correction activity"),
  (c!"10", c!"market group")]

/-- `energy`, data.py:40-42 -/
def energy : List (Str × Str) := [
  (c!"0", c!"undefined"),
  (c!"1", c!"net calorific value"),
  (c!"2", c!"gross calorific value")]

/-- `tech`, data.py:46-51 -/
def tech : List (Str × Str) := [
  (c!"0", c!"Undefined"),
  (c!"1", c!"New"),
  (c!"2", c!"Modern"),
  (c!"3", c!"Current"),
  (c!"4", c!"Old"),
  (c!"5", c!"Outdated")]

/-- `time_period`, data.py:55-56 -/
def timePeriod : List (Str × Str) := [
  (c!"true", c!"Data is valid for the entire period."),
  (c!"false", c!"Data is not valid for the entire period.")]

/-- `inputGroup_type`, data.py:60-64 -/
def inputGroupType : List (Str × Str) := [
  (c!"1", c!"Materials/Fuels"),
  (c!"2", c!"Electricity/Heat"),
  (c!"3", c!"Services"),
  (c!"4", c!"From Environment"),
  (c!"5", c!"From Technosphere (unspecified)")]

/-- `outputGroup_type`, data.py:66-70 -/
def outputGroupType : List (Str × Str) := [
  (c!"0", c!"Reference Product"),
  (c!"2", c!"By-product;"),
  (c!"3", c!"Material for Treatment"),
  (c!"4", c!"To Environment"),
  (c!"5", c!"Stock Additions")]

/-- `system_model`, data.py:72-82 -/
def systemModel : List (Str × Str) := [
  (c!"Undefined", c!"Not applicable"),
  (c!"Allocation, ecoinvent default", c!"Attributional"),
  (c!"Allocation, manually linked", c!"Attributional"),
  (c!"Allocation by dry mass", c!"Attributional"),
  (c!"Allocation at the point of substitution", c!"Attributional"),
  (c!"Allocation, legacy", c!"Attributional"),
  (c!"Allocation by carbon", c!"Attributional"),
  (c!"Allocation by revenue", c!"Attributional"),
  (c!"Allocation, cut-off by classification", c!"Attributional"),
  (c!"Substitution, consequential, long-term", c!"Consequential"),
  (c!"Substitution, constrained by-products", c!"Consequential")]

/-- `system_model_2`, data.py:84-94 -/
def systemModel2 : List (Str × Str) := [
  (c!"Undefined", c!"Not applicable"),
  (c!"Allocation, ecoinvent default", c!"Substitution - average, market price correction"),
  (c!"Allocation, manually linked", c!"Allocation - other explicit assignment"),
  (c!"Allocation by dry mass", c!"Allocation - mass"),
  (c!"Allocation at the point of substitution", c!"Substitution - average, market price correction"),
  (c!"Allocation, legacy", c!"Allocation - other explicit assignment"),
  (c!"Allocation by carbon", c!"Allocation - element content"),
  (c!"Allocation by revenue", c!"Allocation - market value"),
  (c!"Allocation, cut-off by classification", c!"Allocation - 100% to main function"),
  (c!"Substitution, consequential, long-term", c!"Substitution - specific"),
  (c!"Substitution, constrained by-products", c!"Substitution - specific")]

/-- `system_model_1_`, data.py:96-108 -/
def systemModelId : List (Str × Str) := [
  (c!"Allocation, ecoinvent default", c!"06590a66-662a-4885-8494-ad0cf410f956"),
  (c!"Allocation, manually linked", c!"ba1ff5c1-9a0b-41ce-a5f8-fc2ff3163405"),
  (c!"Allocation by dry mass", c!"a253b4b8-5257-4c53-be06-d5b4d78ea407"),
  (c!"Allocation at the point of substitution", c!"06590a66-662a-4885-8494-ad0cf410f956"),
  (c!"Allocation, legacy", c!"4352935f-32fb-41a5-ad98-bec679e527ca"),
  (c!"Allocation, cut-off by classification", c!"290c1f85-4cc4-4fa1-b0c8-2cb7f4276dce"),
  (c!"Substitution, consequential, long-term", c!"dd7f13f5-0658-489c-a19c-f2ff8a00bdd9"),
  (c!"Undefined", c!"8b738ea0-f89e-4627-8679-433616064e82"),
  (c!"Allocation by carbon", c!"3e629972-8eb8-4fc9-a303-addbde01cf74"),
  (c!"Substitution, constrained by-products", c!"91800971-8f93-41e6-a3fd-f7a65283aa20"),
  (c!"Allocation by revenue", c!"709a9344-2acf-4fc9-9cd3-ef9b4d41ec46")]

/-- `system_model_2_`, data.py:110-134 -/
def systemModel2Back : List (Str × Str) := [
  (c!"Allocation - market value", c!"Allocation by revenue"),
  (c!"Allocation - gross calorific value", c!"Undefined"),
  (c!"Allocation - net calorific value", c!"Undefined"),
  (c!"Allocation - exergetic content", c!"Undefined"),
  (c!"Allocation - element content", c!"Undefined"),
  (c!"Allocation - mass", c!"Allocation by dry mass"),
  (c!"Allocation - volume", c!"Undefined"),
  (c!"Allocation - ability to bear", c!"Allocation by revenue"),
  (c!"Allocation - marginal causality", c!"Undefined"),
  (c!"Allocation - physical causality", c!"Undefined"),
  (c!"Allocation - 100% to main function", c!"Allocation, cut-off by classification"),
  (c!"Allocation - other explicit assignment", c!"Allocation, manually linked"),
  (c!"Allocation - equal distribution", c!"Allocation, manually linked"),
  (c!"Substitution - BAT", c!"Undefined"),
  (c!"Substitution - average, market price correction", c!"Allocation at the point of substitution"),
  (c!"Substitution - average, technical properties correction", c!"Substitution, constrained by-products"),
  (c!"Allocation - recycled content", c!"Undefined"),
  (c!"Substitution - recycling potential", c!"Undefined"),
  (c!"Substitution - average, no correction", c!"Substitution, constrained by-products"),
  (c!"Substitution - specific", c!"Substitution, constrained by-products"),
  (c!"Consequential effects - other", c!"Substitution, consequential, long-term"),
  (c!"Not applicable", c!"Undefined"),
  (c!"Other", c!"Undefined")]

/-- `status_publication`, data.py:136-138 -/
def statusPublication : List (Str × Str) := [
  (c!"0", c!"Data set finalised; unpublished"),
  (c!"1", c!"Data set finalised; subsystems published"),
  (c!"2", c!"Data set finalised; entirely published")]

/-- `status_publication_`, data.py:140-149 -/
def statusPublicationBack : List (Str × Str) := [
  (c!"Working draft", c!"0"),
  (c!"Final draft for internal review", c!"0"),
  (c!"Final draft for external review", c!"0"),
  (c!"Data set finalised; unpublished", c!"0"),
  (c!"Under revision", c!"0"),
  (c!"Withdrawn", c!"0"),
  (c!"Data set finalised; subsystems published", c!"1"),
  (c!"Data set finalised; entirely published", c!"2")]

/-- `restrictions`, data.py:151-154 -/
def restrictions : List (Str × Str) := [
  (c!"0", c!"Free of charge for all users and uses"),
  (c!"1", c!"License fee"),
  (c!"2", c!"Other"),
  (c!"3", c!"Other")]

/-- `restrictions_`, data.py:156-162 -/
def restrictionsBack : List (Str × Str) := [
  (c!"Free of charge for all users and uses", c!"0"),
  (c!"Free of charge for some user types or use types", c!"1"),
  (c!"Free of charge for members only", c!"1"),
  (c!"License fee", c!"1"),
  (c!"Other", c!"1")]

/-- `access`, data.py:164-167 -/
def access : List (Str × Str) := [
  (c!"0", c!"Public"),
  (c!"1", c!"Licensees"),
  (c!"2", c!"Results only"),
  (c!"3", c!"Restricted to ")]

/-- `compartment_conversion`, data.py:171-200 -/
def compartmentConversion : List (Str × Str) := [
  (c!"emission/air/indoor", c!"Emissions/Emissions to air/Emissions to air, indoor"),
  (c!"emission/air/lower stratosphere and upper troposphere", c!"Emissions/Emissions to air/Emissions to lower stratosphere and upper troposphere"),
  (c!"emission/air/non urban or from high stack", c!"Emissions/Emissions to air/Emissions to non-urban air or from high stacks"),
  (c!"emission/air/unspecified", c!"Emissions/Emissions to air/Emissions to air, unspecified"),
  (c!"emission/air/unspecified long term", c!"Emissions/Emissions to air/Emissions to air, unspecified (long-term)"),
  (c!"emission/air/urban/close to ground", c!"Emissions/Emissions to air/Emissions to urban air close to ground"),
  (c!"emission/soil/agricultural", c!"Emissions/Emissions to soil/Emissions to agricultural soil"),
  (c!"emission/soil/non agricultural", c!"Emissions/Emissions to soil/Emissions to non-agricultural soil"),
  (c!"emission/soil/unspecified", c!"Emissions/Emissions to soil/Emissions to soil, unspecified"),
  (c!"emission/water/fresh water", c!"Emissions/Emissions to water/Emissions to fresh water"),
  (c!"emission/water/sea water", c!"Emissions/Emissions to water/Emissions to sea water"),
  (c!"emission/water/unspecified", c!"Emissions/Emissions to water/Emissions to water, unspecified"),
  (c!"emission/water/unspecified long term", c!"Emissions/Emissions to water/Emissions to water, unspecified (long-term)"),
  (c!"land use/occupation", c!"Land use/Land occupation"),
  (c!"land use/transformation", c!"Land use/Land transformation"),
  (c!"resource/air/renewable/element", c!"Resources/Resources from air/Renewable element resources from air"),
  (c!"resource/air/renewable/energy", c!"Resources/Resources from air/Renewable energy resources from air"),
  (c!"resource/air/renewable/material", c!"Resources/Resources from air/Renewable material resources from air"),
  (c!"resource/biosphere/renewable/energy", c!"Resources/Resources from biosphere/Renewable energy resources from biosphere"),
  (c!"resource/biosphere/renewable/material", c!"Resources/Resources from biosphere/Renewable material resources from biosphere"),
  (c!"resource/ground/non renewable/element", c!"Resources/Resources from ground/Non-renewable element resources from ground"),
  (c!"resource/ground/non renewable/energy", c!"Resources/Resources from ground/Non-renewable energy resources from ground"),
  (c!"resource/ground/non renewable/material", c!"Resources/Resources from ground/Non-renewable material resources from ground"),
  (c!"resource/ground/renewable/element", c!"Resources/Resources from ground/Renewable element resources from ground"),
  (c!"resource/water/non renewable/element", c!"Resources/Resources from water/Non-renewable element resources from water"),
  (c!"resource/water/non renewable/material", c!"Resources/Resources from water/Non-renewable material resources from water"),
  (c!"resource/water/renewable/energy", c!"Resources/Resources from water/Renewable energy resources from water"),
  (c!"resource/water/renewable/material", c!"Resources/Resources from water/Renewable material resources from water")]

end Verif.Tables
