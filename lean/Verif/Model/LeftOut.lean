/-
The record of the data of an ILCD process that have no place in EcoSpold2.
Models src/Lavoisier/data_structures/ECS2_structure.py:894-937 (`LIST`, `ILCD1ToECS2DataNotConverted`), the
assignment of a value to one of its fields (src/Lavoisier/data_structures/main.py:63-90) and the entries of the
mapping of src/Lavoisier/conversions/ILCD1_to_ECS2_conversion.py that make one: lines 1672-1673, 1680-1682,
1696-1700, 1723-1725, 1729-1731, 1735-1737, 1757-1759, 1779-1781, 1807-1812, 1817-1819, 1840, 1847, 1863,
1864-1869, 1876-1881, 1890-1896 and 1907-1915. The record is made once (1306) and kept for all files.

Simplifications: what the entries do besides (`identifierOfSubDataSet` and `timeStamp` also set a field of the
output, the entries of `completeness` and `compliance` write a warning) is left out.
-/
import Verif.Model.MappingKeys
import Verif.Model.Shapes

namespace Verif.LeftOut

open Verif.Mapping (MKey keyText)

/-- The validators of the fields: `Str` and `LIST`. -/
inductive Ty where
  | text
  | list
  deriving DecidableEq

/-- `VALID`, ECS2_structure.py:910-937. -/
def fields : List (Str × Ty) :=
  [(c!"identifierOfSubDataSet", .text), (c!"complementingProcesses", .list), (c!"functionalUnitOrOther", .list),
   (c!"type", .text), (c!"latitudeAndLongitude", .text), (c!"subLocationOfOperationSupplyOrProduction", .list),
   (c!"referenceToIncludedProcesses", .list), (c!"LCIMethodPrinciple", .text), (c!"referenceToLCAMethodDetails", .list),
   (c!"referenceToDataHandlingPrinciples", .list), (c!"referenceToDataSource", .list),
   (c!"annualSupplyOrProductionVolume", .list), (c!"completeness", .list), (c!"compliance", .list),
   (c!"commissionerAndGoal", .list), (c!"timeStamp", .text), (c!"referenceToDataSetFormat", .list),
   (c!"referenceToConvertedOriginalDataSetFrom", .list), (c!"referenceToDataSetUseApproval", .list),
   (c!"dateOfLastRevision", .text), (c!"referenceToPrecedingDataSetVersion", .list), (c!"permanentDataSetURI", .text),
   (c!"referenceToRegistrationAuthority", .list), (c!"registrationNumber", .text),
   (c!"referenceToOwnershipOfDataSet", .list), (c!"accessRestrictions", .text)]

/-- The record: the values of the fields that are set. -/
abbrev Rec := List (Str × List PyVal)

/-- `[value]` unless it is a list, main.py:69-70 and ECS2_structure.py:898-899. -/
def members : PyVal → List PyVal
  | .list l => l
  | v => [v]

/-- One value, main.py:77-79: `Str` keeps the last one (general_validators.py:19-21 and 138-142), `LIST` all of
them (ECS2_structure.py:897-906). -/
def putOne (k : Str) (v : PyVal) (r : Rec) : Py Rec :=
  match aget k fields, v with
  | none, _ => .error .attributeError
  | some .text, .str s => .ok (aset k [.str s] r)
  | some .text, _ => .error .typeError
  | some .list, v => .ok (aset k ((aget k r).getD [] ++ members v) r)

/-- The values one after the other. -/
def putMany (k : Str) : List PyVal → Rec → Py Rec
  | [], r => .ok r
  | v :: l, r =>
    match putOne k v r with
    | .error e => .error e
    | .ok r => putMany k l r

/-- `setattr(self.NotConverted, k, v)`. -/
def put (k : Str) (v : PyVal) (r : Rec) : Py Rec := putMany k (members v) r

/-- An entry of the mapping: the path, whether `x['#text']` is taken instead of `x`, and the field. -/
structure Entry where
  key : MKey
  direct : Bool
  field : Str

private def pd (l : List Str) : MKey := (c!"processDataSet" :: l, none)

/-- The entries, in the order of the mapping. -/
def entries : List Entry :=
  [⟨pd [c!"processInformation", c!"dataSetInformation", c!"identifierOfSubDataSet"], false, c!"identifierOfSubDataSet"⟩,
   ⟨pd [c!"processInformation", c!"dataSetInformation", c!"complementingProcesses"], false, c!"complementingProcesses"⟩,
   ⟨pd [c!"processInformation", c!"quantitativeReference", c!"functionalUnitOrOther"], false, c!"functionalUnitOrOther"⟩,
   ⟨pd [c!"processInformation", c!"quantitativeReference", c!"type"], false, c!"type"⟩,
   ⟨(c!"processDataSet" :: [c!"processInformation", c!"geography", c!"locationOfOperationSupplyOrProduction"],
      some c!"latituteAndLongitude"), false, c!"latitudeAndLongitude"⟩,
   ⟨pd [c!"processInformation", c!"geography", c!"subLocationOfOperationSupplyOrProduction"], false,
     c!"subLocationOfOperationSupplyOrProduction"⟩,
   ⟨pd [c!"processInformation", c!"technology", c!"referenceToIncludedProcesses"], false,
     c!"referenceToIncludedProcesses"⟩,
   ⟨pd [c!"modellingAndValidation", c!"LCIMethodAndAllocation", c!"LCIMethodPrinciple"], false, c!"LCIMethodPrinciple"⟩,
   ⟨pd [c!"modellingAndValidation", c!"LCIMethodAndAllocation", c!"referenceToLCAMethodDetails"], false,
     c!"referenceToLCAMethodDetails"⟩,
   ⟨pd [c!"modellingAndValidation", c!"dataSourcesTreatmentAndRepresentativeness", c!"referenceToDataHandlingPrinciples"],
     false, c!"referenceToDataHandlingPrinciples"⟩,
   ⟨pd [c!"modellingAndValidation", c!"dataSourcesTreatmentAndRepresentativeness", c!"referenceToDataSource"], false,
     c!"referenceToDataSource"⟩,
   ⟨pd [c!"modellingAndValidation", c!"dataSourcesTreatmentAndRepresentativeness", c!"annualSupplyOrProductionVolume"],
     false, c!"annualSupplyOrProductionVolume"⟩,
   ⟨pd [c!"modellingAndValidation", c!"completeness"], false, c!"completeness"⟩,
   ⟨pd [c!"modellingAndValidation", c!"complianceDeclarations", c!"compliance"], false, c!"compliance"⟩,
   ⟨pd [c!"administrativeInformation", c!"dataEntryBy", c!"timeStamp"], false, c!"timeStamp"⟩,
   ⟨pd [c!"administrativeInformation", c!"dataEntryBy", c!"referenceToDataSetFormat"], false,
     c!"referenceToDataSetFormat"⟩,
   ⟨pd [c!"administrativeInformation", c!"dataEntryBy", c!"referenceToConvertedOriginalDataSetFrom"], false,
     c!"referenceToConvertedOriginalDataSetFrom"⟩,
   ⟨pd [c!"administrativeInformation", c!"dataEntryBy", c!"referenceToDataSetUseApproval"], false,
     c!"referenceToDataSetUseApproval"⟩,
   ⟨pd [c!"administrativeInformation", c!"publicationAndOwnership", c!"dateOfLastRevision"], false,
     c!"dateOfLastRevision"⟩,
   ⟨pd [c!"administrativeInformation", c!"publicationAndOwnership", c!"referenceToPrecedingDataSetVersion"], false,
     c!"referenceToPrecedingDataSetVersion"⟩,
   ⟨pd [c!"administrativeInformation", c!"publicationAndOwnership", c!"permanentDataSetURI"], false,
     c!"permanentDataSetURI"⟩,
   ⟨pd [c!"administrativeInformation", c!"publicationAndOwnership", c!"referenceToRegistrationAuthority"], false,
     c!"referenceToRegistrationAuthority"⟩,
   ⟨pd [c!"administrativeInformation", c!"publicationAndOwnership", c!"registrationNumber"], true,
     c!"registrationNumber"⟩,
   ⟨pd [c!"administrativeInformation", c!"publicationAndOwnership", c!"referenceToOwnershipOfDataSet"], false,
     c!"referenceToOwnershipOfDataSet"⟩]

/-- What an entry does with the value delivered. -/
def record (e : Entry) (v : PyVal) (r : Rec) : Py Rec := do
  let v ← if e.direct then Shapes.direct v else .ok v
  put e.field v r

/-- One delivered value, converter.py:247-250: the entry of its path, if it is one of these. -/
def step (p : Str × PyVal) (r : Rec) : Py Rec :=
  match entries.find? fun e => keyText e.key == p.1 with
  | none => .ok r
  | some e => record e p.2 r

/-- The values delivered, one after the other; an exception ends the conversion. -/
def run : List (Str × PyVal) → Rec → Py Rec
  | [], r => .ok r
  | p :: l, r =>
    match step p r with
    | .error e => .error e
    | .ok r => run l r

/-- The conversion of a document, as far as the record is concerned: the stream delivers the paths of the mapping. -/
def convert (doc : Xml.Elem) (r : Rec) : Py Rec := run (Xml.read (Mapping.ilcdKeys.map keyText) doc) r

end Verif.LeftOut
