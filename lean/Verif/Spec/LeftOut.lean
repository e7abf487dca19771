/-
The data of an ILCD process that have no place in EcoSpold2, by their paths, and the forms of the elements.
-/
import Verif.Spec.XmlStream

namespace Verif.LeftOut.Spec

open Verif.Xml Verif.Xml.Spec

/-- An element that is nothing but a text. -/
def Plain (e : Elem) (s : Str) : Prop := e.attrs = [] ∧ e.children = [] ∧ e.text = some s ∧ Visible s

/-- No text but white space. -/
def Blank (e : Elem) : Prop := ∀ s, e.text = some s → ¬ Visible s

/-- An element with a text and something else; an empty text counts if the element states its language. -/
def Labelled (e : Elem) (s : Str) : Prop :=
  ((e.attrs ≠ [] ∨ e.children ≠ []) ∧ e.text = some s ∧ Visible s) ∨
    (s = [] ∧ Blank e ∧ e.children = [] ∧ ∃ a ∈ e.attrs, localName a.1 = c!"lang")

/-- The sections of a process. -/
def info (l : List Str) : List Str := c!"processDataSet" :: c!"processInformation" :: l
def modelling (l : List Str) : List Str := c!"processDataSet" :: c!"modellingAndValidation" :: l
def admin (l : List Str) : List Str := c!"processDataSet" :: c!"administrativeInformation" :: l

/-- Data that are texts. -/
def texts : List (List Str) :=
  [info [c!"dataSetInformation", c!"identifierOfSubDataSet"], info [c!"quantitativeReference", c!"type"],
   modelling [c!"LCIMethodAndAllocation", c!"LCIMethodPrinciple"], admin [c!"dataEntryBy", c!"timeStamp"],
   admin [c!"publicationAndOwnership", c!"dateOfLastRevision"], admin [c!"publicationAndOwnership", c!"permanentDataSetURI"]]

/-- The registration number. -/
def number : List Str := admin [c!"publicationAndOwnership", c!"registrationNumber"]

/-- The location and the name of its coordinates. -/
def location : List Str := info [c!"geography", c!"locationOfOperationSupplyOrProduction"]

/-- Data of any form, which may be given several times. -/
def lists : List (List Str) :=
  [info [c!"dataSetInformation", c!"complementingProcesses"], info [c!"quantitativeReference", c!"functionalUnitOrOther"],
   info [c!"geography", c!"subLocationOfOperationSupplyOrProduction"],
   info [c!"technology", c!"referenceToIncludedProcesses"],
   modelling [c!"LCIMethodAndAllocation", c!"referenceToLCAMethodDetails"],
   modelling [c!"dataSourcesTreatmentAndRepresentativeness", c!"referenceToDataHandlingPrinciples"],
   modelling [c!"dataSourcesTreatmentAndRepresentativeness", c!"referenceToDataSource"],
   modelling [c!"dataSourcesTreatmentAndRepresentativeness", c!"annualSupplyOrProductionVolume"],
   modelling [c!"completeness"], modelling [c!"complianceDeclarations", c!"compliance"],
   admin [c!"dataEntryBy", c!"referenceToDataSetFormat"],
   admin [c!"dataEntryBy", c!"referenceToConvertedOriginalDataSetFrom"],
   admin [c!"dataEntryBy", c!"referenceToDataSetUseApproval"],
   admin [c!"publicationAndOwnership", c!"referenceToPrecedingDataSetVersion"],
   admin [c!"publicationAndOwnership", c!"referenceToRegistrationAuthority"],
   admin [c!"publicationAndOwnership", c!"referenceToOwnershipOfDataSet"]]

/-- The values stand for the elements, one for each and in their order. -/
inductive StandFor : List Elem → List PyVal → Prop
  | nil : StandFor [] []
  | cons (e v l vs) : Represents e v → StandFor l vs → StandFor (e :: l) (v :: vs)

/-- The name of the data: the last name of the path. -/
def name (ns : List Str) : Str := ns.getLastD []

end Verif.LeftOut.Spec
