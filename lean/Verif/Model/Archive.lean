/-
The data sets of an ILCD archive and the references between them.
Models src/Lavoisier/formats/ILCD1_format.py:56-104 (the files every archive gets, the process files) and of
src/Lavoisier/conversions/ECS2_to_ILCD1_conversion.py:692-750 (properties), 870-910 (`get_unit_property`), 1024-1044
(`get_properties`), 1185-1228 and 1337-1367 (`get_flow_dict` of the two kinds of exchanges), 1394-1650 (the references, the
data sets made for them, `all_data`), 1890-1938 (what is reset), 2012-2036 (the references every process has), with the
files of Lavoisier_Default_Files.

Simplifications: of a data set only its kind, its identifier and the identifiers and kinds it refers to are kept; versions
and locations of references are in Model/FlowFiles, Model/Refs and Model/RefUnits. The operations of a data set are given in
the order in which they are carried out; which properties of an exchange stay on it (`get_ilcd_equivalent`) is part of the
input. References to files that are not data sets (documents, pictures) are left out. Elementary flow files of the package
are a parameter. An error stops the conversion, and the archive is not written.
-/
import Verif.Model.RefUnits
import Verif.Model.FlowFiles

namespace Verif.Archive

open Verif

/-- The kinds of data sets beside the processes; each kind is a folder, `_options` 1396-1401. -/
inductive Kind where
  | source
  | contact
  | flow
  | flowProperty
  | unitGroup
  deriving DecidableEq

/-- A reference: `@type` and `@refObjectId`. -/
structure Ref where
  kind : Kind
  id : Str
  deriving DecidableEq

/-- A data set of the archive. -/
structure File where
  kind : Kind
  id : Str
  refs : List Ref
  deriving DecidableEq

/-- The format of ILCD, 1446-1448 and 2018-2021. -/
def ilcdFormat : Str := c!"a97a0155-0234-4b87-b4ce-a45da52f2a40"

/-- The format of EcoSpold, 2022-2025. -/
def ecospoldFormat : Str := c!"cada7914-53c3-47ec-ac27-659b21240a99"

/-- The two compliance systems the files of the package refer to. -/
def entryLevel : Str := c!"9ba3ac1e-6797-4cc0-afd5-1b8f7bf28c6a"
@[inherit_doc entryLevel] def complianceDraft : Str := c!"88d4f8d9-60f9-43d1-9ea3-329c10d7d727"

/-- `_additional_files`, ILCD1_format.py:56-79, with the references in the files of ILCD_Sources and ILCD_Contacts. -/
def defaultFiles : List File := [
  ⟨.source, c!"0d388ade-52ab-4ca6-8a9b-f06df45d880c", [⟨.source, ilcdFormat⟩]⟩,
  ⟨.source, entryLevel, [⟨.contact, c!"d0d5f8bb-9311-49d1-9e30-2f20a6977f4f"⟩, ⟨.source, ilcdFormat⟩]⟩,
  ⟨.source, ilcdFormat, [⟨.contact, c!"d0d5f8bb-9311-49d1-9e30-2f20a6977f4f"⟩, ⟨.source, ilcdFormat⟩,
    ⟨.source, ilcdFormat⟩]⟩,
  ⟨.source, ecospoldFormat, [⟨.contact, c!"631b917e-eb39-4d0f-aae6-98c805513b2f"⟩, ⟨.source, ilcdFormat⟩]⟩,
  ⟨.source, complianceDraft, [⟨.contact, c!"d0d5f8bb-9311-49d1-9e30-2f20a6977f4f"⟩, ⟨.source, ilcdFormat⟩]⟩,
  ⟨.contact, c!"d0d5f8bb-9311-49d1-9e30-2f20a6977f4f", [⟨.contact, c!"97f476bd-415a-4463-955a-019202b70ae4"⟩,
    ⟨.source, ilcdFormat⟩, ⟨.contact, c!"d0d5f8bb-9311-49d1-9e30-2f20a6977f4f"⟩]⟩,
  ⟨.contact, c!"631b917e-eb39-4d0f-aae6-98c805513b2f", [⟨.source, ilcdFormat⟩]⟩,
  ⟨.contact, c!"97f476bd-415a-4463-955a-019202b70ae4", [⟨.source, ilcdFormat⟩]⟩]

/-- Flow properties whose file refers to the draft of the compliance rules. -/
def draftProperties : List Str := [
  c!"1cc347a0-3bd1-46db-a308-2707c68d2351",
  c!"441238a3-ba09-46ec-b35b-c30cfba746d1",
  c!"e07b4169-bd86-4337-8fa6-1f76916475bf"]

/-- Flow properties whose file names no preceding version. -/
def firstProperties : List Str := [
  c!"1cc347a0-3bd1-46db-a308-2707c68d2351",
  c!"341fd786-b2ad-4552-a762-5eafcab45dee",
  c!"441238a3-ba09-46ec-b35b-c30cfba746d1",
  c!"585d3441-af58-49c9-a5c2-1d1e5b63f8d5",
  c!"67b63204-ef91-44b2-a927-2f4ead1fae17",
  c!"b3f0f892-c5a3-4c66-a432-c09e3d1e9bd6",
  c!"e07b4169-bd86-4337-8fa6-1f76916475bf",
  c!"f65d356a-d702-4d79-850e-dd68b47bbcd9",
  c!"f6811440-ee37-11de-8a39-0800200c9a66"]

/-- The hydrogen content, whose file names a second preceding version. -/
def hydrogen : Str := c!"f3e1017d-1aa3-4763-b563-9494858e1ec7"

/-- The flow property whose file states no compliance. -/
def plainProperty : Str := c!"f6811440-ee37-11de-8a39-0800200c9a66"

/-- The references of a file of ILCD_EF30_FlowProperties. -/
def fpRefs (id : Str) : List Ref :=
  ((aget id RefUnits.fpFiles).toList.map fun f => ⟨.unitGroup, f.group⟩) ++ [⟨.source, ilcdFormat⟩] ++
    (if id = plainProperty then [] else [⟨.source, if id ∈ draftProperties then complianceDraft else entryLevel⟩]) ++
    (if id ∈ firstProperties then [] else [⟨.flowProperty, id⟩]) ++
    if id = hydrogen then [⟨.flowProperty, c!"ba979533-5104-41a8-aa49-1a94582020ea"⟩] else []

/-- Unit groups whose file refers to the draft of the compliance rules. -/
def draftGroups : List Str := [
  c!"b4cac580-5ce8-11df-a08a-0800200c9a66",
  c!"da299c4d-1741-4da8-9fbd-5ccfb5e1d688"]

/-- Unit groups whose file names no preceding version. -/
def firstGroups : List Str := [
  c!"03cc996d-7177-4738-aa32-1572a5172ccc",
  c!"1acf7c0f-aa9d-4022-a4b7-fe0b54ea0b91",
  c!"59f191d6-5dd3-4553-af88-1a32accfe308",
  c!"b4cac580-5ce8-11df-a08a-0800200c9a66",
  c!"da299c4d-1741-4da8-9fbd-5ccfb5e1d688",
  c!"f170abd3-f010-45f4-8e7c-9871a5c0421b"]

/-- The references of a file of ILCD_EF30_UnitGroups. -/
def ugRefs (id : Str) : List Ref :=
  [⟨.source, if id ∈ draftGroups then complianceDraft else entryLevel⟩, ⟨.source, ilcdFormat⟩] ++
    if id ∈ firstGroups then [] else [⟨.unitGroup, id⟩]

/-- A file of ILCD_EF30_ElementaryFlows: its flow properties, the compliance system, whether it names the EcoSpold format and
its own preceding version, and the owner if it names one. -/
structure ElemFile where
  props : List Str
  compliance : Str
  ecospold : Bool
  preceding : Bool
  owner : Option Str
  deriving DecidableEq

/-- The references of such a file. -/
def ElemFile.refs (id : Str) (e : ElemFile) : List Ref :=
  e.props.map (Ref.mk .flowProperty) ++ [⟨.source, ilcdFormat⟩, ⟨.source, e.compliance⟩] ++
    (if e.ecospold then [⟨.source, ecospoldFormat⟩] else []) ++ (if e.preceding then [⟨.flow, id⟩] else []) ++
    e.owner.toList.map (Ref.mk .contact)

/-- What is outside: `uuid_from_string`, `uuid_from_uuid` with the settings of the conversion, the elementary flow files. -/
structure Env where
  hash : Str → Str
  conv : Str → Py Str
  elem : Str → Option ElemFile

/-- A property of an exchange: its identifier, whether it has a unit, whether it stays on the exchange, its value. -/
structure Property where
  id : Str
  hasUnit : Bool
  kept : Bool
  mean : Str
  deriving DecidableEq

/-- What is done in the course of a data set: a source or a contact referred to (583, 1773, 2148, 2219, 2371-2434; the
identifier as it is in the archive), and the exchanges with `_energy`, dimension and properties. -/
inductive Op where
  | source (id : Str)
  | contact (id : Str)
  | product (fid : Str) (energy : Option Str) (dim : Str) (props : List Property)
  | elementary (target : Str) (energy : Option Str) (dim : Str) (props : List Property)
  | unmapped (props : List Property)

/-- `all_data` with the folders of flow properties and unit groups, the other files by folder and name, `all_data` for
sources and contacts, `_all_flow_prop_values`, the references of the process, the processes written. -/
structure St where
  units : RefUnits.St
  files : List ((Kind × Str) × File)
  sources : List Str
  contacts : List Str
  values : List (Str × List (Nat × List (Str × Str)))
  refs : List Ref
  processes : List (Str × List Ref)

/-- `start_conversion` of the format, ILCD1_format.py:81-92, and of the mapping. -/
def St.start : St :=
  ⟨RefUnits.St.start [] [], defaultFiles.map fun f => ((f.kind, f.id), f), [], [], [], [], []⟩

/-- `make_dataset` for a source, 1617-1628: the data set made refers to the format (1446-1448). -/
def makeSource (id : Str) (s : St) : St :=
  if id ∈ s.sources then { s with refs := s.refs ++ [⟨.source, id⟩] }
  else { s with refs := s.refs ++ [⟨.source, id⟩], sources := s.sources ++ [id],
                files := aset (.source, id) ⟨.source, id, [⟨.source, ilcdFormat⟩]⟩ s.files }

/-- `make_dataset` for a contact, 1617-1628. -/
def makeContact (id : Str) (s : St) : St :=
  if id ∈ s.contacts then { s with refs := s.refs ++ [⟨.contact, id⟩] }
  else { s with refs := s.refs ++ [⟨.contact, id⟩], contacts := s.contacts ++ [id],
                files := aset (.contact, id) ⟨.contact, id, [⟨.source, ilcdFormat⟩]⟩ s.files }

/-- `get_properties`, 1024-1044: a reference is made for every property, the properties that stay are given back. -/
def properties : List Property → RefUnits.St → Py (List (Str × Str) × RefUnits.St)
  | [], u => .ok ([], u)
  | p :: l, u => do
    let (r, u) ← RefUnits.propertyRef p.id p.hasUnit u
    let (rs, u) ← properties l u
    .ok ((if p.kept then r.toList.map fun r => (r.id, p.mean) else []) ++ rs, u)

/-- The flow properties of an exchange: that of the unit (1189, 1338) and the properties that stay. -/
def flowProperties (env : Env) (energy : Option Str) (dim : Str) (props : List Property) (u : RefUnits.St) :
    Py (List (Str × Str) × RefUnits.St) := do
  let (fps, u) ← properties props u
  let (r, u) ← RefUnits.unitProperty env.hash energy dim u
  .ok ((r.id, c!"1.0") :: fps, u)

/-- `send_data_to_make_dataset` with `make_structure`, 1196-1210, 1500-1526: the flow data set in a version. -/
def sendFlow (id : Str) (n : Nat) (fp : List (Str × Str)) (s : St) : St :=
  let f : File := ⟨.flow, id, ⟨.source, ilcdFormat⟩ :: fp.map fun p => ⟨.flowProperty, p.1⟩⟩
  { s with files := aset (.flow, id ++ c!"_" ++ FlowFiles.versionText n) f s.files }

/-- The end of `get_flow_dict` of an intermediate exchange, 1217-1228. -/
def writeFlow (fid id : Str) (fp : List (Str × Str)) (s : St) : St :=
  match aget fid s.values with
  | none => sendFlow id 1 fp { s with values := aset fid [(1, fp)] s.values }
  | some vs =>
    match vs.find? fun p => p.2 = fp with
    | some _ => s
    | none =>
      let n := FlowFiles.maxKey vs + 1
      sendFlow id n fp { s with values := aset fid (vs ++ [(n, fp)]) s.values }

/-- An intermediate exchange. -/
def product (env : Env) (fid : Str) (energy : Option Str) (dim : Str) (props : List Property) (s : St) : Py St := do
  let (fp, u) ← flowProperties env energy dim props s.units
  let id ← env.conv fid
  let s := writeFlow fid id fp { s with units := u }
  .ok { s with refs := s.refs ++ [⟨.flow, id⟩] }

/-- An elementary exchange with a flow of the package, 1337-1367: the file is copied as it is. -/
def elementary (env : Env) (target : Str) (energy : Option Str) (dim : Str) (props : List Property) (s : St) : Py St := do
  let (_, u) ← flowProperties env energy dim props s.units
  match env.elem target with
  | none => .error .osError
  | some e => .ok { s with units := u, refs := s.refs ++ [⟨.flow, target⟩],
                           files := aset (.flow, target) ⟨.flow, target, e.refs target⟩ s.files }

/-- One operation. An elementary exchange without a flow in the package (1285-1296) only has its properties looked at. -/
def step (env : Env) (s : St) : Op → Py St
  | .source id => .ok (makeSource id s)
  | .contact id => .ok (makeContact id s)
  | .product fid e d ps => product env fid e d ps s
  | .elementary t e d ps => elementary env t e d ps s
  | .unmapped ps => do
    let (_, u) ← properties ps s.units
    .ok { s with units := u }

/-- The operations of a data set. -/
def steps (env : Env) : List Op → St → Py St
  | [], s => .ok s
  | o :: l, s => do
    let s ← step env s o
    steps env l s

/-- The source every process refers to, 2026-2036. -/
def database (env : Env) : Str := env.hash c!"ecoinvent Database"

/-- A data set: the default references (2018-2036), the operations, the process file (ILCD1_format.py:97-104), and what is
forgotten afterwards (1933). -/
def dataSet (env : Env) (uuid : Str) (ops : List Op) (s : St) : Py St := do
  let s := { s with refs := [⟨.source, ilcdFormat⟩, ⟨.source, ecospoldFormat⟩], values := [] }
  let s ← steps env ops (makeSource (database env) s)
  .ok { s with processes := aset uuid s.refs s.processes }

/-- The data sets written to one archive. -/
def archive (env : Env) : List (Str × List Op) → St → Py St
  | [], s => .ok s
  | (uuid, ops) :: l, s => do
    let s ← dataSet env uuid ops s
    archive env l s

/-- The data sets in the archive beside the processes. -/
def St.dataSets (s : St) : List File :=
  s.files.map Prod.snd ++ s.units.outFp.map (fun id => ⟨.flowProperty, id, fpRefs id⟩) ++
    s.units.outUg.map fun id => ⟨.unitGroup, id, ugRefs id⟩

end Verif.Archive
