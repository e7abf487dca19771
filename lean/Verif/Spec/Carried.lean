/-
What is asked of the files of an archive whose list of elementary flows is changed.
-/
import Verif.Model.Carried

namespace Verif.Carried

open Verif

variable {C : Type}

/-- The content of a file in a folder of the archive written. -/
def Out.content (o : Out C) (d name : Str) : Option C := (aget d o).bind (aget name)

/-- The content of a file in a folder of the archive read. -/
def In.content (inp : In C) (d name : Str) : Option C :=
  match inp d with
  | some (.dir l) => (aget name l).join
  | _ => none

/-- There is such a folder, and there are only files in it. -/
def OnlyFiles (inp : In C) (d : Str) : Prop := ∃ l, inp d = some (.dir l) ∧ ∀ e ∈ l, e.2 ≠ none

/-- No two files of a folder have the same name. -/
def NamesDiffer (inp : In C) : Prop := ∀ d l, inp d = some (.dir l) → (l.map Prod.fst).Nodup

/-- The folders the files of exchanges are saved in. -/
def flowFolders : List Str := [c!"flows", c!"flowproperties", c!"unitgroups"]

/-- The data sets save their files in these folders only. -/
def SavesFlows (ps : List (Process C)) : Prop := ∀ p ∈ ps, ∀ f ∈ p.saved, f.1.1 ∈ flowFolders

/-- The files of the package that every archive gets, by folder. -/
def packageNames : Str → List Str := fun d =>
  if d = c!"sources" then
    [c!"0d388ade-52ab-4ca6-8a9b-f06df45d880c.xml", c!"9ba3ac1e-6797-4cc0-afd5-1b8f7bf28c6a.xml",
     c!"a97a0155-0234-4b87-b4ce-a45da52f2a40.xml", c!"cada7914-53c3-47ec-ac27-659b21240a99.xml",
     c!"88d4f8d9-60f9-43d1-9ea3-329c10d7d727.xml"]
  else if d = c!"contacts" then
    [c!"d0d5f8bb-9311-49d1-9e30-2f20a6977f4f.xml", c!"631b917e-eb39-4d0f-aae6-98c805513b2f.xml",
     c!"97f476bd-415a-4463-955a-019202b70ae4.xml"]
  else if d = c!"external_docs" then
    [c!"ILCD_Compliance_Rules_Draft_88d4f8d9-60f9-43d1-9ea3-329c10d7d727.pdf",
     c!"ILCD-Data-Network_Compliance-Entry-level_Version1.1_Jan2012.pdf"]
  else []

/-- What the package puts at a name of a folder. -/
def packaged (pkg : Str → Str → C) (d name : Str) : Option C :=
  if name ∈ packageNames d then some (pkg d name) else none

end Verif.Carried
