/-
The files an archive of ILCD gets when only its list of elementary flows is changed.
Models src/Lavoisier/formats/ILCD1_format.py:56-98 (`_additional_files`, `start_conversion`, `write_process`),
src/Lavoisier/conversions/ILCD1_to_ILCD1_conversion.py:376-384 (`set_file_info`) and the places of the files saved at
324-343 (`save_file`, `save_original`), with the order of converter.py:217-242.

Simplifications: the contents of files are values of a type that is not looked into; those of the package are a parameter.
Of the unpacked archive only the folders in its root and what is directly in them are kept; a folder in a folder is marked
as such. The files saved for the exchanges of a data set are given with their folders (what they are is in
Model/IlcdList); that no folder of the archive has the name of a file saved is taken for granted. The log in the root of
the archive is left out. An error stops the conversion, and the archive is not written (Model/Driver).
-/
import Verif.Model.Assoc
import Verif.Py

namespace Verif.Carried

open Verif

variable {C : Type}

/-- What is at a name in the root of the unpacked archive: a file, or a folder with its files; `none` in a folder is
another folder. -/
inductive Node (C : Type) where
  | file (c : C)
  | dir (l : List (Str × Option C))

/-- The root of the unpacked archive. -/
abbrev In (C : Type) := Str → Option (Node C)

/-- The archive to be written: folders with the files in them. -/
abbrev Out (C : Type) := List (Str × List (Str × C))

/-- The folders made at the start, ILCD1_format.py:85-87. -/
def folders : List Str :=
  [c!"", c!"processes", c!"external_docs", c!"sources", c!"contacts", c!"flowproperties", c!"unitgroups"]

/-- `_additional_files`, ILCD1_format.py:56-79: folders and names. -/
def additional : List (Str × Str) := [
  (c!"", c!"ILCDLocations.xml"),
  (c!"", c!"ILCDFlowCategorization.xml"),
  (c!"", c!"ILCDClassification.xml"),
  (c!"sources", c!"0d388ade-52ab-4ca6-8a9b-f06df45d880c.xml"),
  (c!"sources", c!"9ba3ac1e-6797-4cc0-afd5-1b8f7bf28c6a.xml"),
  (c!"sources", c!"a97a0155-0234-4b87-b4ce-a45da52f2a40.xml"),
  (c!"sources", c!"cada7914-53c3-47ec-ac27-659b21240a99.xml"),
  (c!"sources", c!"88d4f8d9-60f9-43d1-9ea3-329c10d7d727.xml"),
  (c!"contacts", c!"d0d5f8bb-9311-49d1-9e30-2f20a6977f4f.xml"),
  (c!"contacts", c!"631b917e-eb39-4d0f-aae6-98c805513b2f.xml"),
  (c!"contacts", c!"97f476bd-415a-4463-955a-019202b70ae4.xml"),
  (c!"external_docs", c!"ILCD_Compliance_Rules_Draft_88d4f8d9-60f9-43d1-9ea3-329c10d7d727.pdf"),
  (c!"external_docs", c!"ILCD-Data-Network_Compliance-Entry-level_Version1.1_Jan2012.pdf")]

/-- `Path(dir, d).mkdir(exist_ok=True)`. -/
def mkdir (d : Str) (o : Out C) : Out C := if (aget d o).isSome then o else o ++ [(d, [])]

/-- `shutil.copy(file, Path(dir, d))` for a folder there is: a file of the same name is replaced. -/
def copyTo (d name : Str) (c : C) (o : Out C) : Out C := aset d (aset name c ((aget d o).getD [])) o

/-- `start_conversion`, ILCD1_format.py:81-92. -/
def start (pkg : Str → Str → C) : Out C :=
  additional.foldl (fun o f => copyTo f.1 f.2 (pkg f.1 f.2) o) (folders.foldl (fun o d => mkdir d o) [])

/-- The loop over the files of a folder, ILCD1_to_ILCD1_conversion.py:382-384. `shutil.copy` of a folder raises. -/
def carryFolder (d : Str) : List (Str × Option C) → Out C → Py (Out C)
  | [], o => .ok o
  | (_, none) :: _, _ => .error .osError
  | (n, some c) :: l, o => carryFolder d l (copyTo d n c o)

/-- The loop over the folders, :381-384. `iterdir` raises where there is no folder. -/
def carry (inp : In C) : List Str → Out C → Py (Out C)
  | [], o => .ok o
  | d :: ds, o =>
    match inp d with
    | some (.dir l) =>
      match carryFolder d l o with
      | .error e => .error e
      | .ok o => carry inp ds o
    | _ => .error .osError

/-- `set_file_info`, :376-384. -/
def fileInfo (inp : In C) (o : Out C) : Py (Out C) := carry inp [c!"sources", c!"contacts"] o

/-- A file saved for an exchange, :325-327 and 338-343: the folder is made if there is none. -/
def save (o : Out C) (f : (Str × Str) × C) : Out C := copyTo f.1.1 f.1.2 f.2 (mkdir f.1.1 o)

/-- A data set: the files saved for its exchanges, and the process that is written. -/
structure Process (C : Type) where
  saved : List ((Str × Str) × C)
  name : Str
  content : C

/-- A data set of the archive: `set_file_info`, the exchanges, `write_process` (ILCD1_format.py:97-103). -/
def process (inp : In C) (p : Process C) (o : Out C) : Py (Out C) :=
  match fileInfo inp o with
  | .error e => .error e
  | .ok o => .ok (copyTo c!"processes" (p.name ++ c!".xml") p.content (p.saved.foldl save o))

/-- The data sets of an archive one after the other. -/
def processes (inp : In C) : List (Process C) → Out C → Py (Out C)
  | [], o => .ok o
  | p :: ps, o =>
    match process inp p o with
    | .error e => .error e
    | .ok o => processes inp ps o

/-- The archive written for an archive. -/
def archive (pkg : Str → Str → C) (inp : In C) (ps : List (Process C)) : Py (Out C) := processes inp ps (start pkg)

end Verif.Carried
