/-
The names of the files made in the output directory, and what happens when the system does not accept them.
Models `get_filename` of src/Lavoisier/data_structures/ECS2_structure.py:869-875 and
src/Lavoisier/data_structures/ILCD1_structure.py:504-511, `check_name_for_existence` of
src/Lavoisier/formats/abstractions.py:131-138 with names that are too long, the files opened by
src/Lavoisier/formats/ECS2_format.py:26-43, src/Lavoisier/formats/utils.py:26-51 and
src/Lavoisier/formats/ILCD1_format.py:106-118.

A directory is the list of the names of its files; it has no folders. The system accepts the name of a file if it
has at most 255 bytes in UTF-8 and no slash (`NAME_MAX` of Linux; trusted); other errors of the disk are not
modelled. What the data set gives for its name, place and dates (`get` of the validated fields) are inputs, and so
is whether an elementary flow was not converted. The conversion of the content succeeds.
-/
import Verif.Model.IlcdVars
import Verif.Model.OutputName

namespace Verif.FileNames
open Verif.IlcdVars (replaceAll)
open Verif.Output (numbered)

/-! ### The file system -/

/-- The bytes of a text in UTF-8. -/
def bytes (s : Str) : Nat := (s.map Char.utf8Size).sum

/-- `NAME_MAX` -/
def longest : Nat := 255

/-- A name the system accepts. -/
def accepted (f : Str) : Bool := decide (bytes f ≤ longest) && !f.contains '/'

/-- `Path(dir, f).is_file()`: an `OSError` for a name that is too long; with a slash the folder is not there. -/
def isFile (dir : List Str) (f : Str) : Py Bool :=
  if longest < bytes f then .error .osError else .ok (dir.contains f)

/-- `open(f, 'w')`, `open(f, 'a')` or `ZipFile(f, 'w')`: the directory afterwards. -/
def openFile (dir : List Str) (f : Str) : Py (List Str) :=
  if accepted f then .ok (if dir.contains f then dir else dir ++ [f]) else .error .osError

/-- The loop of `check_name_for_existence`, formats/abstractions.py:135-137; `fuel` as in `Output.firstFree`. -/
def search (dir : List Str) (name ext : Str) : Nat → Nat → Py Str
  | 0, i => .ok (numbered name i)
  | fuel + 1, i =>
    match isFile dir (numbered name i ++ ext) with
    | .error e => .error e
    | .ok true => search dir name ext fuel (i + 1)
    | .ok false => .ok (numbered name i)

/-- `check_name_for_existence`, :131-138. -/
def freeName (dir : List Str) (name ext : Str) : Py Str :=
  match isFile dir (name ++ ext) with
  | .error e => .error e
  | .ok true => search dir name ext dir.length 1
  | .ok false => .ok name

/-! ### EcoSpold2 -/

/-- What an EcoSpold2 output needs for its names. -/
structure EcsSet where
  /-- the name read in advance from the input file, converter.py:204, 229 -/
  base : Option Str
  /-- `activity.get('activityName')['#text']`; `none`: nothing, or the empty list of `Name.end` -/
  name : Option Str
  /-- the texts of `geography.get('shortname')` -/
  short : Option (List Str)
  /-- `timePeriod.get('startDate')` -/
  first : Option Str
  /-- `timePeriod.get('endDate')` -/
  last : Option Str
  /-- an elementary flow is reported as not converted -/
  unconverted : Bool

/-- `get_filename`, ECS2_structure.py:869-875. -/
def ecsFileName (hash : Str) (d : EcsSet) : Py Str :=
  match d.name with
  | none => .error .typeError
  | some n =>
    match d.short with
    | none => .error .typeError
    | some [] => .error .indexError
    | some (g :: _) =>
      match d.first with
      | none => .error .typeError
      | some a =>
        match d.last with
        | none => .error .typeError
        | some b => .ok (replaceAll c!"/" c!" per "
            (n ++ c!", " ++ (g ++ c!", " ++ (a.take 4 ++ c!" - " ++ b.take 4) ++ hash)))

/-- `f"{self.filename.replace('/', '_per_')}.log"`, ECS2_format.py:27. -/
def logName (base : Str) : Str := replaceAll c!"/" c!"_per_" base ++ c!".log"

/-- `str(log_path)[:-4] + '_not_converted_elementary_flows.log'`, utils.py:47. -/
def listName (log : Str) : Str := log.take (log.length - 4) ++ c!"_not_converted_elementary_flows.log"

/-- One conversion to EcoSpold2 in the mode `to_file`: the log is opened first, ECS2_format.py:26-28, then the data
set is written, :30-38, then the log is closed and the list of flows written, :40-42 and utils.py:38-49. The
directory afterwards and the error. -/
def ecsOutput (hash : Str) (dir : List Str) (d : EcsSet) : List Str × Option PyErr :=
  match d.base with
  | none => (dir, some .attributeError)
  | some base =>
    match openFile dir (logName base) with
    | .error e => (dir, some e)
    | .ok dir =>
      match ecsFileName hash d with
      | .error e => (dir, some e)
      | .ok n =>
        match freeName dir n c!".spold" with
        | .error e => (dir, some e)
        | .ok n =>
          match openFile dir (n ++ c!".spold") with
          | .error e => (dir, some e)
          | .ok dir =>
            if d.unconverted then
              match openFile dir (listName (logName base)) with
              | .error e => (dir, some e)
              | .ok dir => (dir, none)
            else (dir, none)

/-! ### ILCD -/

/-- What an ILCD output needs for its name. -/
structure IlcdSet where
  /-- the texts of `name.get('baseName')` -/
  base : Option (List Str)
  /-- `get('location')` -/
  place : Option Str
  /-- `time.get('referenceYear')` -/
  first : Option Str
  /-- `time.get('dataSetValidUntil')` -/
  last : Option Str

/-- An f-string of a value that may be `None`. -/
def shown : Option Str → Str
  | none => c!"None"
  | some s => s

/-- `get_filename`, ILCD1_structure.py:504-511. The name is a list in every case (`MultiLangString.end`). -/
def ilcdFileName (hash : Str) (d : IlcdSet) : Py Str :=
  match d.base with
  | none => .error .typeError
  | some [] => .error .indexError
  | some (n :: _) => .ok (replaceAll c!"/" c!" per "
      (n ++ c!", " ++ (shown d.place ++ c!", " ++ (shown d.first ++ c!" - " ++ shown d.last) ++ hash)))

/-- `end_conversion`, ILCD1_format.py:106-118: everything before was written into a temporary directory, which is
removed whatever happens (:116 and 120-123). -/
def ilcdOutput (multi : Bool) (hash : Str) (dir : List Str) (d : IlcdSet) : List Str × Option PyErr :=
  match (if multi then .ok (c!"ILCD" ++ hash) else ilcdFileName hash d) with
  | .error e => (dir, some e)
  | .ok n =>
    match freeName dir n c!".zip" with
    | .error e => (dir, some e)
    | .ok n =>
      match openFile dir (n ++ c!".zip") with
      | .error e => (dir, some e)
      | .ok dir => (dir, none)

end Verif.FileNames
