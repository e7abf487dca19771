/-
The files a conversion starts from.
Models src/Lavoisier/formats/abstractions.py:48-63 (`PathVerifier._verify_path`), 66-96 (`InputTemplate`),
src/Lavoisier/formats/ILCD1_format.py:17-51 (`ILCD1Input`), src/Lavoisier/formats/ECS2_format.py:13-22
(`ECS2Input`) and what the loop of src/Lavoisier/converter.py:259-280 does when the files cannot be listed.

A file of a directory is its name and, for an archive, the list of its entries (`none`: not a zip file).

Simplifications: names of entries are relative paths without empty parts and without `..` (`extractall`
changes others); no folder of an archive has a name that ends with `.xml`; a system that tells capital
letters from small ones; the order in which the system lists the files of a folder is not modelled (here
it is the order of the archive).
-/
import Verif.Model.Driver
import Verif.Py

namespace Verif.Inputs

/-- `s.split(sub)[0]`: the text before the first place where `sub` is found, or all of it. -/
def before (sub : Str) : Str → Str
  | [] => []
  | c :: s => if startsWith sub (c :: s) then [] else c :: before sub s

/-- `_valid_extensions` of `ILCD1Input`, ILCD1_format.py:19. -/
def ilcdExtensions : List Str := [c!".zip", c!".ZIP", c!".xml"]

/-- `_valid_extensions` of `ECS2Input`, ECS2_format.py:15. -/
def ecsExtensions : List Str := [c!".spold", c!".SPOLD"]

/-- `_verify_path` of the path of a file that exists: `path.match('*' + ve)` for one of the extensions,
abstractions.py:57-62. -/
def verify (extensions : List Str) (name : Str) : Py Str :=
  if extensions.any (fun e => endsWith e name) then .ok name else .error .osError

/-- `_get_files_of_extension`: one search for each extension, abstractions.py:89-93. -/
def filesOf (ext : List Str) (dir : List Str) : List Str :=
  (ext.map fun e => dir.filter (endsWith e)).flatten

/-- An entry by which the folder of the processes is found, ILCD1_format.py:25. -/
def pointsTo (x : Str) : Bool :=
  (startsWith c!"processes/" x || isInfix c!"/processes/" x) && endsWith c!".xml" x

/-- `x.split("processes/")[0]` of the first entry of this kind, ILCD1_format.py:24-29, 33; without one the
variable `_path` is unbound. A file that is no archive cannot be opened, ILCD1_format.py:23. -/
def extract (entries : Option (List Str)) : Py Str :=
  match entries with
  | none => .error (.other 0)
  | some names =>
    match names.find? pointsTo with
    | some x => .ok (before c!"processes/" x)
    | none => .error .nameError

/-- `Path(path, 'processes')` and a slash. -/
def folder (root : Str) : Str :=
  if root = [] ∨ endsWith c!"/" root then root ++ c!"processes/" else root ++ c!"/processes/"

/-- An entry is a file of the folder with the extension: `Path.glob('*' + ext)`. -/
def inFolder (dir ext x : Str) : Bool :=
  startsWith dir x && !(x.drop dir.length).contains '/' && endsWith ext (x.drop dir.length)

/-- Equal names in an archive give one file. -/
def distinct (names : List Str) : List Str :=
  names.foldl (fun l x => if x ∈ l then l else l ++ [x]) []

/-- The processes of an archive, ILCD1_format.py:36-38 and 44-46. -/
def processes (root : Str) (names : List Str) : List Str :=
  (distinct names).filter (inFolder (folder root) c!".xml")

/-- Files that are delivered: the archive they come from, the entry and the mark of the last one. -/
abbrev Delivered := List ((Str × Str) × Bool)

/-- The files of one archive, ILCD1_format.py:35-39 and 44-47. -/
def ofArchive (a : Str × Option (List Str)) : Py Delivered :=
  match extract a.2 with
  | .error e => .error e
  | .ok root => .ok (Driver.yieldFiles ((processes root (a.2.getD [])).map fun x => (a.1, x)))

/-- The generators `_single_file_input` and `_multiple_file_input` run to the end or to an error,
ILCD1_format.py:35-48; what was delivered before an error stays delivered. `opened` says that
`self._tempdir` exists; if it does not, `handle_error` (ILCD1_format.py:50-51) fails itself in the
`except` clause, converter.py:273-276, and its error is the one that is raised. -/
def deliver (opened : Bool) : List (Str × Option (List Str)) → Delivered × Option PyErr
  | [] => ([], none)
  | a :: l =>
    match ofArchive a with
    | .error e => ([], some (if opened then e else .attributeError))
    | .ok d => let r := deliver true l; (d ++ r.1, r.2)

/-- `ILCD1Input(path).get_files()` for the path of a file, ILCD1_format.py:35-39. -/
def ilcdFile (a : Str × Option (List Str)) : Delivered × Option PyErr :=
  match verify ilcdExtensions a.1 with
  | .error e => ([], some e)
  | .ok _ => deliver false [a]

/-- `ILCD1Input(path).get_files()` for the path of a directory, ILCD1_format.py:41-48. -/
def ilcdDirectory (content : Str → Option (List Str)) (dir : List Str) : Delivered × Option PyErr :=
  deliver false ((filesOf (ilcdExtensions.take 2) dir).map fun n => (n, content n))

/-- `ECS2Input(path).get_files()` for the path of a file, ECS2_format.py:17-18. -/
def ecsFile (name : Str) : Py (List (Str × Bool)) :=
  match verify ecsExtensions name with
  | .error e => .error e
  | .ok _ => .ok [(name, true)]

/-- `ECS2Input(path).get_files()` for the path of a directory, ECS2_format.py:20-22. -/
def ecsDirectory (dir : List Str) : List (Str × Bool) := Driver.yieldFiles (filesOf ecsExtensions dir)

end Verif.Inputs
