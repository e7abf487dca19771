/-
Copying the files of the package into an archive, and fetching the elementary flows from the repository.
Models src/Lavoisier/conversions/utils.py:76-89 (`_copy_file`, `copy_file`) with the loop of `shutil.copyfileobj`, and
src/Lavoisier/download_external_files.py:10-26 (`download`).

Simplifications: a path is the list of its parts; links, permissions and a full disk are left out. An identifier is one
part of a path. `fs.get` of fsspec is modelled from its documentation: the common beginning of the remote paths is
replaced by the target. A call of `download` may succeed, fail after some files, or end with the process.
-/
import Verif.Py

namespace Verif.CopyFile

abbrev Bytes := List UInt8

abbrev Path := List Str

/-- The files and the folders. -/
structure FS where
  dirs : List Path
  file : Path → Option Bytes

/-- The content of a file is replaced. -/
def FS.write (fs : FS) (p : Path) (b : Bytes) : FS := { fs with file := fun q => if q = p then some b else fs.file q }

/-- The loop of `copyfileobj`: `while buf := fsrc.read(length): fdst.write(buf)`; the second list is what is written
already. A length of zero is replaced there by a length that is not. -/
def copyLoop (length : Nat) (src done : Bytes) : Bytes :=
  if h : length = 0 ∨ src = [] then done
  else copyLoop length (src.drop length) (done ++ src.take length)
termination_by src.length
decreasing_by
  have : src ≠ [] := fun e => h (.inr e)
  have := List.length_pos_iff.2 this
  simp only [List.length_drop]
  omega

/-- The length of a read, utils.py:77-79. -/
def bufferSize (size : Nat) : Nat := if min 10485760 size = 0 then 1024 else min 10485760 size

/-- `_copy_file`, utils.py:76-83: the size is asked for first; opening the target empties it before anything is read. -/
def copyBytes (fs : FS) (src dst : Path) : FS × Option PyErr :=
  match fs.file src with
  | none => (fs, some .osError)
  | some b =>
    if dst ∈ fs.dirs then (fs, some .osError)
    else
      let fs := fs.write dst []
      (fs.write dst (copyLoop (bufferSize b.length) ((fs.file src).getD []) []), none)

/-- `folder_path.mkdir(exist_ok=True)`; `parent` is the folder above. -/
def mkdir (fs : FS) (parent : Path) (name : Str) : FS × Option PyErr :=
  if parent ++ [name] ∈ fs.dirs then (fs, none)
  else if (fs.file (parent ++ [name])).isSome ∨ parent ∉ fs.dirs then (fs, some .osError)
  else ({ fs with dirs := (parent ++ [name]) :: fs.dirs }, none)

/-- `copy_file`, utils.py:85-89. -/
def copyFile (fs : FS) (save defaults : Path) (folder id : Str) : FS × Option PyErr :=
  match mkdir fs save folder with
  | (fs, some e) => (fs, some e)
  | (fs, none) => copyBytes fs (defaults ++ [id ++ c!".xml"]) (save ++ [folder] ++ [id ++ c!".xml"])

/-! ### download -/

/-- How the transfer ends. -/
inductive Net where
  | complete
  /-- an exception after some files -/
  | fails (n : Nat)
  /-- the process ends after some files -/
  | killed (n : Nat)

/-- The files that arrive, one after the other. -/
def receive (path : Path) (fs : FS) (files : List (Path × Bytes)) : FS :=
  files.foldl (fun fs p => fs.write (path ++ p.1) p.2) fs

/-- `path.exists()` -/
def FS.there (fs : FS) (p : Path) : Bool := decide (p ∈ fs.dirs) || (fs.file p).isSome

/-- `shutil.rmtree(path)` -/
def rmtree (fs : FS) (p : Path) : FS :=
  { dirs := fs.dirs.filter fun d => !p.isPrefixOf d, file := fun q => if p.isPrefixOf q then none else fs.file q }

/-- `path.mkdir(exist_ok=True, parents=True)` -/
def mkdirs (fs : FS) (p : Path) : FS := { fs with dirs := p :: (List.range p.length).map (fun n => p.take n) ++ fs.dirs }

/-- `download`, download_external_files.py:14-26. The first argument is the folder of the flows, the second what the
repository has below its folder of default files. -/
def download (path : Path) (remote : List (Path × Bytes)) (fs : FS) : Net → FS
  | net =>
    if fs.there path then fs
    else
      match net with
      | .complete => receive path (mkdirs fs path) remote
      | .fails n => rmtree (receive path (mkdirs fs path) (remote.take n)) path
      | .killed n => receive path (mkdirs fs path) (remote.take n)

end Verif.CopyFile
