/-
References to sources and contacts.
EcoSpold2 to ILCD: src/Lavoisier/conversions/ECS2_to_ILCD1_conversion.py:1397-1650 (`ReferenceConversion`).
ILCD to EcoSpold2: src/Lavoisier/conversions/ILCD1_to_ECS2_conversion.py:781-978 (`get_file`, the references to sources
and to contacts) and the fields they are used for (:762-772, 1688-1692, 1740-1747, 1855-1875, 1900-1906, 1919-1924).

Simplifications: a folder of the archive is the list of its entries in the order in which the system lists them; the
content of a file is given by its name. What is validated when the data set is written (lengths of texts) is in
`Validators`. The sets of identifiers already seen are those of the entries of the master data, which are made at the
same places; both are empty at the beginning of a data set.
-/
import Verif.Model.Citations
import Verif.Model.Assoc
import Verif.Py

namespace Verif.Refs

/-! ## The file of a reference -/

/-- A short description: none, a text without a language, one with a language, several. -/
inductive Short where
  | absent
  | plain (s : Str)
  | one (s : Str)
  | many (l : List Str)
  deriving DecidableEq

/-- A reference of ILCD; missing attributes are empty. -/
structure Ref where
  uri : Str
  id : Str
  version : Str
  short : Short
  deriving DecidableEq

/-- A folder: its entries, and whether they are files. `none` if there is no such folder. -/
abbrev Folder := Option (List (Str × Bool))

/-- `x.split('/')[-1]` -/
def lastSegment (uri : Str) : Str := (uri.reverse.takeWhile (· ≠ '/')).reverse

/-- The names tried first, ILCD1_to_ECS2_conversion.py:807-811. -/
def options (x : Ref) : List Str :=
  [lastSegment x.uri, x.id ++ c!"_" ++ x.version ++ c!".xml", x.id ++ c!".xml"]

/-- `get_file`, :803-831. -/
def getFile (f : Folder) (x : Ref) : Option Str :=
  match f with
  | none => none
  | some l =>
    match (options x).find? fun n => (n, true) ∈ l with
    | some n => some n
    | none => if x.id = [] then none else (l.map (·.1)).find? fun n => isInfix x.id n

/-! ## Sources -/

/-- The content of a source file, :879-889. -/
structure SourceFile where
  name : Option Str
  citation : Option Str
  digital : List Str

/-- The content of a contact file, :962-964. -/
structure ContactFile where
  name : Option Str
  email : Option Str

/-- What is outside: the folders, the contents of the files, the conversion of identifiers, the digits. -/
structure Env where
  sources : Folder
  contacts : Folder
  sourceFile : Str → SourceFile
  contactFile : Str → ContactFile
  conv : Str → Py Str
  digit : Char → Bool

/-- `open`: a folder cannot be opened. -/
def openFile {α : Type} (f : Folder) (content : Str → α) (n : Str) : Py α :=
  match f with
  | none => .error .osError
  | some l => if (n, true) ∈ l then .ok (content n) else .error .osError

/-- The kinds of sources, :850-858. -/
inductive Slot where
  | imageUrl | datasetIcon | regular
  deriving DecidableEq

/-- :848-858; `uriSource` is given for pictures. -/
def slot (short : Str) (uriSource : Bool) : Slot :=
  if startsWith c!"Image URL from " short then .imageUrl
  else if short = c!"Dataset Icon" then .datasetIcon
  else if uriSource then .imageUrl
  else .regular

/-- `x.get("shortDescription", {'#text': ''})['#text']`, :848. -/
def sourceShort : Short → Py Str
  | .absent => .ok []
  | .one s => .ok s
  | .plain _ => .error .typeError
  | .many _ => .error .typeError

/-- The fields of a data set in which a source is referenced. -/
inductive Place where
  /-- `referenceToExternalDocumentation`, :1688-1692 -/
  | documentation
  /-- pictures of the technology, :1740-1747 -/
  | picture
  /-- `referenceToDataSource` of an exchange, :762-772 -/
  | exchange
  /-- `referenceToUnchangedRepublication`, :1900-1906 -/
  | publication
  deriving DecidableEq

/-- The keys of `field` in these places. -/
def Place.slots : Place → List Slot
  | .documentation => [.imageUrl, .datasetIcon]
  | .picture => [.imageUrl]
  | .exchange => [.regular]
  | .publication => [.regular]

/-- What is set on an exchange or on the publication. -/
structure Fields where
  id : Option Str
  author : Option Str
  year : Option Str
  page : Option Str
  deriving DecidableEq

def Fields.none : Fields := ⟨.none, .none, .none, .none⟩

/-- An entry of the master data, :861-870. -/
structure SourceEntry where
  id : Str
  author : Str
  year : Str
  title : Str
  deriving DecidableEq

/-- Author and year of an exchange are replaced, those of a publication are joined (ECS2_structure.py:165-166, 697-698,
ECS2_validators.py:70-78). -/
def addText (p : Place) (old : Option Str) (new : Str) : Str :=
  match p, old with
  | .publication, some o => o ++ c!"; " ++ new
  | _, _ => new

/-- The state: what is set and the master data. -/
structure Sources where
  fields : Fields
  images : List Str
  icons : List Str
  master : List SourceEntry
  deriving DecidableEq

/-- The regular branch of `get_source`, :885-919. -/
def cited (env : Env) (p : Place) (id : Str) (f : SourceFile) (s : Sources) : Py Sources :=
  match f.name with
  | none => do let _ ← env.conv id; .error .keyError
  | some name => do
    let u ← env.conv id
    let c ← Citations.cite env.digit name f.citation
    match c.page, s.fields.page with
    | some _, some _ => .error .valueError
    | page, old =>
      let fields : Fields := ⟨some u, some (addText p s.fields.author c.author),
        match c.year with
        | some y => some (addText p s.fields.year y)
        | none => s.fields.year,
        match page with
        | some q => some q
        | none => old⟩
      let entry : SourceEntry := ⟨u, c.author, c.year.getD c!"0000", strip (f.citation.getD name)⟩
      .ok { s with
        fields := fields
        master := if u ∈ s.master.map (·.id) then s.master else s.master ++ [entry] }

/-- A reference to a source, :846-919. -/
def source (env : Env) (p : Place) (x : Ref) (s : Sources) : Py Sources := do
  let file := getFile env.sources x
  let t ← sourceShort x.short
  let k := slot t (p = .picture)
  if k ∉ p.slots then .error .keyError
  else match file with
    | none => .ok s
    | some n =>
      if x.id = [] then .ok s
      else do
        let f ← openFile env.sources env.sourceFile n
        match k with
        | .imageUrl => .ok { s with images := s.images ++ f.digital }
        | .datasetIcon => .ok { s with icons := s.icons ++ f.digital }
        | .regular => cited env p x.id f s

/-- All the sources of an exchange or of the publication. -/
def sources (env : Env) (p : Place) : List Ref → Sources → Py Sources
  | [], s => .ok s
  | x :: l, s => do sources env p l (← source env p x s)

/-! ## Contacts -/

/-- The roles of contacts, :1192, 1855-1875, 1919-1923. -/
inductive Role where
  | person | company | reviewer
  deriving DecidableEq

/-- What is set where the contact is referenced. -/
structure Holder where
  id : Option Str
  name : Option Str
  email : Option Str
  deriving DecidableEq

/-- An entry of the master data, :943-956. -/
structure ContactEntry where
  company : Bool
  id : Str
  name : Str
  email : Str
  deriving DecidableEq

/-- `self.shortDescription.get('#text', '')`, :939. -/
def contactShort : Short → Py Str
  | .absent => .ok []
  | .one s => .ok s
  | .plain _ => .error .attributeError
  | .many _ => .error .attributeError

/-- The names of reviewers are joined (ECS2_structure.py:656), other names are replaced. -/
def addName (r : Role) (old : Option Str) (new : Str) : Str :=
  match r, old with
  | .reviewer, some o => o ++ c!"/" ++ new
  | _, _ => new

/-- The constructor of a reference to a contact, :930-941. -/
def contactInit (env : Env) (r : Role) (x : Ref) (h : Holder) : Py Holder :=
  if x.id = [] then .ok h
  else do
    let u ← env.conv x.id
    let n ← contactShort x.short
    .ok ⟨some u, some (addName r h.name n), if r = .company then h.email else some []⟩

/-- A reference to a contact, :930-978. -/
def contact (env : Env) (r : Role) (x : Ref) (st : Holder × List ContactEntry) : Py (Holder × List ContactEntry) := do
  let h ← contactInit env r x st.1
  match getFile env.contacts x with
  | none => .ok (h, st.2)
  | some n =>
    if x.id = [] then .ok (h, st.2)
    else do
      let f ← openFile env.contacts env.contactFile n
      let u ← env.conv x.id
      match f.name with
      | none => .error .keyError
      | some name =>
        let h' : Holder := { h with email := if r = .company then h.email else some (f.email.getD []) }
        let entry : ContactEntry := ⟨r = .company, u, name, if r = .company then [] else f.email.getD []⟩
        .ok (h', if u ∈ st.2.map (·.id) then st.2 else st.2 ++ [entry])

/-- The contacts of a data set: each sets its own field. The identifiers written are kept with their roles. -/
def contacts (env : Env) : List (Role × Ref) → List ContactEntry → Py (List (Role × Holder) × List ContactEntry)
  | [], m => .ok ([], m)
  | (r, x) :: l, m => do
    let (h, m') ← contact env r x (⟨none, none, none⟩, m)
    let (hs, m2) ← contacts env l m'
    .ok ((r, h) :: hs, m2)

/-! ## EcoSpold2 to ILCD -/

/-- `make_dataset` of a source or a contact, ECS2_to_ILCD1_conversion.py:1615-1626: a file is written for an identifier
that has not been met before. -/
def make {C : Type} (files : List (Str × C)) (w : Str × C) : List (Str × C) :=
  if w.1 ∈ files.map (·.1) then files else files ++ [w]

/-- All references of a database. -/
def makeAll {C : Type} (files : List (Str × C)) (l : List (Str × C)) : List (Str × C) := l.foldl make files

/-- The reference written for a source or contact, :1578-1602: version and address, the name in English. -/
def written (folder uuid name : Str) : Ref :=
  ⟨c!"../" ++ folder ++ c!"/" ++ uuid, uuid, c!"01.00.000", .one name⟩

/-- The file of a source or a contact, :1458-1463 (without the version). -/
def fileName (uuid : Str) : Str := uuid ++ c!".xml"

/-- The reference to a flow, :1627-1640: address and version are those of the file. -/
def writtenFlow (uuid version name : Str) : Ref :=
  ⟨c!"../flows/" ++ uuid ++ c!"_" ++ version, uuid, version, .one name⟩

/-- The file of a flow, :1460 (with the version). -/
def flowFile (uuid version : Str) : Str := uuid ++ c!"_" ++ version ++ c!".xml"

end Verif.Refs
