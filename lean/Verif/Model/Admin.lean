/-
Version, time period, type, publication status and access of a data set.
EcoSpold2 to ILCD: src/Lavoisier/conversions/ECS2_to_ILCD1_conversion.py:2008-2014, 2164-2170, 2196-2198, 2275-2280,
2441-2461.
ILCD to EcoSpold2: src/Lavoisier/conversions/ILCD1_to_ECS2_conversion.py:1442-1446, 1490-1493, 1701-1708, 1753-1755,
1882-1899, 1919-1931.

Simplifications: a date is given by its numbers; `Model/Dates` reads it from the text (times are ignored by the
code). Only the English text of the access restrictions is given.
-/
import Verif.Model.Validators
import Verif.Model.DataTables
import Verif.Model.LangText

namespace Verif.Admin

/-! ## Enumerated fields -/

/-- `TypeOfProcessValues`, data_structures/validators/enumerations.py:56-62. -/
def typeValues : List Str := [c!"Unit process, single operation", c!"Unit process, black box", c!"LCI result",
  c!"Partly terminated system", c!"Avoided product system"]

/-- `WorkflowAndPublicationStatusValues`, enumerations.py:188-197. -/
def statusValues : List Str := [c!"Working draft", c!"Final draft for internal review",
  c!"Final draft for external review", c!"Data set finalised; unpublished", c!"Under revision", c!"Withdrawn",
  c!"Data set finalised; subsystems published", c!"Data set finalised; entirely published"]

/-- `LicenseTypeValues`, enumerations.py:199-205. -/
def licenseValues : List Str := [c!"Free of charge for all users and uses",
  c!"Free of charge for some user types or use types", c!"Free of charge for members only", c!"License fee", c!"Other"]

/-- `setattr(..., table.get(x))` on a field with listed values, general_validators.py:162-177. -/
def put (values : List Str) (table : List (Str × Str)) (x : Str) : Py Str :=
  match aget x table with
  | none => .error .typeError
  | some v => if v ∈ values then .ok v else .error .valueError

/-- `setattr(..., table.get(x))` on a field with codes. -/
def putCode (codes : List Int) (table : List (Str × Str)) (x : Str) : Py Int :=
  Validators.collectionValidate codes false (match aget x table with
    | none => .none
    | some v => .str v)

/-- The type of the data set, ECS2_to_ILCD1_conversion.py:2196-2198. -/
def typeToIlcd := put typeValues Tables.typeProcess

/-- ILCD1_to_ECS2_conversion.py:1753-1755; `TypeINT`, ECS2_validators.py:43. -/
def typeToEcs := putCode [1, 2, 3] Tables.typeProcessBack

/-- The status, ECS2_to_ILCD1_conversion.py:2450-2452. -/
def statusToIlcd := put statusValues Tables.statusPublication

/-- What the code would do with the status, ILCD1_to_ECS2_conversion.py:1897-1899, if the path were that of the field;
`DataPublishedInINT`, ECS2_validators.py:47. -/
def statusToEcs := putCode [0, 1] Tables.statusPublicationBack

/-! ## Access -/

/-- The company of a data set: whether it has an identifier, and its code. -/
structure Company where
  hasId : Bool
  code : Option Str

/-- What is written about the access: the license, the text and whether there is a reference to a company. -/
structure Access where
  license : Str
  text : Str
  exclusive : Bool
  deriving DecidableEq

/-- ECS2_to_ILCD1_conversion.py:2011-2014 (the defaults), 2430-2445 and 2456-2458. The text of the default and that of the
code have the same index and are joined by a semicolon, the code of the company is on a line of its own. -/
def accessToIlcd (access : Option Str) (company : Company) : Py Access :=
  let tail := match company.code with
    | some c => if c ≠ [] ∧ LangText.notBlank c then c!"\n" ++ c else []
    | none => []
  match access with
  | none => .ok ⟨c!"License fee", c!"Licensees" ++ tail, company.hasId⟩
  | some x =>
    match put licenseValues Tables.restrictions x with
    | .error e => .error e
    | .ok l =>
      match aget x Tables.access with
      | none => .error .typeError
      | some t => .ok ⟨l, c!"Licensees; " ++ t ++ tail, company.hasId⟩

/-- What is found about the access in an ILCD document, in the order of the document. -/
inductive Ev where
  | exclusive
  | license (l : Str)
  | restriction (t : Str)
  deriving DecidableEq

/-- The code of the field and the value that is kept for later. -/
structure St where
  field : Option Int
  later : Option PyVal

/-- `AccessRestrictedToINT`, ECS2_validators.py:48. -/
def accessCodes : List Int := [0, 1, 2]

/-- ILCD1_to_ECS2_conversion.py:1919-1931. The default after `else` is not assigned to anything. -/
def step (s : St) : Ev → Py St
  | .exclusive => .ok { s with later := some (.int 3) }
  | .license l => .ok { s with later := (aget l Tables.restrictionsBack).map .str }
  | .restriction t =>
    match aget ((splitOn ';' t).headD []) (Tables.inverse Tables.access) with
    | none => .ok s
    | some c =>
      match Validators.collectionValidate accessCodes false (.str c) with
      | .error e => .error e
      | .ok i => .ok { s with field := some i }

def steps : St → List Ev → Py St
  | s, [] => .ok s
  | s, e :: l =>
    match step s e with
    | .error x => .error x
    | .ok s' => steps s' l

/-- The end of the document, :1490-1493. All the values are true: `'0'` is a text. -/
def accessToEcs (l : List Ev) : Py (Option Int) :=
  match steps ⟨none, none⟩ l with
  | .error e => .error e
  | .ok s =>
    match s.later with
    | none => .ok s.field
    | some v =>
      match Validators.collectionValidate accessCodes false v with
      | .error e => .error e
      | .ok i => .ok (some i)

/-- What is found in a document written by this program: the fields have this order (data_structures/ILCD1_structure.py:
399-401). -/
def events (a : Access) : List Ev :=
  (if a.exclusive then [.exclusive] else []) ++ [.license a.license, .restriction a.text]

/-! ## Version -/

/-- ECS2_to_ILCD1_conversion.py:2459-2461. -/
def versionToIlcd (u : Validators.CharClasses) (major minor : Option Str) : Py Str :=
  Validators.patternValidate (Validators.versionRe u)
    (.str (c!"0" ++ major.getD c!"0" ++ c!".0" ++ minor.getD c!"0" ++ c!".000"))

/-- The version of an EcoSpold2 data set. -/
structure Version where
  majorRelease : Int
  minorRelease : Int
  majorRevision : Int
  minorRevision : Int
  deriving DecidableEq

/-- `setattr(..., int(x))` on a number that must not be negative. -/
def putInt (x : Str) : Py Int :=
  match parseInt x with
  | none => .error .valueError
  | some i => Validators.intValidate false (.int i)

/-- ILCD1_to_ECS2_conversion.py:1882-1890. -/
def versionToEcs (x : Str) : Py Version := do
  let l := splitOn '.' x
  let a ← putInt (l.headD [])
  match l with
  | _ :: y :: _ => do
    let b ← putInt y
    .ok ⟨a, 0, 0, b⟩
  | _ => .error .indexError

/-! ## Time period -/

/-- A day. -/
structure Day where
  year : Nat
  month : Nat
  day : Nat
  deriving DecidableEq

/-- ECS2_to_ILCD1_conversion.py:2275-2277. -/
def referenceYear (d : Day) : Py Int := Validators.yearValidate (.str (natStr d.year))

/-- :2278-2280. -/
def validUntil (d : Day) : Py Int := Validators.yearValidate (.int d.year)

/-- ILCD1_to_ECS2_conversion.py:1701-1704. -/
def startDate (x : Str) : Str := x ++ c!"-01-01"

/-- :1705-1708. -/
def endDate (x : Str) : Str := x ++ c!"-12-31"

end Verif.Admin
