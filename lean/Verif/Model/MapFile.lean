/-
The table of elementary flows that a user gives to a converter.
Models src/Lavoisier/converter.py:80-92 (`__check_new_mapping`, the setter of `elem_flow_mapping`) and 184-189
(`_set_field_mapping`), src/Lavoisier/conversions/utils.py:116-128 (`_dict_from_file`), the beginning of `set_mappings`
(src/Lavoisier/conversions/ECS2_to_ILCD1_conversion.py:1842-1844, ILCD1_to_ECS2_conversion.py:1281-1283,
ILCD1_to_ILCD1_conversion.py:359-361) and the reading of a row
(ECS2_to_ILCD1_conversion.py:1304-1330, ILCD1_to_ECS2_conversion.py:1028-1041, 613-645).

Parameters: what is in the files, how the `csv` module cuts a text into records, how `json` reads a text, and `float`.

Simplifications: a path is a mark whether it is absolute and the list of its parts; the folder of the program holds no
links. `csv.DictReader` is modelled on the records. Of the reading of a row, only what is taken from the table is
modelled; the amount and the compartment table are those of the models `EcsFlows` and `IlcdFlows`.
-/
import Verif.Model.Assoc

namespace Verif.MapFile

/-- A path of `pathlib`. -/
structure Path where
  abs : Bool
  parts : List Str
  deriving DecidableEq

/-- `Path(a, b)`: an absolute path replaces what is before it. -/
def Path.join (a b : Path) : Path := if b.abs then b else ⟨a.abs, a.parts ++ b.parts⟩

/-- `p.name`: the last part. -/
def Path.name (p : Path) : Str := p.parts.getLast?.getD []

/-- `p.suffix`: from the last dot of the name, unless the name begins or ends with this dot. -/
def suffix (name : Str) : Str :=
  let tail := (name.reverse.takeWhile (· ≠ '.')).reverse
  let stem := name.take (name.length - tail.length - 1)
  if '.' ∈ name ∧ tail ≠ [] ∧ stem ≠ [] then '.' :: tail else []

/-- `__check_new_mapping` and the setter of `elem_flow_mapping`, converter.py:80-92. -/
def setMapping (p : Path) : Py Path :=
  if suffix p.name ∈ [c!".csv", c!".json"] then .ok p else .error .osError

/-- The value of a cell: a text, `None` for a cell that the row does not have, or the list of the cells that the row
has too many. -/
inductive Cell where
  | text (s : Str)
  | missing
  | rest (l : List Str)
  deriving DecidableEq

/-- A row as a dictionary; the key `None` belongs to the cells that are too many. -/
abbrev Row := List (Option Str × Cell)

/-- A table: rows by the identifier of the flow. -/
abbrev Table := List (Option Str × Row)

/-- The cells that are too many, or the columns that the row does not have: `DictReader.__next__`. -/
def fill (header cells : List Str) (d : Row) : Row :=
  if header.length < cells.length then aset none (.rest (cells.drop header.length)) d
  else (header.drop cells.length).foldl (fun d k => aset (some k) .missing d) d

/-- A row of `csv.DictReader`: `dict(zip(header, cells))`, completed. -/
def rowDict (header cells : List Str) : Row :=
  fill header cells ((header.zip cells).foldl (fun d p => aset (some p.1) (.text p.2) d) [])

/-- `csv.DictReader`: the first record is the header, empty records after it are skipped. -/
def dictReader : List (List Str) → List Row
  | [] => []
  | header :: records => (records.filter (· ≠ [])).map (rowDict header)

/-- `n = d_.pop(id_); d[n] = d_`, conversions/utils.py:122-123. -/
def addRow (id : Str) (d : Table) (row : Row) : Py Table :=
  match aget (some id) row with
  | none => .error .keyError
  | some (.text s) => .ok (aset (some s) (adel (some id) row) d)
  | some .missing => .ok (aset none (adel (some id) row) d)
  | some (.rest _) => .error .typeError

/-- The table of a `.csv` file, conversions/utils.py:119-124. -/
def fromCsv (id : Str) (records : List (List Str)) : Py Table :=
  (dictReader records).foldlM (addRow id) []

/-- What the program finds: its own folder (`Path(__file__).parent.parent.resolve()`), the texts of the files and how
they are read. -/
structure World where
  pkg : Path
  file : Path → Option Str
  csv : Str → List (List Str)
  json : Str → Py Table

/-- The file that `_dict_from_file` opens: a `.csv` file is looked for in the folder of conversions/utils.py, a
`.json` file in the folder above it, conversions/utils.py:119, 126. -/
def opened (pkg : Path) (p : Path) : Path :=
  if suffix p.name = c!".csv" then Path.join (Path.join pkg ⟨false, [c!"conversions"]⟩) p else Path.join pkg p

/-- `open(...)` and reading. -/
def readFile (w : World) (p : Path) : Py Str :=
  match w.file p with
  | none => .error .osError
  | some t => .ok t

/-- `_dict_from_file`, conversions/utils.py:116-128; another suffix gives `None`. -/
def dictFromFile (w : World) (p : Path) (id : Str) : Py (Option Table) :=
  if suffix p.name = c!".csv" then
    match readFile w (opened w.pkg p) with
    | .error e => .error e
    | .ok t => (fromCsv id (w.csv t)).map some
  else if suffix p.name = c!".json" then
    match readFile w (opened w.pkg p) with
    | .error e => .error e
    | .ok t => (w.json t).map some
  else .ok none

/-- `set_mappings`: the table of the user, or else the default, ECS2_to_ILCD1_conversion.py:1842-1844. -/
def setMappings (w : World) (user default : Option Path) : Py (Option Table) :=
  match user.or default with
  | none => .error .attributeError
  | some p => dictFromFile w p c!"SourceFlowUUID"

/-- `n[key]`. -/
def cell (n : Row) (key : Str) : Py Cell :=
  match aget (some key) n with
  | none => .error .keyError
  | some c => .ok c

/-- `float(cell)`: a text, or else a `TypeError`. -/
def floatCell {K : Type} (flt : Str → Py K) : Cell → Py K
  | .text s => flt s
  | _ => .error .typeError

/-- `float(n['ConversionFactor']) if n['ConversionFactor'] not in ("", "n/a") else 1.0`,
ECS2_to_ILCD1_conversion.py:1315-1316, ILCD1_to_ECS2_conversion.py:643-644. -/
def factor {K : Type} (flt : Str → Py K) (one : K) (c : Cell) : Py K :=
  if c = .text [] ∨ c = .text c!"n/a" then .ok one else floatCell flt c

/-- What is taken from a row. -/
structure Target (K : Type) where
  id : Cell
  name : Cell
  unit : Cell
  factor : K
  deriving DecidableEq

/-- What becomes of an elementary flow: converted, entered in the log as a flow without correspondence, or as a flow
that is not in the table. -/
inductive Outcome (K : Type) where
  | converted (t : Target K)
  | noMatch
  | absent
  deriving DecidableEq

/-- The columns read from a row that is a match. -/
def target {K : Type} (flt : Str → Py K) (one : K) (n : Row) : Py (Outcome K) := do
  let id ← cell n c!"TargetFlowUUID"
  let name ← cell n c!"TargetFlowName"
  let unit ← cell n c!"TargetUnit"
  let f ← cell n c!"ConversionFactor"
  let k ← factor flt one f
  return .converted ⟨id, name, unit, k⟩

/-- The marks of a row without a match, ECS2_to_ILCD1_conversion.py:1308. -/
def ecsMarks : List Str := [c!"NO_MATCH_MAPPING", c!"NO MATCH"]

/-- The marks of a row without a match, ILCD1_to_ECS2_conversion.py:1030. -/
def ilcdMarks : List Str := [c!"NO_MATCH_MAPPING", c!"NO MATCH", c!"NO_FLOW_MATCH_MANUAL", c!"NO_MAPPING"]

/-- `n['MapType'] not in (...)`: a cell that is missing is not in the list. -/
def ecsMarked : Cell → Bool
  | .text s => ecsMarks.contains s
  | _ => false

/-- `n['MapType'].strip() not in (...)`: a cell that is missing has no `strip`. -/
def ilcdMarked : Cell → Py Bool
  | .text s => .ok (ilcdMarks.contains (strip s))
  | _ => .error .attributeError

/-- `get_elementary_info`, ECS2_to_ILCD1_conversion.py:1304-1330. -/
def ecsFlow {K : Type} (flt : Str → Py K) (one : K) (t : Table) (fid : Str) : Py (Outcome K) :=
  match aget (some fid) t with
  | none => .ok .absent
  | some n =>
    match cell n c!"MapType" with
    | .error e => .error e
    | .ok m => if ecsMarked m then .ok .noMatch else target flt one n

/-- The elementary flows of ILCD, ILCD1_to_ECS2_conversion.py:1028-1041 and 613-645. -/
def ilcdFlow {K : Type} (flt : Str → Py K) (one : K) (t : Table) (fid : Str) : Py (Outcome K) :=
  match aget (some fid) t with
  | none => .ok .absent
  | some n =>
    match cell n c!"MapType" with
    | .error e => .error e
    | .ok m =>
      match ilcdMarked m with
      | .error e => .error e
      | .ok true => .ok .noMatch
      | .ok false => target flt one n

end Verif.MapFile
