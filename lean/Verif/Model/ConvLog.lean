/-
The log of a conversion and the list of flows that were not converted.
Models src/Lavoisier/formats/utils.py:22-50 (`DefaultLog`), the log files of the two output formats
(src/Lavoisier/formats/ILCD1_format.py:94-95, 111; src/Lavoisier/formats/ECS2_format.py:27-29, 42) and the entries that
the conversions write for an elementary flow (src/Lavoisier/conversions/ECS2_to_ILCD1_conversion.py:1268-1270, 1304-1330;
src/Lavoisier/conversions/ILCD1_to_ECS2_conversion.py:399, 200-209, 93-101, 1028-1041;
src/Lavoisier/conversions/ILCD1_to_ILCD1_conversion.py:143-156).

The regular expression of `end_log` is modelled as the matcher it describes: the gaps `[\W]+` are followed by a letter,
so they are the longest ones; the name `[\S ]+?` is the shortest one with which the rest matches. `\w` is a parameter.

Simplifications: a log entry is a level and a message; the entries of a flow that is converted are a parameter.
-/
import Verif.Py

namespace Verif.ConvLog

/-- The levels of the entries. -/
inductive Level where
  | info
  | warning
  deriving DecidableEq

/-- `%(levelname)s`. -/
def Level.text : Level → Str
  | .info => c!"INFO"
  | .warning => c!"WARNING"

/-- An entry of the log. -/
structure Entry where
  level : Level
  msg : Str
  deriving DecidableEq

/-- `"%(levelname)s - %(message)s"` and the end of the line, formats/utils.py:29. -/
def line (e : Entry) : Str := e.level.text ++ c!" - " ++ e.msg ++ c!"\n"

/-- The text of the log file: entries are appended to the file. -/
def render (l : List Entry) : Str := (l.map line).flatten

/-- A fixed text at the beginning. -/
def dropPre : Str → Str → Option Str
  | [], s => some s
  | _ :: _, [] => none
  | c :: p, d :: s => if c = d then dropPre p s else none

/-- `[\W]+` before a letter. -/
def gap (word : Char → Bool) (s : Str) : Option Str :=
  if s.takeWhile (fun c => !word c) = [] then none else some (s.dropWhile fun c => !word c)

/-- `[0-9a-f-]`. -/
def idChar (c : Char) : Bool := ('0' ≤ c && c ≤ '9') || ('a' ≤ c && c ≤ 'f') || c = '-'

/-- `([0-9a-f-]{36})`. -/
def takeId (s : Str) : Option (Str × Str) :=
  if (s.take 36).length = 36 ∧ (s.take 36).all idChar then some (s.take 36, s.drop 36) else none

/-- `(due to lack of elementary flow correspondence in the|as the flow is not present on the elementary flow) mapping file`. -/
def reason (s : Str) : Option Str :=
  ((dropPre c!"due to lack of elementary flow correspondence in the" s).or
    (dropPre c!"as the flow is not present on the elementary flow" s)).bind (dropPre c!" mapping file")

/-- What follows the name: ` : ([0-9a-f-]{36})\nWARNING -[\W]+Flow not converted (...|...) mapping file`. -/
def afterName (word : Char → Bool) (s : Str) : Option (Str × Str) :=
  ((dropPre c!" : " s).bind takeId).bind fun p =>
    ((((dropPre c!"\nWARNING -" p.2).bind (gap word)).bind (dropPre c!"Flow not converted ")).bind reason).map
      fun r => (p.1, r)

/-- `[\S ]`. -/
def nameChar (c : Char) : Bool := !pySpace c || c = ' '

/-- `([\S ]+?)` and what follows: the shortest name, with at least one character. -/
def lazyName (word : Char → Bool) : Str → Str → Option ((Str × Str) × Str)
  | _, [] => none
  | acc, c :: s =>
    match (if acc = [] then none else afterName word (c :: s)) with
    | some (id, r) => some ((acc, id), r)
    | none => if nameChar c then lazyName word (acc ++ [c]) s else none

/-- The whole expression at the beginning of a text. -/
def matchAt (word : Char → Bool) (s : Str) : Option ((Str × Str) × Str) :=
  (((dropPre c!"INFO -" s).bind (gap word)).bind (dropPre c!"Starting conversion of flow ")).bind (lazyName word [])

/-- `re.findall`: from left to right, going on behind each match. -/
def findAll (word : Char → Bool) : Nat → Str → List (Str × Str)
  | 0, _ => []
  | _ + 1, [] => []
  | n + 1, c :: s =>
    match matchAt word (c :: s) with
    | some (g, r) => g :: findAll word n r
    | none => findAll word n s

/-- `end_log`, formats/utils.py:38-48: the lines of the list of flows, if there is one. -/
def endLog (word : Char → Bool) (text : Str) : Option (List Str) :=
  let found := findAll word text.length text
  if found = [] then none else some (found.map fun p => p.2 ++ c!" : " ++ p.1)

/-- The entry at the beginning of a flow, ECS2_to_ILCD1_conversion.py:1269-1270, ILCD1_to_ECS2_conversion.py:399. -/
def started (name id : Str) : Entry := ⟨.info, c!"\tStarting conversion of flow " ++ name ++ c!" : " ++ id⟩

/-- The entries for a flow without correspondence (`true`) and for a flow that is not in the table (`false`),
ECS2_to_ILCD1_conversion.py:1324-1329, ILCD1_to_ECS2_conversion.py:1035-1041. -/
def notConverted (inTable : Bool) : Entry :=
  ⟨.warning, c!"\t\tFlow not converted " ++
    (if inTable then c!"due to lack of elementary flow correspondence in the"
     else c!"as the flow is not present on the elementary flow") ++ c!" mapping file"⟩

/-- What becomes of a flow: not converted, or converted with further entries. -/
inductive Fate where
  | lost (inTable : Bool)
  | converted (entries : List Entry)

/-- The entries of an elementary exchange of EcoSpold2: the row of the table is looked up before anything else is done,
ECS2_to_ILCD1_conversion.py:1266-1302. -/
def ecsFlow (name id : Str) : Fate → List Entry
  | .lost b => [started name id, notConverted b]
  | .converted l => started name id :: l

/-- An exchange of ILCD: the short description, the identifier, the type of the uncertainty and whether a basic variance
was found in its comment. -/
structure Exch where
  name : Str
  id : Str
  unc : Option Str
  basic : Bool

/-- The entry for an uncertainty without a basic variance, ILCD1_to_ECS2_conversion.py:67-68, 95-101, 200-203; it is
written when the amount is made, before the flow is looked up. -/
def uncEntries (x : Exch) : List Entry :=
  if x.unc = some c!"normal" ∧ x.basic = false then [⟨.info, c!"\t\tnormal with no pedigree information"⟩]
  else if x.unc = some c!"log-normal" ∧ x.basic = false then [⟨.info, c!"\t\tlognormal with no pedigree information"⟩]
  else []

/-- The entries of an elementary exchange of ILCD, ILCD1_to_ECS2_conversion.py:393-401, 1024-1041. -/
def ilcdFlow (x : Exch) : Fate → List Entry
  | .lost b => started x.name x.id :: uncEntries x ++ [notConverted b]
  | .converted l => started x.name x.id :: uncEntries x ++ l

/-- The entry of an exchange that is taken over to another flow list and has no correspondence,
ILCD1_to_ILCD1_conversion.py:155-156; nothing is written at its beginning. -/
def listEntry : Entry :=
  ⟨.warning, c!"Flow not converted due to lack of elementary flow correspondence in the mapping file"⟩

/-- The log of an EcoSpold2 output is a file of the output directory that is named after the data set and written to
at its end, so that it holds the entries of all conversions with this name, formats/utils.py:28, ECS2_format.py:28; the
log of an ILCD output is a new file, ILCD1_format.py:94. -/
def ecsLog (earlier now : List Entry) : Str := render (earlier ++ now)

end Verif.ConvLog
