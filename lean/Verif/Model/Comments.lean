/-
Codes carried as lines of comments.
EcoSpold2 to ILCD writes several coded attributes as lines of comment fields
(src/Lavoisier/conversions/ECS2_to_ILCD1_conversion.py:2178-2206, 2230-2235, 2246-2250, 2268-2271, 2281-2284,
2355-2359); ILCD to EcoSpold2 searches the comments for such lines, reads the codes and removes the lines
(src/Lavoisier/formats/helpers.py:89-119 and src/Lavoisier/conversions/ILCD1_to_ECS2_conversion.py:1544-1629).

Simplifications: a function returns the values it assigns; the same value assigned to other places (the index
entry and the master data, :1549-1553, 1559-1564) is not repeated. `parentActivityId` can be assigned only
once, so a second comment with such a line raises an error that is not modelled.
-/
import Verif.Model.Validators
import Verif.Model.DataTables

namespace Verif.Comments

/-! ### Regular expressions of a marker and what follows it -/

/-- What a pattern matches at the beginning of a text: the first group and the length of the match. -/
abbrev Matcher := Str → Option (Str × Nat)

/-- `(.*)` after the marker: everything up to the end of the line. -/
def lineRest (s : Str) : Str := s.takeWhile fun c => c != '\n'

/-- `marker + r' (.*)+?(?:\n|$)'`, helpers.py:93-97; also `r'Activity End: (.*)(?:\n|;|$)'`,
ILCD1_to_ECS2_conversion.py:1602-1607 (the group is greedy, so a semicolon never ends it). -/
def strMatch (p : Str) : Matcher := fun s =>
  if startsWith (p ++ c!" ") s then
    let r := s.drop (p.length + 1)
    let g := lineRest r
    some (g, p.length + 1 + g.length + if g.length < r.length then 1 else 0)
  else none

/-- `marker + r' (.*)+?\n'`, helpers.py:102-106; also `r'Activity Start: (.*)\n'`,
ILCD1_to_ECS2_conversion.py:1601. -/
def listMatch (p : Str) : Matcher := fun s =>
  if startsWith (p ++ c!" ") s then
    let r := s.drop (p.length + 1)
    let g := lineRest r
    if g.length < r.length then some (g, p.length + 1 + g.length + 1) else none
  else none

/-- `marker + r' ([a-f0-9]{8}-...-[a-f0-9]{12})\n'`, helpers.py:112-116. -/
def uuidMatch (p : Str) : Matcher := fun s =>
  if startsWith (p ++ c!" ") s then
    let r := s.drop (p.length + 1)
    if Validators.uuidRe.isMatch r ∧ startsWith c!"\n" (r.drop 36) then
      some (r.take 36, p.length + 1 + 37)
    else none
  else none

/-- `r'Activity Start: (.*)\nActivity End: '`, ILCD1_to_ECS2_conversion.py:1596-1600. -/
def startMatch : Matcher := fun s =>
  if startsWith c!"Activity Start: " s then
    let r := s.drop 16
    let g := lineRest r
    if startsWith c!"\nActivity End: " (r.drop g.length) then some (g, 16 + g.length + 15) else none
  else none

/-- `r'Original ecoinvent System Model: (.*)+?$'`, ILCD1_to_ECS2_conversion.py:1622-1628: `$` is the end of the
text or the place before a last line feed. -/
def modelMatch : Matcher := fun s =>
  if startsWith c!"Original ecoinvent System Model: " s then
    let r := s.drop 33
    let g := lineRest r
    if r.drop g.length = [] ∨ r.drop g.length = c!"\n" then some (g, 33 + g.length) else none
  else none

/-- `re.search(pattern, text).groups()[0]`: the group of the first match. -/
def search (m : Matcher) : Str → Option Str
  | [] => none
  | c :: s =>
    match m (c :: s) with
    | some (g, _) => some g
    | none => search m s

/-- `re.sub(pattern, '', text)`; the number counts the characters of the match still to be passed over. -/
def remove (m : Matcher) : Nat → Str → Str
  | _, [] => []
  | k + 1, _ :: s => remove m k s
  | 0, c :: s =>
    match m (c :: s) with
    | some (_, n) => remove m (n - 1) s
    | none => c :: remove m 0 s

/-! ### The three functions of the helper -/

/-- `_get_str`, helpers.py:92-98. The value is assigned to a validated field, which rejects `None` with the
error `err`. -/
def getStr (err : PyErr) (keys : List (Str × Str)) (p : Str) (text : Str) : Py (Option Str × Str) :=
  match search (strMatch p) text with
  | some g =>
    match aget g keys with
    | some code => .ok (some code, remove (strMatch p) 0 text)
    | none => .error err
  | none => .ok (none, text)

/-- `x.split('; ')`; the flag says that the next character belongs to the separator. -/
def splitSemi : Bool → Str → List Str
  | _, [] => [[]]
  | true, _ :: s => splitSemi false s
  | false, c :: s =>
    if startsWith c!"; " (c :: s) then [] :: splitSemi true s
    else match splitSemi false s with
      | [] => [[c]]            -- not reached
      | w :: ws => (c :: w) :: ws

/-- The loop of `_get_list_str`, :104-106, removes the lines once per piece. -/
def removeTimes (m : Matcher) : Nat → Str → Str
  | 0, s => s
  | n + 1, s => removeTimes m n (remove m 0 s)

/-- `_get_list_str`, helpers.py:100-108: the values assigned one after the other. -/
def getList (p : Str) (text : Str) : List Str × Str :=
  match search (listMatch p) text with
  | some g => (splitSemi false g, removeTimes (listMatch p) (splitSemi false g).length text)
  | none => ([], text)

/-- `_get_uuid`, helpers.py:110-117. -/
def getUuid (p : Str) (text : Str) : Option Str × Str :=
  match search (uuidMatch p) text with
  | some g => (some g, remove (uuidMatch p) 0 text)
  | none => (none, text)

/-! ### The comments of the data set -/

/-- `child_type_`, data.py:15; the key `None` is never met by a text. -/
def childTypeBack : List (Str × Str) :=
  (Tables.inverse Tables.childType).filterMap fun p => p.1.map fun t => (t, p.2)

/-- What `general_comment` assigns. -/
structure General where
  nameId : Option Str
  subtype : Option Str
  depth : Option Str
  parent : Option Str
  tags : List Str
  deriving DecidableEq

/-- `general_comment`, ILCD1_to_ECS2_conversion.py:1544-1585: the values assigned and the text left. A parent
sets the depth of inheritance to -1, :1575-1580. -/
def generalComment (text : Str) : Py (General × Str) :=
  let a := getUuid c!"Activity Linkable Id:" text
  match getStr .typeError (Tables.inverse Tables.specialActivity) c!"Activity Subtype:" a.2 with
  | .error e => .error e
  | .ok b =>
    match getStr .typeError childTypeBack c!"Inheritance:" b.2 with
    | .error e => .error e
    | .ok c =>
      let d := getUuid c!"Parent Id:" c.2
      let e := getList c!"Tag:" d.2
      .ok (⟨a.1, b.1, if d.1.isSome then some c!"-1" else c.1, d.1, e.1⟩, e.2)

/-- `time_comment`, :1587-1593; `Bool` rejects `None` with a `ValueError`. -/
def timeComment (text : Str) : Py (Option Str × Str) :=
  getStr .valueError (Tables.inverse Tables.timePeriod) c!"Validity:" text

/-- What `tech_comment` assigns. -/
structure Tech where
  started : Option Str
  ended : Option Str
  level : Option Str
  deriving DecidableEq

/-- `tech_comment`, :1595-1612. -/
def techComment (text : Str) : Py (Tech × Str) :=
  let a := search startMatch text
  let t1 := if a.isSome then remove (listMatch c!"Activity Start:") 0 text else text
  let b := search (strMatch c!"Activity End:") t1
  let t2 := if b.isSome then remove (strMatch c!"Activity End:") 0 t1 else t1
  match getStr .typeError (Tables.inverse Tables.tech) c!"Technology Level:" t2 with
  | .error e => .error e
  | .ok l => .ok (⟨a, b, l.1⟩, l.2)

/-- `modelling_constants`, :1614-1620, on the text with its prefix, :1771-1774. -/
def modellingConstants (text : Str) : Py (Option Str × Str) :=
  getStr .typeError (Tables.inverse Tables.energy) c!"Energy:" (c!"Modelling Constants: " ++ text)

/-- `deviation_comment`, :1622-1629, on the text with its prefix, :1760-1764: the name of the system model and the
text left. -/
def deviationComment (text : Str) : Option Str × Str :=
  let t := c!"Deviations from LCI Method Principles: " ++ text
  (search modelMatch t, if (search modelMatch t).isSome then remove modelMatch 0 t else t)

/-! ### The lines written -/

/-- The coded attributes of an activity in EcoSpold2. -/
structure Activity where
  nameId : Str
  subtype : Str
  depth : Str
  parent : Option Str
  tags : List Str
  deriving DecidableEq

/-- An f-string of `d.get(x)`. -/
def textOf (d : List (Str × Str)) (x : Str) : Str := (aget x d).getD c!"None"

/-- The entries assigned to `generalComment` for these attributes, as index and text: ECS2_to_ILCD1_conversion.py:2181
(name id), 2188 (parent), 2192-2195 (inheritance), 2199-2202 (subtype), 2246-2250 (tags). The name of the flag
`__prefix_repeating_tag` is changed by the class, so it always reads as `True` (`setattr` with the plain name
creates another attribute). All are of the language `en`. -/
def generalEntries (a : Activity) : List (Int × Str) :=
  [(-10, c!"Activity Linkable Id: " ++ a.nameId)] ++
  (match a.parent with | some p => [(-7, c!"Parent Id: " ++ p)] | none => []) ++
  (match (aget a.depth Tables.childType).join with | some t => [(-8, c!"Inheritance: " ++ t)] | none => []) ++
  [(-9, c!"Activity Subtype: " ++ textOf Tables.specialActivity a.subtype)] ++
  (a.tags.filter fun t => !t.isEmpty).map fun t => (-6, c!"\nTag: " ++ t)

/-- :2268-2271 -/
def techLine (code : Str) : Str := c!"Technology Level: " ++ textOf Tables.tech code

/-- :2281-2284 -/
def validityLine (code : Str) : Str := c!"Validity: " ++ textOf Tables.timePeriod code

/-- :2203-2206 -/
def energyLine (code : Str) : Str := c!"Energy: " ++ textOf Tables.energy code

/-- The field `energyValues` at the end, ILCD1_to_ECS2_conversion.py:1479-1488: the number 0 counts as not set
(`if not ...get('energyValues')`). `kinds` are the entries of `Property._energy`: `true` for NET and `false` for
GROSS. -/
def energyBack (set : Option Str) (kinds : List Bool) : Str :=
  match set with
  | some c => if c = c!"0" then chosen else c
  | none => chosen
where
  chosen :=
    let n := kinds.count true
    let g := kinds.count false
    if n ≥ 3 * g then c!"1" else if g ≥ 3 * n then c!"2" else c!"0"

/-- :2355-2359: principle and approach are validated by enumerations that reject `None`. -/
def systemModel (name : Str) : Py (Str × Str × Str) :=
  match aget name Tables.systemModel with
  | none => .error .typeError
  | some pr =>
    match aget name Tables.systemModel2 with
    | none => .error .typeError
    | some ap => .ok (pr, c!"Original ecoinvent System Model: " ++ name, ap)

/-- The system model of the result, ILCD1_to_ECS2_conversion.py:1454-1478: from the comment, or the most frequent
approach (`Counter.most_common`: the first of the most frequent ones), or undefined. An id `None` is
rejected. -/
def systemModelBack (original : Option Str) (approaches : List Str) : Py (Str × Str) :=
  match original with
  | some n =>
    match aget n Tables.systemModelId with
    | some i => .ok (i, n)
    | none => .error .typeError
  | none =>
    let pairs := approaches.map fun x => aget x Tables.systemModel2Back
    match pairs.foldl (fun best x =>
        match best with
        | none => some x
        | some b => if pairs.count b < pairs.count x then some x else some b) none with
    | some (some n) =>
      match aget n Tables.systemModelId with
      | some i => .ok (i, n)
      | none => .error .typeError
    | some none => .error .typeError
    | none => .ok (c!"8b738ea0-f89e-4627-8679-433616064e82", c!"Undefined")

end Verif.Comments
