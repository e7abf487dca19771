/-
The validators of single values.
Models src/Lavoisier/data_structures/validators/general_validators.py:18-178 and the classes built
from them in ECS2_validators.py and ILCD1_validators.py. A validator object is `Option α`: the
attribute `_x`, absent before the first `add`.
-/
import Verif.Model.PyVal

namespace Verif.Validators

/-! ### Ways of adding (general_validators.py:18-52) -/

/-- `_add`, :18-20: the last value replaces the others. -/
def addLast {α β : Type} (validate : β → Py α) (_x : Option α) (o : β) : Py (Option α) :=
  match validate o with
  | .ok v => .ok (some v)
  | .error e => .error e

/-- `list_add`, :22-27. A single value is kept bare, several as a list; the model keeps the list in
both cases and `listEnd` gives the bare value. -/
def addList {α β : Type} (validate : β → Py α) (x : Option (List α)) (o : β) :
    Py (Option (List α)) :=
  match validate o with
  | .ok v => .ok (some (x.getD [] ++ [v]))
  | .error e => .error e

/-- The inner loop of `unique_list_add`, :31-33. -/
def addNew {α : Type} [DecidableEq α] (x : List α) : List α → List α
  | [] => x
  | n :: l => if n ∈ x then addNew x l else addNew (x ++ [n]) l

/-- `unique_list_add`, :29-34: the object afterwards and the exception, if any. The empty list of
line 30 is stored before the value is validated. -/
def addUnique {α β : Type} [DecidableEq α] (validate : β → Py (List α)) (x : Option (List α))
    (o : β) : Option (List α) × Option PyErr :=
  match validate o with
  | .ok l => (some (addNew (x.getD []) l), none)
  | .error e => (some (x.getD []), some e)

/-- A history of such calls; the exceptions are caught by the caller. -/
def addsUnique {α β : Type} [DecidableEq α] (validate : β → Py (List α)) (x : Option (List α))
    (os : List β) : Option (List α) :=
  os.foldl (fun x o => (addUnique validate x o).1) x

/-- `return_comparisson_add(func)`, :36-45: replaced if `func(new, old)`. -/
def addCompare {α β : Type} (validate : β → Py α) (func : α → α → Bool) (x : Option α) (o : β) :
    Py (Option α) :=
  match validate o with
  | .error e => .error e
  | .ok v =>
    match x with
    | none => .ok (some v)
    | some old => if func v old then .ok (some v) else .ok (some old)

/-- `separator_add`, :47-52. -/
def addSep {β : Type} (sep : Str) (validate : β → Py Str) (x : Option Str) (o : β) :
    Py (Option Str) :=
  match validate o with
  | .error e => .error e
  | .ok v =>
    match x with
    | none => .ok (some v)
    | some old => .ok (some (old ++ sep ++ v))

/-- One `add` call; the exception is caught by the caller. -/
def caught {α β : Type} (add : Option α → β → Py (Option α)) (x : Option α) (o : β) : Option α :=
  match add x o with
  | .ok x' => x'
  | .error _ => x

/-- A history of `add` calls on one object. -/
def adds {α β : Type} (add : Option α → β → Py (Option α)) (x : Option α) (os : List β) : Option α :=
  os.foldl (caught add) x

/-! ### Numbers -/

/-- `Int._validate`, :84-93. -/
def intValidate (canBeNegative : Bool) (x : PyVal) : Py Int :=
  match x.toInt with
  | none => .error .typeError
  | some i => if !canBeNegative && i < 0 then .error .valueError else .ok i

/-- `return_collection(limits)._validate`, :95-104. -/
def collectionValidate (limits : List Int) (canBeNegative : Bool) (x : PyVal) : Py Int :=
  match intValidate canBeNegative x with
  | .error e => .error e
  | .ok i => if i ∈ limits then .ok i else .error .valueError

/-- `return_limited_int(limit, func)._validate`, :106-114. -/
def limitedIntValidate (func : Nat → Nat → Bool) (limit : Nat) (x : PyVal) : Py Int :=
  match intValidate false x with
  | .error e => .error e
  | .ok i => if func (intStr i).length limit || i < 0 then .error .valueError else .ok i

/-- ILCD1_validators.py:21-24. -/
def int1Validate := limitedIntValidate (fun x l => x != l) 1
def int6Validate := limitedIntValidate (fun x l => x > l) 6
def yearValidate := limitedIntValidate (fun x l => x != l) 4

/-- `range(a, a + n)` -/
def intRange (a : Int) (n : Nat) : List Int := (List.range n).map fun i : Nat => a + (i : Int)

/-- ECS2_validators.py:41-53: the code fields with their codes. -/
def codeFields : List (Str × List Int × Bool) := [
  (c!"InheritanceDepthINT", intRange (-1) 5, true),
  (c!"SourceTypeINT", intRange 0 8, false),
  (c!"TypeINT", intRange 1 3, false),
  (c!"SpecialActivityTypeINT", intRange 0 11, false),
  (c!"EnergyValuesINT", intRange 0 3, false),
  (c!"TechnologyLevelINT", intRange 0 6, false),
  (c!"DataPublishedInINT", intRange 0 2, false),
  (c!"AccessRestrictedToINT", intRange 0 3, false),
  (c!"PedigreeINT", intRange 1 5, false),
  (c!"InputGroupIntermediateINT", [1, 2, 3, 5], false),
  (c!"OutputGroupIntermediateINT", [0, 2, 3, 5], false),
  (c!"InputGroupElementaryINT", [4], false),
  (c!"OutputGroupElementaryINT", [4], false)]

/-- The result of `float(x)`: a finite value (as a fraction with positive denominator) or one of the
special values. -/
inductive Flt where
  | fin (num : Int) (den : Nat)
  | inf
  | ninf
  | nan
  deriving DecidableEq

/-- Python `x > k` and `x < k` for an integer `k`: comparisons with NaN are false. -/
def Flt.gt : Flt → Int → Bool
  | .fin n d, k => n > k * d
  | .inf, _ => true
  | .ninf, _ => false
  | .nan, _ => false
def Flt.lt : Flt → Int → Bool
  | .fin n d, k => n < k * d
  | .inf, _ => false
  | .ninf, _ => true
  | .nan, _ => false

/-- `Percent._validate`, ECS2_validators.py:26-33, after `float(x)` (`Real._validate`,
general_validators.py:69-75), which is `toFloat` (`none` for any exception). -/
def percentValidate (toFloat : PyVal → Option Flt) (x : PyVal) : Py Flt :=
  match toFloat x with
  | none => .error .typeError
  | some f => if f.gt 100 then .error .valueError else if f.lt 0 then .error .valueError else .ok f

/-- `float(x)` for numbers; on texts it is left to the caller. -/
def floatOf (text : Str → Option Flt) : PyVal → Option Flt
  | .bool b => some (.fin (if b then 1 else 0) 1)
  | .int i => some (.fin i 1)
  | .float n d => some (.fin n d)
  | .inf => some .inf
  | .ninf => some .ninf
  | .nan => some .nan
  | .str s => text s
  | _ => none

/-! ### Booleans -/

/-- Membership in `Bool.VALID`, general_validators.py:78 (1.0 == 1 == True in Python). -/
def inBoolValid : PyVal → Bool
  | .bool _ => true
  | .int i => i == 1 || i == 0
  | .float n d => n == d || n == 0
  | .str s => s == c!"true" || s == c!"false" || s == c!"True" || s == c!"False" || s == c!"1" ||
      s == c!"0"
  | _ => false

/-- `bool(x)` for the values accepted above. -/
def truth : PyVal → Bool
  | .bool b => b
  | .int i => i != 0
  | .float n _ => n != 0
  | _ => true

/-- `Bool._validate`, general_validators.py:77-82. -/
def boolValidate (x : PyVal) : Py Bool :=
  if inBoolValid x then
    match x with
    | .str s => .ok (s == c!"1" || s == c!"true" || s == c!"True")
    | x => .ok (truth x)
  else .error .valueError

/-- `Bool.end` of EcoSpold 2, ECS2_validators.py:37-39. -/
def boolEnd (b : Bool) : Str := if b then c!"true" else c!"false"

/-! ### Texts -/

/-- `Str._validate`, general_validators.py:138-142. -/
def strValidate : PyVal → Py Str
  | .str s => .ok s
  | _ => .error .typeError

/-- A limit of `return_limited_string`: an upper bound or a range. -/
inductive Limit where
  | upper (n : Nat)
  | range (lo hi : Nat)

/-- The condition at general_validators.py:158. -/
def Limit.holds : Limit → Nat → Bool
  | .upper n, k => k ≤ n
  | .range lo hi, k => lo ≤ k && k ≤ hi

/-- A limit of 0 is false and switches the test off, :157. -/
def Limit.off : Limit → Bool
  | .upper n => n == 0
  | .range _ _ => false

/-- `LimitedString.end`, :156-160 and :63-65. `ignore` is the class attribute `_LimStr.ignore_limit`. -/
def limEnd (limit : Limit) (ignore : Bool) (x : Option Str) : Py Str :=
  match x with
  | none => .error .attributeError
  | some s =>
    if limit.off || limit.holds s.length || ignore then .ok s else .error .valueError

/-! ### Enumerations -/

/-- The values seen by `return_enum(enum, list_)._validate`, :170-177: a text, a list (or tuple) of
values, or something else. A value that is not a text is never in an enumeration. -/
def enumTexts (enum : List Str) : List PyVal → Py (List Str)
  | [] => .ok []
  | .str s :: l =>
    if s ∈ enum then
      match enumTexts enum l with
      | .ok r => .ok (s :: r)
      | .error e => .error e
    else .error .valueError
  | _ :: _ => .error .valueError

def enumValidate (enum : List Str) (isList : Bool) : PyVal → Py (List Str)
  | .str s => enumTexts enum [.str s]
  | .list l => if isList then enumTexts enum l else .error .typeError
  | _ => .error .typeError

/-- `add` of a list enumeration. -/
def enumListAdd (enum : List Str) := addUnique (enumValidate enum true)

/-- `add` of a single-valued enumeration (the stored list has one element). -/
def enumAdd (enum : List Str) := addLast (enumValidate enum false)

/-! ### Dates -/

/-- A date and time: clock reading (in any fixed unit) and offset from UTC (none: naive). -/
structure DateTime where
  wall : Int
  offset : Option Int
  deriving DecidableEq

/-- `ReviewDateTime.add`, ILCD1_validators.py:33-34: compared without the time zone. Parsing of ISO
texts is the parameter `parse` (`Date._validate`, general_validators.py:128-136). -/
def reviewDateAdd (parse : PyVal → Py DateTime) :=
  addCompare parse (fun x y => x.wall > y.wall)

/-! ### Patterns -/

/-- The regular expressions used by `return_pattern`, general_validators.py:116-124. -/
inductive Re where
  | eps
  | cls (p : Char → Bool)
  | cat (a b : Re)
  | alt (a b : Re)
  | star (p : Char → Bool)

/-- The rests of a text after a match of `p*` at its beginning. -/
def starRests (p : Char → Bool) : Str → List Str
  | [] => [[]]
  | c :: s => if p c then (c :: s) :: starRests p s else [c :: s]

/-- All the rests of a text after a match at its beginning. -/
def Re.rests : Re → Str → List Str
  | .eps, s => [s]
  | .cls _, [] => []
  | .cls p, c :: s => if p c then [s] else []
  | .cat a b, s => (a.rests s).flatMap b.rests
  | .alt a b, s => a.rests s ++ b.rests s
  | .star p, s => starRests p s

/-- `re.match(pattern, x)` succeeds. -/
def Re.isMatch (r : Re) (s : Str) : Bool := !(r.rests s).isEmpty

/-- `return_pattern(pattern)._validate`, :116-124. -/
def patternValidate (r : Re) : PyVal → Py Str
  | .str s => if r.isMatch s then .ok s else .error .valueError
  | _ => .error .typeError

/-- `r{n}` -/
def Re.times (r : Re) : Nat → Re
  | 0 => .eps
  | n + 1 => .cat r (r.times n)

/-- `r?` -/
def Re.opt (r : Re) : Re := .alt r .eps

/-- `r{m,m+k}` -/
def Re.upTo (r : Re) : Nat → Re
  | 0 => .eps
  | n + 1 => .alt (.cat r (r.upTo n)) .eps

def Re.lit (c : Char) : Re := .cls (· == c)

/-- A concatenation of several patterns. -/
def Re.seq : List Re → Re
  | [] => .eps
  | r :: l => .cat r (Re.seq l)

/-- `[a-f0-9]` -/
def lowerHex (c : Char) : Bool := ('a' ≤ c && c ≤ 'f') || ('0' ≤ c && c ≤ '9')

/-- general_validators.py:126 -/
def uuidRe : Re :=
  let h := Re.cls lowerHex
  .seq [h.times 8, .lit '-', h.times 4, .lit '-', h.times 4, .lit '-', h.times 4, .lit '-', h.times 12]

/-- The classes `\d`, `\w` and `\s` depend on the Unicode tables. -/
structure CharClasses where
  digit : Char → Bool
  word : Char → Bool
  space : Char → Bool

/-- ILCD1_validators.py:26 -/
def versionRe (u : CharClasses) : Re :=
  let d := Re.cls u.digit
  .seq [d.times 2, .lit '.', d.times 2, .opt (.seq [.lit '.', d.times 3])]

/-- ECS2_validators.py:55 -/
def casRe (u : CharClasses) : Re :=
  let d := Re.cls u.digit
  .seq [d, d.upTo 5, .lit '-', d.times 2, .lit '-', d]

/-- `(\.\d*)?` -/
def fractionRe (u : CharClasses) : Re := .opt (.seq [.lit '.', .star u.digit])

/-- The latitude part of ILCD1_validators.py:27; the sign belongs to the first alternative only. -/
def latitudeRe (u : CharClasses) : Re :=
  .alt
    (.seq [.opt (.cls fun c => c == '-' || c == '+'),
      .seq [.opt (.cls fun c => '0' ≤ c && c ≤ '8'), .cls u.digit], fractionRe u])
    (.seq [.lit '9', .lit '0', .opt (.seq [.lit '.', (Re.lit '0').upTo 2])])

/-- The longitude part. -/
def longitudeRe (u : CharClasses) : Re :=
  .seq [.opt (.cls fun c => c == '-' || c == '+'),
    .alt (.seq [.lit '1', .cls fun c => '0' ≤ c && c ≤ '7', .cls u.digit, fractionRe u])
      (.alt (.seq [.cls fun c => '0' ≤ c && c ≤ '9', .cls u.digit, fractionRe u])
        (.alt (.seq [.cls u.digit, fractionRe u])
          (.seq [.lit '1', .lit '8', .lit '0', .opt (.seq [.lit '.', .star (· == '0')])])))]

/-- `GIS`, ILCD1_validators.py:27 -/
def gisRe (u : CharClasses) : Re :=
  .seq [.star u.space, latitudeRe u, .star u.space, .lit ';', .star u.space, longitudeRe u,
    .star u.space]

/-- ECS2_validators.py:82 -/
def variableNameRe (u : CharClasses) : Re :=
  .seq [.cls u.word, .star (fun c => !u.space c)]

/-- `VariableName` (ECS2_validators.py:82): the pattern when adding, the limit of 40 when written. -/
def variableNameAdd (u : CharClasses) := addLast (patternValidate (variableNameRe u))
def variableNameEnd := limEnd (.upper 40)

end Verif.Validators
