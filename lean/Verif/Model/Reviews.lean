/-
Reviews.
EcoSpold2 to ILCD: src/Lavoisier/conversions/ECS2_to_ILCD1_conversion.py:1725-1803.
ILCD to EcoSpold2: src/Lavoisier/conversions/ILCD1_to_ECS2_conversion.py:1143-1226.

Simplifications: the details of a review in English are a list of paragraphs; that entries of one language are joined by
line feeds in the order of their indices is in `LangText`, and the date and the version have the lowest indices. Details
in other languages are written without these lines and are not shown. The numbers of the version are given as such, not as
texts. `fromisoformat` with the format in which a date is written is the parameter `date`. Scopes and data quality
indicators, which only become text, are in `ReviewTexts`.
-/
import Verif.Model.Comments
import Verif.Model.Refs
import Verif.Model.LangText
import Verif.Py

namespace Verif.Reviews

/-- The version that was reviewed. -/
structure Version where
  majorRelease : Nat
  minorRelease : Nat
  majorRevision : Nat
  minorRevision : Nat
  deriving DecidableEq

/-! ## EcoSpold2 to ILCD -/

/-- A review of EcoSpold2. -/
structure EcsReview where
  date : Str
  version : Version
  email : Option Str
  name : Str
  id : Str
  details : List Str

/-- The kinds of reviews that are told apart, ECS2_to_ILCD1_conversion.py:1753-1757. -/
inductive Kind where
  | internal | external
  deriving DecidableEq

/-- `x.find(y)` -/
def find (y x : Str) : Int :=
  match x with
  | [] => if y = [] then 0 else -1
  | c :: l => if startsWith y (c :: l) then 0 else match find y l with
    | -1 => -1
    | n => n + 1

/-- :1752-1757; a number is true if it is not 0. -/
def kind (email : Option Str) : Option Kind :=
  match email with
  | none => none
  | some [] => none
  | some e => if [c!"ecoinvent", c!"Ecoinvent"].any (fun n => find n e ≠ 0) then some .internal else some .external

/-- `get_version`, :1795-1799. -/
def versionText (v : Version) : Str :=
  natStr v.majorRelease ++ c!"." ++ natStr v.majorRevision ++ c!"." ++ natStr v.minorRelease ++ c!"." ++
    natStr v.minorRevision

/-- The details in English, :1760-1767. -/
def text (r : EcsReview) : Str :=
  join c!"\n" ((c!"Date of Review: " ++ r.date) :: (c!"Review Version: " ++ versionText r.version) :: r.details)

/-- What is written of a review: the kind, the details and the reviewer (identifier and name). -/
structure Written where
  kind : Option Kind
  text : Str
  reviewer : Str × Str

/-- The conversion of a review, :1736-1786, 1801-1803. -/
def toIlcd (system : Bool) (conv : Str → Py Str) (r : EcsReview) : Py (Option Written) :=
  if r.email = some c!"support@ecoinvent.org" ∧ system = false then .ok none
  else do
    let u ← conv r.id
    .ok (some ⟨kind r.email, text r, (u, r.name)⟩)

/-! ## ILCD to EcoSpold2 -/

/-- `[0-9]+` with what follows. -/
def digits (s : Str) : Str × Str := (s.takeWhile Char.isDigit, s.dropWhile Char.isDigit)

/-- Four numbers separated by points and followed by the end of the line: what they are, and what follows. -/
def fourNumbers (s : Str) : Option (Str × Str) :=
  match digits s with
  | (a@(_ :: _), '.' :: s1) =>
    match digits s1 with
    | (b@(_ :: _), '.' :: s2) =>
      match digits s2 with
      | (c@(_ :: _), '.' :: s3) =>
        match digits s3 with
        | (d@(_ :: _), '\n' :: s4) => some (a ++ '.' :: (b ++ '.' :: (c ++ '.' :: d)), s4)
        | _ => none
      | _ => none
    | _ => none
  | _ => none

/-- `r'Review Version: ([0-9]+\.[0-9]+\.[0-9]+\.[0-9]+)\n'`, ILCD1_to_ECS2_conversion.py:1206-1209. -/
def versionMatch : Comments.Matcher := fun s =>
  if startsWith c!"Review Version: " s then
    match fourNumbers (s.drop 16) with
    | some (v, _) => some (v, 16 + v.length + 1)
    | none => none
  else none

/-- `[0-9 -]` -/
def dateChar (c : Char) : Bool := c.isDigit || c = ' ' || c = '-'

/-- `r'Date of Review: ([0-9 -]+)\n'`, :1213-1217. -/
def dateMatch : Comments.Matcher := fun s =>
  if startsWith c!"Date of Review: " s then
    let r := s.drop 16
    let g := r.takeWhile dateChar
    if g ≠ [] ∧ startsWith c!"\n" (r.drop g.length) then some (g, 16 + g.length + 1) else none
  else none

/-- `int(x)` for digits. -/
def number (s : Str) : Nat := (parseNat s).getD 0

/-- The numbers in the order in which they are assigned, :1210-1212. -/
def readVersion (v : Str) : Version :=
  let l := splitOn '.' v
  ⟨number (l.getD 0 []), number (l.getD 1 []), number (l.getD 2 []), number (l.getD 3 [])⟩

/-- What a review has got from its texts: the version, the date, and the texts that are left. -/
structure Read where
  version : Option Version
  date : Str
  texts : List Str
  deriving DecidableEq

/-- A text that is added to the details; blank ones are not kept. -/
def keep (x : Str) : List Str := if LangText.notBlank x then [x] else []

/-- `review_comment`, :1205-1219. -/
def comment (date : Str → Option Str) (x : Str) (r : Read) : Py Read :=
  let (version, x) := match Comments.search versionMatch x with
    | some v => (some (readVersion v), Comments.remove versionMatch 0 x)
    | none => (r.version, x)
  match Comments.search dateMatch x with
  | some d =>
    match date d with
    | none => .error .valueError
    | some d => .ok ⟨version, d, r.texts ++ keep (Comments.remove dateMatch 0 x)⟩
  | none => .ok ⟨version, r.date, r.texts ++ keep x⟩

/-- The texts one after the other, :1177-1179. -/
def comments (date : Str → Option Str) : List Str → Read → Py Read
  | [], r => .ok r
  | x :: l, r => do comments date l (← comment date x r)

/-- A review of ILCD: its type, the texts of its details, its reviewers. -/
structure IlcdReview where
  type : Option Str
  details : List Str
  reviewers : List Refs.Ref

/-- A review of EcoSpold2 as it is filled. -/
structure EcsFilled where
  version : Version
  date : Str
  details : List Str
  reviewer : Refs.Holder
  deriving DecidableEq

/-- `ensure_list(ref['shortDescription'], ensure_text=True)[0]['#text']`, :1189; an empty text counts as none
(conversions/utils.py:49-65). -/
def reviewerName : Refs.Short → Py Str
  | .absent => .error .keyError
  | .plain s => if s = [] then .error .indexError else .ok s
  | .one s => if s = [] then .error .indexError else .ok s
  | .many l =>
    match l.filter (· ≠ []) with
    | [] => .error .indexError
    | s :: _ => .ok s

/-- The reviewers, :1187-1194: their names and what is set from their contacts. -/
def reviewers (env : Refs.Env) : List Refs.Ref → List Str × (Refs.Holder × List Refs.ContactEntry) →
    Py (List Str × (Refs.Holder × List Refs.ContactEntry))
  | [], st => .ok st
  | x :: l, (names, st) => do
    let n ← reviewerName x.short
    let st' ← Refs.contact env .reviewer x st
    reviewers env l (names ++ [n], st')

/-- The state: the counter of versions and the contacts of the master data. -/
structure State where
  counter : Nat
  master : List Refs.ContactEntry
  deriving DecidableEq

/-- A review without a version, or with major release 0, gets one, :1196-1201. -/
def defaultVersion (v : Option Version) (k : Nat) : Version × Nat :=
  match v with
  | some v => if v.majorRelease = 0 then (⟨1, 0, k, 0⟩, k + 1) else (v, k)
  | none => (⟨1, 0, k, 0⟩, k + 1)

/-- `uuid_from_string` for several reviewers, :1203-1204; `limit` says that the name is checked when it is read (at
most 40 characters). -/
def joinReviewers (limit : Bool) (uuidOf : Str → Str) (names : List Str) (h : Refs.Holder) : Py Refs.Holder :=
  match h.name with
  | none => .ok h
  | some n =>
    if limit ∧ 40 < n.length then .error .valueError
    else if n = join c!"/" names ∧ 1 < names.length then .ok { h with id := some (uuidOf n) }
    else .ok h

/-- The type of the review opens its details, :1153-1160. -/
def typeTexts : Option Str → List Str
  | some t => [c!"Review type: " ++ t]
  | none => []

/-- The conversion of a review, :1153-1226; nothing is added without reviewers. -/
def toEcs (env : Refs.Env) (limit : Bool) (uuidOf : Str → Str) (date : Str → Option Str) (r : IlcdReview) (s : State) :
    Py (Option EcsFilled × State) := do
  let c ← comments date r.details ⟨none, c!"1900-01-01", typeTexts r.type⟩
  let (names, h, m) ← reviewers env r.reviewers ([], ⟨none, none, none⟩, s.master)
  let (v, k) := defaultVersion c.version s.counter
  let h' ← joinReviewers limit uuidOf names h
  .ok (if r.reviewers = [] then none else some ⟨v, c.date, c.texts, h'⟩, ⟨k, m⟩)

/-- All the reviews of a data set; the counter starts with 1 (:1344). -/
def toEcsAll (env : Refs.Env) (limit : Bool) (uuidOf : Str → Str) (date : Str → Option Str) :
    List IlcdReview → State → Py (List EcsFilled × State)
  | [], s => .ok ([], s)
  | r :: l, s => do
    let (e, s') ← toEcs env limit uuidOf date r s
    let (es, s2) ← toEcsAll env limit uuidOf date l s'
    .ok (e.toList ++ es, s2)

end Verif.Reviews
