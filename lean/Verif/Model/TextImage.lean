/-
Comments of an EcoSpold2 data set (texts with variables, and images) on their way to ILCD.
Models src/Lavoisier/conversions/ECS2_to_ILCD1_conversion.py:2118-2160 (`ECS2TTextAndImage`), the icon of a data set,
:2216-2227, and src/Lavoisier/formats/helpers.py:119-125 (`ECS2Helper.get_text_uuid`).

Simplifications: of a text only `#text` is looked at, its other keys (index and language) are an arbitrary value that is
carried along. The random generator is a parameter: `rdn.seed(n)` followed by `getrandbits(128)` and the writing of
the UUID is a function of `n`. CPython refuses to read numbers of more than 4300 digits since version 3.11; here
every number is read, so addresses of more than about 1400 characters are not covered.
-/
import Verif.Model.IlcdVars
import Verif.Model.Validators
import Verif.Model.Refs

namespace Verif.TextImage
open IlcdVars (replaceAll)
open Validators (Re patternValidate uuidRe)

/-! ## Variables -/

/-- A text: what is carried along and `#text`, which a blank element does not have. -/
structure Text (T : Type) where
  tag : T
  text : Option Str
  deriving DecidableEq

/-- A variable of a comment: `@name` and `#text`. -/
structure VarElem where
  name : Option Str
  text : Option Str
  deriving DecidableEq

/-- `k["@name"], k["#text"]`, :2132. -/
def readVar (v : VarElem) : Py (Str × Str) :=
  match v.name with
  | none => .error .keyError
  | some n =>
    match v.text with
    | none => .error .keyError
    | some t => .ok (n, t)

/-- `[(k["@name"], k["#text"]) for k in …]`, :2132. -/
def readVars : List VarElem → Py (List (Str × Str))
  | [] => .ok []
  | v :: l => do
    let p ← readVar v
    let ps ← readVars l
    .ok (p :: ps)

/-- How a variable is written in a text, :2137. -/
def mark (n : Str) : Str := c!"{{" ++ n ++ c!"}}"

/-- The loop over the variables, :2136-2137. -/
def subst : List (Str × Str) → Str → Str
  | [], t => t
  | (n, v) :: l, t => subst l (replaceAll (mark n) v t)

/-- One text, :2136-2138: `#text` is only looked at if there are variables. -/
def doText {T : Type} (vars : List (Str × Str)) (t : Text T) : Py (Text T) :=
  match vars with
  | [] => .ok t
  | vars =>
    match t.text with
    | none => .error .keyError
    | some s => .ok { t with text := some (subst vars s) }

/-! ## Identifiers -/

/-- `[A-z0-9]`: the codes from `A` to `z` (between the letters also ``[ \ ] ^ _ ` ``) and the digits. -/
def idChar (c : Char) : Bool := ('A' ≤ c && c ≤ 'z') || ('0' ≤ c && c ≤ '9')

/-- The pattern of helpers.py:121. -/
def idRe : Re :=
  let h := Re.cls idChar
  .seq [h.times 8, .lit '-', h.times 4, .lit '-', h.times 4, .lit '-', h.times 4, .lit '-', h.times 12]

/-- `re.search(…).group(0)`: the first match; it has 36 characters. -/
def findId : Str → Option Str
  | [] => none
  | c :: s => if idRe.isMatch (c :: s) then some ((c :: s).take 36) else findId s

/-- `''.join([str(ord(c)) for c in field])`, helpers.py:124. -/
def codes (s : Str) : Str := s.flatMap fun c => natStr c.toNat

/-- `get_text_uuid`, helpers.py:119-125. -/
def textUuid (rnd : Nat → Str) (s : Str) : Py Str :=
  match findId s with
  | some u => .ok u
  | none =>
    match parseNat (codes s) with
    | none => .error .valueError
    | some n => .ok (rnd n)

/-! ## Images -/

/-- The file of an image, ECS2_to_ILCD1_conversion.py:2143-2147. -/
structure Info where
  reference : Str
  link : Str
  classification : Str
  deriving DecidableEq

/-- The references of the data set and the files of sources written so far. -/
structure St where
  refs : List Refs.Ref
  files : List (Str × Info)
  deriving DecidableEq

/-- A source for an address, :2148-2151 and 2218-2227: the identifier goes through the field `refObjectId`, which is a
UUID, :1593; the file is written if the identifier is new, :1620-1624; the reference is added to the data set. -/
def addSource (rnd : Nat → Str) (short reference : Str) (s : St) (url : Str) : Py St := do
  let u ← textUuid rnd url
  let u ← patternValidate uuidRe (.str u)
  .ok ⟨s.refs ++ [Refs.written c!"sources" u short], Refs.make s.files (u, ⟨reference, url, c!"Images"⟩)⟩

/-- One image, :2140-2151. -/
def doImage (rnd : Nat → Str) (field : Str) (s : St) (i : Option Str) : Py St :=
  match i with
  | none => .error .keyError
  | some url => addSource rnd (c!"Image URL from " ++ field) c!"Image URL" s url

/-- The icon of the data set, :2216-2227. -/
def doIcon (rnd : Nat → Str) (s : St) (url : Str) : Py St :=
  addSource rnd c!"Dataset Icon" c!"Dataset Icon" s url

/-! ## The comment -/

/-- The entries of the dictionary of a comment, in the order of the document. -/
inductive Block (T : Type) where
  | texts (l : List (Text T))
  | images (l : List (Option Str))
  | variables (l : List VarElem)

/-- `self._x['variable']`, :2131. -/
def variablesOf {T : Type} : List (Block T) → List VarElem
  | [] => []
  | .variables l :: _ => l
  | _ :: bs => variablesOf bs

def doTexts {T : Type} (vars : List (Str × Str)) : List (Text T) → Py (List (Text T))
  | [] => .ok []
  | t :: l => do
    let t ← doText vars t
    let l ← doTexts vars l
    .ok (t :: l)

def doImages (rnd : Nat → Str) (field : Str) : St → List (Option Str) → Py St
  | s, [] => .ok s
  | s, i :: l => do
    let s ← doImage rnd field s i
    doImages rnd field s l

/-- The loop over the entries, :2133-2151. -/
def blocks {T : Type} (rnd : Nat → Str) (field : Str) (vars : List (Str × Str)) :
    List (Text T) × St → List (Block T) → Py (List (Text T) × St)
  | p, [] => .ok p
  | (ts, s), .texts l :: bs => do
    let l ← doTexts vars l
    blocks rnd field vars (ts ++ l, s) bs
  | (ts, s), .images l :: bs => do
    let s ← doImages rnd field s l
    blocks rnd field vars (ts, s) bs
  | p, .variables _ :: bs => blocks rnd field vars p bs

/-- `ILCDProcess`, :2129-2153: the texts collected and the references made. -/
def process {T : Type} (rnd : Nat → Str) (field : Str) (s : St) (bs : List (Block T)) : Py (List (Text T) × St) := do
  let vars ← readVars (variablesOf bs)
  blocks rnd field vars ([], s) bs

end Verif.TextImage
