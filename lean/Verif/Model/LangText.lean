/-
Text fields with a language, an index or a name.
Models src/Lavoisier/data_structures/validators/general_validators.py:180-335,
ECS2_validators.py:85-185 and ILCD1_validators.py:42-55.

The `#text` of an entry is itself a validator; the model keeps its text. Sentence splitting
(utils.py:20-50) is the parameter `sent`. Not modelled: the dictionaries given by the caller are
changed in place (`x['#text']` becomes a validator object).
-/
import Verif.Model.Validators
import Verif.Model.TextSplit

namespace Verif.LangText
open Verif.Validators

/-- The class of the `#text` of a field. -/
structure TextCls where
  /-- `separator_add` with this separator, or `_add` (the last text replaces the others). -/
  sep : Option Str
  /-- The limit; none for `Str`. -/
  limit : Option Limit
  /-- Over-long texts are split (`Str` and `UnlimitedString` are not, general_validators.py:243). -/
  splits : Bool

/-- `text.add(y)` on a text that already holds `x`, :18-20 and :47-52. -/
def TextCls.addText (t : TextCls) (x y : Str) : Str :=
  match t.sep with
  | some s => x ++ s ++ y
  | none => y

/-- One entry of the field. -/
structure Entry where
  index : Int
  lang : Str
  text : Str
  deriving DecidableEq

/-! ### Validation of the entries given -/

/-- `x[key]` on a dictionary. -/
def dictGet (key : Str) : List (Str × PyVal) → Option PyVal
  | [] => none
  | (k, v) :: l => if k = key then some v else dictGet key l

/-- The languages allowed: any two characters, or those of a list (ILCD1_validators.py:46). -/
def langOk (langs : Option (List Str)) (s : Str) : Bool :=
  s.length == 2 && match langs with
    | none => true
    | some l => l.contains s

/-- `BasicDictString._validate`, :203-211, for the keys of the class: the text. -/
def validateText (keys : List Str) (x : PyVal) : Py (List (Str × PyVal) × Str) :=
  match x with
  | .dict d =>
    if d.all fun (k, _) => keys.contains k then
      match dictGet c!"#text" d with
      | none => .error .keyError
      | some (.str s) => .ok (d, s)
      | some _ => .error .typeError
    else .error .keyError
  | _ => .error .typeError

/-- `IndexedString._validate`, :262-269. -/
def validateIndex (d : List (Str × PyVal)) : Py Int :=
  match dictGet c!"@index" d with
  | none => .error .keyError
  | some v =>
    match v.toInt with
    | none => .error .valueError
    | some i => .ok i

/-- `MultiLangString._validate`, :285-290, with ILCD1_validators.py:44-48. -/
def validateLang (langs : Option (List Str)) (d : List (Str × PyVal)) : Py Str :=
  match dictGet c!"@lang" d with
  | none => .error .keyError
  | some (.str l) => if langOk langs l then .ok l else .error .valueError
  | some _ => .error .valueError

/-- The `_validate` of multi-language fields. -/
def validateEntry (langs : Option (List Str)) (x : PyVal) : Py Entry :=
  match validateText [c!"@index", c!"@lang", c!"#text"] x with
  | .error e => .error e
  | .ok (d, s) =>
    match validateIndex d with
    | .error e => .error e
    | .ok i =>
      match validateLang langs d with
      | .error e => .error e
      | .ok l => .ok ⟨i, l, s⟩

/-- The `_validate` of fields with an index only (the language is left empty). -/
def validateIndexed (x : PyVal) : Py Entry :=
  match validateText [c!"@index", c!"#text"] x with
  | .error e => .error e
  | .ok (d, s) =>
    match validateIndex d with
    | .error e => .error e
    | .ok i => .ok ⟨i, [], s⟩

/-- A value that is not a list is taken as a list of one, :215-216. -/
def asList : PyVal → List PyVal
  | .list l => l
  | x => [x]

/-- Validation of all the entries given. -/
def validateAll {α : Type} (validate : PyVal → Py α) : List PyVal → Py (List α)
  | [] => .ok []
  | x :: l =>
    match validate x with
    | .error e => .error e
    | .ok a =>
      match validateAll validate l with
      | .error e => .error e
      | .ok r => .ok (a :: r)

/-- A text that is kept, :219. -/
def notBlank (s : Str) : Bool := !s.isEmpty && !isSpaceStr s

/-- `_retrieve`, :213-221. -/
def retrieve (validate : PyVal → Py Entry) (o : PyVal) : Py (List Entry) :=
  match validateAll validate (asList o) with
  | .error e => .error e
  | .ok l => .ok (l.filter fun e => notBlank e.text)

/-! ### Adding -/

/-- The inner loop of `_add`, :229-234: merged into the entry of the same index and language, or
appended. -/
def mergeOne (t : TextCls) : List Entry → Entry → List Entry
  | [], n => [n]
  | m :: x, n =>
    if m.index = n.index ∧ m.lang = n.lang then
      { m with text := t.addText m.text n.text } :: x
    else m :: mergeOne t x n

/-- `_add`, :223-234. -/
def addMerged (t : TextCls) (x : List Entry) (ns : List Entry) : List Entry := ns.foldl (mergeOne t) x

/-- `add` of `IndexedString` and `MultiLangString`, :271-274 and :292-295. -/
def add (t : TextCls) (validate : PyVal → Py Entry) (x : List Entry) (o : PyVal) :
    Py (List Entry) :=
  match retrieve validate o with
  | .error e => .error e
  | .ok ns => .ok (addMerged t x ns)

/-- `add` of `NoLangRestrictionMultiLangString`, :317-321. -/
def addPlain (validate : PyVal → Py Entry) (x : List Entry) (o : PyVal) : Py (List Entry) :=
  match retrieve validate o with
  | .error e => .error e
  | .ok ns => .ok (x ++ ns)

/-- One call, the exception caught by the caller. -/
def tryAdd {α : Type} (add : List α → PyVal → Py (List α)) (x : List α) (o : PyVal) : List α :=
  match add x o with
  | .ok x' => x'
  | .error _ => x

/-- A history of calls. -/
def history {α : Type} (add : List α → PyVal → Py (List α)) (x : List α) (os : List PyVal) : List α :=
  os.foldl (tryAdd add) x

/-! ### Writing -/

/-- The largest length, :244-245. -/
def upper : Limit → Nat
  | .upper n => n
  | .range _ hi => hi

/-- The texts written for one entry, :242-252. -/
def pieces (t : TextCls) (ignore : Bool) (sent : Str → List Str) (s : Str) : Py (List Str) :=
  match t.limit with
  | none => .ok [s]
  | some lim =>
    if t.splits && !ignore && s.length > upper lim then
      match TextSplit.textToList (upper lim) (sent s) with
      | .error e => .error e
      | .ok ps => ps.mapM fun p => limEnd lim ignore (some p)
    else
      match limEnd lim ignore (some s) with
      | .error e => .error e
      | .ok s => .ok [s]

/-- `_end_validate`, :239-253: the other keys of an entry are repeated for each piece. -/
def endValidate {κ : Type} (t : TextCls) (ignore : Bool) (sent : Str → List Str) :
    List (κ × Str) → Py (List (κ × Str))
  | [] => .ok []
  | (k, s) :: l =>
    match pieces t ignore sent s with
    | .error e => .error e
    | .ok ps =>
      match endValidate t ignore sent l with
      | .error e => .error e
      | .ok r => .ok (ps.map (fun p => (k, p)) ++ r)

/-- Python's order on texts. -/
def strLe : Str → Str → Bool
  | [], _ => true
  | _ :: _, [] => false
  | a :: s, b :: t => a < b || (a == b && strLe s t)

def byIndex (a b : Entry) : Bool := a.index ≤ b.index

/-- `d[lang] += ...`, :301, on the dictionary as a list of pairs in order of insertion. -/
def concatLang (d : List (Str × Str)) (e : Entry) : List (Str × Str) :=
  match d with
  | [] => [(e.lang, e.text)]
  | (l, v) :: d =>
    if l = e.lang then (l, if v.isEmpty then v ++ e.text else v ++ (c!"\n" ++ e.text)) :: d
    else (l, v) :: concatLang d e

/-- :298-302 -/
def byLang (x : List Entry) : List (Str × Str) :=
  sortBy (fun a b => strLe a.1 b.1) ((sortBy byIndex x).foldl concatLang [])

/-- `MultiLangString.end`, :297-304: language and text of each entry. -/
def endMulti (t : TextCls) (ignore : Bool) (sent : Str → List Str) (x : List Entry) :
    Py (List (Str × Str)) :=
  endValidate t ignore sent (byLang x)

/-- `IndexedString.end`, :276-279. -/
def endIndexed (t : TextCls) (ignore : Bool) (sent : Str → List Str) (x : List Entry) :
    Py (List (Int × Str)) :=
  endValidate t ignore sent ((sortBy byIndex x).map fun e => (e.index, e.text))

/-- The sort key of `IndexedMultiLangString`, :332. -/
def indexLangKey (e : Entry) : Str := intStr e.index ++ e.lang

/-- `IndexedMultiLangString.end`, :331-335. -/
def endIndexedMulti (t : TextCls) (ignore : Bool) (sent : Str → List Str) (x : List Entry) :
    Py (List ((Int × Str) × Str)) :=
  endValidate t ignore sent ((sortBy (fun a b => strLe (indexLangKey a) (indexLangKey b)) x).map
    fun e => ((e.index, e.lang), e.text))

/-- The first lines of the `end` of fields without language restriction, :324-325. -/
def sortedPlain (x : List Entry) : List (Str × Str) :=
  (sortBy byIndex x).map fun e => (e.lang, e.text)

/-- `NoLangRestrictionMultiLangString.end`, :323-327. -/
def endPlain (t : TextCls) (ignore : Bool) (sent : Str → List Str) (x : List Entry) :
    Py (List (Str × Str)) :=
  endValidate t ignore sent (sortedPlain x)

/-- `String80_NLR.end`, ECS2_validators.py:153-158: longer texts are left out. -/
def endSynonyms (t : TextCls) (ignore : Bool) (sent : Str → List Str) (n : Nat) (x : List Entry) :
    Py (List (Str × Str)) :=
  endValidate t ignore sent ((sortedPlain x).filter fun e => e.2.length ≤ n)

/-- `ExchangeNameString80.end` and `Name.end`, ECS2_validators.py:171-176, 180-185: the first piece
of the first entry; nothing for an empty field. -/
def endName (t : TextCls) (ignore : Bool) (sent : Str → List Str) (x : List Entry) :
    Py (Option (Str × Str)) :=
  match sortedPlain x with
  | [] => .ok none
  | e :: _ =>
    match endValidate t ignore sent [e] with
    | .error e => .error e
    | .ok [] => .error .indexError
    | .ok (p :: _) => .ok (some p)

/-- `ClassificationValueString120.end`, ECS2_validators.py:162-167: the last piece of the last
entry. -/
def endClass (t : TextCls) (ignore : Bool) (sent : Str → List Str) (x : List Entry) :
    Py (Option (Str × Str)) :=
  match (sortedPlain x).getLast? with
  | none => .ok none
  | some e =>
    match endValidate t ignore sent [e] with
    | .error e => .error e
    | .ok ps =>
      match ps.getLast? with
      | none => .error .indexError
      | some p => .ok (some p)

/-- The text classes, general_validators.py:163 and ECS2_validators.py:69-79, ILCD1_validators.py:36-40. -/
def base (n : Nat) : TextCls := ⟨some c!"; ", some (.upper n), true⟩
def uniqueBase (n : Nat) : TextCls := ⟨none, some (.upper n), true⟩
def strCls : TextCls := ⟨none, none, false⟩
def unlimited : TextCls := ⟨some c!"; ", some (.upper 100000000), false⟩
def ilcdString : TextCls := ⟨some c!"; ", some (.range 1 500), true⟩

/-! ### Named texts (ECS2_validators.py:85-130) -/

structure Named where
  name : Str
  text : Str
  deriving DecidableEq

/-- `NamedString._validate`, :105-112: the names held are compared before the name is validated. -/
def validateNamed (x : List Named) (o : PyVal) : Py Named :=
  match validateText [c!"@name", c!"#text"] o with
  | .error e => .error e
  | .ok (d, s) =>
    match dictGet c!"@name" d with
    | none => .error .keyError
    | some v =>
      match v with
      | .str n => if x.any (fun m => m.name == n) then .error .valueError else .ok ⟨n, s⟩
      | _ => .error .typeError

/-- The loop of `NamedString._retrieve`, :91-103; `dupl` are the names seen. -/
def retrieveNamed (x : List Named) : List Str → List PyVal → Py (List Named)
  | _, [] => .ok []
  | dupl, o :: l =>
    match validateNamed x o with
    | .error e => .error e
    | .ok r =>
      if r.name ∈ dupl then .error .valueError
      else
        match retrieveNamed x (dupl ++ [r.name]) l with
        | .error e => .error e
        | .ok rs => .ok (if notBlank r.text then r :: rs else rs)

/-- `NamedString.add`, :114-118. -/
def addNamed (x : List Named) (o : PyVal) : Py (List Named) :=
  match retrieveNamed x [] (asList o) with
  | .error e => .error e
  | .ok ns => .ok (x ++ ns)

/-- `NamedString.end`, :120-127. -/
def endNamed (t : TextCls) (ignore : Bool) (sent : Str → List Str) (x : List Named) :
    Py (List (Str × Str)) :=
  endValidate t ignore sent (x.map fun n => (n.name, n.text))

end Verif.LangText
