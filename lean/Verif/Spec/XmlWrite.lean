/-
What writing and reading a data set as XML should mean.
-/
import Verif.Model.XmlWrite
import Verif.Model.XmlParse

namespace Verif.XmlWrite.Spec
open Verif.XmlParse

/-- A name of XML. -/
def IsName : Str → Prop
  | [] => False
  | c :: l => nameStart c = true ∧ ∀ x ∈ l, nameChar x = true

instance : DecidablePred IsName
  | [] => isFalse id
  | c :: l => inferInstanceAs (Decidable (nameStart c = true ∧ ∀ x ∈ l, nameChar x = true))

mutual
/-- Every element and every attribute has a name, and no attribute is given twice. -/
def Named : Tree → Prop
  | .mk n a ks _ => IsName n ∧ (∀ x ∈ a, IsName x.1) ∧ (a.map Prod.fst).Nodup ∧ NamedAll ks
def NamedAll : List Tree → Prop
  | [] => True
  | t :: ts => Named t ∧ NamedAll ts
end

mutual
/-- Every text and every value consists of characters XML allows. -/
def Plain : Tree → Prop
  | .mk _ a ks t => (∀ x ∈ a, x.2.all xmlChar = true) ∧ t.all xmlChar = true ∧ PlainAll ks
def PlainAll : List Tree → Prop
  | [] => True
  | t :: ts => Plain t ∧ PlainAll ts
end

mutual
/-- The elements with their ends of lines as XML reads them. -/
def newlines : Tree → Tree
  | .mk n a ks t => .mk n a (newlinesAll ks) (normNl t)
def newlinesAll : List Tree → List Tree
  | [] => []
  | t :: ts => newlines t :: newlinesAll ts
end

mutual
/-- The same names, attributes, children and texts: `e` is the element `t` with white space between
its children. The text of an element with children stands behind the last of them. -/
inductive Same : Tree → Xml.Elem → Prop
  /-- An element without children has its text. -/
  | leaf (n a t tail) : Same (.mk n a [] t) (.mk n a (if t.isEmpty then none else some t) [] tail)
  /-- An element with children has white space in front of them. -/
  | node (n a k ks t x c tail) : x.all xmlSpace = true → SameAll t (k :: ks) c →
      Same (.mk n a (k :: ks) t) (.mk n a (some x) c tail)
/-- The children; white space between them, and the text at the end, between white space. -/
inductive SameAll : Str → List Tree → List Xml.Elem → Prop
  | last (t k e x y) : Same k e → x.all xmlSpace = true → y.all xmlSpace = true →
      e.tail = some (x ++ t ++ y) → SameAll t [k] [e]
  | cons (t k l ks e es x) : Same k e → x.all xmlSpace = true → e.tail = some x →
      SameAll t (l :: ks) es → SameAll t (k :: l :: ks) (e :: es)
end

/-! ### Dictionaries -/

/-- What follows the colon of a name. -/
def localPart (n : Str) : Str := (splitName n).2

/-- What precedes the colon of a name. -/
def prefixPart (n : Str) : Str := (splitName n).1

/-- A name with one colon at most, whose prefix is one of those that are declared. -/
def Qualified (ps : List Str) (n : Str) : Prop :=
  IsName n ∧ IsName (localPart n) ∧ ':' ∉ localPart n ∧
    ((prefixPart n = [] ∧ localPart n = n) ∨ (prefixPart n ≠ [] ∧ prefixPart n ∈ ps))

instance (ps : List Str) (n : Str) : Decidable (Qualified ps n) := inferInstanceAs (Decidable (_ ∧ _ ∧ _ ∧ _))

/-- The names of the attributes of a dictionary. -/
def attrKeys : List (Str × PyVal) → List Str
  | [] => []
  | (k, _) :: l =>
    match k with
    | '@' :: n => n :: attrKeys l
    | _ => attrKeys l

/-- The prefixes its attributes declare. -/
def declared (d : List (Str × PyVal)) : List Str := (attrKeys d).filterMap declares

/-- The attributes that are no declarations. -/
def plainKeys (d : List (Str × PyVal)) : List Str := (attrKeys d).filter fun k => (declares k).isNone

/-- The names of the children. -/
def kidKeys (d : List (Str × PyVal)) : List Str := (d.map Prod.fst).filter isKid

/-- `#text` is a text. -/
def textFit : Option PyVal → Bool
  | none => true
  | some .none => true
  | some (.str _) => true
  | some _ => false

/-- A list. -/
def isList : PyVal → Bool
  | .list _ => true
  | _ => false

mutual
/-- A dictionary that stands for an element: every key once, names of XML with declared prefixes, and no two
attributes and no two kinds of children that differ only in their prefixes. A list holds no lists. -/
def fits (ps : List Str) : PyVal → Bool
  | .dict d =>
    decide ((d.map Prod.fst).Nodup) && decide (∀ k ∈ attrKeys d, IsName k) &&
    decide (∀ k ∈ plainKeys d, Qualified (declared d ++ ps) k) &&
    decide (((plainKeys d).map localPart).Nodup) && decide (((kidKeys d).map localPart).Nodup) &&
    textFit (aget c!"#text" d) && kidsFit (declared d ++ ps) d
  | .list l => rowFits ps l
  | _ => true
def kidsFit (ps : List Str) : List (Str × PyVal) → Bool
  | [] => true
  | (k, v) :: l => (!isKid k || (decide (Qualified ps k) && fits ps v)) && kidsFit ps l
def rowFits (ps : List Str) : List PyVal → Bool
  | [] => true
  | v :: l => !isList v && fits ps v && rowFits ps l
end

/-- The text of a value that is no dictionary. -/
def textOf (env : Env) : PyVal → Str
  | .none => []
  | .bool b => if b then c!"true" else c!"false"
  | .str s => s
  | v => env.str v

mutual
/-- All texts and values of attributes that are written. -/
def written (env : Env) : PyVal → List Str
  | .dict d => writtenIn env d
  | .list l => writtenAll env l
  | v => [textOf env v]
def writtenIn (env : Env) : List (Str × PyVal) → List Str
  | [] => []
  | (k, v) :: l =>
    (match k with
      | '@' :: _ => [attrText env v]
      | _ => if k = c!"#text" then [textOf env v] else written env v) ++ writtenIn env l
def writtenAll (env : Env) : List PyVal → List Str
  | [] => []
  | v :: l => written env v ++ writtenAll env l
end

/-- A text with more than white space. -/
def visible (s : Str) : Bool := s.any fun c => !pySpace c

/-- The attributes as they are read: the local names, without the declarations. -/
def attrsBack (env : Env) : List (Str × PyVal) → List (Str × PyVal)
  | [] => []
  | (k, v) :: l =>
    match k with
    | '@' :: n =>
      if (declares n).isSome then attrsBack env l
      else ('@' :: localPart n, .str (attrText env v)) :: attrsBack env l
    | _ => attrsBack env l

/-- The text of an element without children as it is read: nothing for white space, but the empty text
beside a language. -/
def textBack (as : List (Str × PyVal)) (s : Str) : List (Str × PyVal) :=
  if visible s then [(c!"#text", .str (normNl s))]
  else if c!"@lang" ∈ as.map Prod.fst then [(c!"#text", .str [])] else []

/-- A text alone stands for the element. -/
def alone : List (Str × PyVal) → PyVal
  | [(k, v)] => if k = c!"#text" then v else .dict [(k, v)]
  | d => .dict d

/-- The values of one name: one, or a list. -/
def group (k : Str) : List PyVal → List (Str × PyVal)
  | [] => []
  | [w] => [(k, w)]
  | ws => [(k, .list ws)]

mutual
/-- What is read of a value that was written as an element. -/
def back (env : Env) : PyVal → PyVal
  | .dict d =>
    let ks := backKids env d
    alone (attrsBack env d ++ (if ks.isEmpty then textBack (attrsBack env d) (textOf env ((aget c!"#text" d).getD .none)) else []) ++ ks)
  | v => alone (textBack [] (textOf env v))
/-- The children: by their local names, a list for two or more, nothing for an empty list. -/
def backKids (env : Env) : List (Str × PyVal) → List (Str × PyVal)
  | [] => []
  | (k, v) :: l =>
    (if isKid k then
      group (localPart k) (match v with
        | .list r => backRow env r
        | w => [back env w])
    else []) ++ backKids env l
def backRow (env : Env) : List PyVal → List PyVal
  | [] => []
  | v :: l => back env v :: backRow env l
end

/-- An entry of a field of texts: `end` of the classes of general_validators.py:180-334 and ECS2_validators.py:113-186 gives
dictionaries with some of these keys. -/
def TextEntry (d : List (Str × PyVal)) : Prop :=
  (d.map Prod.fst).Nodup ∧ (∀ k ∈ d.map Prod.fst, k ∈ [c!"@xml:lang", c!"@index", c!"@name", c!"#text"]) ∧
    ∀ v, aget c!"#text" d = some v → ∃ s, v = .str s

/-- Neither a dictionary nor a list. -/
def isScalar : PyVal → Bool
  | .dict _ => false
  | .list _ => false
  | _ => true

/-- What a field gives: a number, a text, an entry, or a list of them. -/
inductive FieldValue : PyVal → Prop
  | scalar (v) : isScalar v = true → FieldValue v
  | entry (d) : TextEntry d → FieldValue (.dict d)
  | list (l) : (∀ v ∈ l, isScalar v = true ∨ ∃ d, v = .dict d ∧ TextEntry d) → FieldValue (.list l)

/-! ### Paths -/

/-- The entries of a list, or the value itself. -/
def entriesOf : PyVal → List PyVal
  | .list l => l
  | v => [v]

/-- The children of a value, one by one. -/
def children : PyVal → List (Str × PyVal)
  | .dict d => (d.filter fun x => isKid x.1).flatMap fun x => (entriesOf x.2).map fun w => (x.1, w)
  | _ => []

/-- The values reached by a path of names. -/
def reach : List Str → List (Str × PyVal) → List PyVal
  | [], _ => []
  | [n], l => (l.filter fun x => localPart x.1 = n).map Prod.snd
  | n :: m :: ns, l => (l.filter fun x => localPart x.1 = n).flatMap fun x => reach (m :: ns) (children x.2)

end Verif.XmlWrite.Spec
