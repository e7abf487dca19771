/-
Writing of XML files.
Models the calls of `xmltodict.unparse(..., pretty=True, newl='\n', indent="  ")` in
src/Lavoisier/formats/ILCD1_format.py:97-104, formats/ECS2_format.py:31-38 and
conversions/ECS2_to_ILCD1_conversion.py:1458-1463.

`xmltodict` is not part of the package: what is modelled is its function `unparse` (`_emit` and the
`XMLGenerator` of the standard library it drives) for the options of these calls. Attributes are the keys
that begin with `@`, the key `#text` is the text of an element, every other key is a child element, a list
is a row of elements of the same name. The text of an element is written after its children. `escape` and
`quoteattr` are those of `xml.sax.saxutils`.

Simplifications: of iterable values only lists, of texts under `#text` only texts and `None` (`get_dict`
puts `str(v)` there, data_structures/main.py:143). The text of a number is a parameter. Versions of `xmltodict` differ in
whether a child that is an empty list leaves white space in its element (modelled: no) and in how `None` and truth values are
written as attributes (here `str`, a parameter).
-/
import Verif.Model.PyVal
import Verif.Model.Assoc

namespace Verif.XmlWrite

/-- What Python gives as the text of a value that is no text. -/
structure Env where
  str : PyVal → Str

/-- An element to be written: name, attributes, children and the text behind the children. -/
inductive Tree where
  | mk (name : Str) (attrs : List (Str × Str)) (kids : List Tree) (text : Str)

def Tree.name : Tree → Str | .mk n _ _ _ => n
def Tree.attrs : Tree → List (Str × Str) | .mk _ a _ _ => a
def Tree.kids : Tree → List Tree | .mk _ _ k _ => k
def Tree.text : Tree → Str | .mk _ _ _ t => t

/-! ### From the dictionary to elements (`_emit`) -/

/-- The text of an attribute value. -/
def attrText (env : Env) : PyVal → Str
  | .str s => s
  | v => env.str v

/-- The attributes: keys that begin with `@`, without it. -/
def attrsOf (env : Env) : List (Str × PyVal) → List (Str × Str)
  | [] => []
  | (k, v) :: l =>
    match k with
    | '@' :: n => (n, attrText env v) :: attrsOf env l
    | _ => attrsOf env l

/-- The text of an element: `XMLGenerator.characters` takes texts. -/
def cdata : Option PyVal → Py Str
  | none => .ok []
  | some .none => .ok []
  | some (.str s) => .ok s
  | some _ => .error .typeError

/-- A key that is neither an attribute nor the text. -/
def isKid (k : Str) : Bool :=
  match k with
  | '@' :: _ => false
  | _ => !decide (k = c!"#text")

/-- One element after another: the first exception ends the writing. -/
def joined : Py (List Tree) → Py (List Tree) → Py (List Tree)
  | .error e, _ => .error e
  | .ok _, .error e => .error e
  | .ok ts, .ok us => .ok (ts ++ us)

def single : Py Tree → Py (List Tree)
  | .error e => .error e
  | .ok t => .ok [t]

/-- The element of a dictionary. -/
def ofDict (key : Str) (attrs : List (Str × Str)) : Py (List Tree) → Py Str → Py Tree
  | .error e, _ => .error e
  | .ok _, .error e => .error e
  | .ok ks, .ok t => .ok (.mk key attrs ks t)

mutual
/-- One element. -/
def tree (env : Env) (key : Str) : PyVal → Py Tree
  | .dict d => ofDict key (attrsOf env d) (kids env d) (cdata (aget c!"#text" d))
  | .none => .ok (.mk key [] [] [])
  | .bool b => .ok (.mk key [] [] (if b then c!"true" else c!"false"))
  | .str s => .ok (.mk key [] [] s)
  | v => .ok (.mk key [] [] (env.str v))
/-- The elements of the children, in the order of the dictionary: one for each entry of a list. -/
def kids (env : Env) : List (Str × PyVal) → Py (List Tree)
  | [] => .ok []
  | (k, v) :: l =>
    if isKid k then
      joined (match v with
        | .list r => row env k r
        | w => single (tree env k w)) (kids env l)
    else kids env l
/-- The elements of a list. -/
def row (env : Env) (key : Str) : List PyVal → Py (List Tree)
  | [] => .ok []
  | v :: l => joined (single (tree env key v)) (row env key l)
end

/-! ### From elements to text (`XMLGenerator`) -/

/-- `escape`, one character. -/
def escChar (c : Char) : Str :=
  if c = '&' then c!"&amp;" else if c = '<' then c!"&lt;" else if c = '>' then c!"&gt;" else [c]

/-- `escape(text)`. -/
def escape (s : Str) : Str := s.flatMap escChar

/-- `escape(text, {'\n': '&#10;', '\r': '&#13;', '\t': '&#9;'})`, one character. -/
def escAttrChar (c : Char) : Str :=
  if c = '\n' then c!"&#10;" else if c = '\r' then c!"&#13;" else if c = '\t' then c!"&#9;"
  else escChar c

/-- The double quotes of a text that has both kinds. -/
def escQuote (c : Char) : Str := if c = '"' then c!"&quot;" else [c]

/-- `quoteattr(text)`. -/
def quoteattr (s : Str) : Str :=
  let e := s.flatMap escAttrChar
  if '"' ∈ e then
    if '\'' ∈ e then '"' :: (e.flatMap escQuote ++ c!"\"") else '\'' :: (e ++ c!"'")
  else '"' :: (e ++ c!"\"")

def attrsText (attrs : List (Str × Str)) : Str :=
  attrs.flatMap fun a => ' ' :: (a.1 ++ '=' :: quoteattr a.2)

/-- `depth * indent` -/
def indent (depth : Nat) : Str := List.replicate (2 * depth) ' '

mutual
/-- An element from its first to its last bracket, at a depth. -/
def body (depth : Nat) : Tree → Str
  | .mk name attrs ks text =>
    '<' :: (name ++ attrsText attrs ++ '>' ::
      ((if ks.isEmpty then escape text else '\n' :: (lines (depth + 1) ks ++ (escape text ++ indent depth))) ++
        '<' :: '/' :: (name ++ c!">")))
/-- Elements below each other. -/
def lines (depth : Nat) : List Tree → Str
  | [] => []
  | t :: ts => indent depth ++ (body depth t ++ '\n' :: lines depth ts)
end

/-- `startDocument` -/
def header : Str := c!"<?xml version=\"1.0\" encoding=\"utf-8\"?>\n"

/-- `unparse`: a dictionary with one key, whose value is one element. -/
def unparse (env : Env) (doc : List (Str × PyVal)) : Py Str :=
  match doc with
  | [(k, v)] =>
    match (match v with
      | .list r => row env k r
      | w => single (tree env k w)) with
    | .error e => .error e
    | .ok [] => .ok header
    | .ok [t] => .ok (header ++ body 0 t)
    | .ok _ => .error .valueError
  | _ => .error .valueError

end Verif.XmlWrite
