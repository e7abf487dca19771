/-
Reading the text of an XML file, as `etree.iterparse` does for
src/Lavoisier/formats/utils.py:57-64 and `xmltodict.parse` for conversions/ECS2_to_ILCD1_conversion.py:1542-1575.

The parser (expat, with the tree builder of ElementTree) is not part of the package: this is XML 1.0 and the
namespaces of XML for documents of elements, attributes, texts and references to characters. Comments, processing instructions,
CDATA sections, document types and names outside ASCII are left out: here a document with one of them is an
error. The file is read in text mode, so that its characters are given.
-/
import Verif.Model.XmlStream

namespace Verif.XmlParse
open Verif.Xml (Elem)

/-- A character that may stand in a document (XML 1.0, production 2). -/
def xmlChar (c : Char) : Bool :=
  let n := c.toNat
  n == 9 || n == 10 || n == 13 || (32 ≤ n && n ≤ 0xd7ff) || (0xe000 ≤ n && n ≤ 0xfffd) || 0x10000 ≤ n

/-- White space of XML (production 3). -/
def xmlSpace (c : Char) : Bool := c == ' ' || c == '\t' || c == '\n' || c == '\r'

/-- The ends of lines (XML 1.0, 2.11): `\r\n` and `\r` are read as `\n`. -/
def normNl : Str → Str
  | [] => []
  | '\r' :: '\n' :: l => '\n' :: normNl l
  | '\r' :: l => '\n' :: normNl l
  | c :: l => c :: normNl l

def letter (c : Char) : Bool := ('a' ≤ c && c ≤ 'z') || ('A' ≤ c && c ≤ 'Z')
def digit (c : Char) : Bool := '0' ≤ c && c ≤ '9'

/-- Characters of names (productions 4 and 4a, within ASCII). -/
def nameStart (c : Char) : Bool := letter c || c == '_' || c == ':'
def nameChar (c : Char) : Bool := nameStart c || digit c || c == '-' || c == '.'

/-- A name and what follows it. -/
def takeName (s : Str) : Option (Str × Str) :=
  match s.takeWhile nameChar with
  | [] => none
  | c :: n => if nameStart c then some (c :: n, s.dropWhile nameChar) else none

/-- The number written with digits of a base. -/
def number (base : Nat) : Nat → Str → Option Nat
  | acc, [] => some acc
  | acc, c :: l =>
    if digit c then number base (acc * base + (c.toNat - 48)) l
    else if base = 16 && 'a' ≤ c && c ≤ 'f' then number base (acc * base + (c.toNat - 87)) l
    else if base = 16 && 'A' ≤ c && c ≤ 'F' then number base (acc * base + (c.toNat - 55)) l
    else none

/-- The character of a number. -/
def charOf (n : Nat) : Option Char :=
  if h : n.isValidChar then
    if xmlChar (Char.ofNatAux n h) then some (Char.ofNatAux n h) else none
  else none

/-- The character of a reference (productions 66 and 68, 4.6). -/
def refChar (name : Str) : Option Char :=
  if name = c!"amp" then some '&'
  else if name = c!"lt" then some '<'
  else if name = c!"gt" then some '>'
  else if name = c!"quot" then some '"'
  else if name = c!"apos" then some '\''
  else match name with
    | '#' :: 'x' :: c :: l => (number 16 0 (c :: l)).bind charOf
    | '#' :: c :: l => (number 10 0 (c :: l)).bind charOf
    | _ => none

/-- A text with its references replaced; `ref` are the characters of a reference begun, last first. -/
def decode : Option Str → Str → Option Str
  | none, [] => some []
  | some _, [] => none
  | none, c :: l => if c = '&' then decode (some []) l else (decode none l).map (c :: ·)
  | some r, c :: l =>
    if c = ';' then
      match refChar r.reverse with
      | none => none
      | some x => (decode none l).map (x :: ·)
    else decode (some (c :: r)) l

/-- Character data up to the next tag (production 14). -/
def chars (s : Str) : Option (Str × Str) :=
  if isInfix c!"]]>" (s.takeWhile (· != '<')) then none
  else (decode none (s.takeWhile (· != '<'))).map fun t => (t, s.dropWhile (· != '<'))

/-- White space in the value of an attribute (3.3.3). -/
def attrSpace (c : Char) : Char := if xmlSpace c then ' ' else c

/-- The value of an attribute, from its quote on (production 10). -/
def attrValue : Str → Option (Str × Str)
  | [] => none
  | q :: s =>
    if q = '"' ∨ q = '\'' then
      if '<' ∈ s.takeWhile (· != q) then none
      else match s.dropWhile (· != q) with
        | [] => none
        | _ :: r => (decode none ((s.takeWhile (· != q)).map attrSpace)).map fun v => (v, r)
    else none

/-- The attributes of a tag up to `>` or `/`, each name once (production 40). -/
def attributes : Nat → Str → Option (List (Str × Str) × Str)
  | 0, _ => none
  | n + 1, s =>
    match s.dropWhile xmlSpace with
    | [] => none
    | c :: r =>
      if c = '>' ∨ c = '/' then some ([], c :: r)
      else if s.takeWhile xmlSpace = [] then none
      else
        match takeName (c :: r) with
        | none => none
        | some (k, r1) =>
          match r1.dropWhile xmlSpace with
          | [] => none
          | e :: r2 =>
            if e = '=' then
              match attrValue (r2.dropWhile xmlSpace) with
              | none => none
              | some (v, r3) =>
                match attributes n r3 with
                | none => none
                | some (l, r4) => if k ∈ l.map Prod.fst then none else some ((k, v) :: l, r4)
            else none

/-- ElementTree: no text is `None`. -/
def someText (s : Str) : Option Str := if s.isEmpty then none else some s

def setTail (tail : Str) : Elem → Elem
  | .mk t a x c _ => .mk t a x c (someText tail)

/-- The end tag of an element (production 42). -/
def endTag (name : Str) (s : Str) : Option Str :=
  match s with
  | '<' :: '/' :: r =>
    match takeName r with
    | none => none
    | some (k, r1) =>
      if k = name then
        match r1.dropWhile xmlSpace with
        | [] => none
        | c :: r2 => if c = '>' then some r2 else none
      else none
  | _ => none

mutual
/-- An element (production 39); names as they are written. The number bounds the steps. -/
def element : Nat → Str → Option (Elem × Str)
  | 0, _ => none
  | n + 1, s =>
    match s with
    | '<' :: r =>
      match takeName r with
      | none => none
      | some (name, r1) =>
        match attributes r1.length r1 with
        | none => none
        | some (as, '/' :: '>' :: r2) => some (.mk name as none [] none, r2)
        | some (as, '>' :: r2) =>
          match content n r2 with
          | none => none
          | some (t, ks, r3) => (endTag name r3).map fun r4 => (.mk name as (someText t) ks none, r4)
        | some _ => none
    | _ => none
/-- The content of an element up to its end tag (production 43): text, and children with their tails. -/
def content : Nat → Str → Option (Str × List Elem × Str)
  | 0, _ => none
  | n + 1, s =>
    match chars s with
    | none => none
    | some (t, r) =>
      match r with
      | '<' :: '/' :: _ => some (t, [], r)
      | _ =>
        match element n r with
        | none => none
        | some (e, r1) =>
          match content n r1 with
          | none => none
          | some (tail, ks, r2) => some (t, setTail tail e :: ks, r2)
end

/-- The declaration at the beginning of a document. -/
def declaration : Str := c!"<?xml version=\"1.0\" encoding=\"utf-8\"?>"

/-- A document, with names as they are written. -/
def document (s : Str) : Option Elem :=
  let s := normNl s
  if s.all xmlChar then
    let r := (if startsWith declaration s then s.drop declaration.length else s).dropWhile xmlSpace
    match element (r.length + 1) r with
    | some (e, rest) => if rest.all xmlSpace then some e else none
    | none => none
  else none

/-! ### Namespaces -/

/-- Prefix and local part of a name. -/
def splitName (n : Str) : Str × Str :=
  match n.dropWhile (· != ':') with
  | [] => ([], n)
  | _ :: l => (n.takeWhile (· != ':'), l)

/-- The prefix declared by an attribute: nothing for the default namespace. -/
def declares (k : Str) : Option Str :=
  if k = c!"xmlns" then some []
  else if startsWith c!"xmlns:" k then some (k.drop 6)
  else none

/-- The bindings in force within an element. -/
def bindings (ctx : List (Str × Str)) (attrs : List (Str × Str)) : List (Str × Str) :=
  attrs.filterMap (fun a => (declares a.1).map fun p => (p, a.2)) ++ ctx

/-- The name of an element in the form `{namespace}local`. -/
def tagName (ctx : List (Str × Str)) (n : Str) : Option Str :=
  match aget (splitName n).1 ctx with
  | some uri => if uri = [] then some (splitName n).2 else some ('{' :: (uri ++ '}' :: (splitName n).2))
  | none => if (splitName n).1 = [] then some (splitName n).2 else none

/-- The name of an attribute: without a prefix it belongs to no namespace. -/
def attrName (ctx : List (Str × Str)) (n : Str) : Option Str :=
  if (splitName n).1 = [] then some n
  else (aget (splitName n).1 ctx).map fun uri => '{' :: (uri ++ '}' :: (splitName n).2)

/-- The attributes that are no declarations. -/
def attrNames (ctx : List (Str × Str)) : List (Str × Str) → Option (List (Str × Str))
  | [] => some []
  | (k, v) :: l =>
    if (declares k).isSome then attrNames ctx l
    else
      match attrName ctx k, attrNames ctx l with
      | some n, some r => if n ∈ r.map Prod.fst then none else some ((n, v) :: r)
      | _, _ => none

mutual
/-- Names with their namespaces; a prefix that is not bound and an attribute given twice are errors. -/
def resolve (ctx : List (Str × Str)) : Elem → Option Elem
  | .mk t a x c y =>
    match tagName (bindings ctx a) t, attrNames (bindings ctx a) a, resolves (bindings ctx a) c with
    | some t', some a', some c' => some (.mk t' a' x c' y)
    | _, _, _ => none
def resolves (ctx : List (Str × Str)) : List Elem → Option (List Elem)
  | [] => some []
  | e :: l =>
    match resolve ctx e, resolves ctx l with
    | some e', some l' => some (e' :: l')
    | _, _ => none
end

/-- The prefix `xml` is always bound. -/
def xmlNs : List (Str × Str) := [(c!"xml", c!"http://www.w3.org/XML/1998/namespace")]

/-- The tree of a file: a `ParseError` stands for everything the parser does not take. -/
def parse (s : Str) : Py Elem :=
  match (document s).bind (resolve xmlNs) with
  | some e => .ok e
  | none => .error (.other 1)

end Verif.XmlParse
