/-
Reading of XML files.
Models src/Lavoisier/formats/utils.py:55-123 (`XMLStreamIterable`).

The parser (`etree.iterparse`) is not modelled: its result is the sequence of start and end events of
a document, and the document given by a tree. Comments and processing instructions are dropped by the
parser. A parsing error ends the reading with an exception of the environment.
-/
import Verif.Model.PyVal
import Verif.Model.Assoc

namespace Verif.Xml

/-- An element of ElementTree: tag and attribute names may begin with a `{namespace}`. -/
inductive Elem where
  | mk (tag : Str) (attrs : List (Str × Str)) (text : Option Str) (children : List Elem) (tail : Option Str)

def Elem.tag : Elem → Str | .mk t _ _ _ _ => t
def Elem.attrs : Elem → List (Str × Str) | .mk _ a _ _ _ => a
def Elem.text : Elem → Option Str | .mk _ _ t _ _ => t
def Elem.children : Elem → List Elem | .mk _ _ _ c _ => c
def Elem.tail : Elem → Option Str | .mk _ _ _ _ t => t

/-- `x.rpartition("}")[-1]`: what follows the last brace, or everything. -/
def afterLast (sep : Char) (s : Str) : Str := (s.reverse.takeWhile (· != sep)).reverse

/-- `x.rpartition("/")[0]`: what precedes the last slash, or nothing. -/
def beforeLast (sep : Char) (s : Str) : Str := ((s.reverse.dropWhile (· != sep)).drop 1).reverse

def localName (tag : Str) : Str := afterLast '}' tag

/-! ### Values (utils.py:68-90) -/

/-- The attributes, :71. -/
def attrEntries (attrs : List (Str × Str)) : List (Str × PyVal) :=
  attrs.foldl (fun d a => aset ('@' :: localName a.1) (.str a.2) d) []

/-- The text of an element is used, :72. -/
def textEntry : Option Str → Option Str
  | none => none
  | some s => if !s.isEmpty && !isSpaceStr s then some s else none

/-- Attributes and text, :70-76. -/
def startDict (attrs : List (Str × Str)) (text : Option Str) (childless : Bool) : List (Str × PyVal) :=
  let d := attrEntries attrs
  match textEntry text with
  | some s => aset c!"#text" (.str s) d
  | none =>
    if childless && (aget c!"@lang" d).isSome && (aget c!"#text" d).isNone then
      aset c!"#text" (.str []) d
    else d

/-- One child, :79-85: a second child with the same name turns the entry into a list. -/
def addChild (d : List (Str × PyVal)) (c : Str × PyVal) : List (Str × PyVal) :=
  match aget c.1 d with
  | some (.list l) => aset c.1 (.list (l ++ [c.2])) d
  | some v => aset c.1 (.list [v, c.2]) d
  | none => aset c.1 c.2 d

/-- :87-88 -/
def collapse (d : List (Str × PyVal)) : PyVal :=
  match d with
  | [(k, v)] => if k = c!"#text" then v else .dict d
  | _ => .dict d

mutual
/-- `elem2dict`, :68-90. -/
def elem2dict : Elem → PyVal
  | .mk _ attrs text children _ =>
    collapse ((childEntries children).foldl addChild (startDict attrs text children.isEmpty))

/-- The names and values of the children. -/
def childEntries : List Elem → List (Str × PyVal)
  | [] => []
  | e :: l => (localName e.tag, elem2dict e) :: childEntries l
end

/-! ### The stream (utils.py:92-117) -/

inductive Event where
  | start (e : Elem)
  | stop (e : Elem)

mutual
/-- The events of `etree.iterparse`. -/
def events : Elem → List Event
  | .mk t a x c y => .start (.mk t a x c y) :: (eventsOf c ++ [.stop (.mk t a x c y)])
def eventsOf : List Elem → List Event
  | [] => []
  | e :: l => events e ++ eventsOf l
end

/-- What is delivered at the end of an element, :97-110. The condition at :98-100 always holds
(`str(None)` is not white space). Attribute names keep their namespace. -/
def deliver (keys : List Str) (path : Str) (e : Elem) : List (Str × PyVal) :=
  (if path ∈ keys then [(path, elem2dict e)] else []) ++
  e.attrs.filterMap fun a =>
    if path ++ c!"/@" ++ a.1 ∈ keys then some (path ++ c!"/@" ++ a.1, .str a.2) else none

/-- One event: the path and what is delivered. -/
def onEvent (keys : List Str) (path : Str) : Event → Str × List (Str × PyVal)
  | .start e => (path ++ c!"/" ++ localName e.tag, [])
  | .stop e => (beforeLast '/' path, deliver keys path e)

/-- `gen_return`, :92-117. -/
def stream (keys : List Str) : Str → List Event → List (Str × PyVal)
  | _, [] => []
  | path, ev :: l => (onEvent keys path ev).2 ++ stream keys (onEvent keys path ev).1 l

/-- All that the iteration over a file yields. -/
def read (keys : List Str) (doc : Elem) : List (Str × PyVal) := stream keys [] (events doc)

end Verif.Xml
