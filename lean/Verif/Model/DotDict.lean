/-
The data set tree filled by the conversions.
Models src/Lavoisier/data_structures/main.py:41-147 (`DotDict`).

Field classes (`VALID` tables) are a parameter `Schema`. Validators (leaf fields) are a parameter
`Validators`: a state, an `add` that returns the new state or an exception, and an `end`. In the
code `add` is applied to the stored object in place, but every `add` of
validators/general_validators.py validates before it changes the object, so that a failing `add`
leaves it unchanged; this is what the functional signature expresses.

Simplifications: Python object identity is not modelled. A nested `DotDict` handed over with an
assignment is stored as a value, and nested objects are changed through paths from the root
(`a.b.c = v`), which is how the field mappings write.
-/
import Verif.Py

namespace Verif.DotDict

abbrev Key := Str
abbrev Cls := Str

/-- The `type` of a field: a validator class or a `DotDict` class. -/
inductive FType (K : Type) where
  | leaf (k : K)
  | sub (c : Cls)
  deriving DecidableEq, Repr

/-- One entry of a `VALID` table. `unique` is `VALID[key].get('unique', False)`. -/
structure Field (K : Type) where
  type : FType K
  mandatory : Bool
  order : Nat
  unique : Bool
  xmlType : Option Str
  xmlNms : Option Str
  deriving DecidableEq, Repr

/-- The `VALID` table of every class. -/
abbrev Schema (K : Type) := Cls → List (Key × Field K)

/-- Interface of the validator classes: kinds `K`, states `V`, inputs `R`, written values `O`. -/
structure Validators (K V R O : Type) where
  init : K → V
  add : K → V → R → Py V
  fin : V → Py O
  /-- `str(v)` for fields with `xml_type` text (main.py:143) -/
  str : O → O

variable {K V R O : Type}

/- A `DotDict` instance: its class and its items in insertion order. A value is a validator object
or a list of nested instances (main.py:81-82 and 117 always store lists). -/
mutual
inductive Node (V : Type) : Type where
  | mk (cls : Cls) (items : List (Key × Val V))
inductive Val (V : Type) : Type where
  | leaf (v : V)
  | nodes (l : List (Node V))
end

def Node.cls : Node V → Cls | .mk c _ => c
def Node.items : Node V → List (Key × Val V) | .mk _ l => l

/-- `dict.get(key)` -/
def lookup {α : Type} (k : Key) : List (Key × α) → Option α
  | [] => none
  | (k', v) :: l => if k' = k then some v else lookup k l

/-- `dict[key] = v`: replace in place, or append. -/
def dictSet {α : Type} (k : Key) (v : α) : List (Key × α) → List (Key × α)
  | [] => [(k, v)]
  | (k', v') :: l => if k' = k then (k, v) :: l else (k', v') :: dictSet k v l

/-- Truth value of a stored entry: validator objects are true, lists unless empty. -/
def Val.truthy : Val V → Bool
  | .leaf _ => true
  | .nodes l => !l.isEmpty

/- An assigned value: an input of a validator, a plain dict (whose values are lists of values; a
single value is the one-element list), a `DotDict` instance, or `None`. -/
mutual
inductive Arg (V R : Type) : Type where
  | raw (r : R)
  | dict (items : List (Key × List (Arg V R)))
  | node (n : Node V)
  | absent
end

/-- main.py:65: drop a leading `@` or `#` (IndexError on the empty key). -/
def normKey : Key → Option Key
  | [] => none
  | c :: k => if c = '@' ∨ c = '#' then some k else some (c :: k)

/-- The uniqueness test at main.py:73-75. -/
def blocked (f : Field K) (n : Node V) (k : Key) : Bool :=
  f.unique && (match lookup k n.items with
    | some v => v.truthy
    | none => false)

/-- Leaf value assigned: main.py:77-79. What `copy(v)`/`copy(dict(v))` hands to `add` is the raw
input; a plain dict or a `DotDict` given to a validator is turned into an input by `asRaw`. -/
def addLeaf (vs : Validators K V R O) (k : Key) (kind : K) (n : Node V) (r : R) :
    Node V × Option PyErr :=
  let old := match lookup k n.items with
    | some (.leaf v) => v
    | _ => vs.init kind
  match vs.add kind old r with
  | .ok v => (.mk n.cls (dictSet k (.leaf v) n.items), none)
  | .error e => (n, some e)

/-- Nested instance appended: main.py:82. -/
def addNode (k : Key) (n : Node V) (child : Node V) : Node V :=
  let old := match lookup k n.items with
    | some (.nodes l) => l
    | _ => []
  .mk n.cls (dictSet k (.nodes (old ++ [child])) n.items)

mutual
/-- `T(v)` for a plain dict `v`: main.py:50-56. The first failing key stops the construction. The
body is `setItem` (below) written out, to keep the recursion structural. -/
def build (S : Schema K) (vs : Validators K V R O) (asRaw : Arg V R → R) :
    List (Key × List (Arg V R)) → Node V → Node V × Option PyErr
  | [], n => (n, none)
  | (k, as) :: l, n =>
    match normKey k with
    | none => (n, some .indexError)
    | some key =>
      match lookup key (S n.cls) with
      | none => (n, some .attributeError)
      | some f =>
        match setLoop S vs asRaw key f as n with
        | (n', none) => build S vs asRaw l n'
        | (n', some e) => (n', some e)

/-- The loop over the values, main.py:72-82. The effects of the values before a failing one stay. -/
def setLoop (S : Schema K) (vs : Validators K V R O) (asRaw : Arg V R → R) (key : Key)
    (f : Field K) : List (Arg V R) → Node V → Node V × Option PyErr
  | [], n => (n, none)
  | a :: as, n =>
    if blocked f n key then (n, some .valueError)                           -- :73-75
    else
      match f.type with
      | .leaf kind =>
        match addLeaf vs key kind n (asRaw a) with
        | (n', none) => setLoop S vs asRaw key f as n'
        | (n', some e) => (n', some e)
      | .sub c =>
        match construct S vs asRaw c a with
        | .ok child => setLoop S vs asRaw key f as (addNode key n child)
        | .error e => (n, some e)

/-- `self.VALID[key]['type'](v)`, main.py:43-61: an instance is taken as it is, whatever its class;
a plain dict is read key by key; `None` gives an empty instance (:50-51); anything else is a
TypeError. -/
def construct (S : Schema K) (vs : Validators K V R O) (asRaw : Arg V R → R) (c : Cls) :
    Arg V R → Py (Node V)
  | .node m => .ok m
  | .dict items =>
    match build S vs asRaw items (.mk c []) with
    | (m, none) => .ok m
    | (_, some e) => .error e
  | .absent => .ok (.mk c [])
  | .raw _ => .error .typeError
end

/-- `self[key] = value`, main.py:63-84; `as` is the value after line 69-70. -/
def setItem (S : Schema K) (vs : Validators K V R O) (asRaw : Arg V R → R) (n : Node V) (k : Key)
    (as : List (Arg V R)) : Node V × Option PyErr :=
  match normKey k with
  | none => (n, some .indexError)
  | some key =>
    match lookup key (S n.cls) with
    | none => (n, some .attributeError)                                     -- :83-84
    | some f => setLoop S vs asRaw key f as n

/-- `self.key`, main.py:107-120 (`__getitem__`, also used as `__getattr__`). The special key
`__name__` (a debugging aid, line 109) is not modelled. An absent unique nested instance is
created and stored by reading it. -/
def getItem (S : Schema K) (n : Node V) (k : Key) : Node V × Py (Node V) :=
  match lookup k (S n.cls) with
  | none => (n, .error .keyError)                                           -- :111
  | some f =>
    match lookup k n.items, f.type with
    | some (.leaf _), _ => (n, .error .keyError)                            -- :113-114
    | some (.nodes l), _ =>
      if f.unique then
        match l with
        | m :: _ => (n, .ok m)                                              -- :118
        | [] => (n, .error .indexError)
      else (n, .error .keyError)                                            -- :120
    | none, .leaf _ => (n, .error .keyError)
    | none, .sub c =>
      if f.unique then                                                      -- :115-118
        (.mk n.cls (dictSet k (.nodes [.mk c []]) n.items), .ok (.mk c []))
      else (n, .error .keyError)

/-- Put back a nested instance that was changed in place. -/
def setFirst (n : Node V) (k : Key) (m : Node V) : Node V :=
  match lookup k n.items with
  | some (.nodes (_ :: l)) => .mk n.cls (dictSet k (.nodes (m :: l)) n.items)
  | _ => n

/-- `root.a.b.c` followed by an operation on the instance reached: what is created on the way
stays, whatever happens afterwards. -/
def modifyAt (S : Schema K) (f : Node V → Node V × Option PyErr) :
    List Key → Node V → Node V × Option PyErr
  | [], n => f n
  | k :: ks, n =>
    match getItem S n k with
    | (n', .error e) => (n', some e)
    | (n', .ok m) =>
      match modifyAt S f ks m with
      | (m', r) => (setFirst n' k m', r)

/-- The ways a conversion changes the data set: assign at the end of a path, or only read a path. -/
inductive Op (V R : Type) where
  | set (path : List Key) (key : Key) (value : List (Arg V R))
  | read (path : List Key)

def step (S : Schema K) (vs : Validators K V R O) (asRaw : Arg V R → R) (n : Node V) :
    Op V R → Node V × Option PyErr
  | .set path key value => modifyAt S (fun m => setItem S vs asRaw m key value) path n
  | .read path => modifyAt S (fun m => (m, none)) path n

/-- A history of operations; the caller may catch the exceptions and go on. -/
def run (S : Schema K) (vs : Validators K V R O) (asRaw : Arg V R → R) (n : Node V)
    (ops : List (Op V R)) : Node V :=
  ops.foldl (fun n op => (step S vs asRaw n op).1) n

/-! ### Writing -/

/-- What `get_dict` returns. -/
inductive Out (O : Type) where
  | leaf (o : O)
  | dict (l : List (Str × Out O))
  | list (l : List (Out O))

/-- Removal of every occurrence of `nms:` (`str.replace`), main.py:132. -/
def dropNms : Str → Str
  | 'n' :: 'm' :: 's' :: ':' :: l => dropNms l
  | c :: l => c :: dropNms l
  | [] => []

/-- `get_name`, main.py:129-132. -/
def getName (k : Key) (f : Field K) : Str :=
  let k := match f.xmlNms with
    | none => k
    | some nms => nms ++ c!":" ++ k
  match f.xmlType with
  | none => k
  | some t =>
    if t = c!"attribute" then c!"@" ++ k
    else if t = c!"nms:common" then c!"common:" ++ k
    else if t = c!"text" then c!"#" ++ k
    else dropNms t ++ c!":" ++ k

/-- Order number of an entry, main.py:143. (A key outside `VALID` is a KeyError there; in the model
`assemble` raises it.) -/
def orderOf (S : List (Key × Field K)) (k : Key) : Nat := ((lookup k S).map Field.order).getD 0

/-- The comparison of `sorted(..., key=order)`. -/
def orderLe (S : List (Key × Field K)) (a b : Key × Out O) : Bool := orderOf S a.1 ≤ orderOf S b.1

/-- Name and value of one written entry, main.py:143. -/
def entry (vs : Validators K V R O) (S : List (Key × Field K)) (e : Key × Out O) :
    Option (Str × Out O) :=
  (lookup e.1 S).map fun f =>
    (getName e.1 f,
     if f.xmlType = some c!"text" then
       match e.2 with
       | .leaf o => .leaf (vs.str o)
       | o => o                             -- not in the schemas: only validators are texts
     else e.2)

/-- The dict comprehension of main.py:143 over the sorted entries. -/
def assemble (vs : Validators K V R O) (S : List (Key × Field K)) (l : List (Key × Out O)) :
    Py (Out O) :=
  match (sortBy (orderLe S) l).mapM (entry vs S) with
  | none => .error .keyError
  | some es => .ok (.dict (es.foldl (fun d e => dictSet e.1 e.2 d) []))

/-- Presence of the mandatory fields, main.py:125-127. -/
def mandatoryOk (S : List (Key × Field K)) (items : List (Key × Val V)) : Bool :=
  S.all fun (k, f) => !f.mandatory || (lookup k items).isSome

mutual
/-- `get_dict`, main.py:122-145. -/
def getDict (S : Schema K) (vs : Validators K V R O) : Node V → Py (Out O)
  | .mk c items =>
    if mandatoryOk (S c) items then
      match getItems S vs items with
      | .error e => .error e
      | .ok l => assemble vs (S c) l
    else .error .attributeError
/-- The inner dict comprehension of main.py:143: the values in insertion order. -/
def getItems (S : Schema K) (vs : Validators K V R O) : List (Key × Val V) → Py (List (Key × Out O))
  | [] => .ok []
  | (k, v) :: l =>
    match getVal S vs v with
    | .error e => .error e
    | .ok o =>
      match getItems S vs l with
      | .error e => .error e
      | .ok os => .ok ((k, o) :: os)
/-- `get_value`, main.py:134-140. -/
def getVal (S : Schema K) (vs : Validators K V R O) : Val V → Py (Out O)
  | .leaf v =>
    match vs.fin v with
    | .error e => .error e
    | .ok o => .ok (.leaf o)
  | .nodes l =>
    match getNodes S vs l with
    | .error e => .error e
    | .ok os => .ok (.list os)
/-- `list(map(lambda x: x.get_dict(), v))`, main.py:138. -/
def getNodes (S : Schema K) (vs : Validators K V R O) : List (Node V) → Py (List (Out O))
  | [] => .ok []
  | n :: l =>
    match getDict S vs n with
    | .error e => .error e
    | .ok o =>
      match getNodes S vs l with
      | .error e => .error e
      | .ok os => .ok (o :: os)
end

end Verif.DotDict
