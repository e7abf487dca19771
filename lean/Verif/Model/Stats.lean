/-
The numbers "converted/found" at the end of the log of a conversion of EcoSpold2 to ILCD.
Models src/Lavoisier/conversions/ECS2_to_ILCD1_conversion.py:165-184 (`get_uncertainty`), 330-352 (`create`), 454-507
(`construct_variable`), 626-631 (parameters), 810-835 (the estimated water content), 915-923 (`Property.get_dict`), 948-962
and 1034-1052 (exchanges and their properties), 1118-1132 and 1162-1179 (production volumes and products), 1280-1300
(elementary exchanges), 1890-1924 (`end_conversion`), 1964-2000 (`get_statistics`), 2049-2105 (`reset_conversion`),
2161-2162 (`add_stat`), 2302-2345 (the paths that count).

Simplifications: of a value the kind of its uncertainty and the names of the variables asked for are kept; whether a
property is kept and keeps its uncertainty is given (Model/EcsProps decides the former). Sources, contacts, reviews and
classifications are not counted here. Exchanges of group 4 among the products are not added to elementary ones. Nothing fails.
-/
import Verif.Model.Assoc

namespace Verif.Stats

/-- Kinds of distributions: `normal`, the others that ILCD knows, and those it does not (lines 168, 391-398). -/
inductive Dist where
  | normal
  | known
  | other
  deriving DecidableEq

/-- A value: its uncertainty, the name of its variable (given, or made for its formula: `Eq_…`, in which case `eq` holds), the
name of the variable after a conversion of the unit, the name of the factor of that conversion, and whether the value is
that of an exchange whose unit is converted (`self._f != 1 and self.type_ == "flow"`). -/
structure Amt where
  dist : Option Dist
  var : Option Str
  eq : Bool
  conv : Str
  link : Str
  rescaled : Bool
  deriving DecidableEq

/-- A property: its value, whether it is written with the flow, and whether its uncertainty is left then. -/
structure Prop' where
  amt : Amt
  kept : Bool
  uncLeft : Bool
  deriving DecidableEq

/-- An exchange: its value, its properties, whether a water content is estimated and written. -/
structure Exch where
  amt : Amt
  props : List Prop'
  estimated : Bool
  deriving DecidableEq

/-- A product: with the value of the production volume, or without one but perhaps with a variable or formula for it. -/
structure Product where
  exch : Exch
  volume : Option Amt
  strayVar : Bool
  deriving DecidableEq

/-- An elementary exchange: whether the mapping has it, and the flow and direction it is converted to. -/
structure Elem where
  exch : Exch
  mapped : Bool
  key : Nat
  deriving DecidableEq

/-- A data set. -/
structure File where
  products : List Product
  elems : List Elem
  params : List Amt
  deriving DecidableEq

/-- The options `convert_parameterization`, `convert_properties` and `sum_same_elementary_amounts`. -/
structure Opts where
  variables : Bool
  properties : Bool
  sum : Bool
  deriving DecidableEq

/-- What is counted, lines 1966-1976. -/
inductive Kind where
  | inf
  | elf
  | prp
  | unc
  | var
  | pvl
  | par
  deriving DecidableEq

/-- The counters of what was converted and of what was found, the names of the variables made (`_all_variable_names`), and
the values made (`_all_amounts`). -/
structure St where
  conv : Kind → Int
  found : Kind → Int
  names : List Str
  amts : List Amt

/-- A counter changed. -/
def bump (k : Kind) (n : Int) (f : Kind → Int) : Kind → Int := fun j => if j = k then f j + n else f j

/-- `type(self).statistics += n` -/
def St.count (s : St) (k : Kind) (n : Int) : St := { s with conv := bump k n s.conv }

/-- `add_stat`, lines 2161-2162. -/
def St.addStat (s : St) (k : Kind) : St := { s with found := bump k 1 s.found }

/-- `get_uncertainty`, lines 165-184: only distributions that ILCD knows are counted. -/
def getUncertainty (d : Option Dist) (s : St) : St :=
  match d with
  | none => s
  | some .other => s
  | some _ => s.count .unc 1

/-- `create`, lines 330-352. -/
def create (name : Str) (d : Option Dist) (s : St) : St :=
  if name ∈ s.names then s
  else
    let s := { s with names := s.names ++ [name] }
    match d with
    | none => s
    | some _ => getUncertainty d (s.count .unc (-1))

/-- `construct_variable`, lines 454-507. -/
def constructVariable (a : Amt) (s : St) : St :=
  if a.rescaled then
    match a.var with
    | some n =>
      let s := if a.eq then s else create n a.dist s
      create a.link none (create a.conv a.dist (s.count .var 1))
    | none => create a.link none (create a.conv a.dist s)
  else
    match a.var with
    | some n => (create n a.dist s).count .var 1
    | none => s

/-- A value is made and listed in `_all_amounts`, line 402. -/
def newAmt (a : Amt) (s : St) : St := { s with amts := s.amts ++ [a] }

/-- `Property.get_dict`, lines 915-923. -/
def getDict (d : Option Dist) (s : St) : St := getUncertainty d (s.count .prp 1)

/-- `get_properties`, lines 1034-1052: the values of all properties are made. -/
def readProps (l : List Prop') (s : St) : St := l.foldl (fun s p => newAmt p.amt s) s

/-- The properties that are left are written, lines 1190-1192 and 1337-1338. -/
def writeKept (l : List Prop') (s : St) : St :=
  l.foldl (fun s p => if p.kept then getDict (if p.uncLeft then p.amt.dist else none) s else s) s

/-- The properties written with the flow: the estimated one comes last and has no uncertainty. Without `convert_properties`
there are none, lines 957-961. -/
def writeProps (o : Opts) (x : Exch) (s : St) : St :=
  if o.properties then
    if x.estimated then getDict none (writeKept x.props s) else writeKept x.props s
  else s

/-- The production volume, lines 1161-1168 and 1095-1132: its uncertainty goes to a text, without `get_uncertainty`. -/
def volume (v : Option Amt) (s : St) : St :=
  match v with
  | some a => (newAmt a s).count .pvl 1
  | none => s

/-- A product, lines 1145-1183. -/
def product (o : Opts) (p : Product) (s : St) : St :=
  let s := readProps p.exch.props (getUncertainty p.exch.amt.dist (newAmt p.exch.amt s))
  (writeProps o p.exch (volume p.volume s)).count .inf 1

/-- An elementary exchange, lines 1262-1300. -/
def elem (o : Opts) (e : Elem) (s : St) : St :=
  if e.mapped then
    let s := readProps e.exch.props (getUncertainty e.exch.amt.dist (newAmt e.exch.amt s))
    writeProps o e.exch (s.count .elf 1)
  else readProps e.exch.props (newAmt e.exch.amt s)

/-- A parameter, lines 622-631: its uncertainty is only written with its variable. -/
def param (a : Amt) (s : St) : St := (newAmt a s).count .par 1

/-- What is counted as found for a value: its uncertainty, and a variable or formula. -/
def foundAmt (a : Amt) (s : St) : St :=
  let s := if a.dist.isSome then s.addStat .unc else s
  if a.var.isSome then s.addStat .var else s

/-- The paths below an exchange, lines 2317-2326 and 2335-2340. -/
def foundExch (x : Exch) (s : St) : St := x.props.foldl (fun s p => foundAmt p.amt (s.addStat .prp)) (foundAmt x.amt s)

/-- The paths of a production volume, lines 2307-2309 and 2319. -/
def foundVolume (p : Product) (s : St) : St :=
  match p.volume with
  | some a => foundAmt a (s.addStat .pvl)
  | none => if p.strayVar then s.addStat .var else s

/-- The paths of a product, lines 2302-2326. -/
def foundProduct (p : Product) (s : St) : St := foundVolume p (foundExch p.exch (s.addStat .inf))

/-- The paths of an elementary exchange, lines 2327-2340. -/
def foundElem (e : Elem) (s : St) : St := foundExch e.exch (s.addStat .elf)

/-- The paths of a parameter, lines 2341-2345. -/
def foundParam (a : Amt) (s : St) : St := foundAmt a (s.addStat .par)

/-- `sum_`, lines 438-449, for the uncertainty: of two uncertainties only two normal ones leave one. -/
def sumDist (a b : Option Dist) : Option Dist :=
  match a, b with
  | some .normal, some .normal => some .normal
  | some _, some _ => none
  | a, _ => a

/-- The first of several elementary exchanges with the same flow and direction takes up the others, lines 2066-2072 and
2089-2099; `firsts` holds the uncertainties of the first ones so far. -/
def mergeAll : List Elem → List (Nat × Option Dist) → St → St
  | [], _, s => s
  | e :: l, firsts, s =>
    if e.mapped then
      match aget e.key firsts with
      | none => mergeAll l (aset e.key e.exch.amt.dist firsts) s
      | some d =>
        let d := sumDist d e.exch.amt.dist
        mergeAll l (aset e.key d firsts) (getUncertainty d s)
    else mergeAll l firsts s

/-- The end of a data set, `reset_conversion`, lines 2060-2110 and 1928-1931. -/
def endFile (o : Opts) (l : List Elem) (s : St) : St :=
  let s := if o.variables then s.amts.foldl (fun s a => constructVariable a s) s else s
  let s := if o.sum then mergeAll l [] s else s
  { s with names := [], amts := [] }

/-- A data set. -/
def file (o : Opts) (f : File) (s : St) : St :=
  let s := f.products.foldl (fun s p => product o p (foundProduct p s)) s
  let s := f.elems.foldl (fun s e => elem o e (foundElem e s)) s
  let s := f.params.foldl (fun s a => param a (foundParam a s)) s
  endFile o f.elems s

/-- The counters at the beginning, lines 1966-1976, and after `end_conversion`, lines 1902-1923. -/
def St.start : St := ⟨fun _ => 0, fun _ => 0, [], []⟩

/-- The data sets of a conversion; `get_statistics` (1978-2000) then shows `conv` and `found`. -/
def run (o : Opts) (l : List File) : St := l.foldl (fun s f => file o f s) St.start

end Verif.Stats
