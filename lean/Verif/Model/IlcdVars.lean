/-
The variables of an ILCD data set on their way to EcoSpold2.
Models src/Lavoisier/conversions/ILCD1_to_ECS2_conversion.py:263-367 (`ILCD1ToECS2VariableConversion`), the
use of variables by exchanges, :411-413 and 731-736, and the reset for exchanges that are not converted,
:1058-1059.

Simplifications: of a variable only its names and its formula are kept. The object of a variable is shared
between the dictionary and the exchange in the code; the exchange reads the name and the formula at once
(the whole of an exchange is converted before the next one is read, :1934-1938), so a copy is the same.
The dictionary entry `name + '_original'` shares its object with the entry of the name; it is marked as used
and so never read again, unless an exchange refers to a variable of that very name.
-/
import Verif.Py
import Verif.Model.Assoc

namespace Verif.IlcdVars

/-- `str.replace(old, new)` for a non-empty `old`; the number counts the characters still to be passed over
after a replacement. -/
def replaceAux (old new : Str) : Nat → Str → Str
  | _, [] => []
  | k + 1, _ :: cs => replaceAux old new k cs
  | 0, c :: cs =>
    if startsWith old (c :: cs) then new ++ replaceAux old new (old.length - 1) cs
    else c :: replaceAux old new 0 cs

/-- `str.replace(old, new)`: every occurrence from left to right; an empty `old` stands before every
character and at the end. -/
def replaceAll (old new : Str) (s : Str) : Str :=
  if old = [] then new ++ (s.flatMap fun c => c :: new) else replaceAux old new 0 s

/-- `[A-Za-z]` -/
def isLetter (c : Char) : Bool :=
  (decide ('a' ≤ c) && decide (c ≤ 'z')) || (decide ('A' ≤ c) && decide (c ≤ 'Z'))

/-- `re.search(r'^[A-Za-z]{1}', name)`, :284. -/
def conform (name : Str) : Bool :=
  match name with
  | [] => false
  | c :: _ => isLetter c

/-- A variable: the name in ILCD, the name in EcoSpold2 and the formula. -/
structure Var where
  oName : Str
  name : Str
  formula : Option Str
  deriving DecidableEq

/-- The two dictionaries of the class, :274-276: the variables with the flag `used?`, and the renamed
variables. -/
structure St where
  avail : List (Str × (Bool × Var))
  renamed : List (Str × Str)
  deriving DecidableEq

def St.empty : St := ⟨[], []⟩

/-- A variable of the source: name and formula. -/
structure Source where
  name : Str
  formula : Option Str
  deriving DecidableEq

/-- The name in EcoSpold2, :282-286. -/
def newName (n : Str) : Str := if conform n then n else c!"uc" ++ n

/-- `x['formula'] if x.get('formula') else None`, :291. -/
def formulaOf (x : Source) : Option Str :=
  match x.formula with
  | some [] => none
  | o => o

/-- `__init__`, :278-304. -/
def construct (s : St) (x : Source) : St × Var :=
  let v : Var := ⟨x.name, newName x.name, formulaOf x⟩
  (⟨aset x.name (false, v) s.avail, if conform x.name then s.renamed else aset x.name (c!"uc" ++ x.name) s.renamed⟩, v)

/-- The renaming in a formula, :311-314. -/
def rename : List (Str × Str) → Str → Str
  | [], f => f
  | (n, m) :: l, f => rename l (if isInfix n f then replaceAll n m f else f)

/-- `change_formula` without a factor, :309-316; an empty formula is left alone. -/
def changeFormula (renamed : List (Str × Str)) : Option Str → Option Str
  | none => none
  | some [] => some []
  | some f => some (rename renamed f)

/-- `change_formula` with a factor other than `'1.0'`, :309-316. -/
def changeFormulaBy (renamed : List (Str × Str)) (factor : Str) : Option Str → Option Str
  | none => none
  | some [] => some []
  | some f => some (c!"(" ++ rename renamed f ++ c!")*" ++ factor)

/-- `d[name]['used?'] = False` for an entry that is there. -/
def unuse (name : Str) (d : List (Str × (Bool × Var))) : List (Str × (Bool × Var)) :=
  match aget name d with
  | none => d
  | some (_, v) => aset name (false, v) d

/-- The variable an entry holds. -/
def held (name : Str) (d : List (Str × (Bool × Var))) (v : Var) : Var :=
  match aget name d with
  | none => v
  | some (_, w) => w

/-- `get_variable`, :346-363. The copy in :355 is constructed anew and so replaces the entry of its
name; `source` gives the element the variable was constructed from. -/
def getVariable (source : Str → Source) (s : St) (name factor : Str) : Py (St × Var) :=
  match aget name s.avail with
  | none => .error .keyError
  | some (_, v) =>
    let v1 : Var := { v with formula := changeFormula s.renamed v.formula }
    let s1 : St := { s with avail := aset name (true, v1) s.avail }
    if factor = c!"1.0" then .ok (s1, v1)
    else
      let s2 := (construct s1 (source v1.oName)).1
      let n1 : Var := { (construct s1 (source v1.oName)).2 with
        formula := changeFormulaBy s2.renamed factor (some name) }
      let a := unuse name (aset n1.oName (false, n1) s2.avail)
      .ok ({ s2 with avail := aset (name ++ c!"_original") (true, n1) a }, held name a n1)

/-- `reset_variable`, :365-367. -/
def resetVariable (s : St) (name : Str) : Py St :=
  match aget name s.avail with
  | none => .error .keyError
  | some (_, v) => .ok { s with avail := aset name (false, v) s.avail }

/-- A quantity of EcoSpold2 with a variable: its name and its formula, :731-736 and 329-334. -/
structure Def where
  name : Str
  formula : Option Str
  deriving DecidableEq

/-- An exchange of the source that refers to a variable: the name, `meanAmount`, and whether it can be
converted. -/
structure Use where
  var : Str
  factor : Str
  converted : Bool
  deriving DecidableEq

/-- An exchange with a variable. -/
def useVariable (source : Str → Source) (s : St) (u : Use) : Py (St × List Def) :=
  match getVariable source s u.var u.factor with
  | .error e => .error e
  | .ok (s1, v) =>
    if u.converted then .ok (s1, [⟨v.name, v.formula⟩])
    else match resetVariable s1 v.oName with
      | .error e => .error e
      | .ok s2 => .ok (s2, [])

/-- All exchanges with a variable. -/
def useAll (source : Str → Source) : St → List Use → Py (St × List Def)
  | s, [] => .ok (s, [])
  | s, u :: l =>
    match useVariable source s u with
    | .error e => .error e
    | .ok (s1, d) =>
      match useAll source s1 l with
      | .error e => .error e
      | .ok (s2, ds) => .ok (s2, d ++ ds)

/-- `create_parameters`, :318-344. -/
def createParameters (s : St) : List Def :=
  (s.avail.filter fun p => !p.2.1).map fun p => ⟨p.2.2.name, changeFormula s.renamed p.2.2.formula⟩

/-- All variables of the data set, in order. -/
def constructAll (s : St) (l : List Source) : St := l.foldl (fun s x => (construct s x).1) s

/-- The element of a variable; an element of the same name replaces the earlier one. -/
def sourceOf (l : List Source) (n : Str) : Source := (l.reverse.find? fun x => x.name = n).getD ⟨n, none⟩

/-- The variables of a data set: the definitions in the parameters and those in the exchanges. -/
def convert (vars : List Source) (uses : List Use) : Py (List Def × List Def) :=
  match useAll (sourceOf vars) (constructAll .empty vars) uses with
  | .error e => .error e
  | .ok (s, ds) => .ok (createParameters s, ds)

end Verif.IlcdVars
