/-
The variables and formulas of an EcoSpold2 data set on their way to ILCD.
Models src/Lavoisier/conversions/ECS2_to_ILCD1_conversion.py:232-370 (`ECS2ToILCD1VariableConversion` with
`Formula`), the naming of variables, :373-401, `construct_variable`, :461-505, `add_flow_data`, :507-509, the
amount of an elementary exchange, :1314-1321, and the writing of variables and references to them at the end
of a data set, :2061-2084.

Parameters: the values (any type with a multiplication and a one; rounding is not modelled), the conversion
of units (pint), `float` and `str` of a number.

Simplifications: uncertainty and comments of variables are left out. The limit on the length of a name is
checked when the file is written (see Verif.Validators) and not here. In :304-305 the text of a reference is
used as a regular expression; the model replaces it literally, which is the same for texts without special
characters, such as the identifiers of EcoSpold2. `_cv` is always true: `converted_var` hands its argument
over as the comment, :364, and the only other place that sets it does so with `True`, :480-481.
-/
import Verif.Model.IlcdVars

namespace Verif.EcsVars
open IlcdVars (replaceAll)

/-! ### Formulas -/

/-- The state of the loop in `_subroutine`, :248-264: the depth of parentheses, whether a call is being read, the
text read so far, the text of the call, the calls found. -/
structure Scan where
  depth : Int
  on : Bool
  seen : Str
  call : Str
  found : List Str
  deriving DecidableEq

/-- `m[1:-1]` -/
def inner (m : Str) : Str := (m.drop 1).dropLast

/-- One character of the loop, :250-263. -/
def scanStep (s : Scan) (l : Char) : Scan :=
  let seen := s.seen ++ [l]
  let s' : Scan :=
    if l = '(' ∧ s.on = true then ⟨s.depth + 1, true, seen, s.call ++ [l], s.found⟩
    else if l = ')' ∧ s.on = true then
      if s.depth - 1 = 0 then ⟨s.depth - 1, false, seen, [], s.found ++ [inner (s.call ++ [l])]⟩
      else ⟨s.depth - 1, true, seen, s.call ++ [l], s.found⟩
    else if s.on = true then ⟨s.depth, true, seen, s.call ++ [l], s.found⟩
    else ⟨s.depth, false, seen, s.call, s.found⟩
  if endsWith c!"UnitConversion" seen then { s' with on := true } else s'

/-- `_subroutine`, :248-264: what stands in the parentheses of each `UnitConversion`. -/
def unitCalls (x : Str) : List Str := (x.foldl scanStep ⟨0, false, [], [], []⟩).found

/-- `x.split(', ')`; the number counts the characters of a separator still to be passed over. -/
def splitCommaAux : Nat → Str → List Str
  | _, [] => [[]]
  | k + 1, _ :: s => splitCommaAux k s
  | 0, c :: s =>
    if startsWith c!", " (c :: s) then [] :: splitCommaAux 1 s
    else match splitCommaAux 0 s with
      | [] => [[c]]
      | w :: l => (c :: w) :: l

def splitComma (x : Str) : List Str := splitCommaAux 0 x

/-- What the formulas and variables need from outside. -/
structure Env (K : Type) where
  /-- `unit_name_correction` -/
  unit : Str → Py Str
  /-- `from_single_init(1, a).to(b)`: the texts of the two units and the factor. -/
  conv : Str → Str → Py (Str × Str × K)
  /-- `str(float(x))`, nothing for a `ValueError`. -/
  flt : Str → Option Str
  /-- `str` of a value. -/
  str : K → Str
  /-- `_flow_result_for_formula`: the amount and the production volume of an exchange. -/
  flow : Str → Option (K × Option K)

/-- A `variableParameter` that is written: the name, the formula and the mean value. -/
structure Param (K : Type) where
  name : Str
  formula : Option Str
  value : K
  deriving DecidableEq

/-- The state: `_all_variable_names`, the parameters written, `_equation_counter`. -/
structure St (K : Type) where
  names : List Str
  params : List (Param K)
  counter : Nat
  deriving DecidableEq

/-- `get_conversion_str`, :570-571, from the texts of the units. -/
def convStr (a b : Str) : Str := c!"__" ++ a ++ c!"_to_" ++ b ++ c!"__"

variable {K : Type}

/-- `create` for a variable without a formula, :333-350. -/
def define (s : St K) (name : Str) (v : K) : St K :=
  if name ∈ s.names then s
  else { s with names := s.names ++ [name], params := s.params ++ [⟨name, none, v⟩] }

/-- The first argument of `UnitConversion` as it is written, :273-276 and 286-287. -/
def argText (env : Env K) (x : Str) : Str :=
  match env.flt (replaceAll c!"_" [] (replaceAll c!"," c!"." x)) with
  | some t => t
  | none => c!"(" ++ x ++ c!")"

/-- One call of `UnitConversion`, :268-287. -/
def fixUnit (env : Env K) (s : St K) (math elem : Str) : Py (St K × Str) :=
  match splitComma (replaceAll c!"'" [] elem) with
  | [] => .error .indexError
  | x :: units =>
    match units.mapM env.unit with
    | .error e => .error e
    | .ok (a :: b :: _) =>
      match env.conv a b with
      | .error e => .error e
      | .ok (ua, ub, f) =>
        .ok (define s (convStr ua ub) f,
          replaceAll (c!"UnitConversion" ++ (c!"(" ++ elem ++ c!")"))
            (c!"(" ++ argText env x ++ c!"*" ++ convStr ua ub ++ c!")") math)
    | .ok _ => .error .indexError

def fixUnitsLoop (env : Env K) : St K → Str → List Str → Py (St K × Str)
  | s, math, [] => .ok (s, math)
  | s, math, e :: l =>
    match fixUnit env s math e with
    | .error e => .error e
    | .ok (s', math') => fixUnitsLoop env s' math' l

/-- `correct_unit_conversion`, :247-291. -/
def fixUnits (env : Env K) (s : St K) (math : Str) : Py (St K × Str) :=
  if isInfix c!"UnitConversion" math then fixUnitsLoop env s math (unitCalls math) else .ok (s, math)

/-- The shortest text up to `')`, without a line break: `(.*?)'\)`. -/
def upToClose : Str → Option Str
  | [] => none
  | c :: s =>
    if startsWith c!"')" (c :: s) then some []
    else if c = '\n' then none
    else (upToClose s).map (c :: ·)

/-- `re.findall(r"Ref\('(.*?)'\)", math)`; the number counts the characters of a match still to be passed
over. -/
def findRefsAux : Nat → Str → List Str
  | _, [] => []
  | k + 1, _ :: s => findRefsAux k s
  | 0, c :: s =>
    if startsWith c!"Ref('" (c :: s) then
      match upToClose (s.drop 4) with
      | some e => e :: findRefsAux (4 + e.length + 2) s
      | none => findRefsAux 0 s
    else findRefsAux 0 s

def findRefs (math : Str) : List Str := findRefsAux 0 math

/-- `str(x)` for a value that may be `None`. -/
def strOpt (env : Env K) : Option K → Str
  | some v => env.str v
  | none => c!"None"

/-- The loop of `correct_ref`, :296-305; `value` keeps what it was assigned for the reference before. -/
def fixRefsLoop (env : Env K) : Option Str → Str → List Str → Py Str
  | _, math, [] => .ok math
  | value, math, elem :: l =>
    let pieces := splitOn '\'' elem
    match env.flow (pieces.headD []) with
    | none => .error .keyError
    | some e =>
      let v : Py (Option Str) :=
        match pieces with
        | [_] => .ok (some (env.str e.1))
        | _ :: _ :: x :: _ => if x = c!"ProductionVolume" then .ok (some (strOpt env e.2)) else .ok value
        | _ => .error .indexError
      match v with
      | .error e => .error e
      | .ok none => .error .nameError
      | .ok (some t) => fixRefsLoop env (some t) (replaceAll (c!"Ref('" ++ elem ++ c!"')") t math) l

/-- `correct_ref`, :293-308. -/
def fixRefs (env : Env K) (math : Str) : Py Str :=
  if isInfix c!"Ref(" math then fixRefsLoop env none math (findRefs math) else .ok math

/-- `[0-9]` -/
def isDigit (c : Char) : Bool := decide ('0' ≤ c) && decide (c ≤ '9')

/-- `re.search('[0-9]+,[0-9]+', x)` -/
def decimalComma : Str → Bool
  | a :: b :: c :: s => (isDigit a && b == ',' && isDigit c) || decimalComma (b :: c :: s)
  | _ => false

/-- `correct_other`, :310-321. -/
def fixOther (math : Str) : Str :=
  let m := replaceAll c!"%" c!"/ 100" math
  if decimalComma m then replaceAll c!"," c!"." m else m

/-! ### Variables -/

/-- `if self._math` -/
def given : Option Str → Option Str
  | some [] => none
  | o => o

/-- `create`, :333-350. -/
def create (env : Env K) (s : St K) (name : Str) (math : Option Str) (v : K) : Py (St K) :=
  if name ∈ s.names then .ok s
  else
    let s0 : St K := { s with names := s.names ++ [name] }
    match given math with
    | none => .ok { s0 with params := s0.params ++ [⟨name, none, v⟩] }
    | some m =>
      match fixUnits env s0 m with
      | .error e => .error e
      | .ok (s1, m1) =>
        match fixRefs env m1 with
        | .error e => .error e
        | .ok m2 => .ok { s1 with params := s1.params ++ [⟨name, some (fixOther m2), v⟩] }

/-- An amount of the source: the attributes `variableName` and `mathematicalRelation`, the value in the unit of
the source, what it is the amount of (`type_`), the factor to the unit of ILCD and the texts of the two
units. -/
structure Quantity (K : Type) where
  name : Option Str
  math : Option Str
  value : K
  kind : Str
  factor : K
  unitFrom : Str
  unitTo : Str
  deriving DecidableEq

/-- The amount of an elementary exchange, :1314-1321: it is multiplied by the factor of the table of flows
before anything else. -/
def elementary [Mul K] (q : Quantity K) (c : K) : Quantity K := { q with value := q.value * c }

/-- The variable given to an amount, :377-381 and 397-401: the name and the formula. -/
def varOf (counter : Nat) (q : Quantity K) : Option (Str × Option Str) :=
  match given q.name, given q.math with
  | none, none => none
  | _, _ =>
    some (match q.name with
      | some n => n
      | none => c!"Eq_" ++ q.kind.take 2 ++ c!"_" ++ natStr counter, q.math.map strip)

/-- The amounts with their variables, and the counter after them. -/
def nameAll : Nat → List (Quantity K) → List (Quantity K × Option (Str × Option Str)) × Nat
  | n, [] => ([], n)
  | n, q :: l =>
    let r := nameAll (if (varOf n q).isSome then n + 1 else n) l
    ((q, varOf n q) :: r.1, r.2)

/-- `[a-z]` -/
def isLower (c : Char) : Bool := decide ('a' ≤ c) && decide (c ≤ 'z')

/-- `re.search(r'Eq_[a-z]{2}_[0-9]+', name)`, :468. -/
def eqName : Str → Bool
  | [] => false
  | c :: s =>
    (match c :: s with
      | 'E' :: 'q' :: '_' :: a :: b :: '_' :: d :: _ => isLower a && isLower b && isDigit d
      | _ => false) || eqName s

/-- `x.split('__from')[0]` -/
def beforeFrom : Str → Str
  | [] => []
  | c :: s => if startsWith c!"__from" (c :: s) then [] else c :: beforeFrom s

/-- The name in `converted_var`, :362-363. -/
def convertedName (name conv : Str) : Str :=
  let n := name ++ c!"__from_" ++ conv.drop 2
  if n.length ≤ 50 then n else beforeFrom n ++ c!"__uc"

/-- The formula in `converted_var`, :361. -/
def convertedMath (math : Option Str) (conv : Str) : Option Str :=
  (given math).map fun m => c!"(" ++ m ++ c!")*" ++ conv

/-- `construct_variable`, :461-505; the second result is the name a reference to the variable has
afterwards. -/
def construct [DecidableEq K] [Mul K] [One K] (env : Env K) (s : St K) (q : Quantity K)
    (var : Option (Str × Option Str)) : Py (St K × Option Str) :=
  let conv := convStr q.unitFrom q.unitTo
  if q.factor ≠ 1 ∧ q.kind = c!"flow" then
    match var with
    | some (n, m) =>
      match (if eqName n then .ok s else create env s n m q.value : Py (St K)) with
      | .error e => .error e
      | .ok s1 =>
        match create env { s1 with counter := s1.counter + 1 } (convertedName n conv) (convertedMath m conv)
            (q.value * q.factor) with
        | .error e => .error e
        | .ok s2 => .ok (define s2 conv q.factor, some (convertedName n conv))
    | none =>
      let n := c!"Eq_uv_" ++ natStr s.counter
      match create env { s with counter := s.counter + 1 } n (some (strip (env.str q.value ++ c!"*" ++ conv)))
          (q.value * q.factor) with
      | .error e => .error e
      | .ok s2 => .ok (define s2 conv q.factor, some n)
  else match var with
    | some (n, m) =>
      match create env s n m q.value with
      | .error e => .error e
      | .ok s1 => .ok (s1, some n)
    | none => .ok (s, none)

/-- All amounts in order, :2061-2064, with the references of :2077-2084. -/
def constructAll [DecidableEq K] [Mul K] [One K] (env : Env K) :
    St K → List (Quantity K × Option (Str × Option Str)) → Py (St K × List (Quantity K × Option Str))
  | s, [] => .ok (s, [])
  | s, (q, var) :: l =>
    match construct env s q var with
    | .error e => .error e
    | .ok (s1, r) =>
      match constructAll env s1 l with
      | .error e => .error e
      | .ok (s2, rs) => .ok (s2, (q, r) :: rs)

/-- The variables of a data set: the parameters written, and for every amount the variable a reference
names. -/
def convert [DecidableEq K] [Mul K] [One K] (env : Env K) (qs : List (Quantity K)) :
    Py (List (Param K) × List (Quantity K × Option Str)) :=
  let r := nameAll 1 qs
  match constructAll env ⟨[], [], r.2⟩ r.1 with
  | .error e => .error e
  | .ok (s, rs) => .ok (s.params, rs)

/-- The amount of the exchange that is written, `flow.amount.m`, :2079-2084. -/
def written [Mul K] (q : Quantity K) : K := q.value * q.factor

end Verif.EcsVars
