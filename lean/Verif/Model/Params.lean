/-
The unit and the comment of a parameter, and the names of the variables made for conversions of units.
Models src/Lavoisier/conversions/ECS2_to_ILCD1_conversion.py:609-628 (the parameter), 502-508 (the comment of its
variable), 561-571 (the text of a unit, the name of a conversion) and
src/Lavoisier/conversions/ILCD1_to_ECS2_conversion.py:278-304 (the variable read), 318-344 (the parameter made of it).
The name of the variable and its formula are those of Model/EcsVars.lean and Model/IlcdVars.lean, the texts those of
Model/LangText.lean.

Parameters: the text that `pint` prints for a unit (`f"{x:~}"`), or the error of an unknown unit.

Simplifications: a comment is given by its language and text; the running index of the comments is any list of indices
that increase from 1000 on (formats/helpers.py:25, 44-46). Uncertainties are entries of the comment.
-/
import Verif.Model.UncText
import Verif.Model.EcsVars

namespace Verif.Params

open LangText (Entry TextCls notBlank addMerged endMulti)
open IlcdVars (replaceAll)
open UncText (searchFirst commentCls commentEntries)

/-! ### The text of a unit -/

/-- `__str_unit`, ECS2_to_ILCD1_conversion.py:561-562, of the text printed by `pint`. -/
def strUnit (s : Str) : Str :=
  replaceAll c!"." c!"_" (replaceAll c!"*" c!"_times_" (replaceAll c!"**" []
    (replaceAll c!"/" c!"_per_" (replaceAll c!" " [] s))))

/-- `get_conversion_str`, :570-571, from the texts printed by `pint`. -/
def conversionName (o f : Str) : Str := EcsVars.convStr (strUnit o) (strUnit f)

/-! ### EcoSpold2 to ILCD -/

/-- A parameter: the texts of its unit, and its comments (language and text). -/
structure EParam where
  units : List Str
  comments : List (Str × Str)

/-- The unit given to `pint`, :616-619. -/
def unitOf (p : EParam) : Str := p.units.headD c!"dimensionless"

/-- The entries of the comment of the variable, :343-348 and 504-505: the uncertainty, the unit, the comments
with their indices (:611-613). -/
def varEntries (unc : List Entry) (unit : Str) (i : Int) (comments : List (Str × Str)) : List Entry :=
  unc ++ ⟨-1, c!"en", c!"[" ++ strUnit unit ++ c!"]"⟩ :: commentEntries i comments

/-- The comment of the variable as it is written; blank texts are left out. The class is that of
data_structures/ILCD1_structure.py:216. -/
def writeComment (ignore : Bool) (sent : Str → List Str) (es : List Entry) : Py (List (Str × Str)) :=
  endMulti commentCls ignore sent (addMerged commentCls [] (es.filter fun e => notBlank e.text))

/-- From a parameter to the comment of its variable; `print` is `pint`. -/
def toIlcd (print : Str → Py Str) (ignore : Bool) (sent : Str → List Str) (unc : List Entry) (i : Int) (p : EParam) :
    Py (List (Str × Str)) :=
  match print (unitOf p) with
  | .error e => .error e
  | .ok u => writeComment ignore sent (varEntries unc u i p.comments)

/-! ### ILCD to EcoSpold2 -/

/-- What stands before and behind the last `]`. -/
def lastClose : Str → Option (Str × Str)
  | [] => none
  | c :: s =>
    match lastClose s with
    | some (a, b) => some (c :: a, b)
    | none => if c = ']' then some ([], s) else none

/-- `\[(.*)\]` at the beginning of a text: the text matched and its group; the dot is no line end. -/
def unitAt : Str → Option (Str × Str)
  | [] => none
  | c :: s =>
    if c = '[' then (lastClose (s.takeWhile (· ≠ '\n'))).map fun p => (c!"[" ++ p.1 ++ c!"]", p.1) else none

/-- `re.sub(r'(\[.*\])', '', text)`, ILCD1_to_ECS2_conversion.py:297; the number counts the characters still to be
passed over. -/
def removeAux : Nat → Str → Str
  | _, [] => []
  | k + 1, _ :: s => removeAux k s
  | 0, c :: s =>
    match unitAt (c :: s) with
    | some (m, _) => removeAux (m.length - 1) s
    | none => c :: removeAux 0 s

def remove (s : Str) : Str := removeAux 0 s

/-- A variable: the unit found in its comment, and the comments. -/
structure Read where
  unit : Option Str
  comments : List (Str × Str)
  deriving DecidableEq

/-- The loop over the comments, :293-300; empty comments are passed over (`ensure_text`). -/
def readComments : Read → List (Str × Str) → Read
  | r, [] => r
  | r, (l, t) :: cs =>
    if t = [] then readComments r cs
    else
      match searchFirst unitAt t with
      | some (_, g) => readComments ⟨some g, r.comments ++ [(l, strip (remove t))]⟩ cs
      | none => readComments ⟨r.unit, r.comments ++ [(l, t)]⟩ cs

/-- The class of the comment of a parameter, data_structures/ECS2_structure.py:177. -/
def paramCls : TextCls := ⟨some c!"; ", some (.upper 32000), true⟩

/-- The name of the unit of the parameter, :333-334: a blank text is dropped, and a long one stops the writing
(`UniqueString40`, ECS2_structure.py:214). -/
def unitName (ignore : Bool) (sent : Str → List Str) (r : Read) : Py (List (Str × Str)) :=
  match r.unit with
  | none => .ok []
  | some u =>
    endMulti ⟨none, some (.upper 40), true⟩ ignore sent
      (addMerged ⟨none, some (.upper 40), true⟩ [] ([⟨0, c!"en", u⟩].filter fun e => notBlank e.text))

/-- The comment of the parameter, :335-336. -/
def paramComment (ignore : Bool) (sent : Str → List Str) (i : Int) (r : Read) : Py (List (Str × Str)) :=
  endMulti paramCls ignore sent
    (addMerged paramCls [] ((commentEntries i r.comments).filter fun e => notBlank e.text))

/-- The name of the variable in EcoSpold2 as it is written, :328 and ECS2_validators.py:82. -/
def writeName (u : Validators.CharClasses) (ignore : Bool) (n : Str) : Py Str :=
  match Validators.variableNameAdd u none (.str (IlcdVars.newName n)) with
  | .error e => .error e
  | .ok s => Validators.variableNameEnd ignore s

end Verif.Params
