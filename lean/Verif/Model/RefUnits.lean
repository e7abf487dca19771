/-
The unit an amount is converted to, the flow property it is stated in, and the files copied for it.
Models src/Lavoisier/conversions/ECS2_to_ILCD1_conversion.py:512-524 (`to_ilcd_unit`), 692-750 (the reference of a
property), 870-910 (`get_unit_property`), 1396-1401 and 1404-1409 (`_options`, `all_data`), 1577-1592 (the reference),
1643-1648 (`make_dataset` for flow properties and unit groups), and src/Lavoisier/conversions/utils.py:85-104
(`copy_file`, `correct_dimensionality`), with the tables of conversions/units.py (Model/UnitTables) and the files that
come with the package (Model/RefUnitTables).

Simplifications: pint is a parameter, of which the text of the dimension of a unit (`dim`), its size in base units (`size`)
and the name of its base unit (`base`) are used; units with an offset (degrees Celsius) are not covered, and the check that
both units of `to` have the same dimension is left to pint. `uuid_from_string` is a parameter `hash`. What `Exception`
`get_unit_property` catches is not told apart. An error stops the conversion, so that the state after it is not kept. A
folder of the output is the list of the names of its files; copying a file again leaves it as it is.
-/
import Verif.Model.Assoc
import Verif.Model.UnitTables
import Verif.Model.RefUnitTables
import Mathlib.Algebra.Field.Defs

namespace Verif.RefUnits

open Verif Verif.Units

/-- `correct_dimensionality`, utils.py:91-104. -/
def correctDim (dim : Str) : Str :=
  if dim = c!"[mass] * [length] ** 2 / [time] ** 2" then c!"[length] ** 2 * [mass] / [time] ** 2"
  else if dim = c!"[mass] * [length]" then c!"[length] * [mass]"
  else if dim = c!"[time] * [length]" then c!"[length] * [time]"
  else if dim = c!"[time] * [length] ** 2" then c!"[length] ** 2 * [time]"
  else if dim = c!"[time] * [length] ** 3" then c!"[length] ** 3 * [time]"
  else dim

/-- What is used of pint: `str(Quantity(1, u).dimensionality)`, the size of a unit in base units, its base unit. -/
structure Pint (K : Type) where
  dim : Str → Str
  size : Str → K
  base : Str → Str

/-- A quantity of pint: magnitude and unit. -/
structure Qty (K : Type) where
  m : K
  u : Str

variable {K : Type} [Field K]

/-- `qtt.to(unit)`. -/
def Pint.to (p : Pint K) (q : Qty K) (unit : Str) : Qty K := ⟨q.m * (p.size q.u / p.size unit), unit⟩

/-- `to_ilcd_unit`, ECS2_to_ILCD1_conversion.py:512-524: the quantity and the factor `_f` after it. -/
def toIlcdUnit (p : Pint K) (hash : Str → Str) (f : K) (q : Qty K) : Qty K × K :=
  match aget (hash (correctDim (p.dim q.u))) pintToIlcdDef with
  | some (_, _, unit) => if q.u ≠ unit then (p.to q unit, f * (p.to ⟨1, q.u⟩ unit).m) else (q, f)
  | none => (p.to q (p.base q.u), f * (p.to ⟨1, q.u⟩ (p.base q.u)).m)

/-- The kinds of data sets copied, 1396-1401. -/
inductive Kind where
  | flowProperty
  | unitGroup
  deriving DecidableEq

/-- `_options`, 1396-1401: the folder of a kind. -/
def Kind.folder : Kind → Str
  | .flowProperty => c!"flowproperties"
  | .unitGroup => c!"unitgroups"

/-- `all_data` (1404-1409) for the two kinds, and the files of the two folders of the output. -/
structure St where
  seenFp : List Str
  seenUg : List Str
  outFp : List Str
  outUg : List Str
  deriving DecidableEq

/-- `all_data` at the beginning of a conversion (1893-1898), and folders that hold what earlier conversions left there. -/
def St.start (outFp outUg : List Str) : St := ⟨[], [], outFp, outUg⟩

/-- `copy_file`, utils.py:85-89: the file must be in the package. -/
def copyFile (k : Kind) (id : Str) (s : St) : Py St :=
  match k with
  | .flowProperty => if (aget id fpFiles).isSome then .ok { s with outFp := s.outFp ++ [id] } else .error .osError
  | .unitGroup => if (aget id ugFiles).isSome then .ok { s with outUg := s.outUg ++ [id] } else .error .osError

/-- `make_dataset` for a flow property, 1643-1648. -/
def makeDataset (id unitId : Str) (s : St) : Py St :=
  if id ∈ s.seenFp then .ok s
  else do
    let s ← copyFile .flowProperty id { s with seenFp := s.seenFp ++ [id] }
    copyFile .unitGroup unitId { s with seenUg := s.seenUg ++ [unitId] }

/-- A reference to a flow property, 1571-1604. -/
structure Ref where
  id : Str
  version : Str
  uri : Str
  name : Str
  deriving DecidableEq

/-- The reference and the copies made for a row of `pint_to_ilcd_fp`: 739-747 for a property, 895-905 for the unit. -/
def refer (w : Ilcd) (s : St) : Py (Ref × St) := do
  let s ← makeDataset w.fp w.group s
  .ok (⟨w.fp, w.version, c!"../" ++ Kind.flowProperty.folder ++ c!"/" ++ w.fp, w.name⟩, s)

/-- The key for energy, as the text of the dimension gives it. -/
def energyKey : Str := c!"f09fb2f1-8af1-3630-8463-c7ebc26474be"

/-- `get_energy_prop`, 875-886; `energy` is the attribute `_energy`. -/
def energyProp (energy : Option Str) (key : Str) : Option Str :=
  if key = energyKey then
    match energy with
    | none => some key
    | some e =>
      if e = c!"undefined" then some key
      else if e = c!"net calorific value" then some key
      else if e = c!"gross calorific value" then some c!"f09fb2f1-8af1-3630-8463-c7ebc26474bf"
      else none
  else some key

/-- `get_unit_property`, 870-910: the flow property of an exchange whose amount has the dimension `dim`. -/
def unitProperty (hash : Str → Str) (energy : Option Str) (dim : Str) (s : St) : Py (Ref × St) :=
  match (energyProp energy (hash (correctDim dim))).bind fun k => aget k pintToIlcdFp with
  | none => .error .valueError
  | some w =>
    match refer w s with
    | .ok r => .ok r
    | .error _ => .error .valueError

/-- A property of an exchange (692, 713-747): one that is not in `pint_to_ilcd_fp`, or has no unit, refers to nothing. -/
def propertyRef (id : Str) (hasUnit : Bool) (s : St) : Py (Option Ref × St) :=
  match aget id pintToIlcdFp with
  | none => .ok (none, s)
  | some w => if hasUnit then do
      let (r, s) ← refer w s
      .ok (some r, s)
    else .ok (none, s)

/-- A request for a reference in the course of a conversion: for the unit of an exchange, or for a property. -/
inductive Req where
  | unit (energy : Option Str) (dim : Str)
  | property (id : Str) (hasUnit : Bool)

/-- A request answered. -/
def answer (hash : Str → Str) : Req → St → Py (Option Ref × St)
  | .unit e d, s => do
    let (r, s) ← unitProperty hash e d s
    .ok (some r, s)
  | .property id u, s => propertyRef id u s

/-- The requests of a conversion one after the other, and the references they gave. -/
def run (hash : Str → Str) : List Req → St → Py (List Ref × St)
  | [], s => .ok ([], s)
  | q :: l, s => do
    let (r, s) ← answer hash q s
    let (rs, s) ← run hash l s
    .ok (r.toList ++ rs, s)

end Verif.RefUnits
