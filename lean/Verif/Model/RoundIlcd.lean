/-
The exchanges of an ILCD data set converted to EcoSpold2, and the result converted to ILCD again.
Puts together Model/IlcdFlows (the exchanges to EcoSpold2) and the conversion to ILCD of Model/RoundTrip. What stands between them is
the order of the exchanges in the file (src/Lavoisier/data_structures/ECS2_structure.py:814-821), the uncertainty as it is written
(src/Lavoisier/conversions/ILCD1_to_ECS2_conversion.py:128-172) and read (src/Lavoisier/conversions/ECS2_to_ILCD1_conversion.py:104-118),
and the attributes of an exchange that are read (ECS2_to_ILCD1_conversion.py:929-952, 978-994).

Simplifications: those of the models named. How a number is written is a parameter (`shown`). Sources and properties of the exchanges
are taken from outside (`Extras`). An exchange written has no classification (the code for it, ILCD1_to_ECS2_conversion.py:1013-1054, is
a comment) and no property of allocation.
-/
import Verif.Model.RoundTrip

namespace Verif.RoundIlcd

open RoundTrip (Doc there)

/-- An uncertainty as it is read again, ECS2_to_ILCD1_conversion.py:104-118: the variance is the one with the pedigree. -/
def uncOf : IlcdFlows.WUnc ℝ → Uncertainty.Unc
  | .lognormal _ v => .lognormal v
  | .normal _ v => .normal v
  | .triangular lo _ hi => .triangular lo hi
  | .uniform lo hi => .uniform lo hi
  | .other => .other

/-- What is not followed here: the sources and the properties of an exchange. -/
structure Extras where
  sources : IlcdFlows.Flow ℝ → List Str
  props : IlcdFlows.Flow ℝ → List (Str × Str)

/-- An exchange of the EcoSpold2 data set as it is read, ECS2_to_ILCD1_conversion.py:929-952. -/
noncomputable def exchOf (shown : ℝ → Str) (ex : Extras) (fl : IlcdFlows.Flow ℝ) : EcsFlows.Exch where
  isElem := fl.elem
  id := fl.field.id
  fid := fl.field.target
  name := fl.field.name
  unit := fl.field.unitName
  amount := shown fl.field.amount
  inputGroup := fl.field.inputGroup.map natStr
  outputGroup := fl.field.outputGroup.map natStr
  unc := fl.field.unc.map uncOf
  byProduct := none
  sources := ex.sources fl
  specific := none
  props := ex.props fl

/-- The exchanges in the order of the file, ECS2_structure.py:814-821: first those that are not elementary. -/
noncomputable def document (shown : ℝ → Str) (ex : Extras) (flows : List (IlcdFlows.Flow ℝ)) : List EcsFlows.Exch :=
  ((flows.filter fun f => !f.elem) ++ flows.filter fun f => f.elem).map (exchOf shown ex)

section

variable {P D : Type} [DecidableEq P] [DecidableEq D]

/-- The conversion to EcoSpold2, ILCD1_to_ECS2_conversion.py:1498-1530 and 1934-1938; `order` is the order in which the set of the
elementary exchanges is gone through. -/
noncomputable def toEcs (env : IlcdFlows.Env ℝ D) (sumSame : Bool)
    (order : List (IlcdFlows.Flow ℝ) → List (IlcdFlows.Flow ℝ)) (xs : List (IlcdFlows.Exch ℝ)) : Py (List (IlcdFlows.Flow ℝ)) := do
  let s ← IlcdFlows.convertAll env .empty xs
  if sumSame then
    let s' ← IlcdFlows.merge env s (order (s.flows.filter (·.elem)))
    .ok s'.flows
  else .ok s.flows

/-- The conversion to ILCD again. -/
noncomputable def toIlcd (env : EcsFlows.Env P) (fenv : FlowFiles.Env) (sumSame : Bool) (shown : ℝ → Str) (ex : Extras)
    (flows : List (IlcdFlows.Flow ℝ)) : Py (Doc P) := there env fenv sumSame (document shown ex flows)

end

end Verif.RoundIlcd
