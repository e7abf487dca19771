/-
The uncertainties of the flow properties of ILCD on their way to EcoSpold2.
Models src/Lavoisier/conversions/ILCD1_to_ECS2_conversion.py:94-110, 128-161 (`_get_data`, `calculate`), 198-211, 234-240
(the amount and `calculate_unc`), 454-482 (`normal_init`), 520-536 (`mass_prop_init`), 539-593 (`convert_properties`) and
595-606 (`get_properties`).

It follows Verif.IlcdProps, which leaves the uncertainties out.

Simplifications: those of Verif.IlcdProps; numbers are real numbers. A distribution that ILCD has no word for is read
from the comments, see Verif.UncText, and is left out here. So are the pedigree and the basic variance.
-/
import Verif.Model.IlcdProps
import Verif.Model.Uncertainty

namespace Verif.IlcdPropUnc
open Verif.Units
open IlcdProps (FileProp Env Pr Energy)
open Uncertainty (Kind EcsWritten)

/-- What a flow property says of its uncertainty: the type, the standard deviation, the bounds. -/
structure FUnc where
  kind : Kind
  std95 : Option ℝ
  lo : Option ℝ
  hi : Option ℝ

/-- A flow property with its uncertainty. -/
structure UFile where
  x : FileProp
  unc : Option FUnc

/-- `_get_data`, :94-110, and `calculate`, :128-161, for the value `m` and the factor `f`. -/
noncomputable def readUnc (u : FUnc) (m f : ℝ) : Py EcsWritten :=
  match u.kind with
  | .lognormal =>
    match u.std95 with
    | none => .error .keyError
    | some s =>
      if s ≤ 0 then .error .valueError
      else .ok (.lognormal m (if 0 < m then Real.log m else 0) (Real.log (Real.sqrt s) ^ 2))
  | .normal =>
    match u.std95 with
    | none => .error .keyError
    | some s => .ok (.normal m ((s * f / 2) ^ 2))
  | .triangular =>
    match u.lo, u.hi with
    | some l, some h => .ok (.triangular (l * f) m (h * f))
    | _, _ => .error .keyError
  | .uniform =>
    match u.lo, u.hi with
    | some l, some h => .ok (.uniform (l * f) (h * f))
    | _, _ => .error .keyError

/-- A property being converted, and what is written of its uncertainty. -/
structure UPr where
  pr : Pr ℝ
  unc : Option EcsWritten

/-- The uncertainty in `normal_init`, :463-475: it is written for the value of the file, with the factor 1 of a new
amount, :200. -/
noncomputable def uncOf (u : Option FUnc) (a : ℝ) : Py (Option EcsWritten) :=
  match u with
  | none => .ok none
  | some u => (readUnc u a 1).map some

/-- `normal_init`, :454-482. -/
noncomputable def normalInit (env : Env ℝ) (y : UFile) : Py (Option UPr × List Energy) := do
  let (p, e) ← IlcdProps.normalInit env y.x
  match p with
  | none => .ok (none, e)
  | some p => do
    let u ← uncOf y.unc p.m
    .ok (some ⟨p, u⟩, e)

/-- `get_properties`, :595-606. -/
noncomputable def readProps (env : Env ℝ) (reference : Str) :
    List (Str × Option UPr) × List Energy → List UFile → Py (List (Str × Option UPr) × List Energy)
  | s, [] => .ok s
  | s, y :: l =>
    if y.x.internalId = reference then readProps env reference s l
    else do
      let n ← IlcdProps.shortName y.x
      let (p, e) ← normalInit env y
      readProps env reference (aset n p s.1, s.2 ++ e) l

/-- `{k: v for k, v in self.properties.items() if v.isConvertible}`, :750-751. -/
def convertible (d : List (Str × Option UPr)) : List (Str × UPr) := d.filterMap fun e => e.2.map fun p => (e.1, p)

/-- `mass_prop_init`, :520-536: no uncertainty. -/
def massProp (a : ℝ) (name id : Str) : UPr := ⟨IlcdProps.massProp a name id, none⟩

/-- The masses that follow from the water content, :546-556. -/
noncomputable def addMasses (unit : Str) (props : List (Str × UPr)) : List (Str × UPr) :=
  match aget c!"water content" props with
  | none => props
  | some w =>
    if unit = c!"m**3" then props
    else aset c!"water in wet mass" (massProp w.pr.m c!"water in wet mass" IlcdProps.waterId)
      (aset c!"dry mass" (massProp (1 - w.pr.m) c!"dry mass" IlcdProps.dryId)
        (aset c!"wet mass" (massProp 1 c!"wet mass" IlcdProps.wetId) props))

/-- A property of the exchange in EcoSpold2. -/
structure Out where
  prop : IlcdProps.Written ℝ
  unc : Option EcsWritten

/-- The loop of `convert_properties`, :558-593: `divide`, :257-259, changes the amount and its factor, and the uncertainty
was written before. -/
noncomputable def convertProps (unit : Str) (props : List (Str × UPr)) : Py (List Out) :=
  let all := addMasses unit props
  let dry := (aget c!"dry mass" all).map (·.pr.m)
  all.mapM fun e => (IlcdProps.placeProp unit dry e.1 e.2.pr).map fun q => ⟨q.field, e.2.unc⟩

/-- The properties of an exchange that come from the file of its flow, :749-753. -/
noncomputable def convert (env : Env ℝ) (unit reference : Str) (file : List UFile) : Py (List Out) := do
  let (d, _) ← readProps env reference ([], []) file
  convertProps unit (convertible d)

end Verif.IlcdPropUnc
