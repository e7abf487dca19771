/-
What is expected of the uncertainties of the properties of an exchange of EcoSpold2.
-/
import Verif.Model.IlcdPropUnc
import Verif.Spec.IlcdProps
import Verif.Spec.Uncertainty

namespace Verif.IlcdPropUnc.Spec
open MeasureTheory Uncertainty.Spec
open IlcdProps (Env)
open Verif.Units
open Uncertainty (EcsWritten)

/-- The meaning of the uncertainty of a value of ILCD. -/
noncomputable def fileLaw (a : ℝ) (u : FUnc) : Option (Measure ℝ) :=
  match u.kind, u.std95, u.lo, u.hi with
  | .lognormal, some s, _, _ => some (lognormalLaw a ((Real.log s / 2) ^ 2))
  | .normal, some s, _, _ => some (normalLaw a ((s / 2) ^ 2))
  | .triangular, _, some l, some h => some (triangularLaw l a h)
  | .uniform, _, some l, some h => some (uniformLaw l h)
  | _, _, _, _ => none

/-- The meaning of what is written in EcoSpold2. -/
noncomputable def ecsLaw : EcsWritten → Measure ℝ
  | .lognormal m _ v => lognormalLaw m v
  | .normal m v => normalLaw m v
  | .triangular l m h => triangularLaw l m h
  | .uniform l h => uniformLaw l h

/-- The uncertainty is a distribution around the value that does not concentrate on one point. -/
def Spread (a : ℝ) (u : FUnc) : Prop :=
  match u.kind, u.std95, u.lo, u.hi with
  | .lognormal, some s, _, _ => 0 < a ∧ 1 < s
  | .normal, some s, _, _ => 0 < s
  | .triangular, _, some l, some h => l ≤ a ∧ a ≤ h ∧ l < h
  | .uniform, _, some l, some h => l < h
  | _, _, _, _ => False

/-- The data that `float` and `math` need are there. -/
def Readable (u : FUnc) : Prop :=
  match u.kind, u.std95, u.lo, u.hi with
  | .lognormal, some s, _, _ => 0 < s
  | .normal, some _, _, _ => True
  | .triangular, _, some _, some _ => True
  | .uniform, _, some _, some _ => True
  | _, _, _, _ => False

/-- The file gives the value `a` with the uncertainty `u` under the name `n`, for a property that EcoSpold2 knows. -/
def Given (env : Env ℝ) (file : List UFile) (ref n : Str) (fp : Ecs) (a : ℝ) (u : Option FUnc) : Prop :=
  ∃ l r y, file = l ++ y :: r ∧ y.x.internalId ≠ ref ∧ y.x.names = [n] ∧ (∀ z ∈ r, z.x.internalId ≠ ref → z.x.names ≠ [n]) ∧
    aget y.x.id ilcdToEcsFp = some fp ∧ env.flt y.x.value = .ok a ∧ y.unc = u

/-- The property is a content that is divided by the dry mass `d`. -/
def Divided (env : Env ℝ) (file : List UFile) (ref unit n : Str) (fp : Ecs) (d : ℝ) : Prop :=
  IlcdProps.Spec.Contains c!" content" n ∧ (unit = c!"kg" → fp.mass = none) ∧ (unit = c!"m**3" → fp.volume = none) ∧
    IlcdProps.Spec.Dry env (file.map UFile.x) ref unit (some d)

/-- The name of a mass that the program computes. -/
def Computed (env : Env ℝ) (file : List UFile) (ref unit n : Str) : Prop :=
  n ∈ IlcdProps.Spec.massNames ∧ ∃ w, IlcdProps.Spec.Water env (file.map UFile.x) ref unit w

end Verif.IlcdPropUnc.Spec
