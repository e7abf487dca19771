/-
The uncertainties of the properties of an exchange of EcoSpold2 on their way to ILCD.
Models src/Lavoisier/conversions/ECS2_to_ILCD1_conversion.py:674-697 (the amount of a property), 195-229 and 419-459
(`multiply`, `divide`, `calculate_unc`), 772-868 (`get_ilcd_equivalent`), 914-922 (`get_dict`), 1034-1052
(`get_properties`), and 333-350, 499-505, 2061-2064 for the variable of a property.

It follows Verif.EcsProps, which leaves the uncertainties out, and uses the amounts of Verif.Uncertainty.

Simplifications: those of the two models; numbers are real numbers. The uncertainty is given as data; what happens to its
texts and comments is in Verif.UncText.
-/
import Verif.Model.EcsProps
import Verif.Model.Uncertainty

namespace Verif.PropUnc
open Verif.Units Uncertainty
open EcsProps (EProp Pr Env perFlow perDryMass unitParts)

/-- A property being converted: what Verif.EcsProps keeps of it, the amount of the source, the factor collected so far
(`_f`), the uncertainty of the amount (`_unc`, if it was not deleted), and the uncertainty seen from the copy of the
amount that is kept as `amount.o`, :205, 379: the copy shares the object and does not notice that the attribute is
deleted. -/
structure UPr where
  pr : Pr ℝ
  a : ℝ
  f : ℝ
  unc : Option Unc
  seen : Option Unc

/-- The amount of the property. -/
def UPr.amt (p : UPr) : Amt := ⟨p.pr.m, p.f, p.unc⟩

/-- The property with another amount. An uncertainty that is still there is the same object, changed in place by
`_change_data`, :130-143. -/
def UPr.put (p : UPr) (z : Amt) : UPr :=
  ⟨{ p.pr with m := z.m }, p.a, z.f, z.unc, match z.unc with | some u => some u | none => p.seen⟩

/-- A property and its uncertainty. -/
structure UProp where
  x : EProp
  unc : Option Unc

/-- `Property.__init__`, :674-756, with the uncertainty. -/
noncomputable def construct (env : Env ℝ) (n : Nat) (y : UProp) : Py (UPr × Nat) := do
  let (p, n') ← EcsProps.construct env n y.x
  let a ← env.flt y.x.amount
  let (_, _, f) ← env.unit (y.x.units.headD c!"dimensionless")
  .ok (⟨p, a, f, y.unc, y.unc⟩, n')

/-- `get_properties`, :1035-1046. -/
noncomputable def readProps (env : Env ℝ) : List (Str × UPr) × Nat → List UProp → Py (List (Str × UPr) × Nat)
  | s, [] => .ok s
  | s, y :: l => do
    let (p, n) ← construct env s.2 y
    readProps env (if p.pr.considered then aset y.x.name p s.1 else s.1, n) l

/-- The properties and the names that have been treated (`mnames`). -/
structure St where
  props : List (Str × UPr)
  done : List Str

/-- `correction_for_flow_unit_conversion`, :778-785: the divisor has no uncertainty. -/
noncomputable def divFactor (env : Env ℝ) (k : Str) (p : UPr) (s : St) : Py St :=
  if env.factor = 1 then .ok ⟨s.props, s.done ++ [k]⟩
  else if env.factor = 0 then .error .zeroDivisionError
  else .ok ⟨aset k (p.put (p.amt.unscale env.factor)) s.props, s.done ++ [k]⟩

/-- `correction_for_dry_mass`, :787-800: the dry mass is multiplied with its uncertainty. -/
noncomputable def mulDry (k : Str) (p : UPr) (s : St) : Py St :=
  match aget c!"dry mass" s.props with
  | some d => (p.amt.multiply d.amt).map fun z => ⟨aset k (p.put z) s.props, s.done ++ [k]⟩
  | none => .ok ⟨aset k { p with pr := { p.pr with considered := false } } s.props, s.done ++ [k]⟩

/-- `correction_for_flow_amount`, :802-812: `flow.amount.a` is a quantity without uncertainty. -/
noncomputable def mulAmount (env : Env ℝ) (k : Str) (p : UPr) (s : St) : Py St :=
  .ok ⟨aset k (p.put (p.amt.scale (env.amount * (if env.amount ≥ 0 then 1 else -1)))) s.props, s.done ++ [k]⟩

/-- The first loop, :815-817. -/
noncomputable def firstLoop (env : Env ℝ) : St → List Str → Py St
  | s, [] => .ok s
  | s, k :: l =>
    match aget k s.props with
    | none => firstLoop env s l
    | some p => (divFactor env k p s).bind fun s' => firstLoop env s' l

/-- The second loop, :820-831; the water content that is estimated has no uncertainty. -/
noncomputable def secondLoop : St × Nat → List Str → Py (St × Nat)
  | s, [] => .ok s
  | (s, n), k :: l =>
    match aget k s.props with
    | some p => (mulDry k p s).bind fun s' => secondLoop (s', n) l
    | none =>
      match decide (k = c!"water content"), aget c!"dry mass" s.props, aget c!"wet mass" s.props with
      | true, some d, some w =>
        (EcsProps.estimated w.pr.m d.pr.m n).bind fun p =>
          secondLoop (⟨aset k ⟨p, w.pr.m - d.pr.m, 1, none, none⟩ s.props, s.done ++ [k]⟩, n + 1) l
      | _, _, _ => secondLoop (s, n) l

/-- The property is not considered, :848, 861-863. -/
def drop (k : Str) (p : UPr) (s : St) : St :=
  ⟨aset k { p with pr := { p.pr with considered := false } } s.props, s.done⟩

/-- The general correction, :835-863. -/
noncomputable def general (env : Env ℝ) (k : Str) (p : UPr) (s : St) : Py St :=
  if k ∈ s.done then .ok s
  else if isInfix c!"content" k then
    if p.pr.u = c!"kilogram" ∨ p.pr.u = c!"megajoule" then divFactor env k p s
    else if p.pr.u = c!"dimensionless" then mulDry k p s
    else .ok (drop k p s)
  else if isInfix c!"concentration, " k ∧ 1 < (unitParts p.pr.o).length then
    (env.check ((unitParts p.pr.o).getLastD [])).bind fun b => if b then mulAmount env k p s else .ok (drop k p s)
  else if isInfix c!"heating value, " k ∧ p.pr.o = c!"megajoule" then divFactor env k p s
  else if isInfix c!"lifetime capacity" k then divFactor env k p s
  else .ok (drop k p s)

/-- The third loop, :834-863. -/
noncomputable def thirdLoop (env : Env ℝ) : St → List Str → Py St
  | s, [] => .ok s
  | s, k :: l =>
    match aget k s.props with
    | none => thirdLoop env s l
    | some p => (general env k p s).bind fun s' => thirdLoop env s' l

/-- `get_ilcd_equivalent`, :772-868. -/
noncomputable def equivalent (env : Env ℝ) (props : List (Str × UPr)) (n : Nat) : Py (List (Str × UPr)) := do
  let s1 ← firstLoop env ⟨props, []⟩ perFlow
  let (s2, _) ← secondLoop (s1, n) perDryMass
  let s3 ← thirdLoop env s2 (s2.props.map Prod.fst)
  .ok (if (aget c!"water content" s3.props).isSome then adel c!"water in wet mass" s3.props else s3.props)

/-- A flow property of the flow in ILCD with what is written about its uncertainty. -/
structure Out where
  prop : EcsProps.Out ℝ
  unc : Option Written

/-- `get_dict`, :914-922. -/
noncomputable def outOf (p : UPr) : Option Out := (EcsProps.outOf p.pr).map fun o => ⟨o, p.amt.written⟩

/-- What is written about the uncertainty of the variable of the property, :342-344, 499-502: that of the amount of the
source in its own unit, with the factor 1. -/
noncomputable def varUnc (p : UPr) : Option Written := (⟨p.a, 1, p.seen⟩ : Amt).written

/-- The properties of an exchange at the end of `get_ilcd_equivalent`. -/
noncomputable def finished (env : Env ℝ) (xs : List UProp) : Py (List (Str × UPr)) := do
  let (d, n) ← readProps env ([], 1) xs
  equivalent env d n

/-- The flow properties of an exchange, :1034-1052, 1189-1191. -/
noncomputable def convert (env : Env ℝ) (xs : List UProp) : Py (List Out) :=
  (finished env xs).map fun r => r.filterMap fun e => outOf e.2

end Verif.PropUnc
