/-
Amounts and their uncertainty.
Models src/Lavoisier/conversions/ECS2_to_ILCD1_conversion.py:65-192 (`ECS2ToILCD1UncertaintyConversion`),
195-229 and 385-524 (`Amount`, `ECS2ToILCD1Amount`: unit conversion, `multiply`, `divide`, `sum_`,
`calculate_unc`, `to_ilcd_unit`), 1304-1321 (`get_elementary_info`: the factor of the elementary flow mapping), and
src/Lavoisier/conversions/ILCD1_to_ECS2_conversion.py:61-173, 194-260
(`ILCD1ToECS2UncertaintyConversion`, `ILCD1ToECS2Amount`).

Simplifications: numbers are real numbers, so rounding and overflow of floats are left out. A unit
conversion by pint is the multiplication by a factor (no unit of the program has an offset in its use
here). The operations of OpenTURNS on two lognormal or two normal distributions are taken to add the
variances, which is what that library documents. Comments and warnings are left out, and so is the
pedigree matrix, which does not take part in the calculation.
-/
import Verif.Py
import Mathlib.Analysis.SpecialFunctions.Log.Basic
import Mathlib.Analysis.SpecialFunctions.Sqrt

namespace Verif.Uncertainty

/-- The data of an uncertainty kept by the converters, ECS2_to_ILCD1_conversion.py:104-118: the type, and
the variance with pedigree or the bounds. `other` is one of beta, gamma, binomial and undefined. -/
inductive Unc where
  | lognormal (var : ℝ)
  | normal (var : ℝ)
  | triangular (lo hi : ℝ)
  | uniform (lo hi : ℝ)
  | other

/-- An amount: the value `m` in the current unit, the factor `f` collected so far, the uncertainty. -/
structure Amt where
  m : ℝ
  f : ℝ
  unc : Option Unc

/-- `Amount.__init__`, :199-204. -/
def init (a : ℝ) (unc : Option Unc) : Amt := ⟨a, 1, unc⟩

/-- `to_ilcd_unit`, :512-524: conversion to another unit with factor `c`. -/
def Amt.toUnit (x : Amt) (c : ℝ) : Amt := { x with m := x.m * c, f := x.f * c }

/-- `multiply` by a quantity without uncertainty, :427-429. -/
def Amt.scale (x : Amt) (c : ℝ) : Amt := { x with m := x.m * c, f := x.f * c }

/-- `divide` by a quantity without uncertainty, :439-441. -/
noncomputable def Amt.unscale (x : Amt) (c : ℝ) : Amt := { x with m := x.m / c, f := x.f / c }

/-- `_get_distribution`, :123-128: the distribution can be made by OpenTURNS: `math.log(abs(amount.m))`
needs a value other than zero and the standard deviation has to be positive. -/
def canMake (m var : ℝ) (isLog : Bool) : Prop := (isLog = true → m ≠ 0) ∧ 0 < var

/-- The uncertainty of a product or quotient, :420-426 and 432-438. -/
noncomputable def productUnc (x y : Amt) : Py (Option Unc) :=
  match x.unc, y.unc with
  | some (.lognormal v), some (.lognormal w) =>
    open Classical in
    if canMake x.m v true ∧ canMake y.m w true then .ok (some (.lognormal (v + w))) else .error .valueError
  | some _, some _ => .ok none
  | u, none => .ok u
  | none, some _ => .ok none

/-- `multiply` by another amount, :419-429. -/
noncomputable def Amt.multiply (x y : Amt) : Py Amt :=
  (productUnc x y).map fun u => ⟨x.m * y.m, x.f * y.m, u⟩

/-- `divide` by another amount, :431-441. -/
noncomputable def Amt.divide (x y : Amt) : Py Amt :=
  match productUnc x y with
  | .error e => .error e
  | .ok u => open Classical in if y.m = 0 then .error .zeroDivisionError else .ok ⟨x.m / y.m, x.f / y.m, u⟩

/-- The uncertainty of a sum, :444-450. -/
noncomputable def sumUnc (x y : Amt) : Py (Option Unc) :=
  match x.unc, y.unc with
  | some (.normal v), some (.normal w) =>
    open Classical in
    if canMake x.m v false ∧ canMake y.m w false then .ok (some (.normal (v + w))) else .error .valueError
  | some _, some _ => .ok none
  | u, none => .ok u
  | none, some _ => .ok none

/-- `sum_`, :443-453: the factor becomes `f + other.m`. -/
noncomputable def Amt.add (x y : Amt) : Py Amt :=
  (sumUnc x y).map fun u => ⟨x.m + y.m, x.f + y.m, u⟩

/-- The type of a distribution in ILCD. -/
inductive Kind where
  | lognormal
  | normal
  | triangular
  | uniform
  deriving DecidableEq

/-- What is written about the uncertainty of an amount in ILCD, :165-184. -/
structure Written where
  kind : Kind
  mean : ℝ
  min : ℝ
  max : ℝ
  std95 : Option ℝ

/-- `_calculate` and `get_uncertainty`, :145-184; nothing is written for the other distributions. -/
noncomputable def Amt.written (x : Amt) : Option Written :=
  match x.unc with
  | some (.lognormal v) =>
    let s := Real.exp (Real.sqrt v) ^ 2
    some ⟨.lognormal, x.m, x.m / s, x.m * s, some s⟩
  | some (.normal v) =>
    let s := 2 * Real.sqrt v * x.f
    some ⟨.normal, x.m, x.m - s, x.m + s, some s⟩
  | some (.triangular lo hi) => some ⟨.triangular, x.m, lo * x.f, hi * x.f, none⟩
  | some (.uniform lo hi) => some ⟨.uniform, x.m, lo * x.f, hi * x.f, none⟩
  | some .other => none
  | none => none

/-- The amount of an elementary exchange, :1314-1321: the value is multiplied by the factor of the
mapping, the uncertainty is taken from the file as it is. -/
def elementary (a factor : ℝ) (unc : Option Unc) : Amt := init (a * factor) unc

/-- What is written in EcoSpold2. `mu` is the logarithm of the mean. -/
inductive EcsWritten where
  | lognormal (mean mu var : ℝ)
  | normal (mean var : ℝ)
  | triangular (lo mode hi : ℝ)
  | uniform (lo hi : ℝ)

/-- `_get_data` and `calculate`, ILCD1_to_ECS2_conversion.py:94-110, 139-159, for the value `m` (in the
unit of EcoSpold2) and the factor `f` from the ILCD unit. A lognormal or normal distribution without
standard deviation is an error. -/
noncomputable def readBack (w : Written) (m f : ℝ) : Py EcsWritten :=
  match w.kind, w.std95 with
  | .lognormal, none => .error .keyError
  | .normal, none => .error .keyError
  | .lognormal, some s =>
    open Classical in
    if s ≤ 0 then .error .valueError
    else .ok (.lognormal m (if 0 < m then Real.log m else 0) (Real.log (Real.sqrt s) ^ 2))
  | .normal, some s => .ok (.normal m ((s * f / 2) ^ 2))
  | .triangular, _ => .ok (.triangular (w.min * f) m (w.max * f))
  | .uniform, _ => .ok (.uniform (w.min * f) (w.max * f))

end Verif.Uncertainty
