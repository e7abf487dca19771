/-
How the text of a unit in an EcoSpold2 file is read as a unit of `pint`.
Models src/Lavoisier/conversions/ECS2_to_ILCD1_conversion.py:527-559 (`unit_name_correction`), its second use on the
units named in a formula (lines 270-277, 200, 416-417), and the names defined by `units_def`
(src/Lavoisier/conversions/units.py:9-136, used in lines 61-62 and 554).

`pint` itself is outside: whether it knows a text as a unit is a parameter. Of `units_def` the keys and the names they
define are kept. The two regular expressions look for letters followed by a digit from 2 to 4 that no digit follows; as the
letters are taken as many as possible, and a digit is no letter, the last letter alone decides, and this is how they are
written here. A digit is one of 0 to 9.

Simplification: values that are no texts, which are given back as they are (529-530).
-/
import Verif.Model.IlcdVars

namespace Verif.UnitNames

open Verif.IlcdVars

/-- The replacements, lines 533-540, in order. -/
def replacements : List (Str × Str) :=
  [(c!"(2011)", c!"2011"), (c!"% (obsolete)", c!"pct"), (c!" ", c!"_"), (c!"-", c!"_"), (c!".", c!"*"), (c!"^", c!"**"),
   (c!"/hp*h", c!"/(hp*h)"), (c!"(s)", c!"s")]

/-- `reduce(lambda y, x: y.replace(*x), rep, name)`, line 542. -/
def basic (name : Str) : Str := replacements.foldl (fun y x => replaceAll x.1 x.2 y) name

/-- `[0-9]` -/
def isDigit (c : Char) : Bool := decide ('0' ≤ c) && decide (c ≤ '9')

/-- The rest of a text begins with one of the digits, and no digit follows it. -/
def exponent (p : Char → Bool) : Str → Bool
  | [] => false
  | d :: r => p d && !(match r with | [] => false | e :: _ => isDigit e)

/-- `re.search(r'([a-zA-Z]{1,})[2-4]{1}(?![\d])', name)`, line 545, for the digits `p`. -/
def hasPower (p : Char → Bool) : Str → Bool
  | [] => false
  | c :: s => (isLetter c && exponent p s) || hasPower p s

/-- `re.sub(r"([a-zA-Z]{1,})"+x+r"{1}(?![\d])", r"\1**"+x, y)`, line 549, for the digits `p`. -/
def powers (p : Char → Bool) : Str → Str
  | [] => []
  | c :: s => if isLetter c && exponent p s then c :: '*' :: '*' :: powers p s else c :: powers p s

/-- `[2-4]` -/
def twoToFour (c : Char) : Bool := c = '2' || c = '3' || c = '4'

/-- The formulas that keep their digits, line 546-547. -/
def formulas : List Str := [c!"NH3", c!"N2O", c!"NO3", c!"P2O5", c!"PO4"]

/-- The text given to `pint`, lines 533-550. -/
def correct (name : Str) : Str :=
  let s := basic name
  if hasPower twoToFour s && formulas.all (fun f => !isInfix f s) then
    ['2', '3', '4'].foldl (fun y x => powers (fun c => c = x) y) s
  else s

/-- `unit_name_correction`, lines 527-559: `known` says that `pint` knows the text, `definable` that `units_def` has the
key and `pint` takes the definition. -/
def unitName (known definable : Str → Bool) (name : Str) : Py Str :=
  let n := correct name
  if known n then .ok n else if definable n then .ok n else .error .valueError

/-- The units of `UnitConversion` in a formula, lines 270-277: corrected there, and once more when the amount is made. -/
def formulaUnit (known definable : Str → Bool) (name : Str) : Py Str :=
  match unitName known definable name with
  | .error e => .error e
  | .ok n => unitName known definable n

/-- `units_def`, units.py:9-136: key and name defined (part 1). -/
def unitsDef0 : List (Str × Str) := [
  (c!"m3", c!"m3"),
  (c!"m2", c!"m2"),
  (c!"point score", c!"point_score"),
  (c!"score", c!"score"),
  (c!"guest night", c!"guest_night"),
  (c!"PMH", c!"PMH"),
  (c!"dozen", c!"dozen"),
  (c!"person", c!"person"),
  (c!"seedling", c!"seedling"),
  (c!"head", c!"head"),
  (c!"unit", c!"unit"),
  (c!"mj", c!"mj"),
  (c!"OLD_MJ", c!"OLD_MJ"),
  (c!"kilocalorie_thermochemical", c!"kilocalorie_thermochemical"),
  (c!"calorie_thermochemical", c!"calorie_thermochemical"),
  (c!"kilocalorie_ISO_IT", c!"kilocalorie_ISO_IT"),
  (c!"British_thermal_unit_thermochemical", c!"British_thermal_unit_thermochemical"),
  (c!"British_thermal_unit_ISO_IT", c!"British_thermal_unit_ISO_IT"),
  (c!"therm_EC", c!"therm_EC"),
  (c!"therm_US", c!"therm_US"),
  (c!"calorie_59_degree_F", c!"calorie_59_degree_F"),
  (c!"calorie_ISO_IT", c!"calorie_ISO_IT"),
  (c!"British_thermal_unit_59_degree_F", c!"British_thermal_unit_59_degree_F"),
  (c!"barrel_of_oil_energy_equivalent_59_degree_F", c!"barrel_of_oil_energy_equivalent_59_degree_F"),
  (c!"barrel_of_oil_energy_equivalent_ISO_IT", c!"barrel_of_oil_energy_equivalent_ISO_IT"),
  (c!"ton_of_oil_energy_equivalent_thermochemical", c!"ton_of_oil_energy_equivalent_thermochemical"),
  (c!"ton_of_oil_energy_equivalent_ISO_IT", c!"ton_of_oil_energy_equivalent_ISO_IT"),
  (c!"megaton_of_oil_energy_equivalent_ISO_IT", c!"megaton_of_oil_energy_equivalent_ISO_IT"),
  (c!"gigaton_of_oil_energy_equivalent_ISO_IT", c!"gigaton_of_oil_energy_equivalent_ISO_IT"),
  (c!"foot_poundal", c!"foot_poundal"),
  (c!"foot_pound_force", c!"foot_pound_force"),
  (c!"percent", c!"percent"),
  (c!"kilogram_NH3_N", c!"kilogram_NH3_N"),
  (c!"kilogram_N2O_N", c!"kilogram_N2O_N"),
  (c!"kilogram_NO3_N", c!"kilogram_NO3_N")]

/-- `units_def`, units.py:9-136: key and name defined (part 2). -/
def unitsDef1 : List (Str × Str) := [
  (c!"kilogram_NOx", c!"kilogram_NOx"),
  (c!"kilogram_N2O", c!"kilogram_N2O"),
  (c!"kilogram_N", c!"kilogram_N"),
  (c!"kilogram_PO4", c!"kilogram_PO4"),
  (c!"kilogram_P2O5", c!"kilogram_P2O5"),
  (c!"kilogram_vehicle", c!"kilogram_vehicle"),
  (c!"Eq", c!"Eq"),
  (c!"pound_avoirdupois", c!"pound_avoirdupois"),
  (c!"ounce_avoirdupois", c!"ounce_avoirdupois"),
  (c!"barrel_lime_small_mass_equivalent", c!"barrel_lime_small_mass_equivalent"),
  (c!"barrel_lime_large_mass_equivalent", c!"barrel_lime_large_mass_equivalent"),
  (c!"troy_grain", c!"troy_grain"),
  (c!"metric_grain", c!"metric_grain"),
  (c!"short_assay_ton", c!"short_assay_ton"),
  (c!"micro_gram", c!"micro_gram"),
  (c!"kilogram_P", c!"kilogram_P"),
  (c!"kilogram_P_per_hectare_year", c!"kilogram_P_per_hectare_year"),
  (c!"kilowatt_hour_potential", c!"kilowatt_hour_potential"),
  (c!"photovoltaic_yield", c!"photovoltaic_yield"),
  (c!"TEU", c!"TEU"),
  (c!"gallon_fluid_US", c!"gallon_fluid_US"),
  (c!"barrel_fluid_US", c!"barrel_fluid_US"),
  (c!"barrel_dry", c!"barrel_dry"),
  (c!"gallon_dry_US", c!"gallon_dry_US"),
  (c!"quart_fluid_US", c!"quart_fluid_US"),
  (c!"quart_dry_US", c!"quart_dry_US"),
  (c!"pint_dry_US", c!"pint_dry_US"),
  (c!"pint_fluid_US", c!"pint_fluid_US"),
  (c!"ounce_fluid_US", c!"ounce_fluid_US"),
  (c!"barrel_beer_US", c!"barrel_beer_US"),
  (c!"bushel_US", c!"bushel_US"),
  (c!"gallon_Imperial", c!"gallon_Imperial"),
  (c!"quart_Imperial", c!"quart_Imperial"),
  (c!"pint_Imperial", c!"pint_Imperial"),
  (c!"barrel_fluid_Imperial", c!"barrel_fluid_Imperial")]

/-- `units_def`, units.py:9-136: key and name defined (part 3). -/
def unitsDef2 : List (Str × Str) := [
  (c!"cord", c!"cord"),
  (c!"barrel_oil", c!"barrel_oil"),
  (c!"survey_acre_foot", c!"survey_acre_foot"),
  (c!"barrel_cranberry", c!"barrel_cranberry"),
  (c!"ounce_avoirdupois_per_gallon_Imperial", c!"ounce_avoirdupois_per_gallon_Imperial"),
  (c!"pound_per_cubic_yard", c!"pound_per_cubic_yard"),
  (c!"pound_per_cubic_foot", c!"pound_per_cubic_foot"),
  (c!"pound_per_cubic_inch", c!"pound_per_cubic_inch"),
  (c!"ounce_avoirdupois_per_cubic_inch", c!"ounce_avoirdupois_per_cubic_inch"),
  (c!"short_ton_per_cubic_yard", c!"short_ton_per_cubic_yard"),
  (c!"pound_per_gallon_Imperial", c!"pound_per_gallon_Imperial"),
  (c!"long_ton_per_cubic_yard", c!"long_ton_per_cubic_yard"),
  (c!"degree_F", c!"degree_F"),
  (c!"clo", c!"clo"),
  (c!"tog", c!"tog"),
  (c!"survey_acre", c!"survey_acre"),
  (c!"kgkm", c!"kgkm"),
  (c!"foot_candle", c!"foot_candle"),
  (c!"kbq", c!"kbq"),
  (c!"CHF2011", c!"CHF2011"),
  (c!"EUR2000", c!"EUR2000"),
  (c!"EUR2005basic", c!"EUR2005basic"),
  (c!"EUR", c!"EUR"),
  (c!"USD2011", c!"USD2011")]

/-- `units_def`, units.py:9-136: key and name defined. -/
def unitsDef : List (Str × Str) := [unitsDef0, unitsDef1, unitsDef2].flatten

end Verif.UnitNames
