/-
The kind of calorific value an activity states, on its way to the flow property of its energy flows.
Models src/Lavoisier/conversions/ECS2_to_ILCD1_conversion.py:668 (`_energy`), 870-910 (`get_unit_property`, in
Model/RefUnits), 1195-1199 (its call for a product), 1922-1938 (`reset_conversion`, as far as the attribute is concerned),
2203-2206 (the attribute `energyValues`).

Simplifications: of a data set the code of `energyValues` and, for each product or waste, the text of the dimension of its amount
are kept. The attributes of the class `Property` are a list of names and values. An error stops the run.
-/
import Verif.Model.RefUnits
import Verif.Model.DataTables

namespace Verif.Energy

open Verif.RefUnits

/-- The attributes of the class `Property`. -/
abbrev Attrs := List (Str × Option Str)

/-- The class as it is defined, line 668. -/
def initial : Attrs := [(c!"_energy", none)]

/-- `setattr(self.FlowConversion.Property, 'energy', energy.get(x))`, line 2206. -/
def readCode (code : Str) (a : Attrs) : Attrs := aset c!"energy" (aget code Tables.energy) a

/-- `self.FlowConversion.Property._energy = None`, line 1937. -/
def reset (a : Attrs) : Attrs := aset c!"_energy" none a

/-- `cls._energy`, line 883. -/
def energyOf (a : Attrs) : Option Str := (aget c!"_energy" a).join

/-- A data set: the code of `energyValues` and the dimensions of its products. -/
structure File where
  code : Option Str
  dims : List Str

/-- The products one after the other, lines 1191 and 870-910. -/
def products (hash : Str → Str) (a : Attrs) : List Str → St → Py (List Ref × St)
  | [], s => .ok ([], s)
  | d :: l, s => do
    let (r, s) ← unitProperty hash (energyOf a) d s
    let (rs, s) ← products hash a l s
    .ok (r :: rs, s)

/-- The attributes while the products of a data set are read: the activity comes first. -/
def during (f : File) (a : Attrs) : Attrs :=
  match f.code with
  | some c => readCode c a
  | none => a

/-- Several data sets, `reset_conversion` after each. -/
def run (hash : Str → Str) : List File → Attrs → St → Py (List (List Ref) × St)
  | [], _, s => .ok ([], s)
  | f :: l, a, s => do
    let (rs, s) ← products hash (during f a) f.dims s
    let (rss, s) ← run hash l (reset (during f a)) s
    .ok (rs :: rss, s)

end Verif.Energy
