/-
What the output says about amounts and flow properties, read from the files alone; and how pint names a dimension.
-/
import Verif.Model.RefUnitTables
import Verif.Model.Assoc
import Mathlib.Algebra.Field.Defs

namespace Verif.RefUnits.Spec

open Verif Verif.RefUnits

/-- The reference unit of a unit group, as its file states it. -/
def groupUnit (g : Str) : Option Str := do
  let f ← aget g ugFiles
  let u ← f.units.find? fun u => u.number = f.reference
  some u.name

/-- The unit of the amounts stated in a flow property, as the file of the flow property and that of its unit group state it. -/
def unitOf (fp : Str) : Option Str := do
  let f ← aget fp fpFiles
  groupUnit f.group

/-- What a number means to the reader of the output, who takes it in the unit of the flow property; `worth` is the size of a
unit of ILCD. -/
def Means {K : Type} [Field K] (worth : Str → K) (fp : Str) (m : K) (v : K) : Prop :=
  ∃ u, unitOf fp = some u ∧ v = m * worth u

/-- The files of the output that a reference to a flow property leads to: the flow property in the version named, and the
unit group it is stated in. -/
structure Leads (outFp outUg : List Str) (id version : Str) : Prop where
  file : id ∈ outFp
  found : ∃ f, aget id fpFiles = some f ∧ f.version = version ∧ f.group ∈ outUg ∧ (aget f.group ugFiles).isSome

/-- A dimension: base dimensions and exponents above the line and below it. -/
structure Dim where
  num : List (Str × Nat)
  den : List (Str × Nat)

/-- One factor in the text of pint. -/
def factor (p : Str × Nat) : Str :=
  c!"[" ++ p.1 ++ c!"]" ++ if p.2 = 1 then [] else c!" ** " ++ natStr p.2

/-- The text of pint for a dimension, factors in the order given. -/
def Dim.text (d : Dim) : Str :=
  (if d.num = [] then c!"1" else join c!" * " (d.num.map factor)) ++ (d.den.flatMap fun p => c!" / " ++ factor p)

/-- The same dimension with the factors in another order. -/
def Dim.Same (d e : Dim) : Prop := d.num.Perm e.num ∧ d.den.Perm e.den

/-- The dimensions of the units of ILCD, with the keys of the tables. -/
def known : List (Dim × Str) := [
  (⟨[(c!"item", 1), (c!"time", 1)], []⟩, c!"329b50e2-c594-39e9-953c-04c61d81d61e"),
  (⟨[(c!"item", 1)], []⟩, c!"60a18d85-9c22-3f47-b932-2447513880c9"),
  (⟨[(c!"length", 2), (c!"mass", 1)], [(c!"time", 2)]⟩, c!"f09fb2f1-8af1-3630-8463-c7ebc26474be"),
  (⟨[(c!"length", 3)], []⟩, c!"5f4bed1b-40a0-39cd-9fbe-798c54c5d5a5"),
  (⟨[(c!"length", 1), (c!"mass", 1)], []⟩, c!"9441711e-e3ae-36cd-bfaf-83783500857f"),
  (⟨[(c!"length", 1)], []⟩, c!"40c11086-1e24-3103-8226-47fc3d6f8d57"),
  (⟨[(c!"item", 1), (c!"length", 1)], []⟩, c!"e132038d-01c0-35ce-a697-b8892ced1280"),
  (⟨[], [(c!"time", 1)]⟩, c!"d5b44662-691e-39e9-b139-c306815ffd72"),
  (⟨[(c!"length", 2)], []⟩, c!"98c1db98-9766-3362-8e79-aedf42522267"),
  (⟨[(c!"length", 2), (c!"time", 1)], []⟩, c!"174a2f50-251e-374d-81c7-088f905c30cd"),
  (⟨[(c!"length", 3), (c!"time", 1)], []⟩, c!"080aba62-dce7-313f-a6f1-2d94db4d5a97"),
  (⟨[(c!"mass", 1)], []⟩, c!"7844486d-bbaf-3c45-9487-7fe3476c5b6f"),
  (⟨[(c!"time", 1)], []⟩, c!"5f5fa142-2703-39f2-bf19-ff33f435cc49"),
  (⟨[(c!"length", 1), (c!"time", 1)], []⟩, c!"e2c902a8-5a87-34ea-b6cb-f9579afa41f9"),
  (⟨[(c!"substance", 1)], []⟩, c!"ca2f7f9a-ae4e-3c80-9388-b7bc26a8bf4d"),
  (⟨[(c!"length", 4)], []⟩, c!"371b6515-6488-399b-9364-b9125dcf5ef2"),
  (⟨[(c!"currency", 1)], []⟩, c!"7cd6e908-4c0a-35b9-9530-620e5877f4e5"),
  (⟨[(c!"mass", 1), (c!"time", 1)], []⟩, c!"86e381c9-d6d4-3241-b8f6-3d78596aa3cc")]

end Verif.RefUnits.Spec
