/-
What the course of a conversion should amount to.
-/
import Verif.Model.Driver

namespace Verif.Driver.Spec

variable {F V I P M S O : Type}

/-- A document made from one file: an empty data set is filled from the file, finished and written;
nothing of any other file enters the data set. -/
def MadeFrom (ops : Ops F V I P M S O) (f : F) (st : S) (o : O) : Prop :=
  ∃ m m1 s1 m2, ops.fill m ops.empty f = (m1, s1, none) ∧ ops.finish m1 s1 = (m2, st, none) ∧
    ops.doc st = .ok o

/-- The content of the output for one file alone. -/
def alone (ops : Ops F V I P M S O) (st : S) (o : O) : Content O :=
  match ops.kind with
  | .ilcd => .archive [(ops.uuid st ++ c!".xml", o)]
  | .ecs2 => .process o

/-- A file name made from the given base name: with the extension of the format, and possibly a number
in between. -/
def NamedAfter (ops : Ops F V I P M S O) (base name : Str) : Prop :=
  ∃ mid, name = base ++ mid ++ (match ops.kind with | .ilcd => c!".zip" | .ecs2 => c!".spold")

/-- A converter that is not in the middle of something: no data set under construction. -/
def Clean (ops : Ops F V I P M S O) (s : St V I P M S O) : Prop :=
  ∀ d, s.data = some d → d.struct = ops.empty ∧ d.multi = false

end Verif.Driver.Spec
