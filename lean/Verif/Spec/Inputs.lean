/-
What is meant by the processes of an archive and the files of a directory.
-/
import Verif.Py

namespace Verif.Inputs.Spec

/-- A folder path is empty or ends with a slash. -/
def IsFolder (r : Str) : Prop := r = [] ∨ ∃ q, r = q ++ ['/']

/-- `x` is a data set of the folder `processes` in the folder `r`. -/
def ProcessAt (r x : Str) : Prop :=
  IsFolder r ∧ ∃ f, x = r ++ c!"processes/" ++ f ++ c!".xml" ∧ '/' ∉ f

/-- `x` is a process data set, wherever the folder `processes` is. -/
def IsProcess (x : Str) : Prop := ∃ r, ProcessAt r x

/-- Some folder on the way to `x` is named `processes`. -/
def Below (x : Str) : Prop := ∃ r y, IsFolder r ∧ x = r ++ c!"processes/" ++ y

/-- A part of a text. -/
def Occurs (sub s : Str) : Prop := ∃ a b, s = a ++ sub ++ b

end Verif.Inputs.Spec
