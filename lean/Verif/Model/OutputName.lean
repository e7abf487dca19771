/-
The names of output files.
Models src/Lavoisier/formats/abstractions.py:131-138 (`check_name_for_existence`).

A directory is the finite list of the names of its files (`is_file`); other processes that write into
it between the check and the writing are not modelled.
-/
import Verif.Py

namespace Verif.Output

/-- The candidates tried by the loop: `name + ' (' + str(i) + ')'`, :136. -/
def numbered (name : Str) (i : Nat) : Str := name ++ c!" (" ++ natStr i ++ c!")"

/-- The loop :135-137 from number `i`. `fuel` bounds the steps; it is chosen so that it never runs out
(`checkName_fresh`). -/
def firstFree (dir : List Str) (name ext : Str) : Nat → Nat → Str
  | 0, i => numbered name i
  | fuel + 1, i =>
    if numbered name i ++ ext ∈ dir then firstFree dir name ext fuel (i + 1) else numbered name i

/-- `check_name_for_existence`, :131-138. -/
def checkName (dir : List Str) (name ext : Str) : Str :=
  if name ++ ext ∈ dir then firstFree dir name ext dir.length 1 else name

end Verif.Output
