/-
Python dictionaries as lists of pairs in order of insertion.
-/
import Verif.Py

namespace Verif

variable {κ α : Type} [DecidableEq κ]

/-- `d.get(k)` -/
def aget (k : κ) : List (κ × α) → Option α
  | [] => none
  | (k', v) :: l => if k' = k then some v else aget k l

/-- `d[k] = v`: replaced in place, or appended. -/
def aset (k : κ) (v : α) : List (κ × α) → List (κ × α)
  | [] => [(k, v)]
  | (k', v') :: l => if k' = k then (k, v) :: l else (k', v') :: aset k v l

/-- `del d[k]` -/
def adel (k : κ) (d : List (κ × α)) : List (κ × α) := d.filter fun p => !decide (p.1 = k)

end Verif
