/-
What a user can see of the state shared by the converters of a process: when a failure is one of adding exchanges, and
which files leave something behind. Written on the exchanges of a file only, without the passes of the program.
-/
import Verif.Model.Session

namespace Verif.Session

/-- An exchange as it is read. -/
def Fresh (f : Flow) : Prop := f.var = false ∧ f.refVar = false

/-- Two elementary exchanges with the same target and direction occur. -/
def Shares (l : List Flow) (k : Str × Str) : Prop :=
  ∃ a b c x y, l = a ++ x :: b ++ y :: c ∧ x.elementary = true ∧ y.elementary = true ∧ x.key = k ∧ y.key = k

/-- An elementary exchange cannot be added to the first one with its target and direction. -/
def SumStops (l : List Flow) : Prop :=
  ∃ a h m f b, l = a ++ h :: m ++ f :: b ∧ h.elementary = true ∧ f.elementary = true ∧ f.key = h.key ∧
    (∀ x ∈ a, x.elementary = true → x.key ≠ h.key) ∧
    ((f.source = true ∧ h.source = false) ∨ f.bad ≠ none)

/-- All formulas of a file can be made into variables. -/
def FormulasGood (o : Opts) (l : List Flow) : Prop := o.param = true → ∀ f ∈ l, f.broken = none

/-- A file that leaves something behind: it can be read, its formulas are good, exchanges cannot be added, and an
exchange that is not added to another has a variable. -/
def Disturbs (o : Opts) (f : File) : Prop :=
  f.fails = none ∧ FormulasGood o f.flows ∧ o.sum = true ∧ SumStops f.flows ∧ o.param = true ∧
    ∃ g ∈ f.flows, g.named = true ∧ ¬ Shares f.flows g.key

/-- A process in which converters are used one after the other; the errors reported. -/
def session : List Flow → List (Opts × List File) → List (Option PyErr)
  | _, [] => []
  | l, r :: rs => (convert r.1 l r.2).2 :: session (convert r.1 l r.2).1 rs

/-- What is left at the end. -/
def leftOver : List Flow → List (Opts × List File) → List Flow
  | l, [] => l
  | l, r :: rs => leftOver (convert r.1 l r.2).1 rs

/-- The first file of a conversion that disturbs, after files without error. -/
def RunDisturbs (r : Opts × List File) : Prop :=
  ∃ pre f post, r.2 = pre ++ f :: post ∧ (convert r.1 [] pre).2 = none ∧ Disturbs r.1 f

/-! ## ILCD to EcoSpold2 -/

/-- Some variable is used by no exchange and cannot be written as a parameter. -/
def BadVariable (l : List (Str × Var)) : Prop := ∃ p ∈ l, p.2.used = false ∧ p.2.bad ≠ none

/-- Two elementary exchanges have the same target and direction, and one of them cannot be added. -/
def SumStopsI (l : List ((Str × Str) × Option PyErr)) : Prop :=
  ∃ f ∈ l, f.2 ≠ none ∧ 1 < (l.map (·.1)).count f.1

/-- A process with conversions from ILCD to EcoSpold2. -/
def leftOverI : Shared → List (Bool × List FileI) → Shared
  | s, [] => s
  | s, r :: rs => leftOverI (convertI r.1 s r.2).1 rs

end Verif.Session
