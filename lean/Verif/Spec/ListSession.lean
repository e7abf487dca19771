/-
What the parameters of converted data sets should be, stated on the data sets.
-/
import Verif.Model.ListSession

namespace Verif.ListSession.Spec
open Verif.IlcdList

variable {K : Type}

/-- Nothing goes wrong outside of the exchanges and the parameters. -/
def Quiet (d : DataSet K) : Prop := d.start = none ∧ d.early = none ∧ d.late = none

/-- The exchanges refer to no variable. -/
def NoVariables (d : DataSet K) : Prop := ∀ x ∈ d.exchanges, x.var = none

/-- The structure takes these parameters. -/
def Taken (w : World K) (l : List (Var K)) : Prop := ∀ v ∈ l, w.var v = none

variable [Field K]

/-- Exchanges that are converted and taken one after the other, each with the parameters and files that the one before
left. -/
inductive Converted (w : World K) : St K → List (Exch K) → List (Exch K × Option Report) → St K → Prop
  | nil (s : St K) : Converted w s [] [] s
  | cons {s s1 s2 : St K} {x y : Exch K} {r : Option Report} {l : List (Exch K)} {ys : List (Exch K × Option Report)} :
      IlcdList.convert w.env s x = .ok (y, s1, r) → w.exchange y = none → Converted w s1 l ys s2 →
      Converted w s (x :: l) ((y, r) :: ys) s2

/-- An exchange fails: the error, and the parameters it leaves. -/
inductive Fails (w : World K) (s : St K) (x : Exch K) : List (Var K) → PyErr → Prop
  | convert {e : PyErr} : IlcdList.convert w.env s x = .error e → Fails w s x (w.left s x) e
  | taken {e : PyErr} {y : Exch K} {s1 : St K} {r : Option Report} :
      IlcdList.convert w.env s x = .ok (y, s1, r) → w.exchange y = some e → Fails w s x s1.vars e

end Verif.ListSession.Spec
