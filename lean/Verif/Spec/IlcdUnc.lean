/-
What is expected of an uncertainty when the amount is multiplied by a factor.
-/
import Verif.Model.IlcdFlows
import Mathlib.Algebra.Field.Defs

namespace Verif.IlcdFlows.Spec

/-- The uncertainty `w` describes the amount `m`, which is `f` times the amount described by `u`: of the same kind, the
spread of a lognormal one is relative and stays, a variance is multiplied by the square of the factor, limits are
multiplied by the factor. -/
inductive Rescaled {K : Type} [Field K] (m f : K) : Unc K → WUnc K → Prop
  | lognormal (v : K) : Rescaled m f (.lognormal v) (.lognormal m v)
  | normal (v w : K) (h : w = f * f * v) : Rescaled m f (.normal v) (.normal m w)
  | triangular (lo hi lo' hi' : K) (h1 : lo' = f * lo) (h2 : hi' = f * hi) : Rescaled m f (.triangular lo hi) (.triangular lo' m hi')
  | uniform (lo hi lo' hi' : K) (h1 : lo' = f * lo) (h2 : hi' = f * hi) : Rescaled m f (.uniform lo hi) (.uniform lo' hi')
  | other : Rescaled m f .other .other

/-- The limits of an uncertainty of ILCD enclose the value. -/
def Encloses {K : Type} [LE K] (a : K) : Unc K → Prop
  | .triangular lo hi => lo ≤ a ∧ a ≤ hi
  | .uniform lo hi => lo ≤ a ∧ a ≤ hi
  | _ => True

/-- The limits of an uncertainty of EcoSpold2 enclose the value. -/
def WEncloses {K : Type} [LE K] (a : K) : WUnc K → Prop
  | .triangular lo mode hi => lo ≤ a ∧ a ≤ hi ∧ mode = a
  | .uniform lo hi => lo ≤ a ∧ a ≤ hi
  | _ => True

end Verif.IlcdFlows.Spec
