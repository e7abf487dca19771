/-
What the descriptions of uncertain amounts mean: probability distributions on the real numbers.
-/
import Verif.Model.Uncertainty
import Mathlib.Probability.Distributions.Gaussian.Real
import Mathlib.Probability.ConditionalProbability

namespace Verif.Uncertainty.Spec
open MeasureTheory ProbabilityTheory

/-- The normal distribution with the given variance. -/
noncomputable def normalLaw (mean var : ℝ) : Measure ℝ := gaussianReal mean var.toNNReal

/-- The lognormal distribution with the given geometric mean, which is positive, and variance of the
logarithm. -/
noncomputable def lognormalLaw (mean var : ℝ) : Measure ℝ :=
  (gaussianReal (Real.log mean) var.toNNReal).map Real.exp

/-- The uniform distribution on an interval. -/
noncomputable def uniformLaw (lo hi : ℝ) : Measure ℝ := volume[|Set.Icc lo hi]

/-- The density of the triangular distribution. -/
noncomputable def triangularDensity (lo mode hi x : ℝ) : ℝ :=
  if x < lo then 0
  else if x < mode then 2 * (x - lo) / ((hi - lo) * (mode - lo))
  else if x = mode then 2 / (hi - lo)
  else if x ≤ hi then 2 * (hi - x) / ((hi - lo) * (hi - mode))
  else 0

/-- The triangular distribution. -/
noncomputable def triangularLaw (lo mode hi : ℝ) : Measure ℝ :=
  volume.withDensity fun x => ENNReal.ofReal (triangularDensity lo mode hi x)

/-- The meaning of an uncertainty of EcoSpold2 with the given amount: variance, minimum and maximum; the
amount is the (geometric) mean or the mode. -/
noncomputable def law (a : ℝ) : Unc → Option (Measure ℝ)
  | .lognormal v => some (lognormalLaw a v)
  | .normal v => some (normalLaw a v)
  | .triangular lo hi => some (triangularLaw lo a hi)
  | .uniform lo hi => some (uniformLaw lo hi)
  | .other => none

/-- The meaning of an uncertainty of ILCD: the standard deviation is given as `σg²` (lognormal) or `2σ`
(normal). -/
noncomputable def writtenLaw (w : Written) : Option (Measure ℝ) :=
  match w.kind, w.std95 with
  | .lognormal, some s => some (lognormalLaw w.mean ((Real.log s / 2) ^ 2))
  | .normal, some s => some (normalLaw w.mean ((s / 2) ^ 2))
  | .triangular, _ => some (triangularLaw w.min w.mean w.max)
  | .uniform, _ => some (uniformLaw w.min w.max)
  | _, none => none

end Verif.Uncertainty.Spec
