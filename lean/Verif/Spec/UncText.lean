import Verif.Model.UncText

/-! What should come back of the texts of an uncertainty. -/

namespace Verif.UncText.Spec

/-- `x` occurs in `s`. -/
def Occurs (x s : Str) : Prop := ∃ a b, s = a ++ x ++ b

/-- The texts by which the parts of the comment are found again. -/
def keywords : List Str :=
  [c!"Uncertainty Comment:", c!"Pedigree: (", c!"Basic Variance: "]

/-- A text without them. -/
def Silent (s : Str) : Prop := ∀ k ∈ keywords, ¬ Occurs k s

/-- A decimal number as it stands in a file, with or without an exponent. -/
def NumText (v : Str) : Prop := v ≠ [] ∧ ∀ c ∈ v, c ∈ c!"0123456789.eE+-"

instance (v : Str) : Decidable (NumText v) := by unfold NumText; infer_instance

/-- A score of the pedigree matrix: one digit. -/
def Score (s : Str) : Prop := ∃ d, s = [d] ∧ d ∈ c!"0123456789"

/-- The text is not blank. -/
def Visible (s : Str) : Prop := ∃ c ∈ s, pySpace c = false

instance (s : Str) : Decidable (Visible s) := by unfold Visible; infer_instance

/-- The English comments that are not blank. -/
def english (cs : List (Str × Str)) : List Str :=
  (cs.filter fun c => decide (c.1 = c!"en") && decide (Visible c.2)).map (·.2)

/-- The parameters of a distribution are written without commas, equality signs, line ends or blanks around them. -/
def Word (t : Str) : Prop := t ≠ [] ∧ ∀ c ∈ t, c ≠ ',' ∧ c ≠ '=' ∧ pySpace c = false

instance (t : Str) : Decidable (Word t) := by unfold Word; infer_instance

/-- The scores of the pedigree matrix as they should be: one of the five names, a whole number from 1 to 5. The code also
accepts 0 and -1 to -4, which it counts from the end. -/
def ScoreOk (int : Str → Option Int) (p : Str × Str) : Prop :=
  p.1 ∈ [c!"@reliability", c!"@completeness", c!"@temporalCorrelation", c!"@geographicalCorrelation",
    c!"@furtherTechnologyCorrelation"] ∧ ∃ n, int p.2 = some n ∧ -4 ≤ n ∧ n ≤ 5

/-- The attribute is there, and a number. -/
def HasNumber (num : Str → Option Str) (attrs : List (Str × Str)) (key : Str) : Prop :=
  ∃ x t, aget key attrs = some x ∧ num x = some t

/-- The distributions that are written as text: name in EcoSpold2, name in the text, attributes; `true` for those
that are written as numbers. -/
def otherTable : List (Str × Str × List (Str × Bool)) :=
  [(c!"beta", c!"Beta", [(c!"minValue", true), (c!"mostLikelyValue", true), (c!"maxValue", true)]),
   (c!"gamma", c!"Gamma", [(c!"shape", true), (c!"scale", true), (c!"minValue", true)]),
   (c!"binomial", c!"Binomial", [(c!"n", false), (c!"p", true)]),
   (c!"undefined", c!"Undefined", [(c!"minValue", true), (c!"standardDeviation95", true), (c!"maxValue", true)])]

/-- The text written for an attribute. -/
def AttrText (num : Str → Option Str) (attrs : List (Str × Str)) (r : Str × Bool) (p : Str × Str) : Prop :=
  p.1 = r.1 ∧ ∃ x, aget ('@' :: r.1) attrs = some x ∧ (if r.2 then num x = some p.2 else x = p.2)

/-- Five scores in brackets. -/
def FiveScores (s : Str) : Prop :=
  ∃ a d1 d2 d3 d4 d5 b, s = a ++ c!"Pedigree: (" ++ [d1, ',', d2, ',', d3, ',', d4, ',', d5, ')'] ++ b ∧
    ∀ d ∈ [d1, d2, d3, d4, d5], d ∈ c!"0123456789"

end Verif.UncText.Spec
