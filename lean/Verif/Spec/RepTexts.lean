/-
The two EcoSpold2 texts that an ILCD data set should give, stated on its elements.
-/
import Verif.Model.RepTexts
import Verif.Spec.LangText

namespace Verif.RepTexts.Spec

/-- Where the text of an element goes: the field of EcoSpold2, the heading of its paragraph and whether the text `none`
says nothing. -/
structure Row where
  element : Str
  field : Str
  heading : Str
  noneIsNothing : Bool

def table : List Row := [
  ⟨c!"deviationsFromLCIMethodPrinciple", c!"extrapolations", c!"Deviations from LCI Method Principles: ", true⟩,
  ⟨c!"modellingConstants", c!"samplingProcedure", c!"Modelling Constants: ", false⟩,
  ⟨c!"deviationsFromModellingConstants", c!"extrapolations", c!"Deviations from Modelling Constants: ", false⟩,
  ⟨c!"dataCutOffAndCompletenessPrinciples", c!"samplingProcedure", c!"Data Cut-Off And Completeness Principles: ", false⟩,
  ⟨c!"deviationsFromCutOffAndCompletenessPrinciples", c!"extrapolations",
    c!"Deviations from Cut-Off and Completeness Principles: ", true⟩,
  ⟨c!"dataSelectionAndCombinationPrinciples", c!"samplingProcedure", c!"Data Selection and Combination Principles: ", false⟩,
  ⟨c!"deviationsFromSelectionAndCombinationPrinciples", c!"extrapolations",
    c!"Deviations from Data Selection and Combination Principles: ", true⟩,
  ⟨c!"dataTreatmentAndExtrapolationsPrinciples", c!"extrapolations", c!"Data Treatment and Extrapolations Principles: ", false⟩,
  ⟨c!"deviationsFromTreatmentAndExtrapolationPrinciples", c!"extrapolations",
    c!"Deviations from Data Treatment and Extrapolations Principles: ", true⟩,
  ⟨c!"samplingProcedure", c!"samplingProcedure", [], false⟩,
  ⟨c!"dataCollectionPeriod", c!"samplingProcedure", c!"Data Collection Period: ", false⟩,
  ⟨c!"uncertaintyAdjustments", c!"samplingProcedure", c!"Uncertainty Adjustments: ", false⟩,
  ⟨c!"useAdviceForDataSet", c!"samplingProcedure", c!"Use Advice for Dataset: ", false⟩]

/-- The text of an element. -/
def textOf : XText → Option Str
  | .plain s => some s
  | .tagged _ t => t

/-- Its language: the one given, or the default of the data set; English without any attribute. -/
def langOf (dflt : Option Str) : XText → Option Str
  | .plain _ => some c!"en"
  | .tagged (some l) _ => some l
  | .tagged none _ => dflt

/-- The elements of a document with their names. -/
abbrev Doc := List (Str × XText)

/-- The paragraph of the field `field` in the language `L` that an element gives. -/
def paragraph (dflt : Option Str) (field L : Str) (e : Str × XText) : Option Str :=
  match table.find? (fun r => r.element = e.1), textOf e.2 with
  | some r, some t =>
    if r.field = field ∧ langOf dflt e.2 = some L ∧ ¬ (r.noneIsNothing = true ∧ t = c!"none") ∧
        LangText.Spec.Visible (r.heading ++ t) then some (r.heading ++ t) else none
  | _, _ => none

/-- The texts on the sampling procedure itself come first, as one paragraph; each other text is a paragraph, in the
order of the document. -/
def paragraphs (dflt : Option Str) (field L : Str) (doc : Doc) : List Str :=
  let own := (doc.filter fun e => e.1 = c!"samplingProcedure").filterMap (paragraph dflt field L)
  (if own = [] then [] else [join c!"; " own]) ++
    (doc.filter fun e => e.1 ≠ c!"samplingProcedure").filterMap (paragraph dflt field L)

/-- The text has a value the programme can use: there is a text; if `none` says nothing for this element it has
attributes; its language has two characters, unless the text says nothing. -/
def Readable (dflt : Option Str) (e : Str × XText) : Prop :=
  ∃ r ∈ table, r.element = e.1 ∧ ∃ t, textOf e.2 = some t ∧ (r.noneIsNothing = true → ∀ s, e.2 ≠ .plain s) ∧
    ((r.noneIsNothing = true ∧ t = c!"none") ∨ ∃ L, langOf dflt e.2 = some L ∧ L.length = 2)

/-- No line written by the programme itself. -/
def Foreign (doc : Doc) : Prop :=
  ∀ e ∈ doc, ∀ t, textOf e.2 = some t →
    (e.1 = c!"modellingConstants" → ¬ c!"Energy: " <:+: t) ∧
    (e.1 = c!"deviationsFromLCIMethodPrinciple" → ¬ c!"Original ecoinvent System Model: " <:+: t)

/-- The texts of a document. -/
def docOf (l : List Ev) : Doc := l.filterMap fun e => match e with | .text f x => some (f.name, x) | .other => none

/-- `n` times the text `s`. -/
def times : Nat → Str → Str
  | 0, _ => []
  | n + 1, s => s ++ times n s

end Verif.RepTexts.Spec
