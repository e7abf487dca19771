/-
What a review of ILCD says: scopes with methods, and indicators of quality.
-/
import Verif.Spec.Products
import Verif.Spec.LangText

namespace Verif.ReviewTexts.Spec

open Verif.Xml
open Products.Spec (attr kids)
open Verif.Shapes.Spec (Text)

/-- A scope of a review: its name and the names of the methods. -/
structure Scope where
  name : Str
  methods : List Str
  deriving DecidableEq

/-- The element has the scopes `l`. -/
def Scopes (e : Elem) (l : List Scope) : Prop :=
  List.Forall₂ (fun k s => attr k c!"name" = some s.name ∧
    List.Forall₂ (fun m n => attr m c!"name" = some n) (kids k c!"method") s.methods) (kids e c!"scope") l

/-- The element has the indicators `l`, names and values. -/
def Indicators (e : Elem) (l : List (Str × Str)) : Prop :=
  (l = [] ∧ kids e c!"dataQualityIndicators" = []) ∨
  (l ≠ [] ∧ ∃ k, kids e c!"dataQualityIndicators" = [k] ∧
    List.Forall₂ (fun q p => attr q c!"name" = some p.1 ∧ attr q c!"value" = some p.2)
      (kids k c!"dataQualityIndicator") l)

/-- The lines of a scope. -/
def scopeLines (s : Scope) : List Str :=
  (c!"\t" ++ s.name ++ c!". Validation methods:") :: s.methods.map fun m => c!"\t\t" ++ m

/-- Lines that all end with a line feed. -/
def closed (l : List Str) : Str := l.flatMap fun x => x ++ c!"\n"

/-- The text of the scopes, if there are any. -/
def scopesText (l : List Scope) : Option Str :=
  if l = [] then none else some (closed (c!"Review done for Scopes:" :: l.flatMap scopeLines))

/-- The text of the indicators, if there are any. -/
def indicatorsText (l : List (Str × Str)) : Option Str :=
  if l = [] then none
  else some (closed (c!"Data Quality Indicators:" :: l.map fun p => c!"\t" ++ p.1 ++ c!": " ++ p.2))

/-- The scopes of the format (data_structures/validators/enumerations.py:126-136). -/
def scopeNames : List Str := [c!"Raw data", c!"Unit process(es), single operation", c!"Unit process(es), black box",
  c!"LCI results or Partly terminated system", c!"LCIA results", c!"Documentation", c!"Life cycle inventory methods",
  c!"LCIA results calculation", c!"Goal and scope definition"]

/-- The methods of the format (enumerations.py:138-151). -/
def methodNames : List Str := [c!"Validation of data sources", c!"Sample tests on calculations", c!"Energy balance",
  c!"Element balance", c!"Cross-check with other source", c!"Cross-check with other data set", c!"Expert judgement",
  c!"Mass balance", c!"Compliance with legal limits", c!"Compliance with ISO 14040 to 14044", c!"Documentation",
  c!"Evidence collection by means of plant visits and/or interviews"]

/-- The indicators of the format (enumerations.py:153-161). -/
def indicatorNames : List Str := [c!"Technological representativeness", c!"Time representativeness",
  c!"Geographical representativeness", c!"Completeness", c!"Precision",
  c!"Methodological appropriateness and consistency", c!"Overall quality"]

/-- Their values (enumerations.py:163-171). -/
def qualityNames : List Str := [c!"Very good", c!"Good", c!"Fair", c!"Poor", c!"Very poor", c!"Not evaluated / unknown",
  c!"Not applicable"]

/-- What the details of the review state: index, language and text. The review has the type `typ`, the scopes `ss`, the
indicators `ps` and the details `ts`; `n` is the running number. -/
inductive Stated (n : Int) (typ : Option Str) (ss : List Scope) (ps : List (Str × Str)) (ts : List Text) :
    Int → Str → Str → Prop
  | type (t : Str) : typ = some t → Stated n typ ss ps ts 1 c!"en" (c!"Review type: " ++ t)
  | scopes (t : Str) : scopesText ss = some t → Stated n typ ss ps ts 2 c!"en" t
  | indicators (t : Str) : indicatorsText ps = some t → Stated n typ ss ps ts 3 c!"en" t
  | detail (k : Nat) (x : Text) : (ts.filter fun t => decide (t.content ≠ []))[k]? = some x →
      Stated n typ ss ps ts (n + 1 + 2 * k) x.language x.content

/-- The name has no line feed, and does not begin with a tab. -/
def OneName (s : Str) : Prop := '\n' ∉ s ∧ s.head? ≠ some '\t'

end Verif.ReviewTexts.Spec
