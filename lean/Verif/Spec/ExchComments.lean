/-
What the comment of an exchange should say: the paragraphs of each language.
-/
import Verif.Spec.Products
import Verif.Spec.LangText

namespace Verif.ExchComments.Spec

open Verif.Xml
open LangText.Spec (Given combine textsOf)
open Verif.Shapes.Spec (Text)
open Products.Spec (Texts)

/-- The exchange has the tags `l`: elements without attributes and children. -/
def Tags (e : Elem) (l : List Str) : Prop := Texts e c!"tag" (l.map fun s => ⟨none, some s⟩)

/-- The line that names the tags. -/
def tagLine (l : List Str) : Str := c!"Tag " ++ join c!"; " l

/-- The paragraphs of the language `L`: one for each index used, by increasing index. -/
def Paragraphs (sep : Option Str) (es : List Given) (L : Str) (ps : List Str) : Prop :=
  ∃ idx : List Int, idx.Pairwise (· < ·) ∧ (∀ i, i ∈ idx ↔ ∃ e ∈ es, e.lang = L ∧ e.index = i) ∧
    ps = idx.map fun i => combine sep (textsOf es i L)

/-- The contents of the texts of the language `L`. -/
def inLang (L : Str) (l : List Text) : List Str :=
  (l.filter fun t => decide (t.language = L) && decide (t.content ≠ [])).map (·.content)

/-- The lines that name location, function, source and derivation of an exchange of ILCD. -/
def infoLines (info : Str → Option Str) : List Str :=
  [c!"location", c!"functionType", c!"dataSourceType", c!"dataDerivationTypeStatus"].filterMap fun n =>
    (info n).map fun s => n ++ c!": " ++ s

/-- The comment of a field with the paragraphs `ps` in each language: one text for each language with paragraphs. -/
def Says (out : List (Str × Str)) (ps : Str → List Str) : Prop :=
  (out.map Prod.fst).Nodup ∧ ∀ L t, (L, t) ∈ out ↔ ps L ≠ [] ∧ t = join c!"\n" (ps L)

end Verif.ExchComments.Spec
