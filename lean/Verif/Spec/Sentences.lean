/-
Vocabulary for the properties of the cutting of texts into sentences (C103, C104). Independent of
the model.
-/
import Verif.Py

namespace Verif.Sentences.Spec

open Verif

/-- A text in which the marks `<prd>` are read as full stops and the marks `<stop>` are left out. -/
def unmark : Str → Str
  | '<' :: 'p' :: 'r' :: 'd' :: '>' :: s => '.' :: unmark s
  | '<' :: 's' :: 't' :: 'o' :: 'p' :: '>' :: s => unmark s
  | c :: s => c :: unmark s
  | [] => []

/-- `w` occurs in `s`. -/
def Occurs (w s : Str) : Prop := ∃ a b, s = a ++ w ++ b

/-- The text contains none of the marks that the code uses for itself. -/
def Markless (s : Str) : Prop := ¬ Occurs c!"<prd>" s ∧ ¬ Occurs c!"<stop>" s

/-- Not white space. -/
def solid (c : Char) : Bool := !pySpace c

/-- Neither white space, nor one of the characters around the end of a sentence. -/
def wordy (c : Char) : Bool := !pySpace c && !(c!".!?\"”").contains c

/-- Neither white space nor a full stop. -/
def dotless (c : Char) : Bool := !pySpace c && c != '.'

/-- The text without its white space. -/
def tight (s : Str) : Str := s.filter solid

/-- What the code treats as the abbreviation at the end of a name. -/
def companies : List Str := [c!"Inc.", c!"Ltd.", c!"Jr.", c!"Sr.", c!"Co."]

/-- What the code takes for the first word of a sentence. -/
def openers : List Str :=
  [c!"Mr", c!"Mrs", c!"Ms", c!"Dr", c!"He", c!"She", c!"It", c!"They", c!"Their", c!"Our", c!"We",
   c!"But", c!"However", c!"That", c!"This", c!"Wherever"]

/-- The places at which the code moves or drops a character, written without white space: a
quotation mark after the end of a sentence, and a sentence that begins after such an
abbreviation. -/
def risky : List Str :=
  [c!".”", c!".\"", c!"!\"", c!"?\""] ++ companies.flatMap fun a => openers.map fun w => a ++ w

def Digit (c : Char) : Prop := '0' ≤ c ∧ c ≤ '9'

/-- The text shows a number with decimals: a digit, a point, a digit. -/
def Decimal (s : Str) : Prop := ∃ d e, Digit d ∧ Digit e ∧ Occurs [d, '.', e] s

/-- The end of a sentence. -/
def Ender (c : Char) : Prop := c = '.' ∨ c = '?' ∨ c = '!' ∨ c = ';'

def Letter (c : Char) : Prop := ('A' ≤ c ∧ c ≤ 'Z') ∨ ('a' ≤ c ∧ c ≤ 'z')

/-- The words before a full stop end like one of the abbreviations the code knows. -/
def Abbreviated (b : Str) : Prop :=
  (∃ w ∈ [c!"Mr", c!"St", c!"Mrs", c!"Ms", c!"Dr"], w <:+ b) ∨
  (∃ w ∈ [c!"Inc", c!"Ltd", c!"Jr", c!"Sr", c!"Co"], b = w ∨ ' ' :: w <:+ b) ∨
  ∃ c, Letter c ∧ (b = [c] ∨ ∃ s, pySpace s = true ∧ [s, c] <:+ b)

/-- A plain sentence: words without the characters that mean something to the code, not beginning
with white space, and the end of a sentence after them. -/
def Plain (x : Str) : Prop :=
  ∃ b e, x = b ++ [e] ∧ Ender e ∧ (∀ c ∈ b, c ∉ c!".?!;<\"”\n") ∧
    (∀ c, x.head? = some c → pySpace c = false) ∧ (e = '.' → ¬ Abbreviated b)

end Verif.Sentences.Spec
