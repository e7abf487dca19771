/-
What the fields should hold, stated on the history of the values given, without the validators.
-/
import Verif.Py
import Mathlib.Data.List.Dedup

namespace Verif.Validators.Spec

/-- The order of first occurrence without repetitions. -/
def firstOccurrences {α : Type} [DecidableEq α] (l : List α) : List α := (l.reverse.dedup).reverse

/-- The codes of the EcoSpold 2 code fields. -/
def documentedCodes : List (Str × (Int → Prop)) := [
  (c!"InheritanceDepthINT", fun i => -1 ≤ i ∧ i ≤ 3),
  (c!"SourceTypeINT", fun i => 0 ≤ i ∧ i ≤ 7),
  (c!"TypeINT", fun i => 1 ≤ i ∧ i ≤ 3),
  (c!"SpecialActivityTypeINT", fun i => 0 ≤ i ∧ i ≤ 10),
  (c!"EnergyValuesINT", fun i => 0 ≤ i ∧ i ≤ 2),
  (c!"TechnologyLevelINT", fun i => 0 ≤ i ∧ i ≤ 5),
  (c!"DataPublishedInINT", fun i => i = 0 ∨ i = 1),
  (c!"AccessRestrictedToINT", fun i => 0 ≤ i ∧ i ≤ 2),
  (c!"PedigreeINT", fun i => 1 ≤ i ∧ i ≤ 5),
  (c!"InputGroupIntermediateINT", fun i => i = 1 ∨ i = 2 ∨ i = 3 ∨ i = 5),
  (c!"OutputGroupIntermediateINT", fun i => i = 0 ∨ i = 2 ∨ i = 3 ∨ i = 5),
  (c!"InputGroupElementaryINT", fun i => i = 4),
  (c!"OutputGroupElementaryINT", fun i => i = 4)]

/-- A language of texts. -/
abbrev Lang := Str → Prop

def single (p : Char → Prop) : Lang := fun s => ∃ c, p c ∧ s = [c]

/-- Texts made of one text of each language in turn. -/
def followed : List Lang → Lang
  | [] => fun s => s = []
  | L :: Ls => fun s => ∃ a b, s = a ++ b ∧ L a ∧ followed Ls b

/-- Between `m` and `n` characters, all of the class. -/
def repeated (p : Char → Prop) (m n : Nat) : Lang :=
  fun s => m ≤ s.length ∧ s.length ≤ n ∧ ∀ c ∈ s, p c

/-- The text or nothing. -/
def optional (L : Lang) : Lang := fun s => L s ∨ s = []

def isHex (c : Char) : Prop := c ∈ c!"0123456789abcdef"

/-- A UUID in the usual notation. -/
def UuidText : Lang := followed [repeated isHex 8 8, single (· = '-'), repeated isHex 4 4,
  single (· = '-'), repeated isHex 4 4, single (· = '-'), repeated isHex 4 4, single (· = '-'),
  repeated isHex 12 12]

/-- `dd.dd` or `dd.dd.ddd`. -/
def VersionText (digit : Char → Prop) : Lang := followed [repeated digit 2 2, single (· = '.'),
  repeated digit 2 2, optional (followed [single (· = '.'), repeated digit 3 3])]

/-- One to six digits, two digits, one digit. -/
def CasText (digit : Char → Prop) : Lang := followed [repeated digit 1 6, single (· = '-'),
  repeated digit 2 2, single (· = '-'), repeated digit 1 1]

/-- Any number of characters of the class. -/
def run (p : Char → Prop) : Lang := fun s => ∀ c ∈ s, p c

def sign : Lang := optional (single fun c => c = '-' ∨ c = '+')

/-- A point with any number of digits, or nothing. -/
def fraction (digit : Char → Prop) : Lang := optional (followed [single (· = '.'), run digit])

/-- A latitude as the pattern has it: one digit, or two of which the first is not nine, with a sign and a fraction; or 90
without a sign and with at most two zeros as its fraction. -/
def LatitudeText (digit : Char → Prop) : Lang := fun s =>
  followed [sign, optional (single (· ∈ c!"012345678")), single digit, fraction digit] s ∨
  followed [single (· = '9'), single (· = '0'), optional (followed [single (· = '.'), repeated (· = '0') 0 2])] s

/-- A latitude, a semicolon and the first digit of a longitude. -/
def GisBeginning (digit space : Char → Prop) : Lang := followed [run space, LatitudeText digit, run space,
  single (· = ';'), run space, sign, single digit]

end Verif.Validators.Spec
