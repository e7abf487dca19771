/-
What a user expects of a review.
-/
import Verif.Model.Reviews

namespace Verif.Reviews.Spec

/-- An address of the people who keep the database. -/
def Own (email : Str) : Prop := c!"ecoinvent" <:+: email ∨ c!"Ecoinvent" <:+: email

/-- A date that is found again in the details: digits, blanks and hyphens. -/
def DateText (d : Str) : Prop := d ≠ [] ∧ ∀ c ∈ d, c.isDigit = true ∨ c = ' ' ∨ c = '-'

/-- A date as ISO 8601 writes it, maybe with a time. -/
def IsoText (d : Str) : Prop := d ≠ [] ∧ ∀ c ∈ d, c.isDigit = true ∨ c ∈ c!" -T:Z+."

/-- Details in which the marks of a version and a date do not occur. -/
def Unmarked (t : Str) : Prop := ¬ c!"Review Version: " <:+: t ∧ ¬ c!"Date of Review: " <:+: t

/-- Minor release and major revision exchanged. -/
def exchanged (v : Version) : Version := ⟨v.majorRelease, v.majorRevision, v.minorRelease, v.minorRevision⟩

/-- A number written in decimal digits, maybe with zeros before it. -/
def Digits (s : Str) : Prop := s ≠ [] ∧ ∀ c ∈ s, c.isDigit = true

/-- The name of a contact in a reference. -/
def Named (x : Refs.Ref) (n : Str) : Prop := x.id ≠ [] ∧ x.short = .one n ∧ n ≠ []

/-- The name in a short description: its text, or the first text that is not empty. -/
def NameOf (s : Refs.Short) (n : Str) : Prop :=
  n ≠ [] ∧ (s = .plain n ∨ s = .one n ∨ ∃ l r, s = .many (l ++ n :: r) ∧ ∀ w ∈ l, w = [])

end Verif.Reviews.Spec
