import Verif.Model.Settings

/-! What a user may expect of exchangeable parts. -/

namespace Verif.Settings.Spec

/-- Assignments that are made one after the other; those that fail are caught by the user. -/
def after (c : Conv) (l : List Assign) : Conv := l.foldl assign c

/-- The text of a name with small letters and underscores, as attributes have. -/
def Attribute (s : Str) : Prop := ∀ c ∈ s, c = '_' ∨ ('a' ≤ c ∧ c ≤ 'z')

/-- How an attribute name is read from the text that is shown: small letters, underscores for blanks. -/
def asAttribute (s : Str) : Str := s.map fun c => if c = ' ' then '_' else c.toLower

/-- The assigned value is a class. -/
def IsClass : Assign → Prop
  | .iterator x => ∃ b, x = .cls b
  | .input x => ∃ b, x = .cls b
  | .manager x => ∃ b, x = .cls b
  | .struct x => ∃ b, x = .cls b
  | .mapping x => ∃ b, x = .cls b
  | .version _ => False

/-- The assignment is a dictionary for `mapping` that sets something. -/
def SetsMapping : Assign → Prop
  | .mapping x => ∃ k ks, x = .dict (k :: ks)
  | _ => False

end Verif.Settings.Spec
