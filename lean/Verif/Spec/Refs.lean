/-
What it means that a reference leads to a file, and what is read from it.
-/
import Verif.Model.Refs

namespace Verif.Refs.Spec

/-- The part of an address after its last stroke. -/
def LastPart (uri s : Str) : Prop := '/' ∉ s ∧ (uri = s ∨ ∃ a, uri = a ++ '/' :: s)

/-- There is a file of this name. -/
def IsFile (l : List (Str × Bool)) (n : Str) : Prop := (n, true) ∈ l

/-- A name contains a text. -/
def Contains (n x : Str) : Prop := ∃ a b, n = a ++ x ++ b

/-- The first entry whose name contains a text. -/
def FirstWith (x : Str) (l : List (Str × Bool)) (n : Str) : Prop :=
  ∃ a k b, l = a ++ (n, k) :: b ∧ Contains n x ∧ ∀ e ∈ a, ¬ Contains e.1 x

/-- Texts by which the program knows an image or an icon. -/
def ImageName (s : Str) : Prop := ∃ t, s = c!"Image URL from " ++ t
def IconName (s : Str) : Prop := s = c!"Dataset Icon"

/-- The text of a short description in one language, or nothing. -/
def textOf (x : Ref) (t : Str) : Prop := (x.short = .absent ∧ t = []) ∨ x.short = .one t

/-- What a reference to a source in the text gives: the identifier, what is cited and the title. -/
structure Reading where
  id : Str
  cited : Citations.Cited
  title : Str

/-- A reference is read: its file is found, can be opened and has a name, which gives what is cited. -/
def Reads (env : Env) (x : Ref) (r : Reading) : Prop :=
  x.id ≠ [] ∧ ∃ l n name, env.sources = some l ∧ getFile env.sources x = some n ∧ IsFile l n ∧
    (env.sourceFile n).name = some name ∧ env.conv x.id = .ok r.id ∧
    Citations.cite env.digit name (env.sourceFile n).citation = .ok r.cited ∧
    r.title = strip ((env.sourceFile n).citation.getD name)

/-- A reference is passed over: it has no identifier or no file. -/
def Dropped (env : Env) (x : Ref) : Prop := x.id = [] ∨ getFile env.sources x = none

/-- The short description of a citation: a text in one language, not that of an image or an icon. -/
def Plain (x : Ref) : Prop :=
  x.short = .absent ∨ ∃ s, x.short = .one s ∧ ¬ ImageName s ∧ ¬ IconName s

/-- The readings of a list of references. -/
def ReadAll (env : Env) : List Ref → List Reading → Prop
  | [], rs => rs = []
  | x :: l, rs => Plain x ∧ ((Dropped env x ∧ ReadAll env l rs) ∨
      ∃ r rs', rs = r :: rs' ∧ ¬ Dropped env x ∧ Reads env x r ∧ ReadAll env l rs')

/-- The last of the values that are there. -/
def lastOf {α : Type} : List (Option α) → Option α → Option α
  | [], d => d
  | some a :: l, _ => lastOf l (some a)
  | none :: l, d => lastOf l d

/-- The first value of a key. -/
def FirstFor {C : Type} (u : Str) (c : C) (l : List (Str × C)) : Prop :=
  ∃ a b, l = a ++ (u, c) :: b ∧ ∀ e ∈ a, e.1 ≠ u

/-- What is read from the file of a contact. -/
structure CReading where
  role : Role
  id : Str
  name : Str
  email : Str

/-- The entry of the master data that is made from it: persons have an address, companies do not. -/
def CReading.entry (c : CReading) : ContactEntry :=
  ⟨c.role = .company, c.id, c.name, if c.role = .company then [] else c.email⟩

/-- What a reference to a contact gives: nothing without an identifier; only the identifier and the name without a file;
else also what is in the file. -/
def CStep (env : Env) (r : Role) (x : Ref) (h : Holder) (c : Option CReading) : Prop :=
  (x.id = [] ∧ h = ⟨none, none, none⟩ ∧ c = none) ∨
  (x.id ≠ [] ∧ ∃ u t, env.conv x.id = .ok u ∧ textOf x t ∧ getFile env.contacts x = none ∧
    h = ⟨some u, some t, if r = .company then none else some []⟩ ∧ c = none) ∨
  (x.id ≠ [] ∧ ∃ u t l n name, env.conv x.id = .ok u ∧ textOf x t ∧ env.contacts = some l ∧
    getFile env.contacts x = some n ∧ IsFile l n ∧ (env.contactFile n).name = some name ∧
    h = ⟨some u, some t, if r = .company then none else some ((env.contactFile n).email.getD [])⟩ ∧
    c = some ⟨r, u, name, (env.contactFile n).email.getD []⟩)

/-- The contacts of a data set. -/
def CAll (env : Env) : List (Role × Ref) → List (Role × Holder) → List CReading → Prop
  | [], hs, cs => hs = [] ∧ cs = []
  | (r, x) :: l, hs, cs => ∃ h hs' c cs', hs = (r, h) :: hs' ∧ cs = c.toList ++ cs' ∧ CStep env r x h c ∧
      CAll env l hs' cs'

end Verif.Refs.Spec
