/-
Names of files, stated on texts and bytes alone.
-/
import Verif.Py

namespace Verif.FileNames.Spec

/-- The bytes of a text in UTF-8, with every slash counted as five. -/
def width : Str → Nat
  | [] => 0
  | c :: s => (if c = '/' then 5 else c.utf8Size) + width s

/-- A text as it stands in the name of a file: slashes spelled out. -/
def spelled (w : Str) : Str → Str
  | [] => []
  | c :: s => (if c = '/' then w else [c]) ++ spelled w s

/-- The description of a data set: name, place and period, then the suffix asked for. -/
def title (name place first last suffix : Str) : Str :=
  name ++ c!", " ++ place ++ c!", " ++ first ++ c!" - " ++ last ++ suffix

/-- The name under which a new file is saved: the given one if it is free, otherwise with the smallest free
number. -/
def Chosen (dir : List Str) (name ext m : Str) : Prop :=
  m ++ ext ∉ dir ∧
  (m = name ∨ name ++ ext ∈ dir ∧ ∃ i, 1 ≤ i ∧ m = name ++ c!" (" ++ natStr i ++ c!")" ∧
    ∀ j, 1 ≤ j → j < i → name ++ c!" (" ++ natStr j ++ c!")" ++ ext ∈ dir)

/-- Names that can be in a directory. -/
def Real (dir : List Str) : Prop := ∀ f ∈ dir, (f.map Char.utf8Size).sum ≤ 255

/-- A text of plain characters without slash. -/
def Plain (s : Str) : Prop := ∀ c ∈ s, c.utf8Size = 1 ∧ c ≠ '/'

instance (s : Str) : Decidable (Plain s) := by unfold Plain; infer_instance

instance (dir : List Str) : Decidable (Real dir) := by unfold Real; infer_instance

end Verif.FileNames.Spec
