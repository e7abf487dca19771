/-
What a comment with variables and images means, without the program.
-/
import Verif.Spec.Validators
import Mathlib.Data.Nat.Log

namespace Verif.TextImage.Spec
open Validators.Spec (Lang followed repeated single)

/-- A comment as it is meant: text, and places for variables. -/
inductive Piece where
  | lit (s : Str)
  | var (n : Str)
  deriving DecidableEq

/-- How a piece is written in the data set. -/
def Piece.written : Piece → Str
  | .lit s => s
  | .var n => '{' :: '{' :: (n ++ ['}', '}'])

/-- What a piece says when the variables are known; a place of an unknown variable is left as it is. Of several
variables of one name the first counts. -/
def Piece.filled (vars : List (Str × Str)) : Piece → Str
  | .lit s => s
  | .var n =>
    match vars.find? (fun p => p.1 = n) with
    | some p => p.2
    | none => '{' :: '{' :: (n ++ ['}', '}'])

/-- No braces in the names, no opening brace in the text. -/
def Piece.Plain : Piece → Prop
  | .lit s => '{' ∉ s
  | .var n => '{' ∉ n ∧ '}' ∉ n

def written (ps : List Piece) : Str := ps.flatMap Piece.written

def filled (vars : List (Str × Str)) (ps : List Piece) : Str := ps.flatMap (Piece.filled vars)

/-- No closing brace in the name of a variable, no opening brace in its value. -/
def PlainVar (p : Str × Str) : Prop := '}' ∉ p.1 ∧ '{' ∉ p.2

instance (p : Piece) : Decidable p.Plain := by cases p <;> unfold Piece.Plain <;> infer_instance

instance (p : Str × Str) : Decidable (PlainVar p) := by unfold PlainVar; infer_instance

/-- A character with a code from that of `A` to that of `z`, or a digit. -/
def isIdChar (c : Char) : Prop := (65 ≤ c.toNat ∧ c.toNat ≤ 122) ∨ (48 ≤ c.toNat ∧ c.toNat ≤ 57)

/-- A text in the shape of a UUID. -/
def IdText : Lang := followed [repeated isIdChar 8 8, single (· = '-'), repeated isIdChar 4 4,
  single (· = '-'), repeated isIdChar 4 4, single (· = '-'), repeated isIdChar 4 4, single (· = '-'),
  repeated isIdChar 12 12]

/-- `u` is the first part of `s` in the shape of a UUID. -/
def FirstId (s u : Str) : Prop := IdText u ∧ ∃ a b, s = a ++ u ++ b ∧
  ∀ a' u' b', s = a' ++ u' ++ b' → IdText u' → a.length ≤ a'.length

/-- The codes of the characters put one after the other, as a number. -/
def seed (s : Str) : Nat := s.foldl (fun n c => n * 10 ^ (Nat.log 10 c.toNat + 1) + c.toNat) 0

/-- The identifier of the source for an address. -/
def Identified (rnd : Nat → Str) (url u : Str) : Prop :=
  (FirstId url u ∧ Validators.Spec.UuidText u) ∨ ((¬ ∃ v, FirstId url v) ∧ url ≠ [] ∧ u = rnd (seed url))

/-- A character that can be typed on an English keyboard. -/
def Printable (c : Char) : Prop := 32 ≤ c.toNat ∧ c.toNat ≤ 126

end Verif.TextImage.Spec
