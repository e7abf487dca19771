/-
C24: no existing file is overwritten.
-/
import Verif.Model.OutputName
import Verif.Lemmas.Num
import Mathlib.Data.List.Perm.Subperm
import Mathlib.Data.List.Nodup

namespace Verif.Output

theorem natStr_inj {m n : Nat} (h : natStr m = natStr n) : m = n := by
  have h1 := parseNat_natStr m
  rw [h, parseNat_natStr n] at h1
  simpa using h1.symm

theorem numbered_inj {name : Str} {i j : Nat} (h : numbered name i = numbered name j) : i = j := by
  simp only [numbered, List.append_assoc, List.append_cancel_left_eq] at h
  exact natStr_inj (List.append_cancel_right h)

/-- Where the search stops. -/
theorem firstFree_spec (dir : List Str) (name ext : Str) : ∀ (fuel i : Nat),
    (∃ k, k ≤ fuel ∧ firstFree dir name ext fuel i = numbered name (i + k) ∧
      ∀ j < k, numbered name (i + j) ++ ext ∈ dir) ∧
    (firstFree dir name ext fuel i ++ ext ∈ dir → ∀ j ≤ fuel, numbered name (i + j) ++ ext ∈ dir) := by
  intro fuel
  induction fuel with
  | zero =>
    intro i
    refine ⟨⟨0, Nat.le_refl _, rfl, by simp⟩, ?_⟩
    intro h j hj
    obtain rfl : j = 0 := by omega
    exact h
  | succ fuel ih =>
    intro i
    by_cases h : numbered name i ++ ext ∈ dir
    · simp only [firstFree, h, ite_true]
      obtain ⟨⟨k, hk, he, hj⟩, h2⟩ := ih (i + 1)
      refine ⟨⟨k + 1, by omega, by rw [he]; congr 1; omega, ?_⟩, ?_⟩
      · intro j hj'
        cases j with
        | zero => exact h
        | succ j => have := hj j (by omega); rwa [show i + 1 + j = i + (j + 1) by omega] at this
      · intro hin j hj'
        cases j with
        | zero => exact h
        | succ j => have := h2 hin j (by omega); rwa [show i + 1 + j = i + (j + 1) by omega] at this
    · simp only [firstFree, h, ite_false]
      exact ⟨⟨0, by omega, rfl, by simp⟩, fun hin => hin.elim⟩

/-- The name chosen is free, whatever is in the directory. -/
theorem checkName_fresh (dir : List Str) (name ext : Str) : checkName dir name ext ++ ext ∉ dir := by
  simp only [checkName]
  split
  · intro hin
    have h := (firstFree_spec dir name ext dir.length 1).2 hin
    -- otherwise the directory would hold more names than it has
    have hn : ((List.range (dir.length + 1)).map fun j => numbered name (1 + j) ++ ext).Nodup := by
      refine List.Nodup.map ?_ List.nodup_range
      intro a b hab
      have := numbered_inj (List.append_cancel_right hab)
      omega
    have hs : ((List.range (dir.length + 1)).map fun j => numbered name (1 + j) ++ ext) ⊆ dir := by
      intro x hx
      obtain ⟨j, hj, rfl⟩ := List.mem_map.1 hx
      rw [List.mem_range] at hj
      exact h j (by omega)
    have := (List.Nodup.subperm hn hs).length_le
    simp at this
    omega
  · assumption

/-- The name chosen is the given one if that is free, else the one with the smallest free number. -/
theorem checkName_minimal (dir : List Str) (name ext : Str) :
    (name ++ ext ∉ dir ∧ checkName dir name ext = name) ∨
    (name ++ ext ∈ dir ∧ ∃ i, 1 ≤ i ∧ checkName dir name ext = name ++ c!" (" ++ natStr i ++ c!")" ∧
      ∀ j, 1 ≤ j → j < i → name ++ c!" (" ++ natStr j ++ c!")" ++ ext ∈ dir) := by
  by_cases h : name ++ ext ∈ dir
  · right
    simp only [checkName, h, ite_true, true_and]
    obtain ⟨⟨k, _, he, hj⟩, _⟩ := firstFree_spec dir name ext dir.length 1
    refine ⟨1 + k, by omega, he, ?_⟩
    intro j h1 h2
    have := hj (j - 1) (by omega)
    rwa [show 1 + (j - 1) = j by omega] at this
  · left
    exact ⟨h, by simp [checkName, h]⟩

/-- The two cases, and a gap in the numbering. -/
example : checkName [c!"b.zip"] c!"a" c!".zip" = c!"a" ∧
    checkName [c!"a.zip", c!"a (1).zip", c!"a (3).zip"] c!"a" c!".zip" = c!"a (2)" := by
  decide

end Verif.Output
