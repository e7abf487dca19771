/-
Lemmas on the names of files: bytes, slashes and free names.
-/
import Verif.Model.FileNames
import Verif.Spec.FileNames
import Verif.Lemmas.UnitNames
import Verif.Props.OutputName

namespace Verif.FileNames
open Verif.IlcdVars Verif.Output Spec

theorem bytes_nil : bytes [] = 0 := rfl

theorem bytes_cons (c : Char) (s : Str) : bytes (c :: s) = c.utf8Size + bytes s := by simp [bytes]

theorem bytes_append (s t : Str) : bytes (s ++ t) = bytes s + bytes t := by simp [bytes]

theorem spelled_eq (w s : Str) : replaceAll c!"/" w s = spelled w s := by
  rw [UnitNames.replaceAll_single]
  induction s with
  | nil => rfl
  | cons c s ih => rw [List.flatMap_cons, ih, spelled]

theorem spelled_append (w s t : Str) : spelled w (s ++ t) = spelled w s ++ spelled w t := by
  induction s with
  | nil => rfl
  | cons c s ih => simp [spelled, ih]

theorem spelled_self (w : Str) : ∀ {s : Str}, '/' ∉ s → spelled w s = s
  | [], _ => rfl
  | c :: s, h => by
    simp only [List.mem_cons, not_or] at h
    rw [spelled, if_neg (fun e => h.1 e.symm), spelled_self w h.2]
    rfl

theorem spelled_noSlash {w : Str} (hw : '/' ∉ w) : ∀ s : Str, '/' ∉ spelled w s
  | [] => by simp [spelled]
  | c :: s => by
    rw [spelled, List.mem_append, not_or]
    refine ⟨?_, spelled_noSlash hw s⟩
    split
    · exact hw
    · simp only [List.mem_singleton]; exact fun e => absurd e.symm (by assumption)

theorem bytes_spelled {w : Str} (hw : bytes w = 5) : ∀ s : Str, bytes (spelled w s) = width s
  | [] => rfl
  | c :: s => by
    rw [spelled, bytes_append, bytes_spelled hw s, width]
    split
    · rw [hw]
    · rw [bytes_cons, bytes_nil, Nat.add_zero]

theorem width_append (s t : Str) : width (s ++ t) = width s + width t := by
  induction s with
  | nil => simp [width]
  | cons c s ih => simp [width, ih]; omega

theorem bytes_le_width : ∀ s : Str, bytes s ≤ width s
  | [] => Nat.le_refl _
  | c :: s => by
    rw [bytes_cons, width]
    have := bytes_le_width s
    have := c.utf8Size_le_four
    split <;> omega

theorem width_plain : ∀ {s : Str}, Plain s → width s = s.length
  | [], _ => rfl
  | c :: s, h => by
    have hc := h c (by simp)
    rw [width, if_neg hc.2, hc.1, width_plain (fun x hx => h x (by simp [hx])), List.length_cons]
    omega

theorem width_ge {k : Nat} (hk : k ≤ 5) : ∀ {s : Str}, (∀ c ∈ s, k ≤ c.utf8Size) → k * s.length ≤ width s
  | [], _ => by simp [width]
  | c :: s, h => by
    have ih := width_ge hk (s := s) (fun x hx => h x (by simp [hx]))
    have hc := h c (by simp)
    rw [width, List.length_cons, Nat.mul_succ]
    split <;> omega

/-! ### The free name -/

theorem isFile_iff {dir : List Str} {f : Str} (hf : bytes f ≤ longest) : isFile dir f = .ok (decide (f ∈ dir)) := by
  rw [isFile, if_neg (by omega)]
  simp

theorem isFile_long {dir : List Str} {f : Str} (hf : longest < bytes f) : isFile dir f = .error .osError := by
  rw [isFile, if_pos hf]

theorem search_eq {dir : List Str} (hd : Real dir) (name ext : Str) : ∀ (fuel i : Nat),
    (¬ firstFree dir name ext fuel i ++ ext ∈ dir) →
    (if bytes (firstFree dir name ext fuel i ++ ext) ≤ longest then
      search dir name ext fuel i = .ok (firstFree dir name ext fuel i)
    else search dir name ext fuel i = .error .osError ∨
      search dir name ext fuel i = .ok (firstFree dir name ext fuel i))
  | 0, i, _ => by
    split
    · rfl
    · exact Or.inr rfl
  | fuel + 1, i, h => by
    rw [firstFree] at h ⊢
    rw [search]
    by_cases hm : numbered name i ++ ext ∈ dir
    · rw [if_pos hm] at h ⊢
      have := isFile_iff (dir := dir) (hd _ hm)
      rw [this]
      simp only [hm, decide_true]
      exact search_eq hd name ext fuel (i + 1) h
    · rw [if_neg hm] at h ⊢
      by_cases hl : bytes (numbered name i ++ ext) ≤ longest
      · rw [if_pos hl, isFile_iff hl]
        simp [hm]
      · rw [if_neg hl, isFile_long (by omega)]
        exact Or.inl rfl

/-- The name found is the free name if the system accepts it. -/
theorem freeName_ok {dir : List Str} (hd : Real dir) (name ext : Str)
    (h : bytes (checkName dir name ext ++ ext) ≤ longest) :
    freeName dir name ext = .ok (checkName dir name ext) := by
  have hf := checkName_fresh dir name ext
  rw [checkName] at h hf ⊢
  rw [freeName]
  by_cases hm : name ++ ext ∈ dir
  · rw [if_pos hm] at h hf ⊢
    rw [isFile_iff (hd _ hm)]
    simp only [hm, decide_true]
    have := search_eq hd name ext dir.length 1 hf
    rwa [if_pos h] at this
  · rw [if_neg hm] at h hf ⊢
    rw [isFile_iff h]
    simp [hm]

/-- Otherwise the search or the opening of the file raises an `OSError`. -/
theorem freeName_long {dir : List Str} (hd : Real dir) (name ext : Str)
    (h : ¬ bytes (checkName dir name ext ++ ext) ≤ longest) :
    freeName dir name ext = .error .osError ∨ freeName dir name ext = .ok (checkName dir name ext) := by
  have hf := checkName_fresh dir name ext
  rw [checkName] at h hf ⊢
  rw [freeName]
  by_cases hm : name ++ ext ∈ dir
  · rw [if_pos hm] at h hf ⊢
    rw [isFile_iff (hd _ hm)]
    simp only [hm, decide_true]
    have := search_eq hd name ext dir.length 1 hf
    rwa [if_neg h] at this
  · rw [if_neg hm] at h hf ⊢
    rw [isFile_long (by omega)]
    exact Or.inl rfl

theorem openFile_ok {dir : List Str} {f : Str} (hl : bytes f ≤ longest) (hs : '/' ∉ f) :
    openFile dir f = .ok (if f ∈ dir then dir else dir ++ [f]) := by
  rw [openFile, if_pos (by simp [accepted, hl, hs])]
  simp

theorem openFile_long {dir : List Str} {f : Str} (hl : longest < bytes f) : openFile dir f = .error .osError := by
  rw [openFile, if_neg (by simp [accepted]; intro h; omega)]

theorem openFile_slash {dir : List Str} {f : Str} (hs : '/' ∈ f) : openFile dir f = .error .osError := by
  rw [openFile, if_neg (by simp [accepted, hs])]

theorem chosen_checkName (dir : List Str) (name ext : Str) : Chosen dir name ext (checkName dir name ext) := by
  refine ⟨checkName_fresh dir name ext, ?_⟩
  rcases checkName_minimal dir name ext with h | h
  · exact Or.inl h.2
  · exact Or.inr ⟨h.1, h.2⟩

theorem chosen_unique {dir : List Str} {name ext m : Str} (h : Chosen dir name ext m) : m = checkName dir name ext := by
  have h' := chosen_checkName dir name ext
  obtain ⟨hm, h⟩ := h
  obtain ⟨hm', h'⟩ := h'
  rcases h with e | ⟨hin, i, hi, e, hj⟩ <;> rcases h' with e' | ⟨hin', i', hi', e', hj'⟩
  · rw [e, e']
  · subst e; exact absurd hin' hm
  · rw [e'] at hm'; exact absurd hin hm'
  · have : i = i' := by
      rcases Nat.lt_trichotomy i i' with hlt | he | hlt
      · exact absurd (by rw [e]; exact hj' i hi hlt) hm
      · exact he
      · exact absurd (by rw [e']; exact hj i' hi' hlt) hm'
    rw [e, e', this]

end Verif.FileNames
