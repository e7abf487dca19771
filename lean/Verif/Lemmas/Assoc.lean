import Verif.Model.Assoc

namespace Verif

variable {κ α : Type} [DecidableEq κ]

@[simp] theorem aget_aset_self (k : κ) (v : α) (d : List (κ × α)) : aget k (aset k v d) = some v := by
  induction d with
  | nil => simp [aset, aget]
  | cons p d ih =>
    obtain ⟨k', v'⟩ := p
    simp only [aset]
    split
    · simp [aget]
    · rename_i h; simp [aget, h, ih]

theorem aget_aset (k k' : κ) (v : α) (d : List (κ × α)) :
    aget k' (aset k v d) = if k' = k then some v else aget k' d := by
  split
  · rename_i h; subst h; simp
  · rename_i h
    induction d with
    | nil =>
      have : ¬ k = k' := fun e => h e.symm
      simp [aset, aget, this]
    | cons p d ih =>
      obtain ⟨a, b⟩ := p
      simp only [aset]
      split
      · rename_i ha
        subst ha
        have : ¬ a = k' := fun e => h e.symm
        simp [aget, this]
      · simp only [aget, ih]

theorem aget_isSome (k : κ) (d : List (κ × α)) : (aget k d).isSome = true ↔ k ∈ d.map Prod.fst := by
  induction d with
  | nil => simp [aget]
  | cons p d ih =>
    obtain ⟨a, b⟩ := p
    simp only [aget]
    split
    · rename_i h; simp [h]
    · rename_i h
      have : ¬ k = a := fun e => h e.symm
      simp [ih, this]

theorem aget_none (k : κ) (d : List (κ × α)) : aget k d = none ↔ k ∉ d.map Prod.fst := by
  rw [← aget_isSome]; simp

theorem aget_mem {k : κ} {v : α} {d : List (κ × α)} (h : aget k d = some v) : (k, v) ∈ d := by
  induction d with
  | nil => simp [aget] at h
  | cons p d ih =>
    obtain ⟨a, b⟩ := p
    simp only [aget] at h
    split at h
    · rename_i ha; subst ha; simp at h; simp [h]
    · simp [ih h]

theorem aset_keys (k : κ) (v : α) (d : List (κ × α)) :
    (aset k v d).map Prod.fst = if k ∈ d.map Prod.fst then d.map Prod.fst else d.map Prod.fst ++ [k] := by
  induction d with
  | nil => simp [aset]
  | cons p d ih =>
    obtain ⟨a, b⟩ := p
    simp only [aset]
    split
    · rename_i h; simp [h]
    · rename_i h
      have h' : ¬ k = a := fun e => h e.symm
      simp only [List.map_cons, ih, List.mem_cons, h', false_or]
      split <;> rfl

theorem aset_nodup {k : κ} {v : α} {d : List (κ × α)} (h : (d.map Prod.fst).Nodup) :
    ((aset k v d).map Prod.fst).Nodup := by
  rw [aset_keys]
  split
  · exact h
  · rename_i hk
    rw [List.nodup_append]
    refine ⟨h, by simp, ?_⟩
    intro a ha b hb
    simp at hb
    subst hb
    intro e; subst e; exact hk ha

theorem aget_eq_of_mem {k : κ} {v : α} {d : List (κ × α)} (hd : (d.map Prod.fst).Nodup) (h : (k, v) ∈ d) :
    aget k d = some v := by
  induction d with
  | nil => simp at h
  | cons p d ih =>
    obtain ⟨a, b⟩ := p
    rw [List.map_cons, List.nodup_cons] at hd
    simp only [aget]
    rcases List.mem_cons.1 h with h' | h'
    · simp only [Prod.mk.injEq] at h'; simp [h'.1, h'.2]
    · have : ¬ a = k := by
        rintro rfl
        exact hd.1 (List.mem_map.2 ⟨_, h', rfl⟩)
      simp [this, ih hd.2 h']

theorem aget_append (k : κ) (d e : List (κ × α)) :
    aget k (d ++ e) = (aget k d).or (aget k e) := by
  induction d with
  | nil => simp [aget]
  | cons p d ih =>
    obtain ⟨a, b⟩ := p
    simp only [List.cons_append, aget]
    split <;> simp [ih]

theorem aset_of_notMem {k : κ} (v : α) {d : List (κ × α)} (h : k ∉ d.map Prod.fst) :
    aset k v d = d ++ [(k, v)] := by
  induction d with
  | nil => rfl
  | cons p d ih =>
    obtain ⟨a, b⟩ := p
    simp only [List.map_cons, List.mem_cons, not_or] at h
    have : ¬ a = k := fun e => h.1 e.symm
    simp [aset, this, ih h.2]

end Verif
