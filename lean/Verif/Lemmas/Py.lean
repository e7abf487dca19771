import Verif.Py

namespace Verif

theorem dropWhile_length_le {α} (p : α → Bool) (l : List α) : (l.dropWhile p).length ≤ l.length := by
  induction l with
  | nil => simp
  | cons a l ih => simp only [List.dropWhile]; split <;> simp <;> omega

theorem strip_length_le (x : Str) : (strip x).length ≤ x.length := by
  unfold strip rstrip lstrip
  rw [List.length_reverse]
  refine Nat.le_trans (dropWhile_length_le _ _) ?_
  rw [List.length_reverse]
  exact dropWhile_length_le _ _

theorem splitOn_ne_nil (sep : Char) (x : Str) : splitOn sep x ≠ [] := by
  induction x with
  | nil => simp [splitOn]
  | cons c cs ih =>
    simp only [splitOn]
    split
    · simp
    · split <;> simp

/-- `sep.join(x.split(sep)) = x` -/
theorem join_splitOn (sep : Char) (x : Str) : join [sep] (splitOn sep x) = x := by
  induction x with
  | nil => rfl
  | cons c cs ih =>
    simp only [splitOn]
    split
    · rename_i h
      subst h
      cases hs : splitOn c cs with
      | nil => exact absurd hs (splitOn_ne_nil c cs)
      | cons w ws => rw [hs] at ih; simp [join, ih]
    · cases hs : splitOn sep cs with
      | nil => exact absurd hs (splitOn_ne_nil sep cs)
      | cons w ws =>
        rw [hs] at ih
        cases ws with
        | nil => simp [join] at ih ⊢; exact ih
        | cons v vs => simp [join] at ih ⊢; exact ih

theorem join_length (sep : Str) (l : List Str) :
    (join sep l).length = (l.map List.length).sum + (l.length - 1) * sep.length := by
  induction l with
  | nil => simp [join]
  | cons x l ih =>
    cases l with
    | nil => simp [join]
    | cons y l =>
      simp only [join, List.length_append, ih, List.map_cons, List.sum_cons, List.length_cons]
      simp only [Nat.add_sub_cancel, Nat.add_mul]
      omega

theorem join_append_singleton (sep : Str) (l : List Str) (x : Str) (h : l ≠ []) :
    join sep (l ++ [x]) = join sep l ++ sep ++ x := by
  induction l with
  | nil => exact absurd rfl h
  | cons y l ih =>
    cases l with
    | nil => simp [join]
    | cons z l =>
      have := ih (by simp)
      simp only [List.cons_append] at this ⊢
      simp only [join, this, List.append_assoc]

/-! ### Stable sort -/

section Sorting
variable {α : Type} (le : α → α → Bool)

theorem insertBy_perm (a : α) (l : List α) : (insertBy le a l).Perm (a :: l) := by
  induction l with
  | nil => exact List.Perm.refl _
  | cons b l ih =>
    simp only [insertBy]
    split
    · exact List.Perm.refl _
    · exact (List.Perm.cons b ih).trans (List.Perm.swap a b l)

theorem sortBy_perm (l : List α) : (sortBy le l).Perm l := by
  induction l with
  | nil => exact List.Perm.refl _
  | cons a l ih => exact (insertBy_perm le a _).trans (List.Perm.cons a ih)

theorem mem_sortBy {x : α} {l : List α} : x ∈ sortBy le l ↔ x ∈ l := (sortBy_perm le l).mem_iff

theorem sortBy_length (l : List α) : (sortBy le l).length = l.length := (sortBy_perm le l).length_eq

theorem insertBy_sorted (htot : ∀ a b, le a b = true ∨ le b a = true)
    (htr : ∀ a b c, le a b = true → le b c = true → le a c = true) (a : α) (l : List α)
    (h : l.Pairwise (fun x y => le x y = true)) :
    (insertBy le a l).Pairwise (fun x y => le x y = true) := by
  induction l with
  | nil => simp [insertBy]
  | cons b l ih =>
    rw [List.pairwise_cons] at h
    simp only [insertBy]
    split
    · rename_i hab
      refine List.pairwise_cons.2 ⟨?_, List.pairwise_cons.2 h⟩
      intro x hx
      rcases List.mem_cons.1 hx with rfl | hx
      · exact hab
      · exact htr _ _ _ hab (h.1 x hx)
    · rename_i hab
      refine List.pairwise_cons.2 ⟨?_, ih h.2⟩
      intro x hx
      rcases List.mem_cons.1 ((insertBy_perm le a l).mem_iff.1 hx) with rfl | hx
      · rcases htot x b with h' | h'
        · exact absurd h' hab
        · exact h'
      · exact h.1 x hx

theorem sortBy_sorted (htot : ∀ a b, le a b = true ∨ le b a = true)
    (htr : ∀ a b c, le a b = true → le b c = true → le a c = true) (l : List α) :
    (sortBy le l).Pairwise (fun x y => le x y = true) := by
  induction l with
  | nil => simp [sortBy]
  | cons a l ih => exact insertBy_sorted le htot htr a _ ih

/-- Elements that are equivalent for the order keep their relative order. -/
theorem insertBy_filter (p : α → Bool) (a : α) (l : List α)
    (hp : ∀ b ∈ l, p a = true → p b = true → le a b = true) :
    (insertBy le a l).filter p = (a :: l).filter p := by
  induction l with
  | nil => rfl
  | cons b l ih =>
    simp only [insertBy]
    split
    · rfl
    · rename_i hab
      have hb := ih (fun c hc => hp c (by simp [hc]))
      cases hpa : p a with
      | false =>
        rw [List.filter_cons, hb]
        simp [List.filter_cons, hpa]
      | true =>
        cases hpb : p b with
        | false => rw [List.filter_cons, hb]; simp [hpa, hpb]
        | true => exact absurd (hp b (by simp) hpa hpb) hab

theorem sortBy_filter (p : α → Bool) (l : List α)
    (hp : ∀ a ∈ l, ∀ b ∈ l, p a = true → p b = true → le a b = true) :
    (sortBy le l).filter p = l.filter p := by
  induction l with
  | nil => rfl
  | cons a l ih =>
    rw [sortBy, insertBy_filter le p a _ ?_, List.filter_cons, List.filter_cons,
      ih (fun x hx y hy => hp x (by simp [hx]) y (by simp [hy]))]
    intro b hb
    exact hp a (by simp) b (by simp [(mem_sortBy le).1 hb])

end Sorting

end Verif
