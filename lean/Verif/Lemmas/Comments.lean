/-
Searching and removing marked lines.
-/
import Verif.Model.Comments
import Verif.Spec.Comments
import Verif.Lemmas.IlcdVars
import Verif.Lemmas.Assoc
import Verif.Lemmas.Py

namespace Verif.Comments
open Verif.IlcdVars (startsWith_iff)

theorem startsWith_prefix {x s : Str} : startsWith x s = true ↔ x <+: s := by
  rw [startsWith_iff]
  exact ⟨fun ⟨r, h⟩ => ⟨r, h.symm⟩, fun ⟨r, h⟩ => ⟨r, h.symm⟩⟩

/-- A matcher for a mark `q`: it matches only where the mark stands. -/
structure Marks (q : Str) (m : Matcher) : Prop where
  ne : q ≠ []
  one : '\n' ∉ q
  only : ∀ s, ¬ q <+: s → m s = none

theorem marks_str {p : Str} (h : '\n' ∉ p) : Marks (p ++ c!" ") (strMatch p) :=
  ⟨by simp, by simpa using h, fun s hs => by
    have : startsWith (p ++ c!" ") s = false := by
      rw [Bool.eq_false_iff, ne_eq, startsWith_prefix]; exact hs
    simp only [strMatch, this]; rfl⟩

theorem marks_list {p : Str} (h : '\n' ∉ p) : Marks (p ++ c!" ") (listMatch p) :=
  ⟨by simp, by simpa using h, fun s hs => by
    have : startsWith (p ++ c!" ") s = false := by
      rw [Bool.eq_false_iff, ne_eq, startsWith_prefix]; exact hs
    simp only [listMatch, this]; rfl⟩

theorem marks_uuid {p : Str} (h : '\n' ∉ p) : Marks (p ++ c!" ") (uuidMatch p) :=
  ⟨by simp, by simpa using h, fun s hs => by
    have : startsWith (p ++ c!" ") s = false := by
      rw [Bool.eq_false_iff, ne_eq, startsWith_prefix]; exact hs
    simp only [uuidMatch, this]; rfl⟩

theorem marks_start : Marks c!"Activity Start: " startMatch :=
  ⟨by decide, by decide, fun s hs => by
    have : startsWith c!"Activity Start: " s = false := by
      rw [Bool.eq_false_iff, ne_eq, startsWith_prefix]; exact hs
    simp only [startMatch, this]; rfl⟩

theorem marks_model : Marks c!"Original ecoinvent System Model: " modelMatch :=
  ⟨by decide, by decide, fun s hs => by
    have : startsWith c!"Original ecoinvent System Model: " s = false := by
      rw [Bool.eq_false_iff, ne_eq, startsWith_prefix]; exact hs
    simp only [modelMatch, this]; rfl⟩

theorem prefix_line {q l r : Str} (h : '\n' ∉ q) (hp : q <+: l ++ '\n' :: r) : q <+: l := by
  rcases List.prefix_append_iff.1 hp with h1 | ⟨t, ht, h2⟩
  · exact h1
  · cases t with
    | nil => simp at ht; exact ht ▸ List.prefix_rfl
    | cons c t =>
      exfalso; apply h
      rw [List.cons_prefix_cons] at h2
      rw [ht, h2.1]; simp
where
  List.prefix_append_iff {q a b : Str} : q <+: a ++ b ↔ q <+: a ∨ ∃ t, q = a ++ t ∧ t <+: b := by
    constructor
    · intro h
      rcases List.prefix_or_prefix_of_prefix h (List.prefix_append a b) with h1 | ⟨t, ht⟩
      · exact .inl h1
      · refine .inr ⟨t, ht.symm, ?_⟩
        rw [← ht] at h
        exact (List.prefix_append_right_inj a).1 h
    · rintro (h | ⟨t, rfl, h⟩)
      · exact h.trans (List.prefix_append a b)
      · exact (List.prefix_append_right_inj a).2 h

variable {q : Str} {m : Matcher}

theorem not_infix_tail {c : Char} {l : Str} (h : ¬ q <:+: c :: l) : ¬ q <:+: l :=
  fun h1 => h (h1.trans (List.suffix_cons c l).isInfix)

theorem search_skip (hm : Marks q m) {r : Str} : ∀ {l : Str}, ¬ q <:+: l →
    search m (l ++ '\n' :: r) = search m r
  | [], _ => by
    have : m ('\n' :: r) = none := hm.only _ fun h => by
      have := prefix_line (l := []) hm.one h
      exact hm.ne (List.prefix_nil.1 this)
    simp [search, this]
  | c :: l, h => by
    have : m (c :: (l ++ '\n' :: r)) = none := hm.only _ fun h1 =>
      h (prefix_line (l := c :: l) hm.one h1).isInfix
    simp only [List.cons_append, search, this]
    exact search_skip hm (not_infix_tail h)

theorem search_none (hm : Marks q m) : ∀ {l : Str}, ¬ q <:+: l → search m l = none
  | [], _ => rfl
  | c :: l, h => by
    have : m (c :: l) = none := hm.only _ fun h1 => h h1.isInfix
    simp only [search, this]
    exact search_none hm (not_infix_tail h)

theorem remove_skip (hm : Marks q m) {r : Str} : ∀ {l : Str}, ¬ q <:+: l →
    remove m 0 (l ++ '\n' :: r) = l ++ '\n' :: remove m 0 r
  | [], _ => by
    have : m ('\n' :: r) = none := hm.only _ fun h => by
      have := prefix_line (l := []) hm.one h
      exact hm.ne (List.prefix_nil.1 this)
    simp [remove, this]
  | c :: l, h => by
    have : m (c :: (l ++ '\n' :: r)) = none := hm.only _ fun h1 =>
      h (prefix_line (l := c :: l) hm.one h1).isInfix
    simp only [List.cons_append, remove, this]
    rw [remove_skip hm (not_infix_tail h)]

theorem remove_none (hm : Marks q m) : ∀ {l : Str}, ¬ q <:+: l → remove m 0 l = l
  | [], _ => rfl
  | c :: l, h => by
    have : m (c :: l) = none := hm.only _ fun h1 => h h1.isInfix
    simp only [remove, this]
    rw [remove_none hm (not_infix_tail h)]

theorem remove_over {s : Str} : ∀ (t : Str), remove m t.length (t ++ s) = remove m 0 s
  | [] => rfl
  | c :: t => by simp only [List.length_cons, List.cons_append, remove]; exact remove_over t

theorem search_hit {t g : Str} {k : Nat} (ht : t ≠ []) (h : m t = some (g, k)) : search m t = some g := by
  cases t with
  | nil => exact absurd rfl ht
  | cons c t => simp [search, h]

theorem remove_hit {t s g : Str} (ht : t ≠ []) (h : m (t ++ s) = some (g, t.length)) :
    remove m 0 (t ++ s) = remove m 0 s := by
  cases t with
  | nil => exact absurd rfl ht
  | cons c t =>
    simp only [List.cons_append] at h
    simp only [List.cons_append, remove, h, List.length_cons, Nat.add_sub_cancel]
    exact remove_over t

theorem lineRest_line {g r : Str} (h : Spec.OneLine g) : lineRest (g ++ '\n' :: r) = g := by
  unfold lineRest
  rw [List.takeWhile_append_of_pos (by intro c hc; simp; rintro rfl; exact h hc)]
  simp

theorem lineRest_end {g : Str} (h : Spec.OneLine g) : lineRest g = g := by
  have := List.takeWhile_append_of_pos (p := fun c => c != '\n') (l₁ := g) (l₂ := [])
    (by intro c hc; simp; rintro rfl; exact h hc)
  simpa [lineRest] using this

theorem lineRest_oneLine (s : Str) : Spec.OneLine (lineRest s) := by
  unfold lineRest Spec.OneLine
  induction s with
  | nil => simp
  | cons c s ih =>
    rw [List.takeWhile_cons]
    split
    · rename_i h
      simp only [List.mem_cons, not_or]
      exact ⟨fun e => by simp [← e] at h, ih⟩
    · simp

theorem lineRest_firstLine (s : Str) : Spec.FirstLine s (lineRest s) := by
  refine ⟨lineRest_oneLine s, ?_⟩
  have h := List.takeWhile_append_dropWhile (p := fun c => c != '\n') (l := s)
  cases hd : s.dropWhile (fun c => c != '\n') with
  | nil => left; rw [hd, List.append_nil] at h; exact h.symm
  | cons c r =>
    right
    have hc : (c != '\n') = false := by
      have := List.head?_dropWhile_not (fun c => c != '\n') s
      rw [hd] at this; simpa using this
    have : c = '\n' := by simpa using hc
    rw [hd, this] at h
    exact ⟨r, h.symm⟩

theorem firstLine_unique {s g : Str} (h : Spec.FirstLine s g) : lineRest s = g := by
  rcases h with ⟨h1, rfl | ⟨r, rfl⟩⟩
  · exact lineRest_end h1
  · exact lineRest_line h1

theorem drop_mark (p s : Str) : ((p ++ c!" ") ++ s).drop (p.length + 1) = s := by
  have : (p ++ c!" ").length = p.length + 1 := by simp
  rw [← this, List.drop_left]

theorem starts_mark (p s : Str) : startsWith (p ++ c!" ") ((p ++ c!" ") ++ s) = true :=
  startsWith_prefix.2 (List.prefix_append _ _)

/-- The match on a marked line followed by others. -/
theorem strMatch_line {p g r : Str} (h : Spec.OneLine g) :
    strMatch p ((p ++ c!" ") ++ (g ++ '\n' :: r)) = some (g, ((p ++ c!" ") ++ (g ++ c!"\n")).length) := by
  unfold strMatch
  rw [if_pos (starts_mark p _), drop_mark]
  simp only [lineRest_line h]
  rw [if_pos (by simp)]
  simp; omega

/-- The match on the last line. -/
theorem strMatch_end {p g : Str} (h : Spec.OneLine g) :
    strMatch p ((p ++ c!" ") ++ g) = some (g, ((p ++ c!" ") ++ g).length) := by
  unfold strMatch
  rw [if_pos (starts_mark p _), drop_mark]
  simp only [lineRest_end h]
  rw [if_neg (by simp)]
  simp; omega

theorem listMatch_line {p g r : Str} (h : Spec.OneLine g) :
    listMatch p ((p ++ c!" ") ++ (g ++ '\n' :: r)) = some (g, ((p ++ c!" ") ++ (g ++ c!"\n")).length) := by
  unfold listMatch
  rw [if_pos (starts_mark p _), drop_mark]
  simp only [lineRest_line h]
  rw [if_pos (by simp)]
  simp; omega

theorem listMatch_end {p g : Str} (h : Spec.OneLine g) : listMatch p ((p ++ c!" ") ++ g) = none := by
  unfold listMatch
  rw [if_pos (starts_mark p _), drop_mark]
  simp only [lineRest_end h]
  rw [if_neg (by simp)]

theorem search_line {p g r : Str} (h : Spec.OneLine g) :
    search (strMatch p) ((p ++ c!" ") ++ (g ++ '\n' :: r)) = some g :=
  search_hit (by simp) (strMatch_line h)

theorem search_end {p g : Str} (h : Spec.OneLine g) : search (strMatch p) ((p ++ c!" ") ++ g) = some g :=
  search_hit (by simp) (strMatch_end h)

theorem remove_line {p g r : Str} (h : Spec.OneLine g) :
    remove (strMatch p) 0 ((p ++ c!" ") ++ (g ++ '\n' :: r)) = remove (strMatch p) 0 r := by
  have := remove_hit (m := strMatch p) (t := (p ++ c!" ") ++ (g ++ c!"\n")) (s := r) (g := g) (by simp)
    (by have := strMatch_line (p := p) (r := r) h; simpa using this)
  simpa using this

theorem remove_end {p g : Str} (h : Spec.OneLine g) : remove (strMatch p) 0 ((p ++ c!" ") ++ g) = [] := by
  have := remove_hit (m := strMatch p) (t := (p ++ c!" ") ++ g) (s := []) (g := g) (by simp)
    (by rw [List.append_nil]; exact strMatch_end h)
  simpa [remove] using this

theorem removeList_line {p g r : Str} (h : Spec.OneLine g) :
    remove (listMatch p) 0 ((p ++ c!" ") ++ (g ++ '\n' :: r)) = remove (listMatch p) 0 r := by
  have := remove_hit (m := listMatch p) (t := (p ++ c!" ") ++ (g ++ c!"\n")) (s := r) (g := g) (by simp)
    (by have := listMatch_line (p := p) (r := r) h; simpa using this)
  simpa using this

end Verif.Comments
