import Verif.Spec.UncText
import Verif.Lemmas.IlcdVars
import Verif.Lemmas.LangText
import Verif.Lemmas.Sentences
import Verif.Lemmas.SentenceDots
import Verif.Lemmas.TextSplit
import Mathlib.Tactic.Common

/-! Texts that are found again in longer texts. -/

namespace Verif.UncText

open Spec IlcdVars LangText
open Sentences (splitStr splitAux)

/-- An occurrence of a text without the character `c` is on one side of it. -/
theorem occurs_sep {p : Str} {c : Char} (hc : c ∉ p) : ∀ {a b : Str}, Occurs p (a ++ c :: b) → Occurs p a ∨ Occurs p b
  | [], b, ⟨x, y, h⟩ => by
    cases x with
    | nil =>
      cases p with
      | nil => exact Or.inl ⟨[], [], rfl⟩
      | cons d p =>
        have := (List.cons.inj (show c :: b = d :: (p ++ y) from h)).1
        exact absurd (by rw [this]; exact List.mem_cons_self ..) hc
    | cons d x =>
      exact Or.inr ⟨x, y, (List.cons.inj (show c :: b = d :: (x ++ p ++ y) from h)).2⟩
  | d :: a, b, ⟨x, y, h⟩ => by
    cases x with
    | cons e x =>
      have hh := List.cons.inj (show d :: (a ++ c :: b) = e :: (x ++ p ++ y) from h)
      rcases occurs_sep hc (a := a) (b := b) ⟨x, y, hh.2⟩ with ⟨u, v, huv⟩ | hr
      · exact Or.inl ⟨d :: u, v, by rw [huv]; rfl⟩
      · exact Or.inr hr
    | nil =>
      have h : (d :: a) ++ c :: b = p ++ y := h
      rcases List.append_eq_append_iff.1 h with ⟨z, h1, h2⟩ | ⟨z, h1, h2⟩
      · cases z with
        | nil => exact Or.inl ⟨[], [], by simpa using h1.symm⟩
        | cons e z =>
          have := (List.cons.inj (show c :: b = e :: (z ++ y) from h2)).1
          exact absurd (by rw [h1, this]; simp) hc
      · exact Or.inl ⟨[], z, by simpa using h1⟩

theorem occurs_left {p a : Str} (b : Str) (h : Occurs p a) : Occurs p (a ++ b) := by
  obtain ⟨x, y, rfl⟩ := h
  exact ⟨x, y ++ b, by simp⟩

theorem occurs_right {p b : Str} (a : Str) (h : Occurs p b) : Occurs p (a ++ b) := by
  obtain ⟨x, y, rfl⟩ := h
  exact ⟨a ++ x, y, by simp⟩

/-- An occurrence in joined lines is in one of them. -/
theorem occurs_join {p : Str} (hp : p ≠ []) (hc : '\n' ∉ p) : ∀ {l : List Str}, Occurs p (join c!"\n" l) → ∃ t ∈ l, Occurs p t
  | [], ⟨x, y, h⟩ => by
    have : p = [] := by
      have h := congrArg List.length h
      simp only [join, List.length_nil, List.length_append] at h
      exact List.length_eq_zero_iff.1 (by omega)
    exact absurd this hp
  | [t], h => ⟨t, by simp, h⟩
  | t :: u :: l, h => by
    have h : Occurs p (t ++ '\n' :: join c!"\n" (u :: l)) := by simpa [join] using h
    rcases occurs_sep hc h with h | h
    · exact ⟨t, by simp, h⟩
    · obtain ⟨w, hw, h⟩ := occurs_join hp hc h
      exact ⟨w, List.mem_cons_of_mem _ hw, h⟩

/-- An occurrence of a text whose first character is not in its rest, beginning before that character. -/
theorem prefix_before {c : Char} {x a r t : Str} (hx : c ∉ x) (ha : a ≠ []) (h : a ++ c :: r = c :: x ++ t) :
    ∃ y, a = c :: x ++ y := by
  rcases List.append_eq_append_iff.1 h with ⟨z, h1, h2⟩ | ⟨z, h1, _⟩
  · cases z with
    | nil => exact ⟨[], by simpa using h1.symm⟩
    | cons d z =>
      exfalso
      have hd := (List.cons.inj (show c :: r = d :: (z ++ t) from h2)).1
      cases a with
      | nil => exact ha rfl
      | cons e a =>
        have := (List.cons.inj (show c :: x = e :: (a ++ d :: z) from h1)).2
        exact hx (by rw [this, ← hd]; simp)
  · exact ⟨z, h1⟩

theorem searchFirst_at {m : Str → Option (Str × Str)} {c : Char} {x : Str} (hx : c ∉ x)
    (hm : ∀ s g, m s = some g → ∃ t, s = c :: x ++ t) {r : Str} :
    ∀ {a : Str}, ¬ Occurs (c :: x) a → searchFirst m (a ++ c :: r) = searchFirst m (c :: r)
  | [], _ => rfl
  | d :: a, h => by
    have hn : m (d :: (a ++ c :: r)) = none := by
      cases h2 : m (d :: (a ++ c :: r)) with
      | none => rfl
      | some g =>
        obtain ⟨t, ht⟩ := hm _ _ h2
        obtain ⟨y, hy⟩ := prefix_before (a := d :: a) hx (by simp) ht
        exact absurd ⟨[], y, by simpa using hy⟩ h
    show searchFirst m (d :: (a ++ c :: r)) = _
    rw [searchFirst, hn]
    refine searchFirst_at hx hm ?_
    rintro ⟨u, v, rfl⟩
    exact h ⟨d :: u, v, rfl⟩

theorem searchFirst_hit {m : Str → Option (Str × Str)} {s : Str} {g : Str × Str} (h : m s = some g) :
    searchFirst m s = some g := by
  cases s with
  | nil => exact h
  | cons c s => rw [searchFirst, h]

theorem searchFirst_none {m : Str → Option (Str × Str)} {p : Str} (hm : ∀ s g, m s = some g → ∃ t, s = p ++ t) :
    ∀ {s : Str}, ¬ Occurs p s → searchFirst m s = none
  | [], h => by
    cases h2 : m [] with
    | none => exact h2
    | some g => obtain ⟨t, ht⟩ := hm _ _ h2; exact absurd ⟨[], t, by simpa using ht⟩ h
  | c :: s, h => by
    have hn : m (c :: s) = none := by
      cases h2 : m (c :: s) with
      | none => rfl
      | some g => obtain ⟨t, ht⟩ := hm _ _ h2; exact absurd ⟨[], t, by simpa using ht⟩ h
    rw [searchFirst, hn]
    refine searchFirst_none hm ?_
    rintro ⟨u, v, rfl⟩
    exact h ⟨c :: u, v, rfl⟩

/-- The first occurrence is taken out. -/
theorem replace_first {c : Char} {x b : Str} (hx : c ∉ x) : ∀ {a : Str}, ¬ Occurs (c :: x) a → ¬ Occurs (c :: x) b →
    replaceAll (c :: x) [] (a ++ (c :: x) ++ b) = a ++ b := by
  intro a
  rw [replaceAll, if_neg (by simp)]
  induction a with
  | nil =>
    intro _ hb
    show replaceAux (c :: x) [] 0 ((c :: x) ++ b) = b
    rw [replaceAux_hit (by simp), replaceAux_none hb]
    rfl
  | cons d a ih =>
    intro ha hb
    show replaceAux (c :: x) [] 0 (d :: (a ++ (c :: x) ++ b)) = _
    rw [replaceAux_miss, ih (fun ⟨u, v, h⟩ => ha ⟨d :: u, v, by rw [h]; rfl⟩) hb]
    · rfl
    · rintro ⟨r, hr⟩
      have : (d :: a) ++ c :: (x ++ b) = c :: x ++ r := by simpa using hr
      obtain ⟨y, hy⟩ := prefix_before hx (by simp) this
      exact ha ⟨[], y, by simpa using hy⟩

theorem splitAux_skip {sep : Str} : ∀ (a cur s : Str), splitAux sep a.length cur (a ++ s) = splitAux sep 0 cur s
  | [], _, _ => rfl
  | c :: a, cur, s => by
    show splitAux sep (a.length + 1) cur (c :: (a ++ s)) = _
    rw [splitAux]
    exact splitAux_skip a cur s

theorem splitAux_none {sep : Str} : ∀ (s cur : Str), ¬ Occurs sep s → splitAux sep 0 cur s = [cur.reverse ++ s]
  | [], cur, _ => by simp [splitAux]
  | c :: s, cur, h => by
    rw [splitAux, if_neg]
    · rw [splitAux_none s (c :: cur)]
      · simp
      · rintro ⟨u, v, rfl⟩; exact h ⟨c :: u, v, rfl⟩
    · intro h2
      obtain ⟨t, ht⟩ := startsWith_iff.1 h2
      exact h ⟨[], t, by simpa using ht⟩

theorem splitAux_ne_nil {sep : Str} : ∀ (k : Nat) (s cur : Str), splitAux sep k cur s ≠ []
  | k, [], cur => by cases k <;> simp [splitAux]
  | k + 1, c :: s, cur => by rw [splitAux]; exact splitAux_ne_nil k s cur
  | 0, c :: s, cur => by
    rw [splitAux]
    split
    · simp
    · exact splitAux_ne_nil 0 s _

/-- The last piece of a split is what follows the last separator. -/
theorem splitAux_last {c : Char} {x b : Str} (hx : c ∉ x) (hb : ¬ Occurs (c :: x) b) : ∀ (n : Nat) (a cur : Str),
    a.length ≤ n → (splitAux (c :: x) 0 cur (a ++ (c :: x) ++ b)).getLastD [] = b
  | n, [], cur, _ => by
    show (splitAux (c :: x) 0 cur (c :: (x ++ b))).getLastD [] = b
    rw [splitAux, if_pos (show startsWith (c :: x) (c :: (x ++ b)) = true from startsWith_iff.2 ⟨b, rfl⟩)]
    have h := splitAux_skip (sep := c :: x) x [] b
    rw [show (c :: x).length - 1 = x.length by simp, h, splitAux_none b [] hb]
    rfl
  | 0, d :: a, cur, hn => by simp at hn
  | n + 1, d :: a, cur, hn => by
    by_cases hs : startsWith (c :: x) (d :: (a ++ (c :: x) ++ b)) = true
    · obtain ⟨t, ht⟩ := startsWith_iff.1 hs
      have h1 : (d :: a) ++ c :: (x ++ b) = c :: x ++ t := by simpa using ht
      obtain ⟨y, hy⟩ := prefix_before hx (by simp) h1
      have hd := List.cons.inj (show d :: a = c :: (x ++ y) from hy)
      show (splitAux (c :: x) 0 cur (d :: (a ++ (c :: x) ++ b))).getLastD [] = b
      rw [splitAux, if_pos hs]
      have hl : (splitAux (c :: x) ((c :: x).length - 1) [] (a ++ (c :: x) ++ b)) =
          splitAux (c :: x) 0 [] (y ++ (c :: x) ++ b) := by
        rw [hd.2, show (c :: x).length - 1 = x.length by simp, show x ++ y ++ (c :: x) ++ b = x ++ (y ++ (c :: x) ++ b) by simp]
        exact splitAux_skip x [] _
      rw [hl]
      have ih := splitAux_last hx hb n y [] (by
        have : a.length = x.length + y.length := by rw [hd.2, List.length_append]
        simp at hn; omega)
      cases h3 : splitAux (c :: x) 0 [] (y ++ (c :: x) ++ b) with
      | nil => exact absurd h3 (splitAux_ne_nil _ _ _)
      | cons w ws => rw [h3] at ih; simpa using ih
    · show (splitAux (c :: x) 0 cur (d :: (a ++ (c :: x) ++ b))).getLastD [] = b
      rw [splitAux, if_neg hs]
      exact splitAux_last hx hb n a (d :: cur) (by simp at hn; omega)

theorem after_marker {a b : Str} (hb : ¬ Occurs marker b) : (splitStr marker (a ++ marker ++ b)).getLastD [] = b :=
  splitAux_last (c := 'U') (x := c!"ncertainty Comment:\n") (by decide) hb a.length a [] (Nat.le_refl _)

/-! ### The patterns -/

theorem pedigreeAt_prefix (s : Str) (g : Str × Str) (h : pedigreeAt s = some g) : ∃ t, s = c!"Pedigree: (" ++ t := by
  unfold pedigreeAt at h
  split at h
  · rename_i hc; exact startsWith_iff.1 hc.1
  · cases h

theorem varianceAt_prefix (s : Str) (g : Str × Str) (h : varianceAt s = some g) : ∃ t, s = c!"Basic Variance: " ++ t := by
  unfold varianceAt at h
  split at h
  · rename_i hc; exact startsWith_iff.1 hc.1
  · cases h

theorem digit_of {d : Char} (h : d ∈ c!"0123456789") : digit d = true := by
  revert d
  have : (c!"0123456789").all digit = true := by decide
  exact fun {d} h => List.all_eq_true.1 this d h

theorem pedigreeAt_scores {a b c d e : Char} (ha : digit a = true) (hb : digit b = true) (hc : digit c = true)
    (hd : digit d = true) (he : digit e = true) (t : Str) :
    pedigreeAt (c!"Pedigree: (" ++ [a, ',', b, ',', c, ',', d, ',', e] ++ c!")" ++ t) =
      some (c!"Pedigree: (" ++ [a, ',', b, ',', c, ',', d, ',', e] ++ c!")", [a, ',', b, ',', c, ',', d, ',', e]) := by
  unfold pedigreeAt
  rw [if_pos]
  · simp
  · refine ⟨startsWith_iff.2 ⟨[a, ',', b, ',', c, ',', d, ',', e] ++ c!")" ++ t, by simp⟩, ?_, ?_⟩
    · simp [fiveScores, ha, hb, hc, hd, he]
    · simp [startsWith]

/-- The number after the heading of the variance. -/
theorem varianceAt_eq (v t : Str) (ht : ∀ c s, t = c :: s → numChar c = false) :
    varianceAt (c!"Basic Variance: " ++ (v ++ t)) =
      if v.takeWhile numChar = [] then none
      else some (c!"Basic Variance: " ++ v.takeWhile numChar, v.takeWhile numChar) := by
  have h1 : (c!"Basic Variance: " ++ (v ++ t)).drop 16 = v ++ t := rfl
  have h2 : (v ++ t).takeWhile numChar = v.takeWhile numChar := by
    rw [List.takeWhile_append]
    split
    · rename_i h
      cases t with
      | nil =>
        simp only [List.takeWhile_nil, List.append_nil]
        have h3 := List.takeWhile_prefix (l := v) numChar
        exact (List.IsPrefix.eq_of_length h3 h).symm
      | cons c s =>
        rw [List.takeWhile_cons_of_neg (by simp [ht c s rfl]), List.append_nil]
        have h3 := List.takeWhile_prefix (l := v) numChar
        exact (List.IsPrefix.eq_of_length h3 h).symm
    · rfl
  unfold varianceAt
  rw [h1, h2]
  by_cases h : v.takeWhile numChar = []
  · rw [if_pos h, if_neg (by simp [h])]
  · rw [if_neg h, if_pos ⟨startsWith_iff.2 ⟨v ++ t, rfl⟩, h⟩]

theorem readPedigree_at {a b s g : Str} {old : Option Str} (h1 : ¬ Occurs c!"Pedigree: (" a)
    (h2 : ¬ Occurs c!"Pedigree: (" b) (hg : 'P' ∉ g) (hs : pedigreeAt (c!"Pedigree: (" ++ g ++ b) = some (c!"Pedigree: (" ++ g, s)) :
    readPedigree old (a ++ (c!"Pedigree: (" ++ g) ++ b) = .ok (a ++ b, some s) := by
  have hi : isInfix c!"Pedigree: (" (a ++ (c!"Pedigree: (" ++ g) ++ b) = true :=
    isInfix_iff.2 ⟨a, g ++ b, by simp⟩
  have hf : searchFirst pedigreeAt (a ++ (c!"Pedigree: (" ++ g) ++ b) = some (c!"Pedigree: (" ++ g, s) := by
    rw [show a ++ (c!"Pedigree: (" ++ g) ++ b = a ++ 'P' :: (c!"edigree: (" ++ g ++ b) by simp]
    rw [searchFirst_at (m := pedigreeAt) (c := 'P') (x := c!"edigree: (") (by decide) pedigreeAt_prefix h1]
    exact searchFirst_hit hs
  have hx : 'P' ∉ c!"edigree: (" ++ g := by
    intro hm
    rcases List.mem_append.1 hm with hm | hm
    · revert hm; decide
    · exact hg hm
  have hlong : ∀ {z : Str}, ¬ Occurs c!"Pedigree: (" z → ¬ Occurs ('P' :: (c!"edigree: (" ++ g)) z := by
    rintro z hz ⟨u, v, rfl⟩
    exact hz ⟨u, g ++ v, by simp⟩
  unfold readPedigree
  rw [if_pos hi, hf]
  show Except.ok (replaceAll ('P' :: (c!"edigree: (" ++ g)) [] (a ++ ('P' :: (c!"edigree: (" ++ g)) ++ b), some s) = _
  rw [replace_first hx (hlong h1) (hlong h2)]

theorem readPedigree_none {c : Str} {old : Option Str} (h : ¬ Occurs c!"Pedigree: (" c) :
    readPedigree old c = .ok (c, old) := by
  unfold readPedigree
  rw [if_neg (fun h2 => h (isInfix_iff.1 h2))]

theorem readVariance_none {F : Type} {float : Str → Option F} {c : Str} {old : Option F}
    (h : ¬ Occurs c!"Basic Variance: " c) : readVariance float old c = .ok (c, old) := by
  unfold readVariance
  rw [if_neg (fun h2 => h (isInfix_iff.1 h2))]

theorem mem_takeWhile {p : Char → Bool} {v : Str} {c : Char} (h : c ∈ v.takeWhile p) : p c = true :=
  List.all_eq_true.1 List.all_takeWhile c h

theorem readVariance_at {F : Type} {float : Str → Option F} {a v t : Str} {old : Option F}
    (h1 : ¬ Occurs c!"Basic Variance: " a) (h2 : ¬ Occurs c!"Basic Variance: " (v ++ t))
    (ht : ∀ c s, t = c :: s → numChar c = false) :
    readVariance float old (a ++ c!"Basic Variance: " ++ (v ++ t)) =
      if v.takeWhile numChar = [] then .error .attributeError
      else match float (v.takeWhile numChar) with
        | none => .error .valueError
        | some f => .ok (a ++ (v.dropWhile numChar ++ t), some f) := by
  have hi : isInfix c!"Basic Variance: " (a ++ c!"Basic Variance: " ++ (v ++ t)) = true :=
    isInfix_iff.2 ⟨a, v ++ t, rfl⟩
  have hf : searchFirst varianceAt (a ++ c!"Basic Variance: " ++ (v ++ t)) =
      searchFirst varianceAt (c!"Basic Variance: " ++ (v ++ t)) := by
    rw [show a ++ c!"Basic Variance: " ++ (v ++ t) = a ++ 'B' :: (c!"asic Variance: " ++ (v ++ t)) by simp]
    exact searchFirst_at (m := varianceAt) (c := 'B') (x := c!"asic Variance: ") (by decide) varianceAt_prefix h1
  unfold readVariance
  rw [if_pos hi, hf]
  have hv := varianceAt_eq v t ht
  by_cases h : v.takeWhile numChar = []
  · rw [if_pos h] at hv ⊢
    have : searchFirst varianceAt (c!"Basic Variance: " ++ (v ++ t)) = none := by
      show searchFirst varianceAt ('B' :: (c!"asic Variance: " ++ (v ++ t))) = none
      rw [searchFirst, show varianceAt ('B' :: (c!"asic Variance: " ++ (v ++ t))) = none from hv]
      refine searchFirst_none varianceAt_prefix ?_
      have hstep : ∀ (c : Char) (z : Str), c ≠ 'B' → ¬ Occurs c!"Basic Variance: " z →
          ¬ Occurs c!"Basic Variance: " (c :: z) := by
        rintro c z hc hz ⟨u, w, hu⟩
        cases u with
        | nil => exact hc (List.cons.inj hu).1
        | cons d u => exact hz ⟨u, w, (List.cons.inj hu).2⟩
      have hall : ∀ w : Str, 'B' ∉ w → ¬ Occurs c!"Basic Variance: " (w ++ (v ++ t)) := by
        intro w
        induction w with
        | nil => intro _; exact h2
        | cons d w ih =>
          intro hw
          exact hstep d _ (fun hd => hw (by rw [hd]; exact List.mem_cons_self ..))
            (ih fun hm => hw (List.mem_cons_of_mem _ hm))
      exact hall _ (by decide)
    rw [this]
  · rw [if_neg h] at hv ⊢
    rw [searchFirst_hit hv]
    have hsplit : v = v.takeWhile numChar ++ v.dropWhile numChar := List.takeWhile_append_dropWhile.symm
    have hx : 'B' ∉ c!"asic Variance: " ++ v.takeWhile numChar := by
      intro hm
      rcases List.mem_append.1 hm with hm | hm
      · revert hm; decide
      · exact absurd (mem_takeWhile hm) (by decide)
    have hlong : ∀ {z : Str}, ¬ Occurs c!"Basic Variance: " z →
        ¬ Occurs ('B' :: (c!"asic Variance: " ++ v.takeWhile numChar)) z := by
      rintro z hz ⟨u, w, rfl⟩
      exact hz ⟨u, v.takeWhile numChar ++ w, by simp⟩
    have hd : ¬ Occurs c!"Basic Variance: " (v.dropWhile numChar ++ t) := by
      intro ho
      apply h2
      have := occurs_right (v.takeWhile numChar) ho
      rwa [← List.append_assoc, ← hsplit] at this
    have hr := replace_first hx (hlong h1) (hlong hd)
    have he : a ++ c!"Basic Variance: " ++ (v ++ t) =
        a ++ 'B' :: (c!"asic Variance: " ++ v.takeWhile numChar) ++ (v.dropWhile numChar ++ t) := by
      have : v ++ t = v.takeWhile numChar ++ (v.dropWhile numChar ++ t) := by
        rw [← List.append_assoc, ← hsplit]
      rw [this]
      simp
    rw [he]
    have hr2 : replaceAll (c!"Basic Variance: " ++ v.takeWhile numChar) []
        (a ++ 'B' :: (c!"asic Variance: " ++ v.takeWhile numChar) ++ (v.dropWhile numChar ++ t)) =
        a ++ (v.dropWhile numChar ++ t) := hr
    show (match float (v.takeWhile numChar) with
      | none => Except.error PyErr.valueError
      | some f => Except.ok (replaceAll (c!"Basic Variance: " ++ v.takeWhile numChar) []
        (a ++ 'B' :: (c!"asic Variance: " ++ v.takeWhile numChar) ++ (v.dropWhile numChar ++ t)), some f)) = _
    rw [hr2]

/-! ### Lines -/

theorem occurs_skip {c : Char} {x z : Str} : ∀ {w : Str}, c ∉ w → Occurs (c :: x) (w ++ z) → Occurs (c :: x) z
  | [], _, h => h
  | d :: w, hw, ⟨u, v, h⟩ => by
    cases u with
    | nil =>
      have := (List.cons.inj (show d :: (w ++ z) = c :: (x ++ v) from h)).1
      exact absurd (by rw [this]; exact List.mem_cons_self ..) hw
    | cons e u =>
      exact occurs_skip (fun hm => hw (List.mem_cons_of_mem _ hm))
        ⟨u, v, (List.cons.inj (show d :: (w ++ z) = e :: (u ++ (c :: x) ++ v) from h)).2⟩

theorem not_occurs_of {c : Char} {x w : Str} (h : c ∉ w) : ¬ Occurs (c :: x) w := by
  rintro ⟨u, v, rfl⟩
  exact h (by simp)

/-- The lines in front of a line. -/
def front (A : List Str) : Str := if A = [] then [] else join c!"\n" A ++ c!"\n"

/-- The lines after a line. -/
def back (B : List Str) : Str := if B = [] then [] else c!"\n" ++ join c!"\n" B

theorem join_back (l : Str) : ∀ B : List Str, join c!"\n" (l :: B) = l ++ back B
  | [] => by simp [join, back]
  | b :: B => by simp [join, back]

theorem join_mid (l : Str) (B : List Str) : ∀ A : List Str, join c!"\n" (A ++ l :: B) = front A ++ l ++ back B
  | [] => by rw [List.nil_append, join_back]; rfl
  | [a] => by
    show join c!"\n" (a :: l :: B) = _
    rw [join_back, back, if_neg (by simp), join_back]
    simp [front, join]
  | a :: a' :: A => by
    show join c!"\n" (a :: ((a' :: A) ++ l :: B)) = _
    rw [join_back, back, if_neg (by simp), join_mid l B (a' :: A)]
    simp [front, join]

theorem not_occurs_front {p : Str} (hp : p ≠ []) (hn : '\n' ∉ p) {A : List Str} (h : ∀ a ∈ A, ¬ Occurs p a) :
    ¬ Occurs p (front A) := by
  have hnil : ¬ Occurs p [] := by
    rintro ⟨u, v, hu⟩
    have hu := congrArg List.length hu
    simp only [List.length_nil, List.length_append] at hu
    exact hp (List.length_eq_zero_iff.1 (by omega))
  unfold front
  split
  · exact hnil
  · intro ho
    rcases occurs_sep hn ho with ho | ho
    · obtain ⟨t, ht, ho⟩ := occurs_join hp hn ho
      exact h t ht ho
    · exact hnil ho

theorem not_occurs_back {p : Str} (hp : p ≠ []) (hn : '\n' ∉ p) {B : List Str} (h : ∀ b ∈ B, ¬ Occurs p b) :
    ¬ Occurs p (back B) := by
  have hnil : ¬ Occurs p [] := by
    rintro ⟨u, v, hu⟩
    have hu := congrArg List.length hu
    simp only [List.length_nil, List.length_append] at hu
    exact hp (List.length_eq_zero_iff.1 (by omega))
  unfold back
  split
  · exact hnil
  · intro ho
    rcases occurs_sep (a := []) hn ho with ho | ho
    · exact hnil ho
    · obtain ⟨t, ht, ho⟩ := occurs_join hp hn ho
      exact h t ht ho

theorem back_numChar {B : List Str} : ∀ c s, back B = c :: s → numChar c = false := by
  intro c s h
  unfold back at h
  split at h
  · cases h
  · have := (List.cons.inj (show '\n' :: join c!"\n" B = c :: s from h)).1
    subst this
    decide

/-- An occurrence in texts joined by a semicolon and a blank. -/
theorem occurs_joined {c : Char} {x : Str} (h1 : ';' ∉ c :: x) (h2 : c ≠ ' ') : ∀ {l : List Str},
    Occurs (c :: x) (join c!"; " l) → ∃ t ∈ l, Occurs (c :: x) t
  | [], ⟨u, v, h⟩ => by
    have h := congrArg List.length h
    simp [join] at h
  | [t], h => ⟨t, by simp, h⟩
  | t :: u :: l, h => by
    have h : Occurs (c :: x) (t ++ ';' :: (c!" " ++ join c!"; " (u :: l))) := by simpa [join] using h
    rcases occurs_sep h1 h with h | h
    · exact ⟨t, by simp, h⟩
    · obtain ⟨w, hw, h⟩ := occurs_joined h1 h2 (occurs_skip (w := c!" ") (by simpa using h2) h)
      exact ⟨w, List.mem_cons_of_mem _ hw, h⟩

/-! ### The reading of one comment -/

theorem num_no {v : Str} (hv : NumText v) {c : Char} (hc : c ∉ c!"0123456789.eE+-") : c ∉ v := fun h => hc (hv.2 c h)

theorem silent_marker {b : Str} (h : ¬ Occurs c!"Uncertainty Comment:" b) : ¬ Occurs marker b := by
  rintro ⟨u, v, rfl⟩
  exact h ⟨u, c!"\n" ++ v, by simp [marker]⟩

/-- The text of a comment with the heading: what is read, and what is left. -/
theorem readComment_at {F : Type} (float : Str → Option F) (st : Read F) (lang : Str) {before : List Str} {rest : List Str}
    (hr : rest ≠ []) (hs : ∀ r ∈ rest, ¬ Occurs c!"Uncertainty Comment:" r) :
    readComment float st (lang, join c!"\n" (before ++ c!"Uncertainty Comment:" :: rest)) =
      match readPedigree st.pedigree (join c!"\n" rest) with
      | .error e => .error e
      | .ok (c1, ped) =>
        match readVariance float st.var c1 with
        | .error e => .error e
        | .ok (c2, var) => .ok ⟨ped, var, if notBlank c2 then st.comments ++ [(lang, c2)] else st.comments⟩ := by
  have ht : join c!"\n" (before ++ c!"Uncertainty Comment:" :: rest) = front before ++ marker ++ join c!"\n" rest := by
    rw [join_mid, back, if_neg hr]
    simp [marker]
  have hb : ¬ Occurs marker (join c!"\n" rest) := by
    refine silent_marker fun ho => ?_
    obtain ⟨t, ht, ho⟩ := occurs_join (by decide) (by decide) ho
    exact hs t ht ho
  unfold readComment
  simp only [ht]
  rw [if_pos (isInfix_iff.2 ⟨front before, join c!"\n" rest, rfl⟩), after_marker hb]
  rfl

theorem readComment_silent {F : Type} (float : Str → Option F) (st : Read F) (c : Str × Str)
    (h : ¬ Occurs c!"Uncertainty Comment:" c.2) : readComment float st c = .ok st := by
  unfold readComment
  rw [if_neg (fun h2 => silent_marker h (isInfix_iff.1 h2))]

theorem readComments_silent {F : Type} (float : Str → Option F) : ∀ (cs : List (Str × Str)) (st : Read F),
    (∀ c ∈ cs, ¬ Occurs c!"Uncertainty Comment:" c.2) → readComments float st cs = .ok st
  | [], _, _ => rfl
  | c :: cs, st, h => by
    rw [readComments, readComment_silent float st c (h c (by simp))]
    exact readComments_silent float cs st fun d hd => h d (by simp [hd])

theorem readComments_append {F : Type} (float : Str → Option F) : ∀ (a b : List (Str × Str)) (st : Read F),
    readComments float st (a ++ b) =
      match readComments float st a with
      | .error e => .error e
      | .ok st => readComments float st b
  | [], _, _ => rfl
  | c :: a, b, st => by
    show readComments float st (c :: (a ++ b)) = _
    rw [readComments, readComments]
    cases readComment float st c with
    | error e => rfl
    | ok st => exact readComments_append float a b st

/-- The scores as text. -/
theorem scores_text {l : List Str} (hl : l.length = 5) (hd : ∀ s ∈ l, Score s) :
    ∃ a b c d e, join c!"," l = [a, ',', b, ',', c, ',', d, ',', e] ∧
      digit a = true ∧ digit b = true ∧ digit c = true ∧ digit d = true ∧ digit e = true := by
  match l, hl, hd with
  | [s1, s2, s3, s4, s5], _, hd =>
    obtain ⟨a, rfl, ha⟩ := hd s1 (by simp)
    obtain ⟨b, rfl, hb⟩ := hd s2 (by simp)
    obtain ⟨c, rfl, hc⟩ := hd s3 (by simp)
    obtain ⟨d, rfl, hd'⟩ := hd s4 (by simp)
    obtain ⟨e, rfl, he⟩ := hd s5 (by simp)
    exact ⟨a, b, c, d, e, by simp [join], digit_of ha, digit_of hb, digit_of hc, digit_of hd', digit_of he⟩

theorem digit_ne {a c : Char} (h : digit a = true) (hc : digit c = false) : a ≠ c := by
  rintro rfl; rw [h] at hc; cases hc

/-- The scores are read from a line that begins with them. -/
theorem readPedigree_line {A B : List Str} {l : List Str} {t : Str} {old : Option Str} (hl : l.length = 5)
    (hd : ∀ s ∈ l, Score s) (hA : ∀ a ∈ A, ¬ Occurs c!"Pedigree: (" a) (ht : 'P' ∉ t)
    (hB : ∀ b ∈ B, ¬ Occurs c!"Pedigree: (" b) :
    readPedigree old (join c!"\n" (A ++ (c!"Pedigree: (" ++ join c!"," l ++ c!")" ++ t) :: B)) =
      .ok (join c!"\n" (A ++ t :: B), some (join c!"," l)) := by
  obtain ⟨a, b, c, d, e, hj, ha, hb, hc, hd', he⟩ := scores_text hl hd
  rw [join_mid, join_mid, hj]
  have hP : digit 'P' = false := by decide
  have hg : 'P' ∉ [a, ',', b, ',', c, ',', d, ',', e] ++ c!")" := by
    simp only [List.mem_append, List.mem_cons, List.not_mem_nil, or_false]
    have h1 := digit_ne ha hP; have h2 := digit_ne hb hP; have h3 := digit_ne hc hP
    have h4 := digit_ne hd' hP; have h5 := digit_ne he hP
    have hcm : ('P' : Char) ≠ ',' := by decide
    have hpr : ('P' : Char) ≠ ')' := by decide
    simp [h1.symm, h2.symm, h3.symm, h4.symm, h5.symm, hcm, hpr]
  have hb2 : ¬ Occurs c!"Pedigree: (" (t ++ back B) := fun ho =>
    not_occurs_back (by decide) (by decide) hB (occurs_skip ht ho)
  have h := readPedigree_at (old := old) (a := front A) (b := t ++ back B) (s := [a, ',', b, ',', c, ',', d, ',', e])
    (not_occurs_front (by decide) (by decide) hA) hb2 hg (by
      have := pedigreeAt_scores ha hb hc hd' he (t ++ back B)
      simpa using this)
  have e1 : front A ++ (c!"Pedigree: (" ++ [a, ',', b, ',', c, ',', d, ',', e] ++ c!")" ++ t) ++ back B =
      front A ++ (c!"Pedigree: (" ++ ([a, ',', b, ',', c, ',', d, ',', e] ++ c!")")) ++ (t ++ back B) := by simp
  rw [e1, h]
  simp

/-- The variance is read from a line. -/
theorem readVariance_line {F : Type} {float : Str → Option F} {A B : List Str} {p v : Str} {old : Option F}
    (hp : 'B' ∉ p) (hv : NumText v) (hA : ∀ a ∈ A, ¬ Occurs c!"Basic Variance: " a)
    (hB : ∀ b ∈ B, ¬ Occurs c!"Basic Variance: " b) :
    readVariance float old (join c!"\n" (A ++ (p ++ c!"Basic Variance: " ++ v) :: B)) =
      if v.takeWhile numChar = [] then .error .attributeError
      else match float (v.takeWhile numChar) with
        | none => .error .valueError
        | some f => .ok (join c!"\n" (A ++ (p ++ v.dropWhile numChar) :: B), some f) := by
  have ha : ¬ Occurs c!"Basic Variance: " (front A ++ p) := by
    unfold front
    split
    · exact not_occurs_of (by simpa using hp)
    · intro ho
      have : Occurs c!"Basic Variance: " (join c!"\n" A ++ '\n' :: p) := by simpa using ho
      rcases occurs_sep (by decide) this with ho | ho
      · obtain ⟨t, ht, ho⟩ := occurs_join (by decide) (by decide) ho
        exact hA t ht ho
      · exact not_occurs_of hp ho
  have hb : ¬ Occurs c!"Basic Variance: " (v ++ back B) := fun ho =>
    not_occurs_back (by decide) (by decide) hB (occurs_skip (num_no hv (by decide)) ho)
  have h := readVariance_at (float := float) (old := old) (a := front A ++ p) (v := v) (t := back B) ha hb back_numChar
  rw [join_mid, join_mid]
  have e1 : front A ++ (p ++ c!"Basic Variance: " ++ v) ++ back B =
      front A ++ p ++ c!"Basic Variance: " ++ (v ++ back B) := by simp
  rw [e1, h]
  have e2 : front A ++ (p ++ v.dropWhile numChar) ++ back B = front A ++ p ++ (v.dropWhile numChar ++ back B) := by simp
  rw [e2]

/-! ### The paragraphs of the comment -/

theorem strict_ext : ∀ {a b : List Int}, a.Pairwise (· < ·) → b.Pairwise (· < ·) → (∀ i, i ∈ a ↔ i ∈ b) → a = b
  | [], [], _, _, _ => rfl
  | [], y :: b, _, _, h => absurd ((h y).2 (by simp)) (by simp)
  | x :: a, [], _, _, h => absurd ((h x).1 (by simp)) (by simp)
  | x :: a, y :: b, ha, hb, h => by
    have ha' := List.pairwise_cons.1 ha
    have hb' := List.pairwise_cons.1 hb
    have hxy : x = y := by
      have h1 := (h x).1 (by simp)
      have h2 := (h y).2 (by simp)
      rcases List.mem_cons.1 h1 with h1 | h1
      · exact h1
      · rcases List.mem_cons.1 h2 with h2 | h2
        · exact h2.symm
        · have := ha'.1 y h2; have := hb'.1 x h1; omega
    subst hxy
    refine congrArg _ (strict_ext ha'.2 hb'.2 fun i => ?_)
    constructor
    · intro hi
      rcases List.mem_cons.1 ((h i).1 (List.mem_cons_of_mem _ hi)) with h1 | h1
      · have := ha'.1 i hi; omega
      · exact h1
    · intro hi
      rcases List.mem_cons.1 ((h i).2 (List.mem_cons_of_mem _ hi)) with h1 | h1
      · have := hb'.1 i hi; omega
      · exact h1

/-- The texts of an index and a language. -/
def textsAt (es : List Entry) (i : Int) (L : Str) : List Str :=
  (es.filter fun e => e.index = i ∧ e.lang = L).map (·.text)

theorem textsAt_append (a b : List Entry) (i : Int) (L : Str) : textsAt (a ++ b) i L = textsAt a i L ++ textsAt b i L := by
  simp [textsAt]

theorem textsAt_none {a : List Entry} {i : Int} {L : Str} (h : ∀ e ∈ a, e.index ≠ i ∨ e.lang ≠ L) : textsAt a i L = [] := by
  unfold textsAt
  rw [List.filter_eq_nil_iff.2, List.map_nil]
  intro e he
  have := h e he
  simp only [decide_eq_true_eq, not_and]
  intro h1 h2
  rcases this with h | h
  · exact h h1
  · exact h h2

theorem textsOf_given (es : List Entry) (i : Int) (L : Str) :
    LangText.Spec.textsOf (es.map Entry.given) i L = textsAt es i L := by
  unfold LangText.Spec.textsOf textsAt
  rw [List.filter_map, List.map_map]
  rfl

theorem commentEntries_ge : ∀ (cs : List (Str × Str)) (i : Int), ∀ e ∈ commentEntries i cs,
    i ≤ e.index ∧ e.index < i + cs.length
  | [], _, e, he => by simp [commentEntries] at he
  | (l, t) :: cs, i, e, he => by
    rw [commentEntries] at he
    rcases List.mem_cons.1 he with rfl | he
    · simp; omega
    · have := commentEntries_ge cs (i + 1) e he
      simp only [List.length_cons]
      omega

theorem commentEntries_sorted : ∀ (cs : List (Str × Str)) (i : Int),
    (commentEntries i cs).Pairwise fun a b => a.index < b.index
  | [], _ => List.Pairwise.nil
  | (l, t) :: cs, i => by
    rw [commentEntries, List.pairwise_cons]
    refine ⟨fun e he => ?_, commentEntries_sorted cs (i + 1)⟩
    have := (commentEntries_ge cs (i + 1) e he).1
    show i < e.index
    omega

/-- The entries of the English comments. -/
def englishEntries (i : Int) (cs : List (Str × Str)) : List Entry :=
  ((commentEntries i cs).filter fun e => notBlank e.text).filter fun e => e.lang = c!"en"

theorem notBlank_visible (s : Str) : notBlank s = true ↔ Visible s := notBlank_iff s

theorem english_texts : ∀ (cs : List (Str × Str)) (i : Int), (englishEntries i cs).map (·.text) = english cs
  | [], _ => rfl
  | (l, t) :: cs, i => by
    have ih := english_texts cs (i + 1)
    unfold englishEntries at ih ⊢
    unfold english at ih ⊢
    rw [commentEntries, List.filter_cons, List.filter_cons]
    by_cases hb : notBlank t = true
    · have hv : Visible t := (notBlank_visible t).1 hb
      rw [if_pos hb, List.filter_cons]
      by_cases hl : l = c!"en"
      · simp [hl, hv, -List.filter_filter, ih]
      · simp [hl, -List.filter_filter, ih]
    · have hv : ¬ Visible t := fun h => hb ((notBlank_visible t).2 h)
      rw [if_neg hb]
      simp [hv, -List.filter_filter, ih]

theorem englishEntries_sorted (cs : List (Str × Str)) (i : Int) :
    (englishEntries i cs).Pairwise fun a b => a.index < b.index :=
  ((commentEntries_sorted cs i).filter _).filter _

theorem mem_englishEntries {cs : List (Str × Str)} {i : Int} {e : Entry} : e ∈ englishEntries i cs ↔
    e ∈ commentEntries i cs ∧ notBlank e.text = true ∧ e.lang = c!"en" := by
  unfold englishEntries
  rw [List.mem_filter, List.mem_filter]
  simp [and_assoc]

/-- One entry of an index. -/
theorem textsAt_one {l : List Entry} (hs : l.Pairwise fun a b => a.index < b.index) {e : Entry} (he : e ∈ l) :
    textsAt l e.index e.lang = [e.text] := by
  induction l with
  | nil => cases he
  | cons a l ih =>
    rw [List.pairwise_cons] at hs
    rcases List.mem_cons.1 he with rfl | he
    · rw [show e :: l = [e] ++ l from rfl, textsAt_append, textsAt_none (a := l)]
      · simp [textsAt]
      · intro b hb
        have := hs.1 b hb
        left; omega
    · rw [show a :: l = [a] ++ l from rfl, textsAt_append, textsAt_none (a := [a]), ih hs.2 he]
      · rfl
      · intro b hb
        rw [List.mem_singleton.1 hb]
        have := hs.1 e he
        left; omega

/-- The paragraph of an index that has texts. -/
def para (ps : List Str) : List Str := if ps = [] then [] else [join c!"; " ps]

/-- The entries of the uncertainty with the heading. -/
def full (ps os : List Str) (cs : List (Str × Str)) : List Entry :=
  ⟨800, c!"en", c!"Uncertainty Comment:"⟩ ::
    (ps.map (fun p => ⟨898, c!"en", p⟩) ++ commentEntries 801 cs ++ os.map fun o => ⟨899, c!"en", o⟩)

/-- The English text: the paragraphs of the exchange with smaller indices, the heading, the comments, the pedigree, the
other distribution and the other paragraphs of the exchange. -/
theorem english_paragraphs {general : List Entry} {ps os : List Str} {cs : List (Str × Str)} {t : Str}
    (hg : ∀ g ∈ general, g.index < 800 ∨ 899 < g.index) (hps : ∀ p ∈ ps, Visible p) (hos : ∀ o ∈ os, Visible o)
    (hcs : cs.length ≤ 97)
    (ht : LangText.Spec.IsText (some c!"; ") ((entries general (full ps os cs)).map Entry.given) c!"en" t) :
    ∃ before after : List Str,
      t = join c!"\n" (before ++ c!"Uncertainty Comment:" :: (english cs ++ para ps ++ para os ++ after)) ∧
      ∀ b ∈ before ++ after, ∃ l, b = join c!"; " l ∧ ∀ x ∈ l, ∃ g ∈ general, g.lang = c!"en" ∧ g.text = x := by
  obtain ⟨idx, hsort, hmem, rfl⟩ := ht
  -- the entries, part by part
  let G := general.filter fun e => notBlank e.text
  let C := (commentEntries 801 cs).filter fun e => notBlank e.text
  have hes : entries general (full ps os cs) = G ++ (⟨800, c!"en", c!"Uncertainty Comment:"⟩ ::
      (ps.map (fun p => (⟨898, c!"en", p⟩ : Entry)) ++ C ++ os.map fun o => (⟨899, c!"en", o⟩ : Entry))) := by
    unfold entries full
    rw [List.filter_append, List.filter_cons, if_pos (by decide), List.filter_append, List.filter_append]
    congr 3
    · congr 1
      rw [List.filter_eq_self.2]
      intro e he
      obtain ⟨p, hp, rfl⟩ := List.mem_map.1 he
      exact (notBlank_visible p).2 (hps p hp)
    · rw [List.filter_eq_self.2]
      intro e he
      obtain ⟨p, hp, rfl⟩ := List.mem_map.1 he
      exact (notBlank_visible p).2 (hos p hp)
  have hG : ∀ g ∈ G, g.index < 800 ∨ 899 < g.index := fun g h => hg g (List.mem_filter.1 h).1
  have hC : ∀ e ∈ C, 801 ≤ e.index ∧ e.index < 898 := by
    intro e he
    have := commentEntries_ge cs 801 e (List.mem_filter.1 he).1
    omega
  have hmem' : ∀ i, i ∈ idx ↔ ∃ e ∈ entries general (full ps os cs), e.lang = c!"en" ∧ e.index = i := by
    intro i
    rw [hmem i]
    constructor
    · rintro ⟨g, hg, h1, h2⟩
      obtain ⟨e, he, rfl⟩ := List.mem_map.1 hg
      exact ⟨e, he, h1, h2⟩
    · rintro ⟨e, he, h1, h2⟩
      exact ⟨e.given, List.mem_map_of_mem he, h1, h2⟩
  let f : Int → Str := fun i => LangText.Spec.combine (some c!"; ")
    (LangText.Spec.textsOf ((entries general (full ps os cs)).map Entry.given) i c!"en")
  have hf : ∀ i, f i = join c!"; " (textsAt (entries general (full ps os cs)) i c!"en") := by
    intro i
    show join c!"; " (LangText.Spec.textsOf _ i c!"en") = _
    rw [textsOf_given]
  -- the indices
  let P : List Int := if ps = [] then [] else [898]
  let O : List Int := if os = [] then [] else [899]
  let E := (englishEntries 801 cs).map (·.index)
  have hE : ∀ i ∈ E, 801 ≤ i ∧ i < 898 := by
    intro i hi
    obtain ⟨e, he, rfl⟩ := List.mem_map.1 hi
    exact hC e (List.mem_filter.2 ⟨(mem_englishEntries.1 he).1, (mem_englishEntries.1 he).2.1⟩)
  have hP : ∀ i, i ∈ P ↔ i = 898 ∧ ps ≠ [] := by
    intro i; show i ∈ (if ps = [] then [] else [898]) ↔ _
    split <;> simp_all
  have hO : ∀ i, i ∈ O ↔ i = 899 ∧ os ≠ [] := by
    intro i; show i ∈ (if os = [] then [] else [899]) ↔ _
    split <;> simp_all
  have hidx : idx = idx.filter (fun i => i < 800) ++ (800 :: (E ++ P ++ O ++ idx.filter fun i => 899 < i)) := by
    refine strict_ext hsort ?_ ?_
    · rw [List.pairwise_append, List.pairwise_cons, List.pairwise_append, List.pairwise_append, List.pairwise_append]
      refine ⟨hsort.filter _, ⟨?_, ⟨⟨?_, ?_, ?_⟩, ?_, ?_⟩, hsort.filter _, ?_⟩, ?_⟩
      · intro i hi
        simp only [List.mem_append, List.mem_filter, decide_eq_true_eq] at hi
        rcases hi with ((hi | hi) | hi) | hi
        · have := hE i hi; omega
        · have := (hP i).1 hi; omega
        · have := (hO i).1 hi; omega
        · omega
      · exact List.pairwise_map.2 (englishEntries_sorted cs 801)
      · show (if ps = [] then [] else [898]).Pairwise _
        split <;> simp
      · intro a ha b hb
        have := hE a ha; have := (hP b).1 hb; omega
      · show (if os = [] then [] else [899]).Pairwise _
        split <;> simp
      · intro a ha b hb
        have := (hO b).1 hb
        rcases List.mem_append.1 ha with ha | ha
        · have := hE a ha; omega
        · have := (hP a).1 ha; omega
      · intro a ha b hb
        have hb' : 899 < b := by simpa using (List.mem_filter.1 hb).2
        simp only [List.mem_append] at ha
        rcases ha with (ha | ha) | ha
        · have := hE a ha; omega
        · have := (hP a).1 ha; omega
        · have := (hO a).1 ha; omega
      · intro a ha b hb
        have ha' : a < 800 := by simpa using (List.mem_filter.1 ha).2
        simp only [List.mem_cons, List.mem_append, List.mem_filter, decide_eq_true_eq] at hb
        rcases hb with hb | ((hb | hb) | hb) | hb
        · omega
        · have := hE b hb; omega
        · have := (hP b).1 hb; omega
        · have := (hO b).1 hb; omega
        · omega
    · intro i
      simp only [List.mem_cons, List.mem_append, List.mem_filter, decide_eq_true_eq]
      constructor
      · intro hi
        have hi' := hi
        rw [hmem', hes] at hi
        obtain ⟨e, he, hl, rfl⟩ := hi
        simp only [List.mem_append, List.mem_cons, List.mem_map] at he
        rcases he with he | rfl | (⟨p, hp, rfl⟩ | he) | ⟨o, ho, rfl⟩
        · rcases hG e he with h | h
          · exact Or.inl ⟨hi', h⟩
          · exact Or.inr (Or.inr (Or.inr ⟨hi', h⟩))
        · exact Or.inr (Or.inl rfl)
        · exact Or.inr (Or.inr (Or.inl (Or.inl (Or.inr ((hP _).2 ⟨rfl, List.ne_nil_of_mem hp⟩)))))
        · refine Or.inr (Or.inr (Or.inl (Or.inl (Or.inl ?_))))
          have := List.mem_filter.1 he
          exact List.mem_map.2 ⟨e, mem_englishEntries.2 ⟨this.1, this.2, hl⟩, rfl⟩
        · exact Or.inr (Or.inr (Or.inl (Or.inr ((hO _).2 ⟨rfl, List.ne_nil_of_mem ho⟩))))
      · rintro (h | h | ((h | h) | h) | h)
        · exact h.1
        · rw [hmem', hes]
          exact ⟨⟨800, c!"en", c!"Uncertainty Comment:"⟩, by simp, rfl, h.symm⟩
        · obtain ⟨e, he, rfl⟩ := List.mem_map.1 h
          have := mem_englishEntries.1 he
          rw [hmem', hes]
          refine ⟨e, ?_, this.2.2, rfl⟩
          have : e ∈ C := List.mem_filter.2 ⟨this.1, this.2.1⟩
          simp [this]
        · have h := (hP i).1 h
          obtain ⟨p, hp⟩ := List.exists_mem_of_ne_nil _ h.2
          rw [hmem', hes]
          refine ⟨⟨898, c!"en", p⟩, ?_, rfl, h.1.symm⟩
          simp [hp]
        · have h := (hO i).1 h
          obtain ⟨p, hp⟩ := List.exists_mem_of_ne_nil _ h.2
          rw [hmem', hes]
          refine ⟨⟨899, c!"en", p⟩, ?_, rfl, h.1.symm⟩
          simp [hp]
        · exact h.1
  -- the texts of the indices
  have hcons : ∀ (a : Entry) (l : List Entry), a :: l = [a] ++ l := fun _ _ => rfl
  have t800 : f 800 = c!"Uncertainty Comment:" := by
    rw [hf, hes, textsAt_append, hcons, textsAt_append, textsAt_none (a := G), textsAt_none (a := _ ++ _)]
    · simp [textsAt, join]
    · intro e he
      simp only [List.mem_append, List.mem_map] at he
      rcases he with (⟨p, _, rfl⟩ | he) | ⟨p, _, rfl⟩
      · left; simp
      · have := hC e he; left; omega
      · left; simp
    · intro e he
      have := hG e he; left; omega
  have tcom : E.map f = english cs := by
    rw [← english_texts cs 801, List.map_map]
    apply List.map_congr_left
    intro e he
    have hm := mem_englishEntries.1 he
    have he' : e ∈ C := List.mem_filter.2 ⟨hm.1, hm.2.1⟩
    have hr := hC e he'
    show f e.index = e.text
    rw [hf, hes, textsAt_append, hcons, textsAt_append, textsAt_append, textsAt_append, textsAt_none (a := G),
      textsAt_none (a := [_]), textsAt_none (a := ps.map _), textsAt_none (a := os.map _)]
    · have h1 := textsAt_one (l := C) ((commentEntries_sorted cs 801).filter _) he'
      rw [hm.2.2] at h1
      rw [h1]
      simp [join]
    · intro x hx
      obtain ⟨p, _, rfl⟩ := List.mem_map.1 hx
      left; show (899 : Int) ≠ e.index; omega
    · intro x hx
      obtain ⟨p, _, rfl⟩ := List.mem_map.1 hx
      left; show (898 : Int) ≠ e.index; omega
    · intro x hx
      rw [List.mem_singleton.1 hx]
      left; show (800 : Int) ≠ e.index; omega
    · intro x hx
      have := hG x hx; left; omega
  have hall : ∀ (i : Int) (l : List Str), textsAt (l.map fun p => (⟨i, c!"en", p⟩ : Entry)) i c!"en" = l := by
    intro i l
    unfold textsAt
    rw [List.filter_eq_self.2, List.map_map]
    · exact List.map_id'' (fun _ => rfl) _
    · intro e he
      obtain ⟨p, _, rfl⟩ := List.mem_map.1 he
      simp
  have tped : P.map f = para ps := by
    show (if ps = [] then [] else [(898 : Int)]).map f = if ps = [] then [] else [join c!"; " ps]
    split
    · rfl
    · show [f 898] = _
      rw [hf, hes, textsAt_append, hcons, textsAt_append, textsAt_append, textsAt_append, textsAt_none (a := G),
        textsAt_none (a := [_]), textsAt_none (a := C), textsAt_none (a := os.map _), hall]
      · simp
      · intro x hx
        obtain ⟨p, _, rfl⟩ := List.mem_map.1 hx
        left; simp
      · intro x hx
        have := hC x hx; left; omega
      · intro x hx
        rw [List.mem_singleton.1 hx]
        left; simp
      · intro x hx
        have := hG x hx; left; omega
  have toth : O.map f = para os := by
    show (if os = [] then [] else [(899 : Int)]).map f = if os = [] then [] else [join c!"; " os]
    split
    · rfl
    · show [f 899] = _
      rw [hf, hes, textsAt_append, hcons, textsAt_append, textsAt_append, textsAt_append, textsAt_none (a := G),
        textsAt_none (a := [_]), textsAt_none (a := C), textsAt_none (a := ps.map _), hall]
      · simp
      · intro x hx
        obtain ⟨p, _, rfl⟩ := List.mem_map.1 hx
        left; simp
      · intro x hx
        have := hC x hx; left; omega
      · intro x hx
        rw [List.mem_singleton.1 hx]
        left; simp
      · intro x hx
        have := hG x hx; left; omega
  refine ⟨(idx.filter fun i => i < 800).map f, (idx.filter fun i => 899 < i).map f, ?_, ?_⟩
  · show join c!"\n" (idx.map f) = _
    conv_lhs => rw [hidx]
    rw [List.map_append, List.map_cons, List.map_append, List.map_append, List.map_append, t800, tcom, tped, toth]
  · intro b hb
    have : ∃ i ∈ idx, (i < 800 ∨ 899 < i) ∧ f i = b := by
      rcases List.mem_append.1 hb with hb | hb
      · obtain ⟨i, hi, rfl⟩ := List.mem_map.1 hb
        have := List.mem_filter.1 hi
        exact ⟨i, this.1, Or.inl (by simpa using this.2), rfl⟩
      · obtain ⟨i, hi, rfl⟩ := List.mem_map.1 hb
        have := List.mem_filter.1 hi
        exact ⟨i, this.1, Or.inr (by simpa using this.2), rfl⟩
    obtain ⟨i, _, hi, rfl⟩ := this
    refine ⟨_, hf i, ?_⟩
    intro x hx
    unfold textsAt at hx
    obtain ⟨e, he, rfl⟩ := List.mem_map.1 hx
    have hm := List.mem_filter.1 he
    have h2 : e.index = i ∧ e.lang = c!"en" := by simpa using hm.2
    have h1 := hm.1
    rw [hes] at h1
    simp only [List.mem_append, List.mem_cons, List.mem_map] at h1
    rcases h1 with h1 | rfl | (⟨p, hp, rfl⟩ | h1) | ⟨o, ho, rfl⟩
    · exact ⟨e, (List.mem_filter.1 h1).1, h2.2, rfl⟩
    · have : (800 : Int) = i := h2.1
      omega
    · have : (898 : Int) = i := h2.1
      omega
    · have := hC e h1; omega
    · have : (899 : Int) = i := h2.1
      omega

/-! ### The texts that are written -/

/-- The pieces of a text within the limit. -/
theorem pieces_within {t : TextCls} {lim : Validators.Limit} {ignore : Bool} {sent : Str → List Str} {s : Str}
    (hl : t.limit = some lim) (h : ignore = true ∨ (s.length ≤ upper lim ∧ lim.holds s.length = true)) :
    pieces t ignore sent s = .ok [s] := by
  have h1 : (t.splits && !ignore && decide (s.length > upper lim)) = false := by
    rcases h with h | h
    · simp [h]
    · have : ¬ s.length > upper lim := by omega
      simp [this]
  have h2 : Validators.limEnd lim ignore (some s) = .ok s := by
    unfold Validators.limEnd
    rcases h with h | h
    · simp [h]
    · simp [h.2]
  unfold pieces
  rw [hl]
  simp only [h1, Bool.false_eq_true, if_false, h2]

/-- The pieces of a text over the limit. -/
theorem pieces_over {t : TextCls} {lim : Validators.Limit} {sent : Str → List Str} {s : Str} {ps : List Str}
    (hl : t.limit = some lim) (hs : t.splits = true) (hlen : upper lim < s.length) (h : pieces t false sent s = .ok ps) :
    ∃ qs, TextSplit.textToList (upper lim) (sent s) = .ok qs ∧
      (qs.mapM fun p => Validators.limEnd lim false (some p)) = .ok ps := by
  unfold pieces at h
  rw [hl] at h
  have h1 : (t.splits && !false && decide (s.length > upper lim)) = true := by simp [hs, hlen]
  simp only [h1, if_true] at h
  split at h
  · cases h
  · rename_i qs hq
    exact ⟨qs, hq, h⟩

theorem endValidate_short {l : List (Str × Str)} (ignore : Bool) (sent : Str → List Str)
    (h : ∀ p ∈ l, p.2 ≠ [] ∧ (ignore = true ∨ p.2.length ≤ 500)) : endValidate commentCls ignore sent l = .ok l := by
  induction l with
  | nil => rfl
  | cons p l ih =>
    obtain ⟨k, s⟩ := p
    have hs := h (k, s) (by simp)
    have hp : pieces commentCls ignore sent s = .ok [s] := by
      refine pieces_within rfl ?_
      rcases hs.2 with h | h
      · exact Or.inl h
      · refine Or.inr ⟨h, ?_⟩
        have h1 : 1 ≤ s.length := by
          have := hs.1
          cases s with
          | nil => exact absurd rfl this
          | cons c s => simp
        have h2 : s.length ≤ 500 := h
        simp [Validators.Limit.holds, h1, h2]
    rw [endValidate, hp, ih fun p hp => h p (by simp [hp])]
    rfl

theorem map_given (es : List Entry) : (es.map Entry.given).map ofGiven = es := by
  rw [List.map_map]
  exact List.map_id'' (fun _ => rfl) _

theorem byLang_texts (es : List Entry) (hv : ∀ e ∈ es, notBlank e.text = true) :
    ((byLang (addMerged commentCls [] es)).map Prod.fst).Nodup ∧
    (∀ L, L ∈ (byLang (addMerged commentCls [] es)).map Prod.fst ↔ ∃ e ∈ es, e.lang = L) ∧
    (∀ p ∈ byLang (addMerged commentCls [] es),
      LangText.Spec.IsText (some c!"; ") (es.map Entry.given) p.1 p.2 ∧ p.2 ≠ []) := by
  have hm := addMerged_eq commentCls (es.map Entry.given)
  rw [map_given] at hm
  have hne : ∀ e ∈ addMerged commentCls [] es, e.text ≠ [] := by
    rw [hm]
    intro e he
    obtain ⟨k, hk, rfl⟩ := List.mem_map.1 he
    refine merged_ne_nil _ _ ?_ k (Validators.mem_firstOccurrences.1 hk)
    intro g hg
    obtain ⟨e, he, rfl⟩ := List.mem_map.1 hg
    exact (notBlank_iff _).1 (hv e he)
  have hb := byLang_eq _ hne
  refine ⟨hb.1.imp (fun {a b} h heq => by subst heq; exact not_before_self _ h), ?_, ?_⟩
  · intro L
    rw [hb.2.1 L, hm]
    constructor
    · rintro ⟨e, he, rfl⟩
      obtain ⟨k, hk, rfl⟩ := List.mem_map.1 he
      obtain ⟨g, hg, rfl⟩ := List.mem_map.1 (Validators.mem_firstOccurrences.1 hk)
      obtain ⟨e', he', rfl⟩ := List.mem_map.1 hg
      exact ⟨e', he', rfl⟩
    · rintro ⟨e, he, rfl⟩
      exact ⟨merged _ _ (key e.given), List.mem_map_of_mem (Validators.mem_firstOccurrences.2
        (List.mem_map_of_mem (List.mem_map_of_mem he))), rfl⟩
  · intro p hp
    have ht : LangText.Spec.IsText (some c!"; ") (es.map Entry.given) p.1 p.2 := by
      rw [hb.2.2 p hp, hm]
      exact langText_isText _ _ _
    refine ⟨ht, ?_⟩
    rw [hb.2.2 p hp]
    have hL := (hb.2.1 p.1).1 (List.mem_map_of_mem hp)
    obtain ⟨e, he, hl⟩ := hL
    unfold langText
    refine join_ne_nil _ _ ?_ ?_
    · have : e ∈ (sortBy byIndex (addMerged commentCls [] es)).filter fun e => e.lang = p.1 :=
        List.mem_filter.2 ⟨(mem_sortBy _).2 he, by simp [hl]⟩
      exact List.ne_nil_of_mem (List.mem_map_of_mem this)
    · intro x hx
      obtain ⟨e, he, rfl⟩ := List.mem_map.1 hx
      exact hne e ((mem_sortBy _).1 (List.mem_filter.1 he).1)

theorem entries_visible (general unc : List Entry) : ∀ e ∈ entries general unc, notBlank e.text = true :=
  fun _ he => (List.mem_filter.1 he).2

/-- Without splitting, one text is written for each language: the specified one. -/
theorem written_short {ignore : Bool} {general unc : List Entry} (sent : Str → List Str)
    (h : ignore = true ∨ ∀ L t, LangText.Spec.IsText (some c!"; ") ((entries general unc).map Entry.given) L t →
      t.length ≤ 500) :
    ∃ out, written ignore sent general unc = .ok out ∧ (out.map Prod.fst).Nodup ∧
      (∀ L, L ∈ out.map Prod.fst ↔ ∃ e ∈ entries general unc, e.lang = L) ∧
      ∀ p ∈ out, LangText.Spec.IsText (some c!"; ") ((entries general unc).map Entry.given) p.1 p.2 := by
  have hb := byLang_texts _ (entries_visible general unc)
  refine ⟨byLang (addMerged commentCls [] (entries general unc)), ?_, hb.1, hb.2.1, fun p hp => (hb.2.2 p hp).1⟩
  refine endValidate_short ignore sent fun p hp => ⟨(hb.2.2 p hp).2, ?_⟩
  rcases h with h | h
  · exact Or.inl h
  · exact Or.inr (h _ _ (hb.2.2 p hp).1)

/-- What does not occur in the texts of a language does not occur in its text. -/
theorem not_occurs_text {c : Char} {x L t : Str} {es : List Entry} (h1 : ';' ∉ c :: x) (h2 : c ≠ ' ') (h3 : '\n' ∉ c :: x)
    (ht : LangText.Spec.IsText (some c!"; ") (es.map Entry.given) L t)
    (h : ∀ e ∈ es, e.lang = L → ¬ Occurs (c :: x) e.text) : ¬ Occurs (c :: x) t := by
  obtain ⟨idx, _, _, rfl⟩ := ht
  intro ho
  obtain ⟨y, hy, ho⟩ := occurs_join (by simp) h3 ho
  obtain ⟨i, _, rfl⟩ := List.mem_map.1 hy
  have ho : Occurs (c :: x) (join c!"; " (LangText.Spec.textsOf (es.map Entry.given) i L)) := ho
  rw [textsOf_given] at ho
  obtain ⟨z, hz, ho⟩ := occurs_joined h1 h2 ho
  unfold textsAt at hz
  obtain ⟨e, he, rfl⟩ := List.mem_map.1 hz
  have hm := List.mem_filter.1 he
  have h2 : e.index = i ∧ e.lang = L := by simpa using hm.2
  exact h e hm.1 h2.2 ho

/-! ### Texts without line ends -/

/-- A list with one text of its key. -/
theorem split_unique {out : List (Str × Str)} {k t : Str} (hn : (out.map Prod.fst).Nodup) (h : (k, t) ∈ out) :
    ∃ a b, out = a ++ (k, t) :: b ∧ ∀ p ∈ a ++ b, p.1 ≠ k := by
  obtain ⟨a, b, rfl⟩ := List.append_of_mem h
  refine ⟨a, b, rfl, ?_⟩
  rw [List.map_append, List.map_cons, List.nodup_append] at hn
  have h2 := List.nodup_cons.1 hn.2.1
  intro p hp he
  rcases List.mem_append.1 hp with hp | hp
  · exact hn.2.2 p.1 (List.mem_map_of_mem hp) k (by simp) he
  · exact h2.1 (List.mem_map.2 ⟨p, hp, he⟩)

open Sentences in
theorem matchAt_chars : ∀ (its : List Item) (s : Str) (n : Nat) (o : Str), matchAt its s = some (n, o) → ∀ c ∈ o,
    c ∈ s ∨ ∃ it ∈ its, ∃ ts, it.put = some ts ∧ c ∈ render ts
  | [], s, n, o, h, c, hc => by
    have : o = [] := by simpa [matchAt] using (congrArg (·.map Prod.snd) h).symm
    rw [this] at hc; cases hc
  | it :: its, s, n, o, h, c, hc => by
    rw [matchAt] at h
    obtain ⟨alt, _, h⟩ := List.exists_of_findSome?_eq_some h
    split at h
    · obtain ⟨r, hr, h⟩ := Option.map_eq_some_iff.1 h
      have h := (Prod.mk.inj h).2
      rw [← h] at hc
      rcases List.mem_append.1 hc with hc | hc
      · unfold Item.out at hc
        split at hc
        · exact Or.inl (List.mem_of_mem_take hc)
        · rename_i ts hts
          exact Or.inr ⟨it, by simp, ts, hts, hc⟩
      · rcases matchAt_chars its _ r.1 r.2 hr c hc with h | ⟨it', h1, h2⟩
        · exact Or.inl (List.mem_of_mem_drop h)
        · exact Or.inr ⟨it', by simp [h1], h2⟩
    · cases h

open Sentences in
theorem subAux_chars (its : List Item) : ∀ (s : Str) (k : Nat), ∀ c ∈ subAux its k s,
    c ∈ s ∨ ∃ it ∈ its, ∃ ts, it.put = some ts ∧ c ∈ render ts
  | [], k, c, hc => by cases k <;> simp [subAux] at hc
  | d :: s, k + 1, c, hc => by
    rw [subAux] at hc
    rcases subAux_chars its s k c hc with h | h
    · exact Or.inl (by simp [h])
    · exact Or.inr h
  | d :: s, 0, c, hc => by
    rw [subAux] at hc
    split at hc
    · rename_i n o hm
      rcases List.mem_append.1 hc with hc | hc
      · exact matchAt_chars its _ n o hm c hc
      · rcases subAux_chars its s (n - 1) c hc with h | h
        · exact Or.inl (by simp [h])
        · exact Or.inr h
    · rcases List.mem_cons.1 hc with rfl | hc
      · exact Or.inl (by simp)
      · rcases subAux_chars its s 0 c hc with h | h
        · exact Or.inl (by simp [h])
        · exact Or.inr h

open Sentences in
/-- No rule puts a line end into a text. -/
theorem put_line : ∀ r ∈ rules, ∀ it ∈ r.items, ∀ ts, it.put = some ts → '\n' ∉ render ts := by
  have : rules.all (fun r => r.items.all fun it => match it.put with
    | some ts => !(render ts).contains '\n'
    | none => true) = true := by decide +kernel
  intro r hr it hit ts hts
  have h := List.all_eq_true.1 (List.all_eq_true.1 this r hr) it hit
  rw [hts] at h
  simpa using h

open Sentences in
theorem apply_line {r : Rule} (hr : r ∈ rules) {s : Str} (hs : '\n' ∉ s) : '\n' ∉ r.apply s := by
  unfold Rule.apply
  split
  · intro h
    rcases subAux_chars _ _ _ _ h with h | ⟨it, hit, ts, hts, h⟩
    · exact hs h
    · exact put_line r hr it hit ts hts h
  · exact hs

open Sentences in
/-- The first rule takes the line ends out. -/
theorem first_line (s : Str) : '\n' ∉ sub [swap c!"\n" [.chr ' ']] s := by
  unfold sub
  have hm : ∀ (d : Char) (s : Str), matchAt [swap c!"\n" [.chr ' ']] (d :: s) = if d = '\n' then some (1, c!" ") else none := by
    intro d s
    by_cases hd : d = '\n'
    · subst hd; rfl
    · simp [matchAt, swap, word, fits, Cls.has, hd]
  induction s with
  | nil => simp [subAux]
  | cons d s ih =>
    rw [subAux, hm]
    by_cases hd : d = '\n'
    · rw [if_pos hd]
      show '\n' ∉ ' ' :: subAux _ 0 s
      simp [ih]
    · rw [if_neg hd]
      show '\n' ∉ d :: subAux _ 0 s
      simp only [List.mem_cons, not_or]
      exact ⟨Ne.symm hd, ih⟩

open Sentences in
theorem rules_line (s : Str) : '\n' ∉ rules.foldl (fun s r => r.apply s) s := by
  have hfold : ∀ (l : List Rule), (∀ r ∈ l, r ∈ rules) → ∀ s : Str, '\n' ∉ s → '\n' ∉ l.foldl (fun s r => r.apply s) s := by
    intro l
    induction l with
    | nil => intro _ s hs; exact hs
    | cons r l ih =>
      intro hl s hs
      exact ih (fun r hr => hl r (by simp [hr])) _ (apply_line (hl r (by simp)) hs)
  have hr : rules = ({ items := [swap c!"\n" [.chr ' ']] } : Rule) :: rules.tail := rfl
  rw [hr, List.foldl_cons]
  refine hfold _ (fun r hr => List.mem_of_mem_tail hr) _ ?_
  unfold Rule.apply
  rw [if_pos (isInfix_iff.2 ⟨[], s, by simp⟩)]
  exact first_line s

theorem replaceAux_chars {old new : Str} : ∀ (s : Str) (k : Nat), ∀ c ∈ replaceAux old new k s, c ∈ s ∨ c ∈ new
  | [], k, c, hc => by cases k <;> simp [replaceAux] at hc
  | d :: s, k + 1, c, hc => by
    rw [replaceAux] at hc
    rcases replaceAux_chars s k c hc with h | h
    · exact Or.inl (by simp [h])
    · exact Or.inr h
  | d :: s, 0, c, hc => by
    rw [replaceAux] at hc
    split at hc
    · rcases List.mem_append.1 hc with hc | hc
      · exact Or.inr hc
      · rcases replaceAux_chars s _ c hc with h | h
        · exact Or.inl (by simp [h])
        · exact Or.inr h
    · rcases List.mem_cons.1 hc with rfl | hc
      · exact Or.inl (by simp)
      · rcases replaceAux_chars s 0 c hc with h | h
        · exact Or.inl (by simp [h])
        · exact Or.inr h

theorem infix_mem {x y : Str} (h : x <:+: y) {c : Char} (hc : c ∈ x) : c ∈ y := by
  obtain ⟨a, b, rfl⟩ := h
  simp [hc]

open Sentences in
/-- The sentences have no line ends. -/
theorem sentences_line (t : Str) : ∀ x ∈ sentences t, '\n' ∉ x := by
  have hm : '\n' ∉ marked t := by
    unfold marked
    rw [replaceAll, if_neg (by decide)]
    intro h
    rcases replaceAux_chars _ _ _ h with h | h
    · exact rules_line _ h
    · revert h; decide
  intro x hx hn
  unfold sentences at hx
  obtain ⟨y, hy, rfl⟩ := List.mem_map.1 hx
  have hy' : y ∈ splitStr c!"<stop>" (marked t) := by
    revert hy
    split
    · exact fun hy => List.dropLast_subset _ hy
    · exact id
  exact hm (infix_mem (split_infix _ _ hy') (infix_mem (strip_infix y) hn))

section
open TextSplit

theorem optimizeGo_line (limit : Nat) (s : Str) (hs : '\n' ∉ s) : ∀ (n : List Str) (f : Str), '\n' ∉ f →
    (∀ x ∈ n, '\n' ∉ x) → ∀ p ∈ optimizeGo limit s f n, '\n' ∉ p
  | [], f, hf, _, p, hp => by
    rw [optimizeGo, List.mem_singleton] at hp
    subst hp
    exact fun h => hf (infix_mem (Sentences.strip_infix f) h)
  | x :: n, f, hf, hn, p, hp => by
    have hx := hn x (by simp)
    have hn' : ∀ y ∈ n, '\n' ∉ y := fun y hy => hn y (by simp [hy])
    rw [optimizeGo] at hp
    split at hp
    · exact optimizeGo_line limit s hs n x hx hn' p hp
    · split at hp
      · rcases List.mem_cons.1 hp with rfl | hp
        · exact fun h => hf (infix_mem (Sentences.strip_infix f) h)
        · exact optimizeGo_line limit s hs n x hx hn' p hp
      · split at hp
        · exact optimizeGo_line limit s hs n f hf hn' p hp
        · split at hp
          · refine optimizeGo_line limit s hs n _ ?_ hn' p hp
            simp [hf, hx]
          · refine optimizeGo_line limit s hs n _ ?_ hn' p hp
            simp [hf, hx, hs]

theorem join_line {sep : Str} (hs : '\n' ∉ sep) : ∀ (l : List Str), (∀ x ∈ l, '\n' ∉ x) → '\n' ∉ join sep l
  | [], _ => by simp [join]
  | [x], h => h x (by simp)
  | x :: y :: l, h => by
    have h1 := h x (by simp)
    have h2 := join_line hs (y :: l) fun z hz => h z (by simp [hz])
    show '\n' ∉ x ++ sep ++ join sep (y :: l)
    simp [h1, h2, hs]

theorem splitOn_line (d : Char) : ∀ (s : Str), ∀ x ∈ splitOn d s, ∀ c ∈ x, c ∈ s := by
  intro s x hx c hc
  have h := join_splitOn d s
  rw [← h]
  have gen : ∀ (l : List Str), x ∈ l → c ∈ join [d] l := by
    intro l
    induction l with
    | nil => intro h; cases h
    | cons a l ih =>
      intro h
      cases l with
      | nil => simp at h; subst h; exact hc
      | cons b l =>
        rcases List.mem_cons.1 h with rfl | h
        · simp [join, hc]
        · have := ih h
          simp [join, this]
  exact gen _ hx

theorem chunkStep_line (limit : Nat) (st : TextSplit.St) (ch : Str) (hm : ∀ x ∈ st.m, '\n' ∉ x) (hb : '\n' ∉ st.b)
    (hs : '\n' ∉ st.s) (hc : '\n' ∉ ch) :
    (∀ x ∈ (chunkStep limit st ch).m, '\n' ∉ x) ∧ '\n' ∉ (chunkStep limit st ch).b ∧ '\n' ∉ (chunkStep limit st ch).s := by
  have key : ∀ (m : List Str) (y : Str), (∀ x ∈ m, '\n' ∉ x) → '\n' ∉ y →
      let r : TextSplit.St := if (splitOn ' ' y).dropLast.length > 0 then
        { m := m ++ [join c!" " (splitOn ' ' y).dropLast], b := (splitOn ' ' y).getLastD [], s := st.s }
        else { m := m ++ [ch], b := [], s := [] }
      (∀ x ∈ r.m, '\n' ∉ x) ∧ '\n' ∉ r.b ∧ '\n' ∉ r.s := by
    intro m y hm hy
    have hall : ∀ x ∈ splitOn ' ' y, '\n' ∉ x := fun x hx h => hy (splitOn_line ' ' y x hx _ h)
    dsimp only
    split
    · refine ⟨?_, ?_, hs⟩
      · intro x hx
        rcases List.mem_append.1 hx with hx | hx
        · exact hm x hx
        · rw [List.mem_singleton.1 hx]
          exact join_line (by decide) _ fun z hz => hall z (List.dropLast_subset _ hz)
      · show '\n' ∉ (splitOn ' ' y).getLastD []
        rw [List.getLastD_eq_getLast?]
        cases h : (splitOn ' ' y).getLast? with
        | none => simp
        | some z => exact hall z (List.mem_of_getLast? h)
    · refine ⟨?_, by simp, by simp⟩
      intro x hx
      rcases List.mem_append.1 hx with hx | hx
      · exact hm x hx
      · rw [List.mem_singleton.1 hx]; exact hc
  unfold chunkStep
  split
  · rename_i m c heq
    split at heq
    · obtain ⟨rfl, rfl⟩ := Prod.mk.inj heq
      refine key _ _ ?_ hc
      intro x hx
      rcases List.mem_append.1 hx with hx | hx
      · exact hm x hx
      · rw [List.mem_singleton.1 hx]; exact hb
    · obtain ⟨rfl, rfl⟩ := Prod.mk.inj heq
      refine key _ _ hm ?_
      simp [hb, hc]

theorem chunks_line (k fuel : Nat) : ∀ (x : Str), '\n' ∉ x → ∀ c ∈ chunksAux k fuel x, '\n' ∉ c := by
  induction fuel with
  | zero => intro x _ c hc; simp [chunksAux] at hc
  | succ n ih =>
    intro x hx c hc
    rw [chunksAux] at hc
    split at hc
    · cases hc
    · rcases List.mem_cons.1 hc with rfl | hc
      · exact fun h => hx (List.mem_of_mem_take h)
      · exact ih _ (fun h => hx (List.mem_of_mem_drop h)) c hc

theorem longSentence_line {limit : Nat} {m m' : List Str} {x s : Str} (hm : ∀ y ∈ m, '\n' ∉ y) (hx : '\n' ∉ x)
    (h : longSentence limit m x = .ok (m', s)) : (∀ y ∈ m', '\n' ∉ y) ∧ '\n' ∉ s := by
  unfold longSentence at h
  split at h
  · cases h
  · split at h
    · cases h; exact ⟨hm, by decide⟩
    · have gen : ∀ (l : List Str) (st : TextSplit.St), (∀ c ∈ l, '\n' ∉ c) → (∀ x ∈ st.m, '\n' ∉ x) → '\n' ∉ st.b → '\n' ∉ st.s →
          (∀ x ∈ (l.foldl (chunkStep limit) st).m, '\n' ∉ x) ∧ '\n' ∉ (l.foldl (chunkStep limit) st).s := by
        intro l
        induction l with
        | nil => intro st _ h1 _ h3; exact ⟨h1, h3⟩
        | cons c l ih =>
          intro st hl h1 h2 h3
          have hc := chunkStep_line limit st c h1 h2 h3 (hl c (by simp))
          exact ih _ (fun d hd => hl d (by simp [hd])) hc.1 hc.2.1 hc.2.2
      have := gen (chunks (limit - 50) x) { m := m, b := [], s := c!" " } (chunks_line _ _ x hx) hm (by simp) (by simp)
      cases h
      exact this

theorem sentenceLoop_line {limit : Nat} : ∀ (n m : List Str) (s : Str) (m' : List Str) (s' : Str), (∀ y ∈ m, '\n' ∉ y) →
    '\n' ∉ s → (∀ x ∈ n, '\n' ∉ x) → sentenceLoop limit m s n = .ok (m', s') → (∀ y ∈ m', '\n' ∉ y) ∧ '\n' ∉ s'
  | [], m, s, m', s', hm, hs, _, h => by
    rw [sentenceLoop] at h; cases h; exact ⟨hm, hs⟩
  | x :: n, m, s, m', s', hm, hs, hn, h => by
    have hn' : ∀ y ∈ n, '\n' ∉ y := fun y hy => hn y (by simp [hy])
    rw [sentenceLoop] at h
    split at h
    · split at h
      · cases h
      · rename_i m1 s1 heq
        have := longSentence_line hm (hn x (by simp)) heq
        exact sentenceLoop_line n m1 s1 m' s' this.1 this.2 hn' h
    · refine sentenceLoop_line n _ s m' s' ?_ hs hn' h
      intro y hy
      rcases List.mem_append.1 hy with hy | hy
      · exact hm y hy
      · rw [List.mem_singleton.1 hy]; exact hn x (by simp)

/-- Nor have the pieces that are made of them. -/
theorem textToList_line {limit : Nat} {n ps : List Str} (hn : ∀ x ∈ n, '\n' ∉ x) (h : textToList limit n = .ok ps) :
    ∀ p ∈ ps, '\n' ∉ p := by
  unfold textToList at h
  split at h
  · cases h
  · split at h
    · cases h
      exact optimizeGo_line limit _ (by decide) n [] (by simp) hn
    · split at h
      · cases h
      · rename_i m s heq
        cases h
        have := sentenceLoop_line n [] c!"; " m s (by simp) (by decide) hn heq
        exact optimizeGo_line limit s this.2 m [] (by simp) this.1

end

/-- The pieces of a text over the limit have no line end. -/
theorem pieces_line {s : Str} {ps : List Str} (hs : 500 < s.length)
    (h : pieces commentCls false Sentences.sentences s = .ok ps) : ∀ p ∈ ps, '\n' ∉ p := by
  obtain ⟨qs, hq, h⟩ := pieces_over (lim := .range 1 500) rfl rfl hs h
  have hl := textToList_line (sentences_line s) hq
  have gen : ∀ (qs ps : List Str), (qs.mapM fun p => Validators.limEnd (.range 1 500) false (some p)) = .ok ps → ps = qs := by
    intro qs
    induction qs with
    | nil => intro ps h; simp [pure, Except.pure] at h; exact h
    | cons q qs ih =>
      intro ps h
      rw [List.mapM_cons] at h
      cases h1 : Validators.limEnd (.range 1 500) false (some q) with
      | error e => rw [h1] at h; cases h
      | ok q' =>
        rw [h1] at h
        cases h2 : (qs.mapM fun p => Validators.limEnd (.range 1 500) false (some p)) with
        | error e => rw [h2] at h; cases h
        | ok r =>
          rw [h2] at h
          have : q' :: r = ps := by
            have h : (Except.ok (q' :: r) : Py (List Str)) = .ok ps := h
            cases h; rfl
          rw [← this, Validators.limEnd_ok h1, ih r h2]
  rw [gen qs ps h]
  exact hl

theorem endValidate_mem {l out : List (Str × Str)} {ignore : Bool} {sent : Str → List Str}
    (h : endValidate commentCls ignore sent l = .ok out) : ∀ q ∈ out, ∃ p ∈ l, ∃ ps,
      pieces commentCls ignore sent p.2 = .ok ps ∧ q.1 = p.1 ∧ q.2 ∈ ps := by
  induction l generalizing out with
  | nil => simp [endValidate] at h; subst h; simp
  | cons p l ih =>
    obtain ⟨k, s⟩ := p
    rw [endValidate] at h
    split at h
    · cases h
    · rename_i ps hps
      split at h
      · cases h
      · rename_i r hr
        cases h
        intro q hq
        rcases List.mem_append.1 hq with hq | hq
        · obtain ⟨x, hx, rfl⟩ := List.mem_map.1 hq
          exact ⟨(k, s), by simp, ps, hps, rfl, hx⟩
        · obtain ⟨p, hp, h⟩ := ih hr q hq
          exact ⟨p, by simp [hp], h⟩

end Verif.UncText
