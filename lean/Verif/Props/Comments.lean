/-
Codes carried as lines of comments (C68, C69, C70, C71).
-/
import Verif.Lemmas.Comments
import Verif.Props.Validators
import Verif.Spec.LangText
import Verif.Lemmas.Segs

namespace Verif.Comments
open Verif.Comments.Spec

/-! ### What is searched and removed, for every text (C69) -/

theorem firstMark_nil {q text a r : Str} (h : FirstMark q text a r) (hp : q <+: text) : a = [] := by
  obtain ⟨r', hr'⟩ := hp
  have := h.2 [] r' (by simpa using hr'.symm)
  exact List.eq_nil_of_length_eq_zero (Nat.le_zero.1 this)

theorem firstMark_here {q s : Str} : FirstMark q (q ++ s) [] s := ⟨by simp, by simp⟩

theorem firstMark_cons {q s a r : Str} {c : Char} (hp : ¬ q <+: c :: s) :
    FirstMark q (c :: s) a r ↔ ∃ a', a = c :: a' ∧ FirstMark q s a' r := by
  constructor
  · rintro ⟨h1, h2⟩
    cases a with
    | nil => exact absurd ⟨r, by simpa using h1.symm⟩ hp
    | cons d a =>
      simp only [List.cons_append, List.cons.injEq] at h1
      refine ⟨a, by rw [h1.1], h1.2, fun a' r' h => ?_⟩
      have := h2 (c :: a') r' (by simp [h])
      simpa using this
  · rintro ⟨a', rfl, h1, h2⟩
    refine ⟨by simp [h1], fun b r' h => ?_⟩
    cases b with
    | nil => exact absurd ⟨r', by simpa using h.symm⟩ hp
    | cons d b =>
      simp only [List.cons_append, List.cons.injEq] at h
      simpa using h2 b r' h.2

theorem firstMark_exists {q : Str} : ∀ {text : Str}, q <:+: text → ∃ a r, FirstMark q text a r
  | [], h => by
    have := List.infix_nil.1 h
    exact ⟨[], [], by simp [this], by simp⟩
  | c :: s, h => by
    by_cases hp : q <+: c :: s
    · obtain ⟨r, hr⟩ := hp
      exact ⟨[], r, by simp [hr], by simp⟩
    · rcases List.infix_cons_iff.1 h with h | h
      · exact absurd h hp
      · obtain ⟨a, r, h⟩ := firstMark_exists h
        exact ⟨c :: a, r, (firstMark_cons hp).2 ⟨a, rfl, h⟩⟩

theorem strMatch_mark (p s : Str) : ∃ k, strMatch p ((p ++ c!" ") ++ s) = some (lineRest s, k) := by
  unfold strMatch
  rw [if_pos (starts_mark p _), drop_mark]
  exact ⟨_, rfl⟩

/-- The search finds the rest of the line after the first place where the mark stands. -/
theorem search_iff {p : Str} (hp : '\n' ∉ p) (g : Str) : ∀ (text : Str),
    search (strMatch p) text = some g ↔ ∃ a r, FirstMark (p ++ c!" ") text a r ∧ FirstLine r g
  | [] => by
    simp only [search, reduceCtorEq, false_iff]
    rintro ⟨a, r, h, -⟩
    have := h.1
    simp at this
  | c :: s => by
    by_cases hq : (p ++ c!" ") <+: c :: s
    · obtain ⟨t, ht⟩ := hq
      obtain ⟨k, hk⟩ := strMatch_mark p t
      rw [← ht, search_hit (by simp) hk]
      constructor
      · intro h
        cases h
        exact ⟨[], t, firstMark_here, lineRest_firstLine t⟩
      · rintro ⟨a, r, h1, h2⟩
        have ha := firstMark_nil h1 (List.prefix_append _ _)
        subst ha
        have := h1.1
        rw [List.nil_append, List.append_cancel_left_eq] at this
        rw [this, firstLine_unique h2]
    · have hm := (marks_str hp).only _ hq
      simp only [search, hm]
      rw [search_iff hp g s]
      constructor
      · rintro ⟨a, r, h1, h2⟩
        exact ⟨c :: a, r, (firstMark_cons hq).2 ⟨a, rfl, h1⟩, h2⟩
      · rintro ⟨a, r, h1, h2⟩
        obtain ⟨a', -, h3⟩ := (firstMark_cons hq).1 h1
        exact ⟨a', r, h3, h2⟩

theorem search_eq_none {p : Str} (hp : '\n' ∉ p) (text : Str) :
    search (strMatch p) text = none ↔ ¬ (p ++ c!" ") <:+: text := by
  constructor
  · intro h hi
    obtain ⟨a, r, hf⟩ := firstMark_exists hi
    have := (search_iff hp (lineRest r) text).2 ⟨a, r, hf, lineRest_firstLine r⟩
    rw [h] at this; cases this
  · exact search_none (marks_str hp)

theorem remove_first {p : Str} (hp : '\n' ∉ p) {r b : Str} : ∀ {a l : Str}, OneLine l →
    FirstMark (p ++ c!" ") l a b →
    remove (strMatch p) 0 (l ++ '\n' :: r) = a ++ remove (strMatch p) 0 r ∧ remove (strMatch p) 0 l = a
  | [], l, ho, h => by
    have hl := h.1
    have hb : OneLine b := by
      intro hb; apply ho; rw [hl]; simp [hb]
    rw [hl]
    constructor
    · have := remove_line (p := p) (g := b) (r := r) hb
      simpa using this
    · have := remove_end (p := p) (g := b) hb
      simpa using this
  | c :: a, [], ho, h => by have := h.1; simp at this
  | c :: a, d :: l, ho, h => by
    have hq : ¬ (p ++ c!" ") <+: d :: l := fun hq => by
      have := firstMark_nil h hq
      cases this
    obtain ⟨a', he, h'⟩ := (firstMark_cons hq).1 h
    cases he
    have hol : OneLine l := fun hn => ho (List.mem_cons_of_mem _ hn)
    obtain ⟨i1, i2⟩ := remove_first hp (r := r) hol h'
    have hm1 := (marks_str hp).only _ hq
    have hm2 : strMatch p (c :: (l ++ '\n' :: r)) = none :=
      (marks_str hp).only _ fun h1 => hq (prefix_line (l := c :: l) (marks_str hp).one h1)
    constructor
    · simp only [List.cons_append, remove, hm2, i1]
    · simp only [remove, hm1, i2]

/-- Removing takes out exactly the marked parts of lines: every line without the mark is kept, in order; of
a line with the mark only what stands before it is kept, without the line feed. -/
theorem removed_lines {p : Str} (hp : '\n' ∉ p) : ∀ (lines : List Str), lines ≠ [] → (∀ l ∈ lines, OneLine l) →
    Left (p ++ c!" ") lines (remove (strMatch p) 0 (join c!"\n" lines))
  | [], h, _ => absurd rfl h
  | [l], _, ho => by
    simp only [join]
    by_cases hi : (p ++ c!" ") <:+: l
    · obtain ⟨a, b, hf⟩ := firstMark_exists hi
      rw [(remove_first hp (r := []) (ho l (by simp)) hf).2]
      exact .lastMarked hf
    · rw [remove_none (marks_str hp) hi]
      exact .lastPlain hi
  | l :: l' :: ls, _, ho => by
    have ih := removed_lines hp (l' :: ls) (by simp) (fun x hx => ho x (List.mem_cons_of_mem _ hx))
    have hj : join c!"\n" (l :: l' :: ls) = l ++ '\n' :: join c!"\n" (l' :: ls) := by simp [join]
    rw [hj]
    by_cases hi : (p ++ c!" ") <:+: l
    · obtain ⟨a, b, hf⟩ := firstMark_exists hi
      rw [(remove_first hp (ho l (by simp)) hf).1]
      exact .marked hf ih
    · rw [remove_skip (marks_str hp) hi]
      exact .plain hi ih

theorem left_unique {q : Str} {lines : List Str} {t t' : Str} (h : Left q lines t) (h' : Left q lines t') :
    t = t' := by
  have uniq : ∀ {l a b a' b'}, FirstMark q l a b → FirstMark q l a' b' → a = a' := by
    intro l a b a' b' h1 h2
    have e1 := h1.2 a' b' h2.1
    have e2 := h2.2 a b h1.1
    have := h1.1.symm.trans h2.1
    rw [List.append_assoc, List.append_assoc] at this
    exact (List.append_inj this (Nat.le_antisymm e1 e2)).1
  have isIn : ∀ {l a b}, FirstMark q l a b → q <:+: l := fun h => ⟨_, _, h.1.symm⟩
  induction h generalizing t' with
  | lastPlain h =>
    cases h' with
    | lastPlain _ => rfl
    | lastMarked h1 => exact absurd (isIn h1) h
  | lastMarked h =>
    cases h' with
    | lastPlain h1 => exact absurd (isIn h) h1
    | lastMarked h1 => exact uniq h h1
  | plain h _ ih =>
    cases h' with
    | plain _ h2 => rw [ih h2]
    | marked h1 _ => exact absurd (isIn h1) h
  | marked h _ ih =>
    cases h' with
    | plain h1 _ => exact absurd (isIn h) h1
    | marked h1 h2 => rw [uniq h h1, ih h2]

/-- A comment in which the mark does not occur is left alone. -/
theorem unmarked_kept (err : PyErr) (keys : List (Str × Str)) {p text : Str} (hp : '\n' ∉ p)
    (h : ¬ (p ++ c!" ") <:+: text) : getStr err keys p text = .ok (none, text) := by
  unfold getStr
  rw [(search_eq_none hp text).2 h]

example : getStr .typeError (Tables.inverse Tables.energy) c!"Energy:" c!"Energy is not stated" =
    .ok (none, c!"Energy is not stated") :=
  unmarked_kept _ _ (by decide) (by decide)

/-- A comment makes the conversion fail exactly if the mark occurs in it and the rest of the line after its
first occurrence is not one of the known texts. -/
theorem comment_fails_iff (err : PyErr) (keys : List (Str × Str)) {p : Str} (hp : '\n' ∉ p) (text : Str) :
    (∃ e, getStr err keys p text = .error e) ↔
      ∃ a r g, FirstMark (p ++ c!" ") text a r ∧ FirstLine r g ∧ g ∉ keys.map Prod.fst := by
  unfold getStr
  cases hs : search (strMatch p) text with
  | none =>
    simp only [reduceCtorEq, exists_false, false_iff]
    rintro ⟨a, r, g, h1, h2, -⟩
    have := (search_iff hp g text).2 ⟨a, r, h1, h2⟩
    rw [hs] at this; cases this
  | some g =>
    obtain ⟨a, r, h1, h2⟩ := (search_iff hp g text).1 hs
    cases hk : aget g keys with
    | some v =>
      simp only [hk, reduceCtorEq, exists_false, false_iff]
      rintro ⟨a', r', g', h1', h2', h3⟩
      have := (search_iff hp g' text).2 ⟨a', r', h1', h2'⟩
      rw [hs] at this
      cases this
      rw [← aget_none, hk] at h3
      cases h3
    | none =>
      simp only [hk]
      exact ⟨fun _ => ⟨a, r, g, h1, h2, (aget_none _ _).1 hk⟩, fun _ => ⟨_, rfl⟩⟩

/-- A mark that does not overlap itself, after a text without it, stands there first. -/
theorem firstMark_of {q a : Str} (hb : Segs.Borderless q) (h : ¬ q <:+: a) (r : Str) :
    FirstMark q (a ++ q ++ r) a r := by
  refine ⟨rfl, fun a' r' he => ?_⟩
  by_contra hlt
  have hlt : a'.length < a.length := Nat.lt_of_not_le hlt
  have hn := Segs.noStart_before (rest := r) hb h a'.length hlt
  apply hn
  rw [← List.append_assoc, he, List.append_assoc, List.drop_left]
  exact List.prefix_append _ _

/-- A mark whose first character does not occur in a fixed text does not begin there. -/
theorem infix_after {q : Str} {c : Char} {t : Str} (hq : q.head? = some c) : ∀ {lit : Str}, c ∉ lit →
    q <:+: lit ++ t → q <:+: t
  | [], _, h => h
  | d :: lit, hc, h => by
    rcases List.infix_cons_iff.1 (by simpa using h : q <:+: d :: (lit ++ t)) with h | h
    · exfalso
      cases q with
      | nil => simp at hq
      | cons e q =>
        simp at hq
        rw [List.cons_prefix_cons] at h
        apply hc; rw [← hq, h.1]; simp
    · exact infix_after hq (fun h1 => hc (List.mem_cons_of_mem _ h1)) h

/-- Whatever a user writes after `Energy: ` in the modelling constants, other than the three known texts,
stops the conversion. -/
theorem energy_comment_fails (before after rest : Str) (h : ¬ c!"Energy: " <:+: before)
    (h1 : FirstLine rest after) (h2 : after ∉ Tables.energy.map Prod.snd) :
    ∃ e, modellingConstants (before ++ c!"Energy: " ++ rest) = .error e := by
  refine (comment_fails_iff _ _ (by decide) _).2 ⟨c!"Modelling Constants: " ++ before, rest, after, ?_, h1, ?_⟩
  · have := firstMark_of (q := c!"Energy: ") (a := c!"Modelling Constants: " ++ before) (by decide)
      (fun hi => h (infix_after (c := 'E') rfl (by decide) hi)) rest
    simpa using this
  · have : (Tables.inverse Tables.energy).map Prod.fst = Tables.energy.map Prod.snd := by decide
    rw [this]; exact h2

example : ∃ e, modellingConstants c!"see annex. Energy: high" = .error e :=
  energy_comment_fails c!"see annex. " c!"high" c!"high" (by decide) ⟨by decide, .inl rfl⟩ (by decide)

/-- The same for the period of validity, in the description of the time. -/
theorem validity_comment_fails (before after rest : Str) (h : ¬ c!"Validity: " <:+: before)
    (h1 : FirstLine rest after) (h2 : after ∉ Tables.timePeriod.map Prod.snd) :
    ∃ e, timeComment (before ++ c!"Validity: " ++ rest) = .error e := by
  refine (comment_fails_iff _ _ (by decide) _).2 ⟨before, rest, after, ?_, h1, ?_⟩
  · have := firstMark_of (q := c!"Validity: ") (a := before) (by decide) h rest
    simpa using this
  · have : (Tables.inverse Tables.timePeriod).map Prod.fst = Tables.timePeriod.map Prod.snd := by decide
    rw [this]; exact h2

example : ∃ e, timeComment c!"Validity: 2010-2015\nOK" = .error e :=
  validity_comment_fails [] c!"2010-2015" c!"2010-2015\nOK" (by decide) ⟨by decide, .inr ⟨c!"OK", rfl⟩⟩ (by decide)

/-- Part of a remark that mentions a known text is removed: the mark need not stand at the beginning of a line. -/
theorem remark_lost : timeComment c!"We assume Validity: Data is valid for the entire period.\nMeasured." =
    .ok (some c!"true", c!"We assume Measured.") := by decide

end Verif.Comments
