/-
Author, year and pages of a source.
-/
import Verif.Model.Citations
import Verif.Spec.Citations
import Verif.Lemmas.Num
import Mathlib.Tactic.ByContra

namespace Verif.Citations
open Spec

theorem sep_iff (c : Char) : sep c = true ↔ c ∈ [' ', '(', '[', ','] := by
  simp [sep, or_assoc]

theorem close_iff (c : Char) : close c = true ↔ c ∈ [')', ']'] := by
  simp [close]

theorem core_iff (d : Char → Bool) (mark l y rest : Str) : core d mark l = some (y, rest) ↔ At d mark l [] y rest := by
  constructor
  · intro h
    unfold core at h
    split at h
    · split at h
      · rename_i s a b c e z l hc
        simp only [Option.some.injEq, Prod.mk.injEq] at h
        obtain ⟨rfl, rfl⟩ := h
        simp only [Bool.and_eq_true] at hc
        obtain ⟨⟨⟨⟨⟨⟨h1, h2⟩, h3⟩, h4⟩, h5⟩, h6⟩, h7⟩ := hc
        obtain ⟨t, rfl⟩ := List.isPrefixOf_iff_prefix.1 h7
        refine ⟨s, z, (sep_iff s).1 h1, (close_iff z).1 h6, ⟨rfl, ?_⟩, by simp⟩
        simp [h2, h3, h4, h5]
      · cases h
    · cases h
  · rintro ⟨s, z, hs, hz, ⟨hl, hd⟩, rfl⟩
    match y, hl, hd with
    | [a, b, c, e], _, hd =>
      have hp : mark.isPrefixOf (mark ++ rest) = true := List.isPrefixOf_iff_prefix.2 ⟨rest, rfl⟩
      simp only [List.nil_append, List.cons_append, core]
      rw [if_pos]
      · simp
      · simp only [Bool.and_eq_true]
        exact ⟨⟨⟨⟨⟨⟨(sep_iff s).2 hs, hd a (by simp)⟩, hd b (by simp)⟩, hd c (by simp)⟩, hd e (by simp)⟩,
          (close_iff z).2 hz⟩, hp⟩

theorem at_cons (d : Char → Bool) (mark l p y r : Str) (x : Char) :
    At d mark (x :: l) (x :: p) y r ↔ At d mark l p y r := by
  unfold At
  simp

theorem at_cases (d : Char → Bool) (mark l p y r : Str) (x : Char) (h : At d mark (x :: l) p y r) :
    p = [] ∨ ∃ p', p = x :: p' ∧ At d mark l p' y r := by
  cases p with
  | nil => exact .inl rfl
  | cons c p =>
    obtain ⟨s, z, hs, hz, hy, he⟩ := h
    simp only [List.cons_append, List.cons.injEq] at he
    exact .inr ⟨p, by rw [he.1], s, z, hs, hz, hy, he.2⟩

/-- The search for a year. -/
theorem lastCore_spec (d : Char → Bool) (mark : Str) : ∀ l,
    (lastCore d mark l = none → NoYear d mark l) ∧
    ∀ p y r, lastCore d mark l = some (p, y, r) → LastAt d mark l p y r
  | [] => by
    refine ⟨fun _ p y r h => ?_, fun p y r h => by simp [lastCore] at h⟩
    obtain ⟨s, z, -, -, -, he⟩ := h
    simp at he
  | x :: l => by
    obtain ⟨ih1, ih2⟩ := lastCore_spec d mark l
    unfold lastCore
    cases hl : lastCore d mark l with
    | some t =>
      obtain ⟨p, y, r⟩ := t
      refine ⟨fun h => by simp at h, fun p' y' r' h => ?_⟩
      simp only [Option.some.injEq, Prod.mk.injEq] at h
      obtain ⟨rfl, rfl, rfl⟩ := h
      obtain ⟨h1, h2⟩ := ih2 p y r hl
      refine ⟨(at_cons ..).2 h1, fun q y' r' hq => ?_⟩
      rcases at_cases _ _ _ _ _ _ _ hq with rfl | ⟨q', rfl, hq'⟩
      · simp
      · simpa using h2 q' y' r' hq'
    | none =>
      have hn := ih1 hl
      simp only
      constructor
      · intro h p y r ha
        rcases at_cases _ _ _ _ _ _ _ ha with rfl | ⟨q', rfl, hq⟩
        · rw [(core_iff d mark _ y r).2 ha] at h
          simp at h
        · exact hn _ _ _ hq
      · intro p y r h
        cases hc : core d mark (x :: l) with
        | none => rw [hc] at h; simp at h
        | some t =>
          obtain ⟨y', r'⟩ := t
          rw [hc] at h
          simp only [Option.map_some, Option.some.injEq, Prod.mk.injEq] at h
          obtain ⟨rfl, rfl, rfl⟩ := h
          refine ⟨(core_iff ..).1 hc, fun q y2 r2 hq => ?_⟩
          rcases at_cases _ _ _ _ _ _ _ hq with rfl | ⟨q', rfl, hq'⟩
          · simp
          · exact absurd hq' (hn _ _ _)

theorem at_unique (d : Char → Bool) (mark l p y r p' y' r' : Str) (h : At d mark l p y r) (h' : At d mark l p' y' r')
    (hl : p.length = p'.length) : p = p' ∧ y = y' ∧ r = r' := by
  obtain ⟨s, z, -, -, ⟨hy, -⟩, rfl⟩ := h
  obtain ⟨s', z', -, -, ⟨hy', -⟩, he⟩ := h'
  obtain ⟨h1, h2⟩ := List.append_inj he hl
  injection h2 with h3 h4
  obtain ⟨h5, h6⟩ := List.append_inj h4 (by rw [hy, hy'])
  simp only [List.cons.injEq, List.append_cancel_left_eq] at h6
  exact ⟨h1, h5, h6.2⟩

theorem lastCore_iff (d : Char → Bool) (mark l p y r : Str) :
    lastCore d mark l = some (p, y, r) ↔ LastAt d mark l p y r := by
  constructor
  · exact (lastCore_spec d mark l).2 p y r
  · intro h
    cases hl : lastCore d mark l with
    | none => exact absurd h.1 ((lastCore_spec d mark l).1 hl _ _ _)
    | some t =>
      obtain ⟨p', y', r'⟩ := t
      have h' := (lastCore_spec d mark l).2 _ _ _ hl
      obtain ⟨rfl, rfl, rfl⟩ := at_unique _ _ _ _ _ _ _ _ _ h.1 h'.1
        (Nat.le_antisymm (h'.2 _ _ _ h.1) (h.2 _ _ _ h'.1))
      rfl

theorem lastCore_none (d : Char → Bool) (mark l : Str) : lastCore d mark l = none ↔ NoYear d mark l := by
  constructor
  · exact (lastCore_spec d mark l).1
  · intro h
    cases hl : lastCore d mark l with
    | none => rfl
    | some t => exact absurd ((lastCore_spec d mark l).2 _ _ _ hl).1 (h _ _ _)

theorem takeWhile_line (l : Str) : ∃ a, l.reverse = a ++ (l.takeWhile (· ≠ '\n')).reverse ∧
    (a = [] ∨ a.getLast? = some '\n') ∧ '\n' ∉ l.takeWhile (· ≠ '\n') := by
  induction l with
  | nil => exact ⟨[], by simp⟩
  | cons c l ih =>
    by_cases hc : c = '\n'
    · refine ⟨(c :: l).reverse, by simp [hc], .inr ?_, by simp [hc]⟩
      simp [hc]
    · obtain ⟨a, h1, h2, h3⟩ := ih
      refine ⟨a, ?_, h2, ?_⟩
      · simp [hc, h1]
      · simp only [hc, ne_eq, not_false_eq_true, decide_true, List.takeWhile_cons_of_pos, List.mem_cons, not_or]
        exact ⟨fun h => hc h.symm, h3⟩

theorem lastLine_spec (x : Str) : LastLine x (lastLine x) := by
  unfold lastLine
  by_cases h : x.getLast? = some '\n'
  · obtain ⟨y, rfl⟩ := List.getLast?_eq_some_iff.1 h
    obtain ⟨a, h1, h2, h3⟩ := takeWhile_line y.reverse
    rw [List.reverse_reverse] at h1
    simp only [h, if_true, List.dropLast_concat]
    refine ⟨by simpa using h3, a, h2, .inl ?_⟩
    rw [← h1]
  · obtain ⟨a, h1, h2, h3⟩ := takeWhile_line x.reverse
    rw [List.reverse_reverse] at h1
    simp only [h, if_false]
    exact ⟨by simpa using h3, a, h2, .inr ⟨h1, h⟩⟩

theorem lastLine_self (x : Str) (h : '\n' ∉ x) : lastLine x = x := by
  obtain ⟨-, a, h1, h2 | ⟨h2, -⟩⟩ := lastLine_spec x
  · exact absurd (by rw [h2]; simp) h
  · rcases h1 with rfl | h1
    · simpa using h2.symm
    · obtain ⟨b, rfl⟩ := List.getLast?_eq_some_iff.1 h1
      exact absurd (by rw [h2]; simp) h

theorem strip_year (d : Char → Bool) (hd : Digits d) (y : Str) (h : Year d y) : strip y = y := by
  apply strip_eq_self
  · intro c hc
    exact hd.space c (h.2 c (List.mem_of_mem_head? hc))
  · intro c hc
    exact hd.space c (h.2 c (List.mem_of_mem_getLast? hc))

/-- A year followed by pages. -/
theorem cite_paged (d : Char → Bool) (hd : Digits d) (name : Str) (citation : Option Str) (pre y rest : Str)
    (h : LastAt d c!" p. " (lastLine (citation.getD name)) pre y rest) :
    cite d name citation = .ok ⟨(strip pre).dropLast, some y, some (strip rest)⟩ := by
  have hy := strip_year d hd y (by obtain ⟨⟨_, _, _, _, hy, _⟩, _⟩ := h; exact hy)
  simp only [cite, (lastCore_iff ..).2 h, hy]

/-- A year without pages. -/
theorem cite_year (d : Char → Bool) (hd : Digits d) (name : Str) (citation : Option Str) (pre y rest : Str)
    (h0 : NoYear d c!" p. " (lastLine (citation.getD name)))
    (h1 : ¬ NoYear d [] (lastLine (citation.getD name)))
    (h : LastAt d [] (lastLine (strip (citation.getD name))) pre y rest) :
    cite d name citation = .ok ⟨(strip pre).dropLast, some y, none⟩ := by
  have hy := strip_year d hd y (by obtain ⟨⟨_, _, _, _, hy, _⟩, _⟩ := h; exact hy)
  obtain ⟨t, ht⟩ : ∃ t, lastCore d [] (lastLine (citation.getD name)) = some t := by
    cases hl : lastCore d [] (lastLine (citation.getD name)) with
    | none => exact absurd ((lastCore_none ..).1 hl) h1
    | some t => exact ⟨t, rfl⟩
  simp only [cite, (lastCore_none ..).2 h0, ht, (lastCore_iff ..).2 h, hy]

/-- No year. -/
theorem cite_none (d : Char → Bool) (name : Str) (citation : Option Str)
    (h : NoYear d [] (lastLine (citation.getD name))) : cite d name citation = .ok ⟨strip name, none, none⟩ := by
  have h0 : NoYear d c!" p. " (lastLine (citation.getD name)) := by
    rintro p y r ⟨s, z, hs, hz, hy, he⟩
    exact h p y (c!" p. " ++ r) ⟨s, z, hs, hz, hy, by simpa using he⟩
  simp only [cite, (lastCore_none ..).2 h0, (lastCore_none ..).2 h]

/-- A name can be read unless the only year in brackets is at its beginning after a blank. -/
theorem cite_fails (d : Char → Bool) (name : Str) (citation : Option Str) (e : PyErr) :
    cite d name citation = .error e ↔ e = .attributeError ∧
      NoYear d c!" p. " (lastLine (citation.getD name)) ∧ ¬ NoYear d [] (lastLine (citation.getD name)) ∧
      NoYear d [] (lastLine (strip (citation.getD name))) := by
  rw [← lastCore_none, ← lastCore_none, ← lastCore_none]
  unfold cite
  simp only
  cases lastCore d c!" p. " (lastLine (citation.getD name)) with
  | some t => simp
  | none =>
    cases lastCore d [] (lastLine (citation.getD name)) with
    | none => simp
    | some t =>
      cases lastCore d [] (lastLine (strip (citation.getD name))) <;> simp [eq_comm]

/-! ## What the program writes itself -/

theorem at_drop (d : Char → Bool) (mark : Str) : ∀ (u v p y r : Str), At d mark (u ++ v) p y r → u.length ≤ p.length →
    ∃ q, p.length = u.length + q.length ∧ At d mark v q y r
  | [], v, p, y, r, h, _ => ⟨p, by simp, h⟩
  | x :: u, v, p, y, r, h, hl => by
    rcases at_cases d mark (u ++ v) p y r x h with rfl | ⟨p', rfl, h'⟩
    · simp at hl
    · obtain ⟨q, hq, ha⟩ := at_drop d mark u v p' y r h' (by simpa using hl)
      exact ⟨q, by simp only [List.length_cons]; omega, ha⟩

/-- No year begins with this character. -/
theorem noYear_cons (d : Char → Bool) (mark l : Str) (c : Char) (h : NoYear d mark l)
    (hc : c ∉ [' ', '(', '[', ','] ∨ ∀ x ∈ l.head?, d x = false) : NoYear d mark (c :: l) := by
  intro p y r ha
  rcases at_cases d mark l p y r c ha with rfl | ⟨p', rfl, h'⟩
  · obtain ⟨s, z, hs, hz, ⟨hy, hd⟩, he⟩ := ha
    simp only [List.nil_append, List.cons.injEq] at he
    obtain ⟨rfl, rfl⟩ := he
    rcases hc with hc | hc
    · exact hc hs
    · match y, hy with
      | [a, _, _, _], _ =>
        have := hc a (by simp)
        rw [hd a (by simp)] at this
        simp at this
  · exact h _ _ _ h'

theorem noYear_short (d : Char → Bool) (mark l : Str) (h : l.length < 6) : NoYear d mark l := by
  rintro p y r ⟨s, z, -, -, ⟨hy, -⟩, rfl⟩
  simp only [List.length_append, List.length_cons] at h
  omega

theorem digit_not_sep (d : Char → Bool) (hd : Digits d) (c : Char) (h : d c = true) : c ∉ [' ', '(', '[', ','] := by
  intro hc
  have := hd.sign c (by
    simp only [List.mem_cons, List.not_mem_nil, or_false] at hc ⊢
    rcases hc with h | h | h | h <;> simp [h])
  rw [h] at this
  simp at this

/-- A year before a text adds none to it. -/
theorem noYear_digits (d : Char → Bool) (hd : Digits d) (mark l : Str) (h : NoYear d mark l) :
    ∀ y : Str, (∀ c ∈ y, d c = true) → NoYear d mark (y ++ l)
  | [], _ => h
  | c :: y, hy => noYear_cons d mark _ c
      (noYear_digits d hd mark l h y fun x hx => hy x (List.mem_cons_of_mem _ hx))
      (.inl (digit_not_sep d hd c (hy c List.mem_cons_self)))

theorem lstrip_append_sep (a t : Str) (c : Char) (hc : pySpace c = false) :
    lstrip (a ++ c :: t) = lstrip a ++ c :: t := by
  unfold lstrip
  rw [List.dropWhile_append]
  split
  · rename_i h
    rw [List.isEmpty_iff] at h
    simp [h, hc]
  · rfl

theorem lstrip_idem (a : Str) : lstrip (lstrip a) = lstrip a := by
  unfold lstrip
  induction a with
  | nil => rfl
  | cons c a ih =>
    by_cases hc : pySpace c = true
    · simp only [List.dropWhile_cons, hc, if_true, ih]
    · simp [hc]

theorem rstrip_closed (a : Str) (c : Char) (hc : pySpace c = false) : rstrip (a ++ [c]) = a ++ [c] := by
  simp [rstrip, hc]

theorem strip_comma (a : Str) : strip (a ++ c!", ") = lstrip a ++ [','] := by
  unfold strip
  have : a ++ c!", " = a ++ ',' :: [' '] := rfl
  rw [this, lstrip_append_sep a _ _ (by decide)]
  simp [rstrip, show pySpace ' ' = true by decide, show pySpace ',' = false by decide]

theorem mark_comma (d : Char → Bool) (hd : Digits d) (a t : Str) (x : Char) (hx : x = ',' ∨ x = '(')
    (ha : NoYear d c!" p. " a) (ht : NoYear d c!" p. " (x :: t)) : NoYear d c!" p. " (a ++ x :: t) := by
  intro p y r h
  by_cases hl : a.length ≤ p.length
  · obtain ⟨q, -, hq⟩ := at_drop d _ a _ p y r h hl
    exact ht _ _ _ hq
  · obtain ⟨s, z, hs, hz, hy, he⟩ := h
    rcases List.append_eq_append_iff.1 he with ⟨w, rfl, hw⟩ | ⟨w, rfl, hw⟩
    · simp at hl
    · match w, hw with
      | [], hw => simp at hl
      | s' :: w, hw =>
        simp only [List.cons_append, List.cons.injEq] at hw
        obtain ⟨rfl, hw⟩ := hw
        have hw' : (y ++ z :: c!" p. ") ++ r = w ++ x :: t := by simpa using hw
        rcases List.append_eq_append_iff.1 hw' with ⟨w', rfl, -⟩ | ⟨w', h1, h2⟩
        · exact ha p y w' ⟨s, z, hs, hz, hy, by simp⟩
        · cases w' with
          | nil =>
            simp only [List.append_nil] at h1
            exact ha p y [] ⟨s, z, hs, hz, hy, by rw [← h1]; simp⟩
          | cons c w' =>
            simp only [List.cons_append, List.cons.injEq] at h2
            obtain ⟨rfl, -⟩ := h2
            have hm : x ∈ y ++ z :: c!" p. " := by rw [h1]; simp
            rcases List.mem_append.1 hm with hm | hm
            · have := hy.2 x hm
              rw [hd.sign x (by rcases hx with rfl | rfl <;> simp)] at this
              simp at this
            · simp only [List.mem_cons, List.not_mem_nil, or_false] at hm hz
              rcases hx with rfl | rfl <;> rcases hz with rfl | rfl <;> revert hm <;> decide

/-- A reference with author, year and pages comes back, unless the pages hold another year; blanks at the beginning of
the author and around the pages are lost. -/
theorem pages_round_trip (d : Char → Bool) (hd : Digits d) (a y p : Str) (hy : Year d y) (ha : '\n' ∉ a) (hn : d '\n' = false)
    (hp : '\n' ∉ p) (hpy : NoYear d c!" p. " (' ' :: p)) (citation : Option Str)
    (hc : citation = none ∨ citation = some (shortRef (some a) (some y) (some p))) :
    cite d (shortRef (some a) (some y) (some p)) citation = .ok ⟨lstrip a, some y, some (strip p)⟩ := by
  have ht : citation.getD (shortRef (some a) (some y) (some p)) = a ++ c!", (" ++ y ++ c!") p. " ++ p := by
    rcases hc with rfl | rfl <;> rfl
  have hny : '\n' ∉ y := fun h => by rw [hy.2 _ h] at hn; simp at hn
  have hl : lastLine (a ++ c!", (" ++ y ++ c!") p. " ++ p) = a ++ c!", (" ++ y ++ c!") p. " ++ p := by
    apply lastLine_self
    simp [ha, hny, hp]
  have hlast : LastAt d c!" p. " (lastLine (citation.getD (shortRef (some a) (some y) (some p))))
      (a ++ c!", ") y p := by
    rw [ht, hl]
    refine ⟨⟨'(', ')', by simp, by simp, hy, by simp⟩, fun p' y' r' h => ?_⟩
    by_contra hlen
    have he : a ++ c!", (" ++ y ++ c!") p. " ++ p = (a ++ c!", (") ++ (y ++ (c!") p." ++ (' ' :: p))) := by simp
    rw [he] at h
    obtain ⟨q, -, hq⟩ := at_drop d _ _ _ p' y' r' h (by simp only [List.length_append] at hlen ⊢; simp at hlen ⊢; omega)
    refine noYear_digits d hd _ _ ?_ y hy.2 _ _ _ hq
    refine noYear_cons d _ _ ')' (noYear_cons d _ _ ' ' (noYear_cons d _ _ 'p' (noYear_cons d _ _ '.' hpy ?_) ?_) ?_) ?_
    · exact .inl (by simp)
    · exact .inl (by simp)
    · exact .inr (by simpa using hd.sign 'p' (by simp))
    · exact .inl (by simp)
  rw [cite_paged d hd _ _ _ _ _ hlast, strip_comma]
  simp

/-- A reference with author and year comes back, unless the author holds a year followed by pages; blanks at the
beginning of the author are lost. -/
theorem year_round_trip (d : Char → Bool) (hd : Digits d) (a y : Str) (hy : Year d y) (ha : '\n' ∉ a) (hn : d '\n' = false)
    (hpy : NoYear d c!" p. " a) (citation : Option Str)
    (hc : citation = none ∨ citation = some (shortRef (some a) (some y) none)) :
    cite d (shortRef (some a) (some y) none) citation = .ok ⟨lstrip a, some y, none⟩ := by
  have ht : citation.getD (shortRef (some a) (some y) none) = a ++ c!", (" ++ y ++ c!")" := by
    rcases hc with rfl | rfl <;> rfl
  have hny : '\n' ∉ y := fun h => by rw [hy.2 _ h] at hn; simp at hn
  have hlines : ∀ b : Str, '\n' ∉ b → lastLine (b ++ c!", (" ++ y ++ c!")") = b ++ c!", (" ++ y ++ c!")" := by
    intro b hb
    apply lastLine_self
    simp [hb, hny]
  have hlast : ∀ b : Str, LastAt d [] (b ++ c!", (" ++ y ++ c!")") (b ++ c!", ") y [] := by
    intro b
    refine ⟨⟨'(', ')', by simp, by simp, hy, by simp⟩, fun p' y' r' h => ?_⟩
    by_contra hlen
    have he : b ++ c!", (" ++ y ++ c!")" = (b ++ c!", (") ++ (y ++ c!")") := by simp
    rw [he] at h
    obtain ⟨q, -, hq⟩ := at_drop d _ _ _ p' y' r' h (by simp only [List.length_append] at hlen ⊢; simp at hlen ⊢; omega)
    exact noYear_short d _ _ (by simp [hy.1]) _ _ _ hq
  have hstrip : strip (a ++ c!", (" ++ y ++ c!")") = lstrip a ++ c!", (" ++ y ++ c!")" := by
    have : a ++ c!", (" ++ y ++ c!")" = a ++ ',' :: (c!" (" ++ y ++ c!")") := by simp
    rw [strip, this, lstrip_append_sep a _ _ (by decide)]
    have h2 : lstrip a ++ ',' :: (c!" (" ++ y ++ c!")") = (lstrip a ++ c!", (" ++ y) ++ [')'] := by simp
    rw [h2, rstrip_closed _ _ (by decide)]
  have hb : '\n' ∉ lstrip a := fun h => ha ((List.dropWhile_suffix _).subset h)
  rw [cite_year d hd _ _ (lstrip a ++ c!", ") y []]
  · rw [strip_comma, lstrip_idem]
    simp
  · rw [ht, hlines a ha]
    have he : a ++ c!", (" ++ y ++ c!")" = a ++ ',' :: (c!" (" ++ y ++ c!")") := by simp
    rw [he]
    refine mark_comma d hd a _ ',' (.inl rfl) hpy ?_
    refine noYear_cons d _ _ ',' (noYear_cons d _ _ ' ' ?_ (.inr (by simpa using hd.sign '(' (by simp))))
      (.inr (by simpa using hd.sign ' ' (by simp)))
    show NoYear d c!" p. " ('(' :: (y ++ c!")"))
    intro p' y' r' h
    obtain ⟨s, z, hs, hz, hy', he⟩ := h
    have h1 := congrArg List.length he
    simp only [List.length_append, List.length_cons, hy.1, hy'.1, List.length_nil] at h1
    omega
  · rw [ht, hlines a ha]
    exact fun h => h _ _ _ (hlast a).1
  · rw [ht, hstrip, hlines _ hb]
    exact hlast _

/-- A reference with an author only comes back if the author holds no year. -/
theorem author_round_trip (d : Char → Bool) (a : Str) (ha : '\n' ∉ a) (hn : NoYear d [] a) :
    cite d (shortRef (some a) none none) none = .ok ⟨strip a, none, none⟩ := by
  refine cite_none d _ _ ?_
  simp only [Option.getD_none, shortRef]
  rwa [lastLine_self a ha]

/-! ## What others write -/

/-- A name with a blank before the year loses the last letter of the author. -/
theorem author_cut (d : Char → Bool) (hd : Digits d) (a y : Str) (hy : Year d y) (ha : '\n' ∉ a) (hn : d '\n' = false)
    (hpy : NoYear d c!" p. " (a ++ c!" ")) :
    cite d (a ++ c!" (" ++ y ++ c!")") none = .ok ⟨(strip a).dropLast, some y, none⟩ := by
  have hny : '\n' ∉ y := fun h => by rw [hy.2 _ h] at hn; simp at hn
  have hlines : ∀ b : Str, '\n' ∉ b → lastLine (b ++ '(' :: (y ++ c!")")) = b ++ '(' :: (y ++ c!")") := by
    intro b hb
    apply lastLine_self
    simp [hb, hny]
  have hlast : ∀ b : Str, LastAt d [] (b ++ '(' :: (y ++ c!")")) b y [] := by
    intro b
    refine ⟨⟨'(', ')', by simp, by simp, hy, by simp⟩, fun p' y' r' h => ?_⟩
    by_contra hlen
    have he : b ++ '(' :: (y ++ c!")") = (b ++ c!"(") ++ (y ++ c!")") := by simp
    rw [he] at h
    obtain ⟨q, -, hq⟩ := at_drop d _ _ _ p' y' r' h (by simp only [List.length_append]; simp; omega)
    exact noYear_short d _ _ (by simp [hy.1]) _ _ _ hq
  have he : a ++ c!" (" ++ y ++ c!")" = (a ++ c!" ") ++ '(' :: (y ++ c!")") := by simp
  have hstrip : strip (a ++ c!" (" ++ y ++ c!")") = lstrip (a ++ c!" ") ++ '(' :: (y ++ c!")") := by
    rw [strip, he, lstrip_append_sep _ _ _ (by decide)]
    have h2 : lstrip (a ++ c!" ") ++ '(' :: (y ++ c!")") = (lstrip (a ++ c!" ") ++ '(' :: y) ++ [')'] := by simp
    rw [h2, rstrip_closed _ _ (by decide)]
  have hb : '\n' ∉ a ++ c!" " := by simp [ha]
  have hb' : '\n' ∉ lstrip (a ++ c!" ") := fun h => hb ((List.dropWhile_suffix _).subset h)
  have hs : strip (lstrip (a ++ c!" ")) = strip a := by
    rw [strip, lstrip_idem, strip]
    unfold lstrip
    rw [List.dropWhile_append]
    split
    · rename_i h
      rw [List.isEmpty_iff] at h
      rw [h]
      decide
    · simp [rstrip, show pySpace ' ' = true by decide]
  rw [cite_year d hd _ _ (lstrip (a ++ c!" ")) y [], hs]
  · simp only [Option.getD_none]
    rw [he, hlines _ hb]
    refine mark_comma d hd _ _ '(' (.inr rfl) hpy ?_
    intro p' y' r' h
    obtain ⟨s, z, hs, hz, hy', he⟩ := h
    have h1 := congrArg List.length he
    simp only [List.length_append, List.length_cons, hy.1, hy'.1, List.length_nil] at h1
    omega
  · simp only [Option.getD_none]
    rw [he, hlines _ hb]
    exact fun h => h _ _ _ (hlast _).1
  · simp only [Option.getD_none]
    rw [hstrip, hlines _ hb']
    exact hlast _

/-- So no such name gives its author. -/
theorem author_never (d : Char → Bool) (hd : Digits d) (a y : Str) (hy : Year d y) (ha : '\n' ∉ a) (hn : d '\n' = false)
    (hpy : NoYear d c!" p. " (a ++ c!" ")) (hne : strip a ≠ []) :
    ∀ c, cite d (a ++ c!" (" ++ y ++ c!")") none = .ok c → c.author ≠ strip a := by
  intro c hc h
  rw [author_cut d hd a y hy ha hn hpy] at hc
  injection hc with hc
  subst hc
  have := congrArg List.length h
  simp only [List.length_dropLast] at this
  have : (strip a).length ≠ 0 := fun h => hne (List.length_eq_zero_iff.1 h)
  omega

theorem digits_ascii : Digits Char.isDigit where
  space := by
    intro c h
    simp only [Char.isDigit, Bool.and_eq_true, decide_eq_true_eq] at h
    have h1 : 48 ≤ c.toNat := UInt32.le_iff_toNat_le.1 h.1
    have h2 : c.toNat ≤ 57 := UInt32.le_iff_toNat_le.1 h.2
    simp only [pySpace, Bool.or_eq_false_iff, Bool.and_eq_false_iff, decide_eq_false_iff_not, beq_eq_false_iff_ne]
    omega
  sign := by decide

example : Year Char.isDigit c!"2007" := by unfold Year; decide
example : NoYear Char.isDigit c!" p. " (' ' :: c!"12-14") := by rw [← lastCore_none]; decide
example : NoYear Char.isDigit c!" p. " c!"Frischknecht R." := by rw [← lastCore_none]; decide
example : NoYear Char.isDigit [] c!"Frischknecht R." := by rw [← lastCore_none]; decide
example : NoYear Char.isDigit c!" p. " (c!"IPCC" ++ c!" ") := by rw [← lastCore_none]; decide

/-- The last letter of the author is cut; a year in the title of a source without year becomes the year; a period is no
year; a missing author becomes an author. -/
theorem witness_citations :
    cite Char.isDigit c!"IPCC (2007)" none = .ok ⟨c!"IPC", some c!"2007", none⟩ ∧
    cite Char.isDigit (shortRef (some c!"Report (1998) on steel") none none) none =
      .ok ⟨c!"Repor", some c!"1998", none⟩ ∧
    cite Char.isDigit (shortRef (some c!"Smith") (some c!"2005-2006") none) none =
      .ok ⟨c!"Smith, (2005-2006)", none, none⟩ ∧
    cite Char.isDigit (shortRef none (some c!"2005") none) none = .ok ⟨c!"Source", none, none⟩ ∧
    cite Char.isDigit c!" 2005)" none = .error .attributeError := by
  decide +kernel

end Verif.Citations
