import Verif.Spec.Params
import Verif.Lemmas.UncText
import Verif.Lemmas.UnitNames
import Verif.Lemmas.SentenceDots
import Mathlib.Tactic.ByContra

/-! Lemmas on brackets, on the texts of units and on comments by language. -/

namespace Verif.Params
open Spec LangText IlcdVars
open UncText (searchFirst commentCls back front join_back)

/-! ### Brackets -/

theorem lastClose_none : ∀ {s : Str}, lastClose s = none ↔ ']' ∉ s
  | [] => by simp [lastClose]
  | c :: s => by
    have ih := lastClose_none (s := s)
    rw [lastClose]
    split
    · rename_i a b h
      have : ¬ (']' ∉ s) := fun hn => by rw [ih.2 hn] at h; cases h
      simp only [reduceCtorEq, List.mem_cons, not_or, false_iff, not_and]
      exact fun _ => this
    · rename_i h
      have hs := ih.1 h
      by_cases hc : c = ']'
      · simp [hc]
      · simp [hc, hs, Ne.symm hc]

theorem lastClose_some : ∀ {s a b : Str}, lastClose s = some (a, b) ↔ s = a ++ ']' :: b ∧ ']' ∉ b
  | [], a, b => by simp [lastClose]
  | c :: s, a, b => by
    rw [lastClose]
    split
    · rename_i a' b' h
      have ih := (lastClose_some (s := s) (a := a') (b := b')).1 h
      constructor
      · intro he
        cases he
        rw [ih.1]
        exact ⟨rfl, ih.2⟩
      · rintro ⟨he, hb⟩
        cases a with
        | nil =>
          have := (List.cons.inj he).2
          rw [ih.1] at this
          exact absurd (by rw [← this]; simp) hb
        | cons d a =>
          obtain ⟨rfl, he'⟩ := List.cons.inj he
          have := (lastClose_some (s := s) (a := a) (b := b)).2 ⟨he', hb⟩
          rw [h] at this
          cases this
          rfl
    · rename_i h
      have hs := lastClose_none.1 h
      constructor
      · intro he
        split at he
        · rename_i hc
          cases he
          exact ⟨by rw [hc]; rfl, hs⟩
        · cases he
      · rintro ⟨he, hb⟩
        cases a with
        | nil =>
          obtain ⟨rfl, rfl⟩ := List.cons.inj he
          simp
        | cons d a =>
          obtain ⟨rfl, rfl⟩ := List.cons.inj he
          exact absurd (by simp) hs

/-- The first line of a text. -/
def line (s : Str) : Str := s.takeWhile (· ≠ '\n')

theorem line_no (s : Str) : '\n' ∉ line s := by
  intro h
  have := UncText.mem_takeWhile h
  simp at this

theorem line_prefix (s : Str) : ∃ r, s = line s ++ r ∧ (r = [] ∨ ∃ r', r = '\n' :: r') := by
  refine ⟨s.dropWhile (· ≠ '\n'), (List.takeWhile_append_dropWhile).symm, ?_⟩
  induction s with
  | nil => exact Or.inl rfl
  | cons c s ih =>
    rw [List.dropWhile_cons]
    split
    · exact ih
    · rename_i h
      have : c = '\n' := by simpa using h
      exact Or.inr ⟨s, by rw [this]⟩

theorem line_append {a : Str} (h : '\n' ∉ a) (s : Str) : line (a ++ s) = a ++ line s := by
  induction a with
  | nil => rfl
  | cons c a ih =>
    have hc : c ≠ '\n' := fun e => h (by simp [e])
    have ha : '\n' ∉ a := fun e => h (by simp [e])
    show (c :: (a ++ s)).takeWhile _ = _
    rw [List.takeWhile_cons, if_pos (by simpa using hc)]
    exact congrArg _ (ih ha)

theorem line_newline (s : Str) : line ('\n' :: s) = [] := by simp [line]

theorem line_self {a : Str} (h : '\n' ∉ a) : line a = a := by
  have := line_append h []
  simpa [line] using this

theorem unitAt_some {s m g : Str} : unitAt s = some (m, g) ↔
    ∃ t b, s = '[' :: t ∧ line t = g ++ ']' :: b ∧ ']' ∉ b ∧ m = c!"[" ++ g ++ c!"]" := by
  cases s with
  | nil => simp [unitAt]
  | cons c s =>
    rw [unitAt]
    split
    · rename_i hc
      subst hc
      rw [Option.map_eq_some_iff]
      constructor
      · rintro ⟨⟨a, b⟩, h, he⟩
        cases he
        have := lastClose_some.1 h
        exact ⟨s, b, rfl, this.1, this.2, rfl⟩
      · rintro ⟨t, b, ht, h1, h2, rfl⟩
        obtain ⟨-, rfl⟩ := List.cons.inj ht
        exact ⟨(g, b), lastClose_some.2 ⟨h1, h2⟩, rfl⟩
    · rename_i hc
      constructor
      · intro h; cases h
      · rintro ⟨t, b, ht, -⟩
        exact absurd (List.cons.inj ht).1 hc

theorem unitAt_none {s : Str} : unitAt s = none ↔ ∀ t, s = '[' :: t → ']' ∉ line t := by
  cases s with
  | nil => simp [unitAt]
  | cons c s =>
    rw [unitAt]
    split
    · rename_i hc
      subst hc
      rw [Option.map_eq_none_iff]
      constructor
      · intro h t ht
        obtain ⟨-, rfl⟩ := List.cons.inj ht
        exact lastClose_none.1 h
      · intro h
        exact lastClose_none.2 (h s rfl)
    · rename_i hc
      refine ⟨fun _ t ht => absurd (List.cons.inj ht).1 hc, fun _ => rfl⟩

theorem bracketed_line {t : Str} : ']' ∈ line t ↔ ∃ b c, t = b ++ ']' :: c ∧ '\n' ∉ b := by
  constructor
  · intro h
    obtain ⟨b, c, hb⟩ := List.append_of_mem h
    obtain ⟨r, hr, -⟩ := line_prefix t
    refine ⟨b, c ++ r, ?_, ?_⟩
    · conv_lhs => rw [hr, hb]
      simp
    · intro hn
      exact line_no t (by rw [hb]; simp [hn])
  · rintro ⟨b, c, rfl, hb⟩
    rw [line_append hb, show ']' :: c = [']'] ++ c from rfl, line_append (by decide)]
    simp

theorem bracketed_cons {c : Char} {s : Str} : Bracketed (c :: s) ↔ (c = '[' ∧ ']' ∈ line s) ∨ Bracketed s := by
  constructor
  · rintro ⟨a, b, d, h, hb⟩
    cases a with
    | nil =>
      obtain ⟨rfl, rfl⟩ := List.cons.inj h
      exact Or.inl ⟨rfl, bracketed_line.2 ⟨b, d, rfl, hb⟩⟩
    | cons x a =>
      obtain ⟨rfl, rfl⟩ := List.cons.inj h
      exact Or.inr ⟨a, b, d, rfl, hb⟩
  · rintro (⟨rfl, h⟩ | ⟨a, b, d, rfl, hb⟩)
    · obtain ⟨b, d, rfl, hb⟩ := bracketed_line.1 h
      exact ⟨[], b, d, rfl, hb⟩
    · exact ⟨c :: a, b, d, rfl, hb⟩

theorem not_bracketed_nil : ¬ Bracketed [] := by
  rintro ⟨a, b, d, h, -⟩
  have := congrArg List.length h
  simp at this

/-- The search fails exactly without a pair of brackets on a line. -/
theorem search_none : ∀ {s : Str}, searchFirst unitAt s = none ↔ ¬ Bracketed s
  | [] => by simp [searchFirst, unitAt, not_bracketed_nil]
  | c :: s => by
    have ih := search_none (s := s)
    rw [searchFirst, bracketed_cons]
    split
    · rename_i r h
      obtain ⟨m, g⟩ := r
      obtain ⟨t, b, ht, hl, -⟩ := unitAt_some.1 h
      obtain ⟨rfl, rfl⟩ := List.cons.inj ht
      simp [hl]
    · rename_i h
      rw [ih, not_or]
      have := unitAt_none.1 h
      refine ⟨fun hb => ⟨fun hc => this s (by rw [hc.1]) hc.2, hb⟩, fun hb => hb.2⟩

theorem removeAux_skip : ∀ (k : Nat) (s : Str), removeAux k s = removeAux 0 (s.drop k)
  | 0, s => rfl
  | k + 1, [] => by simp [removeAux]
  | k + 1, c :: s => by rw [removeAux, List.drop_succ_cons]; exact removeAux_skip k s

/-- A text without pairs of brackets is not changed. -/
theorem remove_none : ∀ {s : Str}, ¬ Bracketed s → remove s = s
  | [], _ => rfl
  | c :: s, h => by
    rw [bracketed_cons, not_or] at h
    have hu : unitAt (c :: s) = none := unitAt_none.2 fun t ht => by
      obtain ⟨rfl, rfl⟩ := List.cons.inj ht
      exact fun hm => h.1 ⟨rfl, hm⟩
    unfold remove
    rw [removeAux, hu]
    exact congrArg _ (remove_none h.2)

theorem line_remove : ∀ {s : Str}, ']' ∉ line s → line (remove s) = line s
  | [], _ => rfl
  | c :: s, h => by
    by_cases hc : c = '\n'
    · subst hc
      have hu : unitAt ('\n' :: s) = none := unitAt_none.2 fun t ht => by cases ht
      unfold remove
      rw [removeAux, hu]
      rw [line_newline]
      exact line_newline (removeAux 0 s)
    · have h1 : line (c :: s) = c :: line s := line_append (a := [c]) (by simp [Ne.symm hc]) s
      rw [h1] at h ⊢
      have hs : ']' ∉ line s := fun hm => h (by simp [hm])
      have hu : unitAt (c :: s) = none := unitAt_none.2 fun t ht => by
        obtain ⟨rfl, rfl⟩ := List.cons.inj ht
        exact hs
      unfold remove
      rw [removeAux, hu]
      have h2 : line (c :: removeAux 0 s) = c :: line (removeAux 0 s) := line_append (a := [c]) (by simp [Ne.symm hc]) _
      show line (c :: removeAux 0 s) = _
      rw [h2]
      exact congrArg _ (line_remove hs)

/-- No pair of brackets on a line is left. -/
theorem remove_clean : ∀ (n : Nat) (s : Str), s.length ≤ n → ¬ Bracketed (remove s)
  | _, [], _ => not_bracketed_nil
  | 0, c :: s, h => by simp at h
  | n + 1, c :: s, h => by
    unfold remove
    rw [removeAux]
    split
    · rename_i m g hm
      rw [removeAux_skip]
      refine remove_clean n _ ?_
      simp only [List.length_drop, List.length_cons] at h ⊢
      omega
    · rename_i hu
      rw [bracketed_cons, not_or]
      refine ⟨?_, remove_clean n s (by simpa using h)⟩
      rintro ⟨rfl, hm⟩
      have := unitAt_none.1 hu s rfl
      rw [show removeAux 0 s = remove s from rfl, line_remove this] at hm
      exact this hm

/-- The first line in brackets is the unit. -/
theorem unitAt_first {u r : Str} (hu : '\n' ∉ u) (hr : r = [] ∨ ∃ r', r = '\n' :: r') :
    unitAt (c!"[" ++ u ++ c!"]" ++ r) = some (c!"[" ++ u ++ c!"]", u) := by
  refine unitAt_some.2 ⟨u ++ c!"]" ++ r, [], by simp, ?_, by simp, rfl⟩
  have h1 : '\n' ∉ u ++ c!"]" := by simp [hu]
  rw [line_append h1]
  have : line r = [] := by
    rcases hr with rfl | ⟨r', rfl⟩
    · rfl
    · exact line_newline r'
  simp [this]

theorem remove_first {u r : Str} (hu : '\n' ∉ u) (hr : r = [] ∨ ∃ r', r = '\n' :: r') :
    remove (c!"[" ++ u ++ c!"]" ++ r) = remove r := by
  have h := unitAt_first hu hr
  rw [show c!"[" ++ u ++ c!"]" ++ r = '[' :: (u ++ (c!"]" ++ r)) by simp] at h ⊢
  unfold remove
  rw [removeAux, h]
  show removeAux ((c!"[" ++ u ++ c!"]").length - 1) _ = _
  rw [removeAux_skip]
  congr 1
  rw [show (c!"[" ++ u ++ c!"]").length - 1 = (u ++ c!"]").length by simp, ← List.append_assoc, List.drop_left]

theorem bracketed_sep {a b : Str} (h : Bracketed (a ++ '\n' :: b)) : Bracketed a ∨ Bracketed b := by
  induction a with
  | nil =>
    rw [List.nil_append, bracketed_cons] at h
    rcases h with ⟨h, -⟩ | h
    · cases h
    · exact Or.inr h
  | cons c a ih =>
    rw [List.cons_append, bracketed_cons] at h
    rcases h with ⟨rfl, h⟩ | h
    · left
      rw [bracketed_cons]
      left
      refine ⟨rfl, ?_⟩
      obtain ⟨r, hr, hr2⟩ := line_prefix a
      rw [hr, List.append_assoc, line_append (line_no a)] at h
      rcases List.mem_append.1 h with h | h
      · exact h
      · rcases hr2 with rfl | ⟨r', rfl⟩
        · rw [List.nil_append, line_newline] at h; cases h
        · rw [List.cons_append, line_newline] at h; cases h
    · rcases ih h with h | h
      · exact Or.inl (bracketed_cons.2 (Or.inr h))
      · exact Or.inr h

/-- A pair of brackets in joined lines is in one of them. -/
theorem bracketed_join : ∀ {l : List Str}, Bracketed (join c!"\n" l) → ∃ t ∈ l, Bracketed t
  | [], h => absurd h not_bracketed_nil
  | [t], h => ⟨t, by simp, h⟩
  | t :: u :: l, h => by
    have : join c!"\n" (t :: u :: l) = t ++ '\n' :: join c!"\n" (u :: l) := by simp [join]
    rw [this] at h
    rcases bracketed_sep h with h | h
    · exact ⟨t, by simp, h⟩
    · obtain ⟨x, hx, h⟩ := bracketed_join h
      exact ⟨x, by simp [List.mem_cons.1 hx], h⟩

theorem bracketed_infix {a b : Str} (hab : a <:+: b) (h : Bracketed a) : Bracketed b := by
  obtain ⟨x, y, rfl⟩ := hab
  obtain ⟨p, q, r, rfl, hq⟩ := h
  exact ⟨x ++ p, q, r ++ y, by simp, hq⟩

/-! ### The text of a unit -/

theorem mem_replaceAll {c : Char} {old new : Str} (ho : old ≠ []) (hc : c ∉ new) :
    ∀ {s : Str}, c ∈ replaceAll old new s → c ∈ s := by
  intro s h
  unfold replaceAll at h
  rw [if_neg ho] at h
  · have : ∀ (k : Nat) (s : Str), c ∈ replaceAux old new k s → c ∈ s := by
      intro k s
      induction s generalizing k with
      | nil => intro h; cases k <;> simp [replaceAux] at h
      | cons d s ih =>
        intro h
        cases k with
        | succ k =>
          rw [replaceAux] at h
          exact List.mem_cons_of_mem _ (ih k h)
        | zero =>
          rw [replaceAux] at h
          split at h
          · rcases List.mem_append.1 h with h | h
            · exact absurd h hc
            · exact List.mem_cons_of_mem _ (ih _ h)
          · rcases List.mem_cons.1 h with h | h
            · rw [h]; simp
            · exact List.mem_cons_of_mem _ (ih _ h)
    exact this _ _ h

theorem not_mem_replaceAll {c : Char} {new s : Str} (hc : c ∉ new) : c ∉ replaceAll [c] new s := by
  rw [UnitNames.replaceAll_single]
  intro h
  obtain ⟨x, -, hx⟩ := List.mem_flatMap.1 h
  split at hx
  · exact hc hx
  · rename_i hne
    exact hne (List.mem_singleton.1 hx).symm

theorem strUnit_clean {s : Str} {c : Char} (hc : c ∈ c!" /*.") : c ∉ strUnit s := by
  intro h
  unfold strUnit at h
  simp only [List.mem_cons, List.not_mem_nil, or_false] at hc
  rcases hc with rfl | rfl | rfl | rfl
  · exact not_mem_replaceAll (c := ' ') (by decide) (mem_replaceAll (by decide) (by decide) (mem_replaceAll (by decide) (by decide)
      (mem_replaceAll (by decide) (by decide) (mem_replaceAll (by decide) (by decide) h))))
  · exact not_mem_replaceAll (c := '/') (by decide) (mem_replaceAll (by decide) (by decide) (mem_replaceAll (by decide) (by decide)
      (mem_replaceAll (by decide) (by decide) h)))
  · exact not_mem_replaceAll (c := '*') (by decide) (mem_replaceAll (by decide) (by decide) h)
  · exact not_mem_replaceAll (c := '.') (by decide) h

theorem strUnit_mem {s : Str} {c : Char} (hc : c ∉ c!"_perlatims") (h : c ∈ strUnit s) : c ∈ s := by
  have h1 : c ∉ c!"_" := fun hm => hc (by simp only [List.mem_cons, List.not_mem_nil, or_false] at hm ⊢; tauto)
  have h2 : c ∉ c!"_times_" := fun hm => hc (by simp only [List.mem_cons, List.not_mem_nil, or_false] at hm ⊢; tauto)
  have h3 : c ∉ c!"_per_" := fun hm => hc (by simp only [List.mem_cons, List.not_mem_nil, or_false] at hm ⊢; tauto)
  unfold strUnit at h
  exact mem_replaceAll (by decide) (by simp) (mem_replaceAll (by decide) h3 (mem_replaceAll (by decide) (by simp) (mem_replaceAll (by decide) h2 (mem_replaceAll (by decide) h1 h))))

theorem strUnit_self {s : Str} (h : ∀ c ∈ c!" /*.", c ∉ s) : strUnit s = s := by
  have h1 : ∀ (c : Char) (old new : Str), c ∈ c!" /*." → c ∈ old → old ≠ [] → replaceAll old new s = s :=
    fun c old new hc ho hne => UnitNames.replaceAll_none hne (UnitNames.not_infix_of_mem ho (h c hc))
  unfold strUnit
  rw [h1 ' ' _ _ (by decide) (by decide) (by decide), h1 '/' _ _ (by decide) (by decide) (by decide),
    h1 '*' _ _ (by decide) (by decide) (by decide), h1 '*' _ _ (by decide) (by decide) (by decide),
    h1 '.' _ _ (by decide) (by decide) (by decide)]

/-! ### Comments by language -/

theorem sortBy_self {α : Type} (le : α → α → Bool) : ∀ {l : List α}, l.Pairwise (fun a b => le a b = true) → sortBy le l = l
  | [], _ => rfl
  | [a], _ => rfl
  | a :: b :: l, h => by
    have h' := List.pairwise_cons.1 h
    have ih := sortBy_self le h'.2
    show insertBy le a (sortBy le (b :: l)) = _
    rw [ih, insertBy, if_pos (h'.1 b (by simp))]

theorem mergeOne_new (t : TextCls) (n : Entry) : ∀ {x : List Entry}, (∀ m ∈ x, m.index ≠ n.index) → mergeOne t x n = x ++ [n]
  | [], _ => rfl
  | m :: x, h => by
    rw [mergeOne, if_neg (fun hc => h m (by simp) hc.1), mergeOne_new t n fun m hm => h m (by simp [hm])]
    rfl

theorem addMerged_sorted (t : TextCls) : ∀ {es x : List Entry}, (x ++ es).Pairwise (fun a b => a.index < b.index) →
    addMerged t x es = x ++ es
  | [], x, _ => by simp [addMerged]
  | e :: es, x, h => by
    have h1 : mergeOne t x e = x ++ [e] := mergeOne_new t e fun m hm => by
      have := (List.pairwise_append.1 h).2.2 m hm e (by simp)
      omega
    have h2 : addMerged t x (e :: es) = addMerged t (mergeOne t x e) es := rfl
    rw [h2, h1, addMerged_sorted t (by simpa using h)]
    simp

/-- The texts of entries with increasing indices. -/
theorem byLang_sorted (t : TextCls) {es : List Entry} (hs : es.Pairwise (fun a b => a.index < b.index))
    (hv : ∀ e ∈ es, notBlank e.text = true) :
    ((byLang (addMerged t [] es)).map Prod.fst).Pairwise LangText.Spec.Before ∧
    (∀ L, L ∈ (byLang (addMerged t [] es)).map Prod.fst ↔ ∃ e ∈ es, e.lang = L) ∧
    ∀ p ∈ byLang (addMerged t [] es), p.2 = join c!"\n" ((es.filter fun e => e.lang = p.1).map (·.text)) := by
  have h1 : addMerged t [] es = es := addMerged_sorted t (x := []) hs
  have h2 : sortBy byIndex es = es := sortBy_self _ (hs.imp fun h => by simp only [byIndex, decide_eq_true_eq]; omega)
  have h3 := byLang_eq es fun e he => visible_ne_nil ((notBlank_iff _).1 (hv e he))
  rw [h2] at h3
  rw [h1]
  exact h3

theorem endValidate_within {t : TextCls} {lim : Validators.Limit} {ignore : Bool} {sent : Str → List Str} (hl : t.limit = some lim)
    {l : List (Str × Str)} (h : ∀ p ∈ l, ignore = true ∨ (p.2.length ≤ upper lim ∧ lim.holds p.2.length = true)) :
    endValidate t ignore sent l = .ok l := by
  induction l with
  | nil => rfl
  | cons p l ih =>
    obtain ⟨k, s⟩ := p
    rw [endValidate, UncText.pieces_within hl (h (k, s) (by simp)), ih fun p hp => h p (by simp [hp])]
    rfl

theorem inLang_entries (L : Str) : ∀ (cs : List (Str × Str)) (i : Int),
    (((UncText.commentEntries i cs).filter fun e => notBlank e.text).filter fun e => e.lang = L).map (·.text) = inLang cs L
  | [], _ => rfl
  | (l, t) :: cs, i => by
    have ih := inLang_entries L cs (i + 1)
    unfold inLang at ih ⊢
    rw [UncText.commentEntries, List.filter_cons, List.filter_cons]
    by_cases hb : notBlank t = true
    · have hv : UncText.Spec.Visible t := (UncText.notBlank_visible t).1 hb
      rw [if_pos hb, List.filter_cons]
      by_cases hl : l = L
      · simp [hl, hv, -List.filter_filter, ih]
      · simp [hl, -List.filter_filter, ih]
    · have hv : ¬ UncText.Spec.Visible t := fun h => hb ((UncText.notBlank_visible t).2 h)
      rw [if_neg hb]
      simp [hv, -List.filter_filter, ih]

theorem mem_inLang {cs : List (Str × Str)} {L t : Str} : t ∈ inLang cs L ↔ (L, t) ∈ cs ∧ UncText.Spec.Visible t := by
  unfold inLang
  rw [List.mem_map]
  constructor
  · rintro ⟨⟨l, t'⟩, h, rfl⟩
    have := List.mem_filter.1 h
    simp only [Bool.and_eq_true, decide_eq_true_eq] at this
    obtain ⟨h1, rfl, h2⟩ := this
    exact ⟨h1, h2⟩
  · rintro ⟨h1, h2⟩
    exact ⟨(L, t), List.mem_filter.2 ⟨h1, by simp [h2]⟩, rfl⟩

/-! ### Reading -/

/-- A comment as it is read. -/
def readText (t : Str) : Str :=
  match searchFirst unitAt t with
  | some _ => strip (remove t)
  | none => t

theorem readComments_comments : ∀ (ts : List (Str × Str)) (r : Read), (∀ p ∈ ts, p.2 ≠ []) →
    (readComments r ts).comments = r.comments ++ ts.map fun p => (p.1, readText p.2)
  | [], r, _ => by simp [readComments]
  | (l, t) :: ts, r, h => by
    have ht : t ≠ [] := h (l, t) (by simp)
    rw [readComments, if_neg ht]
    split
    · rename_i m g hm
      rw [readComments_comments ts _ fun p hp => h p (by simp [hp])]
      simp [readText, hm]
    · rename_i hm
      rw [readComments_comments ts _ fun p hp => h p (by simp [hp])]
      simp [readText, hm]

theorem readComments_append : ∀ (a b : List (Str × Str)) (r : Read), readComments r (a ++ b) = readComments (readComments r a) b
  | [], _, _ => rfl
  | (l, t) :: a, b, r => by
    rw [List.cons_append, readComments, readComments]
    split
    · exact readComments_append a b r
    · split
      · exact readComments_append a b _
      · exact readComments_append a b _

theorem readComments_unit : ∀ (ts : List (Str × Str)) (r : Read), (∀ p ∈ ts, ¬ Bracketed p.2) → (readComments r ts).unit = r.unit
  | [], r, _ => rfl
  | (l, t) :: ts, r, h => by
    have hn : searchFirst unitAt t = none := search_none.2 (h (l, t) (by simp))
    rw [readComments, hn]
    split
    · exact readComments_unit ts r fun p hp => h p (by simp [hp])
    · exact readComments_unit ts _ fun p hp => h p (by simp [hp])

end Verif.Params

namespace Verif.Params
open Spec IlcdVars

/-! ### The text of a unit as it is shown -/

/-- Stars in pairs are removed. -/
def rep2 (s : Str) : Str := replaceAll c!"**" [] s

theorem rep2_cons {c : Char} (h : c ≠ '*') (s : Str) : rep2 (c :: s) = c :: rep2 s := by
  unfold rep2 replaceAll
  rw [if_neg (by simp), if_neg (by simp), replaceAux_miss]
  rintro ⟨r, hr⟩
  exact h (List.cons.inj hr).1

theorem rep2_word {w : Str} (h : '*' ∉ w) (s : Str) : rep2 (w ++ s) = w ++ rep2 s := by
  induction w with
  | nil => rfl
  | cons c w ih =>
    rw [List.cons_append, rep2_cons (fun e => h (by simp [e])), ih fun e => h (by simp [e])]
    rfl

theorem rep2_pair (s : Str) : rep2 ('*' :: '*' :: s) = rep2 s := by
  unfold rep2 replaceAll
  rw [if_neg (by simp), if_neg (by simp), show '*' :: '*' :: s = c!"**" ++ s from rfl, replaceAux_hit (by simp)]
  rfl

theorem rep2_single {c : Char} (h : c ≠ '*') (s : Str) : rep2 ('*' :: c :: s) = '*' :: rep2 (c :: s) := by
  conv_lhs => unfold rep2 replaceAll
  rw [if_neg (by simp), replaceAux_miss]
  · unfold rep2 replaceAll
    rw [if_neg (by simp)]
  · rintro ⟨r, hr⟩
    exact h (List.cons.inj (List.cons.inj hr).2).1

/-- The replacements before and after. -/
def before (s : Str) : Str := replaceAll c!"/" c!"_per_" (replaceAll c!" " [] s)
def after (s : Str) : Str := replaceAll c!"." c!"_" (replaceAll c!"*" c!"_times_" s)

theorem strUnit_eq (s : Str) : strUnit s = after (rep2 (before s)) := rfl

theorem before_append (a b : Str) : before (a ++ b) = before a ++ before b := by
  unfold before
  simp only [UnitNames.replaceAll_single, List.flatMap_append]

theorem after_append (a b : Str) : after (a ++ b) = after a ++ after b := by
  unfold after
  simp only [UnitNames.replaceAll_single, List.flatMap_append]

theorem before_self {s : Str} (h1 : ' ' ∉ s) (h2 : '/' ∉ s) : before s = s := by
  unfold before
  rw [UnitNames.replaceAll_none (by simp) (UnitNames.not_infix_of_mem (by simp) h1),
    UnitNames.replaceAll_none (by simp) (UnitNames.not_infix_of_mem (by simp) h2)]

theorem after_self {s : Str} (h1 : '*' ∉ s) (h2 : '.' ∉ s) : after s = s := by
  unfold after
  rw [UnitNames.replaceAll_none (by simp) (UnitNames.not_infix_of_mem (by simp) h1),
    UnitNames.replaceAll_none (by simp) (UnitNames.not_infix_of_mem (by simp) h2)]

/-- A power in the text. -/
def short (f : Factor) : Str := if f.exp = 1 then f.sym else f.sym ++ natStr f.exp

theorem digit_not {n : Nat} {c : Char} (hc : c.isDigit = false) : c ∉ natStr n := fun h => by
  rw [natStr_digit h] at hc; cases hc

theorem plain_no {f : Factor} (h : f.Plain) {c : Char} (hc : c ∈ c!" /*._0123456789") : c ∉ f.sym := fun hm => h.2 c hm hc

theorem short_no {f : Factor} (h : f.Plain) {c : Char} (hc : c ∈ c!" /*._") : c ∉ short f := by
  have h1 : c ∉ f.sym := plain_no h (by
    simp only [List.mem_cons, List.not_mem_nil, or_false] at hc ⊢; tauto)
  have h2 : c.isDigit = false := by
    clear h1; revert c; decide
  unfold short
  split
  · exact h1
  · rw [List.mem_append, not_or]; exact ⟨h1, digit_not h2⟩

theorem rep2_factor {f : Factor} (h : f.Plain) (s : Str) : rep2 (before f.shown ++ s) = short f ++ rep2 s := by
  have hs : '*' ∉ f.sym := plain_no h (by decide)
  unfold Factor.shown short
  split
  · rw [before_self (plain_no h (by decide)) (plain_no h (by decide)), rep2_word hs]
  · rw [before_append, before_append, before_self (plain_no h (by decide)) (plain_no h (by decide)),
      before_self (digit_not (by decide)) (digit_not (by decide)),
      show before c!" ** " = c!"**" by decide, List.append_assoc, List.append_assoc, rep2_word hs, List.append_assoc]
    show f.sym ++ rep2 ('*' :: '*' :: (natStr f.exp ++ s)) = _
    rw [rep2_pair, rep2_word (digit_not (by decide))]

theorem before_shown_cons {f : Factor} (h : f.Plain) : ∃ c t, before f.shown = c :: t ∧ c ≠ '*' := by
  obtain ⟨c, t, hc⟩ := List.exists_cons_of_ne_nil h.1
  have h1 : before f.sym = f.sym := before_self (plain_no h (by decide)) (plain_no h (by decide))
  have h2 : c ≠ '*' := fun e => plain_no h (c := '*') (by decide) (by rw [hc, e]; simp)
  unfold Factor.shown
  split
  · exact ⟨c, t, by rw [h1, hc], h2⟩
  · exact ⟨c, _, by rw [before_append, before_append, h1, hc]; rfl, h2⟩

theorem join_flatMap (sep h : Str) : ∀ l : List Str, join sep (h :: l) = h ++ l.flatMap fun x => sep ++ x
  | [] => by simp [join]
  | x :: l => by
    have := join_flatMap sep x l
    rw [join, this, List.flatMap_cons]
    simp

/-- The factors behind a times sign. -/
theorem rep2_times {r s : Str} (hr : ∀ x, rep2 (r ++ x) = s ++ rep2 x) : ∀ (l : List Factor), (∀ f ∈ l, f.Plain) → ∀ x,
    rep2 (before ((l.map Factor.shown).flatMap fun x => c!" * " ++ x) ++ (r ++ x)) =
      (l.flatMap fun f => c!"*" ++ short f) ++ (s ++ rep2 x)
  | [], _, x => by rw [List.map_nil, List.flatMap_nil, List.flatMap_nil]; exact hr x
  | f :: l, h, x => by
    have hf := h f (by simp)
    have ih := rep2_times hr l (fun g hg => h g (by simp [hg])) x
    rw [List.map_cons, List.flatMap_cons, List.flatMap_cons, before_append, before_append,
      show before c!" * " = c!"*" by decide]
    obtain ⟨c, t, hc, hne⟩ := before_shown_cons hf
    have h1 : c!"*" ++ before f.shown ++ before ((l.map Factor.shown).flatMap fun x => c!" * " ++ x) ++ (r ++ x) =
        '*' :: (before f.shown ++ (before ((l.map Factor.shown).flatMap fun x => c!" * " ++ x) ++ (r ++ x))) := by simp
    rw [h1, hc, List.cons_append, rep2_single hne, ← List.cons_append, ← hc, rep2_factor hf, ih]
    simp

/-- The factors behind a slash. -/
theorem rep2_per : ∀ (l : List Factor), (∀ f ∈ l, f.Plain) → ∀ x,
    rep2 (before ((l.map Factor.shown).flatMap fun x => c!" / " ++ x) ++ x) =
      (l.flatMap fun f => c!"_per_" ++ short f) ++ rep2 x
  | [], _, x => by simp [before, replaceAll, replaceAux]
  | f :: l, h, x => by
    have hf := h f (by simp)
    have ih := rep2_per l (fun g hg => h g (by simp [hg])) x
    rw [List.map_cons, List.flatMap_cons, List.flatMap_cons, before_append, before_append,
      show before c!" / " = c!"_per_" by decide, List.append_assoc, List.append_assoc, rep2_word (by decide), rep2_factor hf, ih]
    simp

theorem after_flatMap (o : Str) (l : List Factor) (h : ∀ f ∈ l, f.Plain) :
    after (l.flatMap fun f => o ++ short f) = l.flatMap fun f => after o ++ short f := by
  induction l with
  | nil => rfl
  | cons f l ih =>
    have hf := h f (by simp)
    rw [List.flatMap_cons, List.flatMap_cons, after_append, after_append, ih fun g hg => h g (by simp [hg]),
      after_self (short_no hf (by decide)) (short_no hf (by decide))]

/-- The head of the text and the other factors with their signs. -/
def tokens (u : UnitExpr) : Str × List (Str × Str) :=
  match u.pos, u.neg with
  | [], [] => ([], [])
  | [], g :: gs => (c!"1", (g :: gs).map fun f => (c!"per", short f))
  | f :: fs, gs => (short f, (fs.map fun f => (c!"times", short f)) ++ gs.map fun f => (c!"per", short f))

def flat (p : Str × List (Str × Str)) : Str := p.1 ++ p.2.flatMap fun x => '_' :: (x.1 ++ '_' :: x.2)

theorem flat_per (l : List Factor) : (l.flatMap fun f => c!"_per_" ++ short f) =
    (l.map fun f => (c!"per", short f)).flatMap fun x => '_' :: (x.1 ++ '_' :: x.2) := by
  rw [List.flatMap_map]; rfl

theorem flat_times (l : List Factor) : (l.flatMap fun f => c!"_times_" ++ short f) =
    (l.map fun f => (c!"times", short f)).flatMap fun x => '_' :: (x.1 ++ '_' :: x.2) := by
  rw [List.flatMap_map]; rfl

theorem strUnit_shown {u : UnitExpr} (h : u.Plain) : strUnit u.shown = flat (tokens u) := by
  obtain ⟨pos, neg⟩ := u
  have hp : ∀ f ∈ pos, f.Plain := fun f hf => h f (List.mem_append_left _ hf)
  have hn : ∀ f ∈ neg, f.Plain := fun f hf => h f (List.mem_append_right _ hf)
  have hnil : rep2 [] = [] := rfl
  have hper := rep2_per neg hn []
  rw [List.append_nil, hnil, List.append_nil] at hper
  have haper := after_flatMap c!"_per_" neg hn
  rw [show after c!"_per_" = c!"_per_" by decide] at haper
  rw [strUnit_eq]
  cases pos with
  | nil =>
    cases neg with
    | nil => rfl
    | cons g gs =>
      have h1 : UnitExpr.shown ⟨[], g :: gs⟩ = c!"1" ++ ((g :: gs).map Factor.shown).flatMap fun x => c!" / " ++ x := by
        unfold UnitExpr.shown
        rw [if_neg (by simp), if_pos rfl, join_flatMap]
      rw [h1, before_append, show before c!"1" = c!"1" by decide, rep2_word (by decide), hper, after_append, haper, flat_per]
      rfl
  | cons f fs =>
    have h1 : UnitExpr.shown ⟨f :: fs, neg⟩ = f.shown ++ ((fs.map Factor.shown).flatMap fun x => c!" * " ++ x) ++
        ((neg.map Factor.shown).flatMap fun x => c!" / " ++ x) := by
      unfold UnitExpr.shown
      rw [if_neg (by simp), if_neg (by simp), join_flatMap, List.map_cons, join_flatMap]
    have hf := hp f (by simp)
    have hfs : ∀ f ∈ fs, f.Plain := fun g hg => hp g (by simp [hg])
    have h2 := rep2_times (r := before ((neg.map Factor.shown).flatMap fun x => c!" / " ++ x)) (rep2_per neg hn) fs hfs []
    rw [List.append_nil, hnil, List.append_nil] at h2
    rw [h1, List.append_assoc, before_append, before_append, rep2_factor hf, h2, after_append, after_append, haper,
      after_flatMap _ _ hfs, after_self (short_no hf (by decide)) (short_no hf (by decide)),
      show after c!"*" = c!"_times_" by decide, flat_times, flat_per]
    unfold flat tokens
    cases neg <;> simp

/-! ### Reading the tokens -/

theorem cut {c : Char} : ∀ {a b r s : Str}, c ∉ a → c ∉ b → a ++ c :: r = b ++ c :: s → a = b ∧ r = s
  | [], [], r, s, _, _, h => ⟨rfl, (List.cons.inj h).2⟩
  | [], d :: b, r, s, _, hb, h => absurd (List.cons.inj h).1 (fun e => hb (by rw [e]; simp))
  | d :: a, [], r, s, ha, _, h => absurd (List.cons.inj h).1 (fun e => ha (by rw [← e]; simp))
  | d :: a, e :: b, r, s, ha, hb, h => by
    obtain ⟨rfl, h0⟩ := List.cons.inj h
    obtain ⟨h1, h2⟩ := cut (a := a) (b := b) (fun x => ha (by simp [x])) (fun x => hb (by simp [x])) h0
    exact ⟨by rw [h1], h2⟩

/-- A list of tokens with signs that are not the end mark. -/
structure Toks (e : Str) (p : Str × List (Str × Str)) : Prop where
  head : '_' ∉ p.1
  rest : ∀ x ∈ p.2, '_' ∉ x.1 ∧ '_' ∉ x.2 ∧ x.1 ≠ e

theorem toks_inj {e r r' : Str} (he : '_' ∉ e) : ∀ {p q : Str × List (Str × Str)}, Toks e p → Toks e q →
    flat p ++ '_' :: (e ++ '_' :: r) = flat q ++ '_' :: (e ++ '_' :: r') → p = q ∧ r = r'
  | (h, []), (h', []), hp, hq, heq => by
    simp only [flat, List.flatMap_nil, List.append_nil] at heq
    obtain ⟨rfl, h2⟩ := cut hp.head hq.head heq
    exact ⟨rfl, (cut he he h2).2⟩
  | (h, []), (h', (o, f) :: l), hp, hq, heq => by
    simp only [flat, List.flatMap_nil, List.append_nil, List.flatMap_cons, List.append_assoc, List.cons_append] at heq
    obtain ⟨-, h2⟩ := cut hp.head hq.head heq
    have ho := hq.rest (o, f) (by simp)
    exact absurd (cut he ho.1 h2).1.symm ho.2.2
  | (h, (o, f) :: l), (h', []), hp, hq, heq => by
    simp only [flat, List.flatMap_nil, List.append_nil, List.flatMap_cons, List.append_assoc, List.cons_append] at heq
    obtain ⟨-, h2⟩ := cut hp.head hq.head heq
    have ho := hp.rest (o, f) (by simp)
    exact absurd (cut ho.1 he h2).1 ho.2.2
  | (h, (o, f) :: l), (h', (o', f') :: l'), hp, hq, heq => by
    simp only [flat, List.flatMap_cons, List.append_assoc, List.cons_append] at heq
    obtain ⟨rfl, h2⟩ := cut hp.head hq.head heq
    have ho := hp.rest (o, f) (by simp)
    have ho' := hq.rest (o', f') (by simp)
    obtain ⟨rfl, h3⟩ := cut ho.1 ho'.1 h2
    have ih := toks_inj he (p := (f, l)) (q := (f', l')) (r := r) (r' := r')
      ⟨ho.2.1, fun x hx => hp.rest x (by simp [hx])⟩ ⟨ho'.2.1, fun x hx => hq.rest x (by simp [hx])⟩
      (by simpa only [flat, List.append_assoc] using h3)
    obtain ⟨h4, h5⟩ := ih
    cases h4
    exact ⟨rfl, h5⟩

theorem toks_of {u : UnitExpr} (h : u.Plain) {e : Str} (h1 : e ≠ c!"times") (h2 : e ≠ c!"per") : Toks e (tokens u) := by
  obtain ⟨pos, neg⟩ := u
  have hp : ∀ f ∈ pos, '_' ∉ short f := fun f hf => short_no (h f (List.mem_append_left _ hf)) (by decide)
  have hn : ∀ f ∈ neg, '_' ∉ short f := fun f hf => short_no (h f (List.mem_append_right _ hf)) (by decide)
  cases pos with
  | nil =>
    cases neg with
    | nil => exact ⟨by simp [tokens], by simp [tokens]⟩
    | cons g gs =>
      refine ⟨by show '_' ∉ c!"1"; decide, ?_⟩
      intro x hx
      obtain ⟨f, hf, rfl⟩ := List.mem_map.1 (show x ∈ (g :: gs).map (fun f => (c!"per", short f)) from hx)
      exact ⟨by show '_' ∉ c!"per"; decide, hn f hf, fun he => h2 he.symm⟩
  | cons f fs =>
    refine ⟨hp f (by simp), ?_⟩
    intro x hx
    rcases List.mem_append.1 (show x ∈ (fs.map fun f => (c!"times", short f)) ++ neg.map fun f => (c!"per", short f) from hx) with hx | hx
    · obtain ⟨g, hg, rfl⟩ := List.mem_map.1 hx
      exact ⟨by show '_' ∉ c!"times"; decide, hp g (by simp [hg]), fun he => h1 he.symm⟩
    · obtain ⟨g, hg, rfl⟩ := List.mem_map.1 hx
      exact ⟨by show '_' ∉ c!"per"; decide, hn g hg, fun he => h2 he.symm⟩

theorem cut_digits : ∀ {a b x y : Str}, (∀ c ∈ a, c.isDigit = false) → (∀ c ∈ b, c.isDigit = false) →
    (∀ c ∈ x, c.isDigit = true) → (∀ c ∈ y, c.isDigit = true) → a ++ x = b ++ y → a = b ∧ x = y
  | [], [], x, y, _, _, _, _, h => ⟨rfl, h⟩
  | [], d :: b, x, y, _, hb, hx, _, h => by
    have h1 := hb d (by simp)
    rw [hx d (by have : x = d :: (b ++ y) := h; rw [this]; simp)] at h1
    cases h1
  | d :: a, [], x, y, ha, _, _, hy, h => by
    have h1 := ha d (by simp)
    rw [hy d (by have : d :: (a ++ x) = y := h; rw [← this]; simp)] at h1
    cases h1
  | d :: a, e :: b, x, y, ha, hb, hx, hy, h => by
    obtain ⟨rfl, h0⟩ := List.cons.inj h
    obtain ⟨h1, h2⟩ := cut_digits (a := a) (b := b) (fun c hc => ha c (by simp [hc])) (fun c hc => hb c (by simp [hc])) hx hy h0
    exact ⟨by rw [h1], h2⟩

theorem sym_digit {f : Factor} (h : f.Plain) : ∀ c ∈ f.sym, c.isDigit = false := by
  intro c hc
  cases hd : c.isDigit with
  | false => rfl
  | true =>
    exfalso
    have : c ∈ c!"0123456789" := by
      simp only [Char.isDigit, Bool.and_eq_true, decide_eq_true_eq] at hd
      have h1 : 48 ≤ c.val.toNat := UInt32.le_iff_toNat_le.1 hd.1
      have h2 : c.val.toNat ≤ 57 := UInt32.le_iff_toNat_le.1 hd.2
      have hn : c = Char.ofNat c.val.toNat := by
        have := Char.ofNat_toNat c
        exact this.symm
      have h3 : c.val.toNat ∈ [48, 49, 50, 51, 52, 53, 54, 55, 56, 57] := by
        simp only [List.mem_cons, List.not_mem_nil, or_false]; omega
      rw [hn]
      revert h3
      generalize c.val.toNat = n
      intro h3
      simp only [List.mem_cons, List.not_mem_nil, or_false] at h3
      rcases h3 with h | h | h | h | h | h | h | h | h | h <;> subst h <;> decide
    exact h.2 c hc (by simp only [List.mem_cons, List.not_mem_nil, or_false] at this ⊢; tauto)

theorem short_inj {f g : Factor} (hf : f.Plain) (hg : g.Plain) (h : short f = short g) : f = g := by
  have key : ∀ k : Factor, short k = k.sym ++ (if k.exp = 1 then [] else natStr k.exp) := by
    intro k; unfold short; split <;> simp
  have hd : ∀ k : Factor, ∀ c ∈ (if k.exp = 1 then [] else natStr k.exp), c.isDigit = true := by
    intro k c hc
    split at hc
    · cases hc
    · exact natStr_digit hc
  rw [key f, key g] at h
  obtain ⟨h1, h2⟩ := cut_digits (sym_digit hf) (sym_digit hg) (hd f) (hd g) h
  have h3 : f.exp = g.exp := by
    split at h2
    · split at h2
      · omega
      · exact absurd h2.symm (natStr_ne_nil _)
    · split at h2
      · exact absurd h2 (natStr_ne_nil _)
      · have := congrArg parseNat h2
        rw [parseNat_natStr, parseNat_natStr] at this
        exact Option.some.inj this
  cases f; cases g; simp only at h1 h3; subst h1 h3; rfl

theorem short_map_inj : ∀ {a b : List Factor}, (∀ f ∈ a, f.Plain) → (∀ f ∈ b, f.Plain) → a.map short = b.map short → a = b
  | [], [], _, _, _ => rfl
  | [], _ :: _, _, _, h => by cases h
  | _ :: _, [], _, _, h => by cases h
  | f :: a, g :: b, ha, hb, h => by
    obtain ⟨h1, h2⟩ := List.cons.inj h
    rw [short_inj (ha f (by simp)) (hb g (by simp)) h1,
      short_map_inj (fun f hf => ha f (by simp [hf])) (fun f hf => hb f (by simp [hf])) h2]

theorem signs_inj {a b : List Str} : ∀ {x y : List Str}, (x.map fun t => (c!"times", t)) ++ (a.map fun t => (c!"per", t)) =
    (y.map fun t => (c!"times", t)) ++ (b.map fun t => (c!"per", t)) → x = y ∧ a = b
  | [], [], h => ⟨rfl, by
      have := congrArg (List.map Prod.snd) h
      simpa [List.map_map, Function.comp_def] using this⟩
  | [], t :: y, h => by
    cases a with
    | nil => cases h
    | cons s a => have := congrArg Prod.fst (List.cons.inj h).1; exact absurd this (by simp)
  | t :: x, [], h => by
    cases b with
    | nil => cases h
    | cons s b => have := congrArg Prod.fst (List.cons.inj h).1; exact absurd this (by simp)
  | t :: x, s :: y, h => by
    obtain ⟨h1, h2⟩ := List.cons.inj h
    obtain ⟨rfl, rfl⟩ := signs_inj h2
    exact ⟨by rw [show t = s from congrArg Prod.snd h1], rfl⟩

theorem short_head {f : Factor} (h : f.Plain) : short f ≠ [] ∧ short f ≠ c!"1" := by
  obtain ⟨c, t, hc⟩ := List.exists_cons_of_ne_nil h.1
  have h1 : c.isDigit = false := sym_digit h c (by rw [hc]; simp)
  have h2 : ∃ r, short f = c :: r := by
    unfold short; split
    · exact ⟨t, hc⟩
    · exact ⟨t ++ natStr f.exp, by rw [hc]; rfl⟩
  obtain ⟨r, hr⟩ := h2
  rw [hr]
  refine ⟨by simp, ?_⟩
  intro he
  have : c = '1' := (List.cons.inj he).1
  subst this
  cases h1

theorem tokens_inj {u v : UnitExpr} (hu : u.Plain) (hv : v.Plain) (h : tokens u = tokens v) : u = v := by
  obtain ⟨p, n⟩ := u
  obtain ⟨p', n'⟩ := v
  have hp : ∀ f ∈ p, f.Plain := fun f hf => hu f (List.mem_append_left _ hf)
  have hn : ∀ f ∈ n, f.Plain := fun f hf => hu f (List.mem_append_right _ hf)
  have hp' : ∀ f ∈ p', f.Plain := fun f hf => hv f (List.mem_append_left _ hf)
  have hn' : ∀ f ∈ n', f.Plain := fun f hf => hv f (List.mem_append_right _ hf)
  have hmap : ∀ (o : Str) (l : List Factor), (l.map fun f => (o, short f)) = (l.map short).map fun t => (o, t) := by
    intro o l; rw [List.map_map]; rfl
  cases p with
  | nil =>
    cases p' with
    | nil =>
      cases n with
      | nil =>
        cases n' with
        | nil => rfl
        | cons g gs => have := congrArg Prod.fst h; cases this
      | cons g gs =>
        cases n' with
        | nil => have := congrArg Prod.fst h; cases this
        | cons g' gs' =>
          have h1 : (g :: gs).map (fun f => (c!"per", short f)) = (g' :: gs').map fun f => (c!"per", short f) :=
            congrArg Prod.snd h
          rw [hmap, hmap] at h1
          have h2 := (signs_inj (a := (g :: gs).map short) (b := (g' :: gs').map short) (x := []) (y := []) (by simpa only [List.map_nil, List.nil_append] using h1)).2
          rw [short_map_inj hn hn' h2]
    | cons f' fs' =>
      have h1 : (tokens ⟨[], n⟩).1 = short f' := congrArg Prod.fst h
      have h2 := short_head (hp' f' (by simp))
      cases n with
      | nil => exact absurd h1.symm h2.1
      | cons g gs => exact absurd h1.symm h2.2
  | cons f fs =>
    cases p' with
    | nil =>
      have h1 : short f = (tokens ⟨[], n'⟩).1 := congrArg Prod.fst h
      have h2 := short_head (hp f (by simp))
      cases n' with
      | nil => exact absurd h1 h2.1
      | cons g gs => exact absurd h1 h2.2
    | cons f' fs' =>
      have h1 : short f = short f' := congrArg Prod.fst h
      have h2 : (fs.map fun f => (c!"times", short f)) ++ (n.map fun f => (c!"per", short f)) =
        (fs'.map fun f => (c!"times", short f)) ++ n'.map fun f => (c!"per", short f) := congrArg Prod.snd h
      rw [hmap, hmap, hmap, hmap] at h2
      have h3 := signs_inj h2
      rw [short_inj (hp f (by simp)) (hp' f' (by simp)) h1,
        short_map_inj (fun g hg => hp g (by simp [hg])) (fun g hg => hp' g (by simp [hg])) h3.1,
        short_map_inj hn hn' h3.2]

end Verif.Params
