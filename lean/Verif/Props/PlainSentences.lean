/-
Plain sentences are found as they are (C105).
-/
import Verif.Props.Sentences

namespace Verif.Sentences

open Spec IlcdVars

/-- A statement changes nothing in a text without a match. -/
theorem sub_or (its : List Item) (s : Str) :
    sub its s = s ∨ ∃ u as z, Parts its as ∧ s = u ++ (as.flatten ++ z) := by
  induction s with
  | nil => exact .inl rfl
  | cons c s ih =>
    cases hm : matchAt its (c :: s) with
    | none =>
      rw [sub_none its c s hm]
      rcases ih with ih | ⟨u, as, z, hp, rfl⟩
      · exact .inl (by rw [ih])
      · exact .inr ⟨c :: u, as, z, hp, rfl⟩
    | some r =>
      obtain ⟨as, z, hp, he, _, _⟩ := matchAt_some its _ r.1 r.2 hm
      exact .inr ⟨[], as, z, hp, he⟩

/-- The framed text of a list of sentences: a blank before each and two at the end. -/
def frame : List Str → Str
  | [] => c!"  "
  | x :: xs => ' ' :: (x ++ frame xs)

theorem frame_join (xs : List Str) (h : xs ≠ []) : c!" " ++ join c!" " xs ++ c!"  " = frame xs := by
  induction xs with
  | nil => exact absurd rfl h
  | cons x xs ih =>
    cases xs with
    | nil => simp [join, frame]
    | cons y ys =>
      have := ih (by simp)
      simp only [join, frame] at this ⊢
      simp only [List.cons_append, List.nil_append, List.append_assoc] at this ⊢
      rw [this]

theorem frame_head (xs : List Str) : ∃ z, frame xs = ' ' :: z := by
  cases xs with
  | nil => exact ⟨_, rfl⟩
  | cons x xs => exact ⟨_, rfl⟩

theorem plain_char {x : Str} (hx : Plain x) {c : Char} (hc : c ∈ x) : c ∉ c!"<\"”\n" := by
  obtain ⟨b, e, rfl, he, hb, _, _⟩ := hx
  simp only [List.mem_append, List.mem_singleton] at hc
  intro hm
  rcases hc with hc | rfl
  · have := hb c hc
    simp only [List.mem_cons, List.not_mem_nil, or_false] at hm this
    rcases hm with rfl | rfl | rfl | rfl <;> simp at this
  · rcases he with rfl | rfl | rfl | rfl <;> revert hm <;> decide

theorem frame_char (xs : List Str) (hx : ∀ x ∈ xs, Plain x) : ∀ c ∈ frame xs, c ∉ c!"<\"”\n" := by
  induction xs with
  | nil => decide
  | cons x xs ih =>
    intro c hc
    simp only [frame, List.mem_cons, List.mem_append] at hc
    rcases hc with rfl | hc | hc
    · decide
    · exact plain_char (hx x (by simp)) hc
    · exact ih (fun y h => hx y (by simp [h])) c hc

/-- Every full stop ends a sentence: a blank comes after it and no abbreviation before it. -/
theorem frame_dot (xs : List Str) (hx : ∀ x ∈ xs, Plain x) (a z : Str) (h : frame xs = a ++ '.' :: z) :
    (∃ z', z = ' ' :: z') ∧ ∃ a' b, a = a' ++ ' ' :: b ∧ ¬ Abbreviated b := by
  induction xs generalizing a with
  | nil =>
    have : '.' ∈ c!"  " := by
      have h' : c!"  " = a ++ '.' :: z := h
      rw [h']; simp
    exact absurd this (by decide)
  | cons x xs ih =>
    obtain ⟨b, e, rfl, he, hb, _, hab⟩ := hx x (by simp)
    have h' : (' ' :: b) ++ (e :: frame xs) = a ++ '.' :: z := by
      rw [← h]; simp [frame]
    rcases List.append_eq_append_iff.1 h' with ⟨w, h1, h2⟩ | ⟨w, h1, h2⟩
    · cases w with
      | nil =>
        simp only [List.nil_append] at h2
        injection h2 with e1 e2
        obtain ⟨z', hz⟩ := frame_head xs
        refine ⟨⟨z', by rw [← e2, hz]⟩, [], b, by simpa using h1, hab e1⟩
      | cons d w =>
        simp only [List.cons_append] at h2
        injection h2 with e1 e2
        obtain ⟨hz, a', b', h3, h4⟩ := ih (fun y h => hx y (by simp [h])) w e2
        exact ⟨hz, (' ' :: b ++ [d]) ++ a', b', by rw [h1, h3]; simp, h4⟩
    · cases w with
      | nil =>
        simp only [List.nil_append] at h2
        injection h2 with e1 e2
        obtain ⟨z', hz⟩ := frame_head xs
        refine ⟨⟨z', by rw [e2, hz]⟩, [], b, by simpa using h1.symm, hab e1.symm⟩
      | cons d w =>
        simp only [List.cons_append] at h2
        injection h2 with e1 _
        have : '.' ∈ ' ' :: b := by rw [h1, e1]; simp
        simp only [List.mem_cons] at this
        rcases this with this | this
        · cases this
        · exact absurd (by decide) (hb '.' this)

theorem suffix_word (w a b : Str) (hw : ' ' ∉ w) (h : w <:+ a ++ ' ' :: b) : w <:+ b := by
  obtain ⟨u, hu⟩ := h
  rcases List.append_eq_append_iff.1 hu with ⟨v, h1, h2⟩ | ⟨v, h1, h2⟩
  · exact absurd (by rw [h2]; simp) hw
  · cases v with
    | nil => exact absurd (by rw [← List.nil_append w, ← h2]; simp) hw
    | cons c v =>
      simp only [List.cons_append] at h2
      injection h2 with _ h2
      exact ⟨v, h2.symm⟩

theorem suffix_spaced (s : Char) (w a b : Str) (hw : ' ' ∉ w) (h : s :: w <:+ a ++ ' ' :: b) :
    b = w ∨ s :: w <:+ b := by
  obtain ⟨u, hu⟩ := h
  rcases List.append_eq_append_iff.1 hu with ⟨v, h1, h2⟩ | ⟨v, h1, h2⟩
  · cases v with
    | nil =>
      simp only [List.nil_append] at h2
      injection h2 with _ h3
      exact .inl h3.symm
    | cons c v =>
      simp only [List.cons_append] at h2
      injection h2 with _ h2
      exact absurd (by rw [h2]; simp) hw
  · cases v with
    | nil =>
      simp only [List.nil_append] at h2
      injection h2 with _ h3
      exact .inl h3
    | cons c v =>
      simp only [List.cons_append] at h2
      injection h2 with _ h2
      exact .inr ⟨v, h2.symm⟩

theorem part_letter (a : Str) (h : ∃ alt ∈ Item.alts letter, Exact alt a) :
    ∃ c, a = [c] ∧ isAlpha c = true := by
  obtain ⟨alt, hm, he⟩ := h
  simp only [letter, kept, List.mem_singleton] at hm
  subst hm
  obtain ⟨c, u, hk, hu, rfl⟩ := List.forall₂_cons_left_iff.1 he
  rw [List.forall₂_nil_left_iff.1 hu]
  exact ⟨c, rfl, hk⟩

theorem alpha_letter (c : Char) (h : isAlpha c = true) : Letter c := by
  simp only [isAlpha, isUpper, Bool.or_eq_true, Bool.and_eq_true, decide_eq_true_eq] at h
  exact h

theorem alpha_ne_blank (c : Char) (h : isAlpha c = true) : c ≠ ' ' := by
  rintro rfl
  revert h
  decide

/-- What the first fifteen statements look for is not there. -/
theorem early_rules (s : Str) (hc : ∀ c ∈ s, c ∉ c!"\"”\n")
    (hd : ∀ a z, s = a ++ '.' :: z →
      (∃ z', z = ' ' :: z') ∧ ∃ a' b, a = a' ++ ' ' :: b ∧ ¬ Abbreviated b) :
    ∀ r ∈ rules.take 15, r.apply s = s := by
  have start : ∀ (r : Rule), (∀ u as z, Parts r.items as → s = u ++ (as.flatten ++ z) → False) →
      r.apply s = s := by
    intro r h
    unfold Rule.apply
    split
    · rcases sub_or r.items s with h1 | ⟨u, as, z, hp, he⟩
      · exact h1
      · exact (h u as z hp he).elim
    · rfl
  have char : ∀ w g ts, (∃ c ∈ w, c ∈ c!"\"”\n") →
      Rule.apply { guard := g, items := [swap w ts] } s = s := by
    rintro w g ts ⟨c, hcw, hcb⟩
    refine start _ ?_
    intro u as z hp he
    obtain ⟨a, v, ha, hv, rfl⟩ := List.forall₂_cons_left_iff.1 hp
    rw [List.forall₂_nil_left_iff.1 hv, part_word w a _ ha] at he
    exact hc c (by rw [he]; simp [hcw]) hcb
  -- a full stop with a letter after it
  have close : ∀ u x (c : Char) z, c ≠ ' ' → s = u ++ (x ++ '.' :: c :: z) → False := by
    intro u x c z hne he
    obtain ⟨⟨z', hz⟩, _⟩ := hd (u ++ x) (c :: z) (by rw [he]; simp)
    injection hz with h1 _
    exact hne h1
  -- an abbreviation before a full stop
  have pre : ∀ u w z, w ∈ prefixes → s = u ++ (w ++ '.' :: z) → False := by
    intro u w z hw he
    obtain ⟨_, a', b, h1, h2⟩ := hd (u ++ w) z (by rw [he]; simp)
    have hb : ∀ w ∈ prefixes, ' ' ∉ w := by decide
    exact h2 (.inl ⟨w, hw, suffix_word w a' b (hb w hw) (by rw [← h1]; exact ⟨u, rfl⟩)⟩)
  have suf : ∀ u w z, w ∈ suffixes → s = u ++ (' ' :: w ++ '.' :: z) → False := by
    intro u w z hw he
    obtain ⟨_, a', b, h1, h2⟩ := hd (u ++ ' ' :: w) z (by rw [he]; simp)
    have hb : ∀ w ∈ suffixes, ' ' ∉ w := by decide
    exact h2 (.inr (.inl ⟨w, hw, suffix_spaced ' ' w a' b (hb w hw) (by rw [← h1]; exact ⟨u, rfl⟩)⟩))
  have one : ∀ u (p l : Char) z, pySpace p = true → isAlpha l = true → s = u ++ (p :: l :: '.' :: z) →
      False := by
    intro u p l z hp hl he
    obtain ⟨_, a', b, h1, h2⟩ := hd (u ++ [p, l]) z (by rw [he]; simp)
    refine h2 (.inr (.inr ⟨l, alpha_letter l hl, ?_⟩))
    rcases suffix_spaced p [l] a' b (by simpa using (alpha_ne_blank l hl).symm)
      (by rw [← h1]; exact ⟨u, rfl⟩) with h | h
    · exact .inl h
    · exact .inr ⟨p, hp, h⟩
  intro r hr
  have hr' : r = rules[0] ∨ r = rules[1] ∨ r = rules[2] ∨ r = rules[3] ∨ r = rules[4] ∨ r = rules[5] ∨
      r = rules[6] ∨ r = rules[7] ∨ r = rules[8] ∨ r = rules[9] ∨ r = rules[10] ∨ r = rules[11] ∨
      r = rules[12] ∨ r = rules[13] ∨ r = rules[14] := by
    simpa [rules] using hr
  rcases hr' with rfl | rfl | rfl | rfl | rfl | rfl | rfl | rfl | rfl | rfl | rfl | rfl | rfl | rfl | rfl
  · exact char _ _ _ (by decide)
  · refine start _ ?_
    intro u as z hp he
    obtain ⟨a1, u1, h1, p1, rfl⟩ := List.forall₂_cons_left_iff.1 hp
    obtain ⟨a2, u2, h2, p2, rfl⟩ := List.forall₂_cons_left_iff.1 p1
    rw [List.forall₂_nil_left_iff.1 p2, part_word _ a2 _ h2] at he
    exact pre u a1 z (part_words prefixes a1 _ h1) (by rw [he]; simp)
  · refine start _ ?_
    intro u as z hp he
    obtain ⟨a1, u1, h1, p1, rfl⟩ := List.forall₂_cons_left_iff.1 hp
    obtain ⟨a2, u2, h2, p2, rfl⟩ := List.forall₂_cons_left_iff.1 p1
    rw [List.forall₂_nil_left_iff.1 p2, part_word _ a1 _ h1] at he
    have hw := part_words websites a2 _ h2
    have hne : ∀ w ∈ websites, ∃ c v, w = c :: v ∧ c ≠ ' ' := by
      intro w hw
      simp only [websites, List.mem_cons, List.not_mem_nil, or_false] at hw
      rcases hw with rfl | rfl | rfl | rfl | rfl <;> exact ⟨_, _, rfl, by decide⟩
    obtain ⟨c, v, rfl, hc'⟩ := hne a2 hw
    exact close u [] c (v ++ z) hc' (by rw [he]; simp)
  · refine start _ ?_
    intro u as z hp he
    obtain ⟨a1, u1, h1, p1, rfl⟩ := List.forall₂_cons_left_iff.1 hp
    obtain ⟨a2, u2, h2, p2, rfl⟩ := List.forall₂_cons_left_iff.1 p1
    obtain ⟨a3, u3, h3, p3, rfl⟩ := List.forall₂_cons_left_iff.1 p2
    rw [part_word _ a1 _ h1, part_word _ a2 _ h2, part_word _ a3 _ h3] at he
    exact close u c!"Ph" 'D' (u3.flatten ++ z) (by decide) (by rw [he]; simp)
  · refine start _ ?_
    intro u as z hp he
    obtain ⟨a1, u1, h1, p1, rfl⟩ := List.forall₂_cons_left_iff.1 hp
    obtain ⟨a2, u2, h2, p2, rfl⟩ := List.forall₂_cons_left_iff.1 p1
    obtain ⟨a3, u3, h3, p3, rfl⟩ := List.forall₂_cons_left_iff.1 p2
    obtain ⟨alt, hm, he1⟩ := h1
    simp only [List.mem_singleton] at hm
    subst hm
    obtain ⟨c, v, hk, hv, rfl⟩ := List.forall₂_cons_left_iff.1 he1
    rw [List.forall₂_nil_left_iff.1 hv] at he
    obtain ⟨l, rfl, hl⟩ := part_letter a2 h2
    rw [part_word _ a3 _ h3] at he
    exact one u c l (u3.flatten ++ z) hk hl (by rw [he]; simp)
  · refine start _ ?_
    intro u as z hp he
    obtain ⟨a1, u1, h1, p1, rfl⟩ := List.forall₂_cons_left_iff.1 hp
    obtain ⟨alt, hm, he1⟩ := h1
    have hm' : ∃ ks, alt = .upper :: .lit '.' :: .upper :: ks := by
      simp only [kept, acronyms, List.mem_cons, List.not_mem_nil, or_false] at hm
      rcases hm with rfl | rfl <;> exact ⟨_, rfl⟩
    obtain ⟨ks, rfl⟩ := hm'
    obtain ⟨c1, v1, k1, e1, rfl⟩ := List.forall₂_cons_left_iff.1 he1
    obtain ⟨c2, v2, k2, e2, rfl⟩ := List.forall₂_cons_left_iff.1 e1
    obtain ⟨c3, v3, k3, e3, rfl⟩ := List.forall₂_cons_left_iff.1 e2
    simp only [Cls.has, beq_iff_eq] at k2
    subst k2
    exact close u [c1] c3 (v3 ++ (u1.flatten ++ z))
      (alpha_ne_blank c3 (by simp only [Cls.has] at k3; simp [isAlpha, k3])) (by rw [he]; simp)
  · refine start _ ?_
    intro u as z hp he
    obtain ⟨a1, u1, h1, p1, rfl⟩ := List.forall₂_cons_left_iff.1 hp
    obtain ⟨a2, u2, h2, p2, rfl⟩ := List.forall₂_cons_left_iff.1 p1
    obtain ⟨a3, u3, h3, p3, rfl⟩ := List.forall₂_cons_left_iff.1 p2
    obtain ⟨l1, rfl, hl1⟩ := part_letter a1 h1
    obtain ⟨l3, rfl, hl3⟩ := part_letter a3 h3
    rw [part_word _ a2 _ h2] at he
    exact close u [l1] l3 (u3.flatten ++ z) (alpha_ne_blank l3 hl3) (by rw [he]; simp)
  · refine start _ ?_
    intro u as z hp he
    obtain ⟨a1, u1, h1, p1, rfl⟩ := List.forall₂_cons_left_iff.1 hp
    obtain ⟨a2, u2, h2, p2, rfl⟩ := List.forall₂_cons_left_iff.1 p1
    obtain ⟨a3, u3, h3, p3, rfl⟩ := List.forall₂_cons_left_iff.1 p2
    obtain ⟨l1, rfl, hl1⟩ := part_letter a1 h1
    obtain ⟨l3, rfl, hl3⟩ := part_letter a3 h3
    rw [part_word _ a2 _ h2] at he
    exact close u [l1] l3 (u3.flatten ++ z) (alpha_ne_blank l3 hl3) (by rw [he]; simp)
  · refine start _ ?_
    intro u as z hp he
    obtain ⟨a1, u1, h1, p1, rfl⟩ := List.forall₂_cons_left_iff.1 hp
    obtain ⟨a2, u2, h2, p2, rfl⟩ := List.forall₂_cons_left_iff.1 p1
    obtain ⟨a3, u3, h3, p3, rfl⟩ := List.forall₂_cons_left_iff.1 p2
    rw [part_word _ a1 _ h1, part_word _ a3 _ h3] at he
    exact suf u a2 (' ' :: (u3.flatten ++ z)) (part_words suffixes a2 _ h2) (by rw [he]; simp)
  · refine start _ ?_
    intro u as z hp he
    obtain ⟨a1, u1, h1, p1, rfl⟩ := List.forall₂_cons_left_iff.1 hp
    obtain ⟨a2, u2, h2, p2, rfl⟩ := List.forall₂_cons_left_iff.1 p1
    obtain ⟨a3, u3, h3, p3, rfl⟩ := List.forall₂_cons_left_iff.1 p2
    rw [part_word _ a1 _ h1, part_word _ a3 _ h3] at he
    exact suf u a2 (u3.flatten ++ z) (part_words suffixes a2 _ h2) (by rw [he]; simp)
  · refine start _ ?_
    intro u as z hp he
    obtain ⟨a1, u1, h1, p1, rfl⟩ := List.forall₂_cons_left_iff.1 hp
    obtain ⟨a2, u2, h2, p2, rfl⟩ := List.forall₂_cons_left_iff.1 p1
    obtain ⟨a3, u3, h3, p3, rfl⟩ := List.forall₂_cons_left_iff.1 p2
    obtain ⟨l, rfl, hl⟩ := part_letter a2 h2
    rw [part_word _ a1 _ h1, part_word _ a3 _ h3] at he
    exact one u ' ' l (u3.flatten ++ z) (by decide) hl (by rw [he]; simp)
  · exact char _ _ _ (by decide)
  · exact char _ _ _ (by decide)
  · exact char _ _ _ (by decide)
  · exact char _ _ _ (by decide)

/-- The last four statements, character by character. -/
def ends (s : Str) : Str :=
  s.flatMap fun c => if c = ';' ∨ c = '.' ∨ c = '?' ∨ c = '!' then c :: c!"<stop>" else [c]

theorem late_rules (s : Str) : (rules.drop 15).foldl (fun s r => r.apply s) s = ends s := by
  have : rules.drop 15 =
      [ { items := [swap c!";" [.chr ';', .stop]] }, { items := [swap c!"." [.chr '.', .stop]] },
        { items := [swap c!"?" [.chr '?', .stop]] }, { items := [swap c!"!" [.chr '!', .stop]] } ] := rfl
  rw [this]
  simp only [List.foldl_cons, List.foldl_nil, apply_free, sub_char]
  unfold ends
  simp only [List.flatMap_assoc]
  congr 1
  funext c
  by_cases h1 : c = ';'
  · subst h1; decide
  · by_cases h2 : c = '.'
    · subst h2; decide
    · by_cases h3 : c = '?'
      · subst h3; decide
      · by_cases h4 : c = '!'
        · subst h4; decide
        · simp [h1, h2, h3, h4]

theorem ends_append (a b : Str) : ends (a ++ b) = ends a ++ ends b := by simp [ends]

theorem ends_clean (b : Str) (h : ∀ c ∈ b, c ∉ c!".?!;") : ends b = b := by
  induction b with
  | nil => rfl
  | cons c b ih =>
    have hc := h c (by simp)
    simp only [List.mem_cons, List.not_mem_nil, or_false, not_or] at hc
    have : ends (c :: b) = (if c = ';' ∨ c = '.' ∨ c = '?' ∨ c = '!' then c :: c!"<stop>" else [c]) ++
        ends b := rfl
    rw [this, if_neg (by simp [hc]), ih (fun c h' => h c (by simp [h']))]
    rfl

theorem ends_plain (x : Str) (h : Plain x) : ends x = x ++ c!"<stop>" := by
  obtain ⟨b, e, rfl, he, hb, _, _⟩ := h
  rw [ends_append, ends_clean b]
  · rcases he with rfl | rfl | rfl | rfl <;> simp [ends]
  · intro c hc hm
    refine hb c hc ?_
    simp only [List.mem_cons, List.not_mem_nil, or_false] at hm ⊢
    rcases hm with h | h | h | h <;> simp [h]

/-- The text with its marks. -/
def cut : List Str → Str
  | [] => c!"  "
  | x :: xs => ' ' :: (x ++ (c!"<stop>" ++ cut xs))

theorem ends_frame (xs : List Str) (h : ∀ x ∈ xs, Plain x) : ends (frame xs) = cut xs := by
  induction xs with
  | nil => decide
  | cons x xs ih =>
    have : frame (x :: xs) = c!" " ++ x ++ frame xs := by simp [frame]
    rw [this, ends_append, ends_append, ends_plain x (h x (by simp)),
      ih (fun y h' => h y (by simp [h']))]
    simp [ends, cut]

theorem replace_free (a z : Str) (h : '<' ∉ a) :
    replaceAll c!"<prd>" c!"." (a ++ z) = a ++ replaceAll c!"<prd>" c!"." z := by
  induction a with
  | nil => rfl
  | cons c a ih =>
    simp only [List.mem_cons, not_or] at h
    rw [List.cons_append, replace_chr c _ (fun e => absurd e.symm h.1), ih h.2]
    rfl

theorem split_free (a z : Str) (h : '<' ∉ a) :
    ∃ l ls, splitStr c!"<stop>" z = l :: ls ∧ splitStr c!"<stop>" (a ++ z) = (a ++ l) :: ls := by
  induction a with
  | nil =>
    cases hs : splitStr c!"<stop>" z with
    | nil => exact absurd hs (split_ne_nil z)
    | cons l ls => exact ⟨l, ls, rfl, hs⟩
  | cons c a ih =>
    simp only [List.mem_cons, not_or] at h
    obtain ⟨l, ls, h1, h2⟩ := ih h.2
    obtain ⟨l', ls', h3, h4⟩ := split_chr c (a ++ z) (fun e => absurd e.symm h.1)
    rw [h2] at h3
    cases h3
    exact ⟨l, ls, h1, h4⟩

theorem plain_free (x : Str) (h : Plain x) : '<' ∉ x := fun hm => plain_char h hm (by decide)

theorem replace_cut (xs : List Str) (h : ∀ x ∈ xs, Plain x) :
    replaceAll c!"<prd>" c!"." (cut xs) = cut xs := by
  induction xs with
  | nil => decide
  | cons x xs ih =>
    have h1 := plain_free x (h x (by simp))
    have : cut (x :: xs) = (' ' :: x) ++ (c!"<stop>" ++ cut xs) := by simp [cut]
    rw [this, replace_free _ _ (by simpa using h1), replace_stop, ih (fun y h' => h y (by simp [h']))]

theorem split_cut (xs : List Str) (h : ∀ x ∈ xs, Plain x) :
    splitStr c!"<stop>" (cut xs) = xs.map (' ' :: ·) ++ [c!"  "] := by
  induction xs with
  | nil => decide
  | cons x xs ih =>
    have h1 := plain_free x (h x (by simp))
    have : cut (x :: xs) = (' ' :: x) ++ (c!"<stop>" ++ cut xs) := by simp [cut]
    obtain ⟨l, ls, h2, h3⟩ := split_free (' ' :: x) (c!"<stop>" ++ cut xs) (by simpa using h1)
    rw [split_stop] at h2
    cases h2
    rw [this, h3, ih (fun y h' => h y (by simp [h']))]
    simp

theorem strip_plain (x : Str) (h : Plain x) : strip (' ' :: x) = x := by
  obtain ⟨b, e, rfl, he, hb, hh, _⟩ := h
  have h1 : lstrip (' ' :: (b ++ [e])) = b ++ [e] := by
    unfold lstrip
    rw [List.dropWhile_cons_of_pos (by decide)]
    cases b with
    | nil =>
      have := hh e rfl
      simp [this]
    | cons c b =>
      have := hh c rfl
      simp [this]
  have h2 : pySpace e = false := by
    rcases he with rfl | rfl | rfl | rfl <;> decide
  unfold strip rstrip
  rw [h1, List.reverse_append]
  simp [h2]

/-- **C105.** A text of plain sentences, with a blank between them, is cut into just these
sentences. -/
theorem plain_exact (xs : List Str) (hne : xs ≠ []) (h : ∀ x ∈ xs, Plain x) :
    sentences (join c!" " xs) = xs := by
  have hearly : ∀ (rs : List Rule) (s : Str), (∀ r ∈ rs, r.apply s = s) →
      rs.foldl (fun s r => r.apply s) s = s := by
    intro rs s
    induction rs with
    | nil => intro _; rfl
    | cons r rs ih =>
      intro h
      rw [List.foldl_cons, h r (by simp)]
      exact ih (fun r h' => h r (by simp [h']))
  have hm : marked (join c!" " xs) = cut xs := by
    unfold marked
    rw [frame_join xs hne, ← List.take_append_drop 15 rules, List.foldl_append,
      hearly _ _ (early_rules (frame xs) ?_ (frame_dot xs h)), late_rules, ends_frame xs h,
      replace_cut xs h]
    intro c hc hb
    refine frame_char xs h c hc ?_
    simp only [List.mem_cons, List.not_mem_nil, or_false] at hb ⊢
    exact .inr hb
  unfold sentences
  rw [hm, split_cut xs h]
  simp only [List.getLast?_concat, if_true, List.dropLast_concat, List.map_map]
  conv_rhs => rw [← List.map_id xs]
  refine List.map_congr_left ?_
  intro x hx
  exact strip_plain x (h x hx)

theorem plain_example : Plain c!"Steel is made." := by
  refine ⟨c!"Steel is made", '.', rfl, .inl rfl, by decide, ?_, ?_⟩
  · intro c hc
    have : c = 'S' := by simpa using hc.symm
    subst this
    decide
  · rintro - (⟨w, hw, hs⟩ | ⟨w, hw, hs⟩ | ⟨c, _, hs | ⟨s, hs, hc⟩⟩)
    · have : ∀ w ∈ [c!"Mr", c!"St", c!"Mrs", c!"Ms", c!"Dr"], ¬ w <:+ c!"Steel is made" := by decide
      exact this w hw hs
    · have : ∀ w ∈ [c!"Inc", c!"Ltd", c!"Jr", c!"Sr", c!"Co"], c!"Steel is made" ≠ w ∧
          ¬ ' ' :: w <:+ c!"Steel is made" := by decide
      exact hs.elim (this w hw).1 (this w hw).2
    · cases hs
    · obtain ⟨u, hu⟩ := hc
      have := congrArg (fun s => s.reverse.take 2) hu
      simp only [List.reverse_append] at this
      simp at this
      rw [this.2] at hs
      revert hs
      decide

example : sentences c!"Steel is made. Steel is made." = [c!"Steel is made.", c!"Steel is made."] :=
  plain_exact [c!"Steel is made.", c!"Steel is made."] (by simp)
    (fun x hx => by
      simp only [List.mem_cons, List.not_mem_nil, or_false, or_self] at hx
      exact hx ▸ plain_example)

/-- The abbreviations the code knows do not end a sentence, -/
theorem abbreviations_kept :
    (∀ w ∈ [c!"Mr", c!"St", c!"Mrs", c!"Ms", c!"Dr", c!"Inc", c!"Ltd", c!"Jr", c!"Sr", c!"Co", c!"Ph.D",
        c!"A", c!"e.g", c!"U.S", c!"a.b.c"],
      sentences (c!"by " ++ w ++ c!". and so on.") = [c!"by " ++ w ++ c!". and so on."]) ∧
    ∀ w ∈ [c!"com", c!"net", c!"org", c!"io", c!"gov"],
      sentences (c!"see lca." ++ w ++ c!" for more!") = [c!"see lca." ++ w ++ c!" for more!"] := by
  decide +kernel

/-- but a sentence can begin after those at the end of a name, whose full stop is then lost, or after
an acronym. -/
theorem openers_start :
    (∀ q ∈ companies, ∀ w ∈ openers, sentences (c!"by " ++ q ++ c!" " ++ w ++ c!" or") =
      [c!"by " ++ q.dropLast, w ++ c!" or"]) ∧
    (∀ w ∈ openers, sentences (c!"the U.S. " ++ w ++ c!" or") = [c!"the U.S.", w ++ c!" or"]) ∧
    ∀ w ∈ openers, sentences (c!"the U.S.A. " ++ w ++ c!" or") = [c!"the U.S.A.", w ++ c!" or"] := by
  decide +kernel

/-- A longer word that only begins like one of those (apart from the titles and "Wherever") opens no sentence. -/
theorem longer_words_open_nothing : ∀ w ∈ [c!"He", c!"She", c!"It", c!"They", c!"Their", c!"Our", c!"We",
    c!"But", c!"However", c!"That", c!"This"], ∀ c ∈ [c!"x", c!",", c!"s"],
    sentences (c!"the U.S. " ++ w ++ c ++ c!" or") = [c!"the U.S. " ++ w ++ c ++ c!" or"] ∧
    sentences (c!"by Ltd. " ++ w ++ c ++ c!" or") = [c!"by Ltd. " ++ w ++ c ++ c!" or"] := by decide +kernel

/-- Other abbreviations end a sentence, and so does the point of an address or a number. -/
theorem other_points_cut :
    sentences c!"approx. 10 kg" = [c!"approx.", c!"10 kg"] ∧
    sentences c!"see www.lca.ch" = [c!"see www.", c!"lca.", c!"ch"] ∧
    sentences c!"0.5 kg" = [c!"0.", c!"5 kg"] := by decide +kernel

end Verif.Sentences
