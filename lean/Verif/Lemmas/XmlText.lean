/-
Texts of an XML file: what is written for a text is read as the text.
-/
import Verif.Model.XmlWrite
import Verif.Model.XmlParse

namespace Verif.XmlWrite
open Verif.XmlParse

theorem take_until {q : Char} {a : Str} (r : Str) (h : ∀ c ∈ a, c ≠ q) :
    (a ++ q :: r).takeWhile (· != q) = a := by
  induction a with
  | nil => simp
  | cons c a ih =>
    have hc : (c != q) = true := by simpa using h c (by simp)
    rw [List.cons_append, List.takeWhile_cons, if_pos hc, ih fun c hc => h c (by simp [hc])]

theorem drop_until {q : Char} {a : Str} (r : Str) (h : ∀ c ∈ a, c ≠ q) :
    (a ++ q :: r).dropWhile (· != q) = q :: r := by
  induction a with
  | nil => simp
  | cons c a ih =>
    have hc : (c != q) = true := by simpa using h c (by simp)
    rw [List.cons_append, List.dropWhile_cons, if_pos hc, ih fun c hc => h c (by simp [hc])]

theorem take_prefix {p : Char → Bool} {a : Str} {c : Char} (r : Str) (h : ∀ x ∈ a, p x = true) (hc : p c = false) :
    (a ++ c :: r).takeWhile p = a := by
  induction a with
  | nil => simp [hc]
  | cons x a ih =>
    rw [List.cons_append, List.takeWhile_cons, if_pos (h x (by simp)), ih fun y hy => h y (by simp [hy])]

theorem drop_prefix {p : Char → Bool} {a : Str} {c : Char} (r : Str) (h : ∀ x ∈ a, p x = true) (hc : p c = false) :
    (a ++ c :: r).dropWhile p = c :: r := by
  induction a with
  | nil => simp [hc]
  | cons x a ih =>
    rw [List.cons_append, List.dropWhile_cons, if_pos (h x (by simp)), ih fun y hy => h y (by simp [hy])]

/-! ### Texts of elements -/

theorem escChar_cases (c : Char) : (c = '&' ∧ escChar c = c!"&amp;") ∨ (c = '<' ∧ escChar c = c!"&lt;") ∨
    (c = '>' ∧ escChar c = c!"&gt;") ∨ (c ≠ '&' ∧ c ≠ '<' ∧ c ≠ '>' ∧ escChar c = [c]) := by
  unfold escChar
  by_cases h1 : c = '&'
  · simp [h1]
  · by_cases h2 : c = '<'
    · simp [h2]
    · by_cases h3 : c = '>'
      · simp [h3]
      · simp [h1, h2, h3]

theorem escape_nil : escape [] = [] := rfl
theorem escape_cons (c : Char) (s : Str) : escape (c :: s) = escChar c ++ escape s := rfl

theorem escape_safe (s : Str) : ∀ c ∈ escape s, c ≠ '<' ∧ c ≠ '>' := by
  induction s with
  | nil => simp [escape_nil]
  | cons c s ih =>
    intro x hx
    rw [escape_cons, List.mem_append] at hx
    rcases hx with hx | hx
    · rcases escChar_cases c with ⟨_, h⟩ | ⟨_, h⟩ | ⟨_, h⟩ | ⟨_, h2, h3, h⟩ <;> rw [h] at hx
      · revert x; decide
      · revert x; decide
      · revert x; decide
      · simp at hx; subst hx; exact ⟨h2, h3⟩
    · exact ih x hx

theorem decode_escape (s r : Str) : decode none (escape s ++ r) = (decode none r).map (s ++ ·) := by
  induction s with
  | nil => simp [escape_nil]
  | cons c s ih =>
    rw [escape_cons, List.append_assoc]
    have key : decode none (escChar c ++ (escape s ++ r)) = (decode none (escape s ++ r)).map (c :: ·) := by
      rcases escChar_cases c with ⟨hc, h⟩ | ⟨hc, h⟩ | ⟨hc, h⟩ | ⟨h1, h2, h3, h⟩ <;> rw [h]
      · subst hc; simp [decode, refChar]
      · subst hc; simp [decode, refChar]
      · subst hc; simp [decode, refChar]
      · simp [decode, h1]
    rw [key, ih, Option.map_map]
    rfl

theorem xmlChar_escChar (c : Char) : (escChar c).all xmlChar = xmlChar c := by
  rcases escChar_cases c with ⟨hc, h⟩ | ⟨hc, h⟩ | ⟨hc, h⟩ | ⟨_, _, _, h⟩ <;> rw [h]
  · subst hc; decide
  · subst hc; decide
  · subst hc; decide
  · simp

theorem xmlChar_escape (s : Str) : (escape s).all xmlChar = s.all xmlChar := by
  induction s with
  | nil => rfl
  | cons c s ih => rw [escape_cons, List.all_append, xmlChar_escChar, ih, List.all_cons]

/-! ### Ends of lines -/

/-- The next text does not continue an end of line. -/
def Joins (a b : Str) : Prop := a.getLast? = some '\r' → b.head? ≠ some '\n'

theorem normNl_cons {c : Char} (h : c ≠ '\r') (l : Str) : normNl (c :: l) = c :: normNl l := by
  rw [normNl]
  · intro l h'; exact absurd h' h
  · exact h

theorem normNl_append (a b : Str) (h : Joins a b) : normNl (a ++ b) = normNl a ++ normNl b := by
  induction a using normNl.induct with
  | case1 => rfl
  | case2 l ih =>
    simp only [List.cons_append, normNl]
    rw [ih]
    intro hl
    apply h
    rw [List.getLast?_cons_cons]
    cases l with
    | nil => simp at hl
    | cons x l => rw [List.getLast?_cons_cons]; exact hl
  | case3 l hl ih =>
    cases l with
    | nil =>
      cases b with
      | nil => rfl
      | cons c b =>
        have hc : c ≠ '\n' := by
          intro hc; subst hc; exact h (by simp) (by simp)
        rw [List.singleton_append, normNl]
        · rfl
        · intro l' he; simp only [List.cons.injEq] at he; exact hc he.1
    | cons x l =>
      have hx : x ≠ '\n' := fun hx => hl l (by rw [hx])
      rw [List.cons_append, List.cons_append, normNl, normNl, ← List.cons_append, ih, List.cons_append]
      · intro hl'; apply h; rw [List.getLast?_cons_cons]; exact hl'
      · intro l' he; simp only [List.cons.injEq] at he; exact hx he.1
      · intro l' he; simp only [List.cons.injEq] at he; exact hx he.1
  | case4 c l h1 h2 ih =>
    rw [List.cons_append, normNl_cons h2, normNl_cons h2, ih, List.cons_append]
    intro hl
    apply h
    cases l with
    | nil => simp at hl
    | cons x l => rw [List.getLast?_cons_cons]; exact hl

theorem normNl_id {s : Str} (h : '\r' ∉ s) : normNl s = s := by
  induction s with
  | nil => rfl
  | cons c s ih =>
    rw [normNl_cons (fun hc => h (by simp [hc])), ih fun hc => h (by simp [hc])]

theorem joins_left {a b : Str} (h : '\r' ∉ a) : Joins a b := by
  intro hl
  exact absurd (List.mem_of_getLast? hl) h

theorem joins_head {a b : Str} {c : Char} (h : c ≠ '\n') : Joins a (c :: b) := by
  intro _; simpa using h

theorem normNl_noCr (s : Str) : '\r' ∉ normNl s := by
  induction s using normNl.induct with
  | case1 => simp [normNl]
  | case2 l ih => rw [normNl]; simp [ih]
  | case3 l hl ih => rw [normNl]; simp [ih]; exact hl
  | case4 c l h1 h2 ih =>
    rw [normNl_cons h2]
    simp only [List.mem_cons, not_or]
    exact ⟨fun hc => h2 hc.symm, ih⟩

theorem escape_cr (s : Str) : '\r' ∈ escape s ↔ '\r' ∈ s := by
  induction s with
  | nil => simp [escape_nil]
  | cons c s ih =>
    rw [escape_cons, List.mem_append, ih, List.mem_cons]
    apply or_congr _ Iff.rfl
    rcases escChar_cases c with ⟨hc, h⟩ | ⟨hc, h⟩ | ⟨hc, h⟩ | ⟨_, _, _, h⟩ <;> rw [h]
    · subst hc; decide
    · subst hc; decide
    · subst hc; decide
    · simp

theorem escape_append (a b : Str) : escape (a ++ b) = escape a ++ escape b := by
  simp [escape]

theorem normNl_escape (s : Str) : normNl (escape s) = escape (normNl s) := by
  induction s using normNl.induct with
  | case1 => rfl
  | case2 l ih =>
    have h1 : escape ('\r' :: '\n' :: l) = '\r' :: '\n' :: escape l := by simp [escape_cons, escChar]
    rw [h1, normNl, normNl, ih]
    simp [escape_cons, escChar]
  | case3 l hl ih =>
    have h1 : escape ('\r' :: l) = '\r' :: escape l := by simp [escape_cons, escChar]
    have h2 : ∀ l', escape l = '\n' :: l' → False := by
      intro l' he
      cases l with
      | nil => simp [escape_nil] at he
      | cons x l =>
        rw [escape_cons] at he
        rcases escChar_cases x with ⟨hc, h⟩ | ⟨hc, h⟩ | ⟨hc, h⟩ | ⟨_, _, _, h⟩ <;> rw [h] at he <;>
          simp at he
        exact hl l (by rw [he.1])
    rw [h1, normNl, normNl, ih]
    · simp [escape_cons, escChar]
    · exact hl
    · exact h2
  | case4 c l h1 h2 ih =>
    rw [normNl_cons h2, escape_cons, escape_cons, normNl_append, ih]
    · congr 1
      rcases escChar_cases c with ⟨hc, h⟩ | ⟨hc, h⟩ | ⟨hc, h⟩ | ⟨_, _, _, h⟩ <;> rw [h]
      · subst hc; decide
      · subst hc; decide
      · subst hc; decide
      · exact normNl_cons h2 []
    · apply joins_left
      rcases escChar_cases c with ⟨hc, h⟩ | ⟨hc, h⟩ | ⟨hc, h⟩ | ⟨_, _, _, h⟩ <;> rw [h]
      · subst hc; decide
      · subst hc; decide
      · subst hc; decide
      · simpa using fun hc => h2 hc.symm

theorem normNl_xmlChar (s : Str) : (normNl s).all xmlChar = s.all xmlChar := by
  induction s using normNl.induct with
  | case1 => rfl
  | case2 l ih => rw [normNl]; simp [ih, xmlChar]
  | case3 l hl ih =>
    rw [normNl]
    · simp [ih, xmlChar]
    · exact hl
  | case4 c l h1 h2 ih => rw [normNl_cons h2]; simp [ih]

/-! ### Values of attributes -/

theorem escAttrChar_cases (c : Char) :
    (c = '\n' ∧ escAttrChar c = c!"&#10;") ∨ (c = '\r' ∧ escAttrChar c = c!"&#13;") ∨
    (c = '\t' ∧ escAttrChar c = c!"&#9;") ∨ (c = '&' ∧ escAttrChar c = c!"&amp;") ∨
    (c = '<' ∧ escAttrChar c = c!"&lt;") ∨ (c = '>' ∧ escAttrChar c = c!"&gt;") ∨
    (c ≠ '\n' ∧ c ≠ '\r' ∧ c ≠ '\t' ∧ c ≠ '&' ∧ c ≠ '<' ∧ c ≠ '>' ∧ escAttrChar c = [c]) := by
  unfold escAttrChar
  by_cases h1 : c = '\n'
  · simp [h1]
  · by_cases h2 : c = '\r'
    · simp [h2]
    · by_cases h3 : c = '\t'
      · simp [h3]
      · rcases escChar_cases c with ⟨hc, h⟩ | ⟨hc, h⟩ | ⟨hc, h⟩ | ⟨h4, h5, h6, h⟩
        · subst hc; simp [h]
        · subst hc; simp [h]
        · subst hc; simp [h]
        · simp [h1, h2, h3, h4, h5, h6, h]

theorem attrSpace_id {c : Char} (h1 : c ≠ '\n') (h2 : c ≠ '\r') (h3 : c ≠ '\t') : attrSpace c = c := by
  unfold attrSpace xmlSpace
  by_cases h : c = ' '
  · subst h; rfl
  · simp [h, h1, h2, h3]

theorem decode_attrChar (c : Char) (r : Str) :
    decode none ((escAttrChar c).map attrSpace ++ r) = (decode none r).map (c :: ·) := by
  have e10 : refChar c!"#10" = some '\n' := by decide
  have e13 : refChar c!"#13" = some '\r' := by decide
  have e9 : refChar c!"#9" = some '\t' := by decide
  rcases escAttrChar_cases c with ⟨hc, h⟩ | ⟨hc, h⟩ | ⟨hc, h⟩ | ⟨hc, h⟩ | ⟨hc, h⟩ | ⟨hc, h⟩ | ⟨h1, h2, h3, h4, _, _, h⟩ <;>
    rw [h]
  · subst hc; simp [decode, attrSpace, xmlSpace, e10]
  · subst hc; simp [decode, attrSpace, xmlSpace, e13]
  · subst hc; simp [decode, attrSpace, xmlSpace, e9]
  · subst hc; simp [decode, attrSpace, xmlSpace, refChar]
  · subst hc; simp [decode, attrSpace, xmlSpace, refChar]
  · subst hc; simp [decode, attrSpace, xmlSpace, refChar]
  · simp [decode, attrSpace_id h1 h2 h3, h4]

theorem decode_attr (s r : Str) :
    decode none ((s.flatMap escAttrChar).map attrSpace ++ r) = (decode none r).map (s ++ ·) := by
  induction s with
  | nil => simp
  | cons c s ih =>
    rw [List.flatMap_cons, List.map_append, List.append_assoc, decode_attrChar, ih, Option.map_map]
    rfl

/-- One character of a value that has both kinds of quotes. -/
theorem escBoth_cases (c : Char) :
    (c = '"' ∧ (escAttrChar c).flatMap escQuote = c!"&quot;") ∨
    (c ≠ '"' ∧ (escAttrChar c).flatMap escQuote = escAttrChar c) := by
  by_cases hq : c = '"'
  · subst hq; left; exact ⟨rfl, by decide⟩
  · right
    refine ⟨hq, ?_⟩
    rcases escAttrChar_cases c with ⟨hc, h⟩ | ⟨hc, h⟩ | ⟨hc, h⟩ | ⟨hc, h⟩ | ⟨hc, h⟩ | ⟨hc, h⟩ | ⟨h1, h2, h3, h4, _, _, h⟩ <;>
      rw [h]
    · decide
    · decide
    · decide
    · decide
    · decide
    · decide
    · simp [escQuote, hq]

theorem decode_both (s r : Str) :
    decode none (((s.flatMap escAttrChar).flatMap escQuote).map attrSpace ++ r) = (decode none r).map (s ++ ·) := by
  induction s with
  | nil => simp
  | cons c s ih =>
    rw [List.flatMap_cons, List.flatMap_append, List.map_append, List.append_assoc]
    have key : ∀ t, decode none (((escAttrChar c).flatMap escQuote).map attrSpace ++ t) = (decode none t).map (c :: ·) := by
      intro t
      rcases escBoth_cases c with ⟨hc, h⟩ | ⟨_, h⟩ <;> rw [h]
      · subst hc; simp [decode, attrSpace, xmlSpace, refChar]
      · exact decode_attrChar c t
    rw [key, ih, Option.map_map]
    rfl

theorem attr_safe (s : Str) : ∀ c ∈ s.flatMap escAttrChar, c ≠ '<' ∧ c ≠ '\r' ∧ c ≠ '\n' := by
  intro x hx0
  obtain ⟨c, _, hx⟩ := List.mem_flatMap.1 hx0
  clear hx0
  rcases escAttrChar_cases c with ⟨hc, h⟩ | ⟨hc, h⟩ | ⟨hc, h⟩ | ⟨hc, h⟩ | ⟨hc, h⟩ | ⟨hc, h⟩ | ⟨h1, h2, h3, h4, h5, _, h⟩ <;>
    rw [h] at hx
  · revert x; decide
  · revert x; decide
  · revert x; decide
  · revert x; decide
  · revert x; decide
  · revert x; decide
  · simp at hx; subst hx; exact ⟨h5, h2, h1⟩

theorem both_safe (s : Str) : ∀ c ∈ (s.flatMap escAttrChar).flatMap escQuote, c ≠ '<' ∧ c ≠ '\r' ∧ c ≠ '\n' ∧ c ≠ '"' := by
  intro x hx0
  obtain ⟨c, hc, hx⟩ := List.mem_flatMap.1 hx0
  clear hx0
  have hs := attr_safe s c hc
  by_cases hq : c = '"'
  · subst hq; clear hs hc; revert x; decide
  · simp [escQuote, hq] at hx; subst hx; exact ⟨hs.1, hs.2.1, hs.2.2, hq⟩

/-- The value of an attribute comes back, whatever it is. -/
theorem attrValue_quoteattr (s r : Str) : attrValue (quoteattr s ++ r) = some (s, r) := by
  have d0 : decode none [] = some [] := rfl
  unfold quoteattr
  by_cases hq : '"' ∈ s.flatMap escAttrChar
  · by_cases ha : '\'' ∈ s.flatMap escAttrChar
    · simp only [hq, ha, if_true, List.cons_append, List.append_assoc, List.nil_append, attrValue, true_or]
      rw [take_until _ fun c hc => (both_safe s c hc).2.2.2, drop_until _ fun c hc => (both_safe s c hc).2.2.2,
        if_neg fun h => (both_safe s _ h).1 rfl]
      have := decode_both s []
      rw [List.append_nil, d0] at this
      simp [this]
    · have hs : ∀ c ∈ s.flatMap escAttrChar, c ≠ '\'' := fun c hc he => ha (he ▸ hc)
      simp only [hq, ha, if_true, if_false, List.cons_append, List.append_assoc, List.nil_append, attrValue, or_true]
      rw [take_until _ hs, drop_until _ hs, if_neg fun h => (attr_safe s _ h).1 rfl]
      have := decode_attr s []
      rw [List.append_nil, d0] at this
      simp [this]
  · have hs : ∀ c ∈ s.flatMap escAttrChar, c ≠ '"' := fun c hc he => hq (he ▸ hc)
    simp only [hq, if_false, List.cons_append, List.append_assoc, List.nil_append, attrValue, true_or, if_true]
    rw [take_until _ hs, drop_until _ hs, if_neg fun h => (attr_safe s _ h).1 rfl]
    have := decode_attr s []
    rw [List.append_nil, d0] at this
    simp [this]

theorem quoteattr_head (s : Str) : ∃ q r, quoteattr s = q :: r ∧ (q = '"' ∨ q = '\'') := by
  unfold quoteattr
  dsimp only
  split
  · split
    · exact ⟨_, _, rfl, Or.inl rfl⟩
    · exact ⟨_, _, rfl, Or.inr rfl⟩
  · exact ⟨_, _, rfl, Or.inl rfl⟩

theorem quoteattr_noCr (s : Str) : '\r' ∉ quoteattr s := by
  unfold quoteattr
  dsimp only
  split
  · split
    · simp only [List.mem_cons, List.mem_append, not_or]
      exact ⟨by decide, fun h => (both_safe s _ h).2.1 rfl, by decide, by simp⟩
    · simp only [List.mem_cons, List.mem_append, not_or]
      exact ⟨by decide, fun h => (attr_safe s _ h).2.1 rfl, by decide, by simp⟩
  · simp only [List.mem_cons, List.mem_append, not_or]
    exact ⟨by decide, fun h => (attr_safe s _ h).2.1 rfl, by decide, by simp⟩

theorem xmlChar_escAttrChar (c : Char) : (escAttrChar c).all xmlChar = xmlChar c := by
  rcases escAttrChar_cases c with ⟨hc, h⟩ | ⟨hc, h⟩ | ⟨hc, h⟩ | ⟨hc, h⟩ | ⟨hc, h⟩ | ⟨hc, h⟩ | ⟨_, _, _, _, _, _, h⟩ <;>
    rw [h]
  · subst hc; decide
  · subst hc; decide
  · subst hc; decide
  · subst hc; decide
  · subst hc; decide
  · subst hc; decide
  · simp

theorem xmlChar_attr (s : Str) : (s.flatMap escAttrChar).all xmlChar = s.all xmlChar := by
  induction s with
  | nil => rfl
  | cons c s ih => rw [List.flatMap_cons, List.all_append, xmlChar_escAttrChar, ih, List.all_cons]

theorem xmlChar_both (s : Str) : ((s.flatMap escAttrChar).flatMap escQuote).all xmlChar = s.all xmlChar := by
  induction s with
  | nil => rfl
  | cons c s ih =>
    rw [List.flatMap_cons, List.flatMap_append, List.all_append, ih, List.all_cons]
    congr 1
    rcases escBoth_cases c with ⟨hc, h⟩ | ⟨_, h⟩ <;> rw [h]
    · subst hc; decide
    · exact xmlChar_escAttrChar c

theorem xmlChar_quoteattr (s : Str) : (quoteattr s).all xmlChar = s.all xmlChar := by
  have q1 : xmlChar '"' = true := by decide
  have q2 : xmlChar '\'' = true := by decide
  unfold quoteattr
  dsimp only
  split
  · split
    · simp only [List.all_cons, List.all_append, List.all_nil, xmlChar_both, q1, Bool.true_and, Bool.and_true]
    · simp only [List.all_cons, List.all_append, List.all_nil, xmlChar_attr, q2, Bool.true_and, Bool.and_true]
  · simp only [List.all_cons, List.all_append, List.all_nil, xmlChar_attr, q1, Bool.true_and, Bool.and_true]

end Verif.XmlWrite
