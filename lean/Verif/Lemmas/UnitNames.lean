import Verif.Lemmas.IlcdVars
import Verif.Model.UnitNames

namespace Verif.UnitNames

open Verif.IlcdVars

/-! ### Exponents -/

/-- A predicate on digits. -/
def Digits (p : Char → Bool) : Prop := ∀ c, p c = true → isDigit c = true

theorem digit_not_letter {c : Char} (h : isDigit c = true) : isLetter c = false := by
  simp only [isDigit, Bool.and_eq_true, decide_eq_true_eq, Char.le_def] at h
  simp only [isLetter, Bool.or_eq_false_iff, Bool.and_eq_false_iff, decide_eq_false_iff_not, Char.le_def, UInt32.le_iff_toNat_le] at *
  have e0 : '0'.val.toNat = 48 := rfl
  have e9 : '9'.val.toNat = 57 := rfl
  have ea : 'a'.val.toNat = 97 := rfl
  have eA : 'A'.val.toNat = 65 := rfl
  omega

theorem digits_two : Digits twoToFour := by
  intro c h
  simp only [twoToFour, Bool.or_eq_true, decide_eq_true_eq] at h
  rcases h with (rfl | rfl) | rfl <;> decide

theorem digits_one {d : Char} (hd : isDigit d = true) : Digits (fun c => c = d) := by
  intro c h
  simp only [decide_eq_true_eq] at h
  exact h ▸ hd

/-- The first character stays. -/
theorem powers_head (p : Char → Bool) (c : Char) (s : Str) : ∃ r, powers p (c :: s) = c :: r := by
  rw [powers]
  split
  · exact ⟨_, rfl⟩
  · exact ⟨_, rfl⟩

theorem powers_digit (p : Char → Bool) {c : Char} (h : isDigit c = true) (s : Str) : powers p (c :: s) = c :: powers p s := by
  rw [powers, if_neg]
  rw [digit_not_letter h]
  simp

theorem exponent_powers {p q : Char → Bool} (hq : Digits q) (s : Str) : exponent q (powers p s) = exponent q s := by
  cases s with
  | nil => rfl
  | cons d r =>
    by_cases hd : q d = true
    · rw [powers_digit p (hq d hd)]
      simp only [exponent]
      cases r with
      | nil => rfl
      | cons e r' =>
        obtain ⟨r'', hr⟩ := powers_head p e r'
        rw [hr]
    · obtain ⟨r', hr⟩ := powers_head p d r
      rw [hr]
      simp only [exponent, Bool.not_eq_true] at *
      simp [hd]

theorem exponent_star {q : Char → Bool} (hq : Digits q) (s : Str) : exponent q ('*' :: s) = false := by
  have : q '*' = false := by
    cases h : q '*' with
    | false => rfl
    | true => exact absurd (hq _ h) (by decide)
  simp [exponent, this]

theorem exponent_or (p q : Char → Bool) (s : Str) :
    exponent (fun c => p c || q c) s = (exponent p s || exponent q s) := by
  cases s with
  | nil => rfl
  | cons d r =>
    simp only [exponent]
    exact Bool.and_or_distrib_right _ _ _

/-- Two substitutions are one. -/
theorem powers_powers {p q : Char → Bool} (hq : Digits q) :
    ∀ s : Str, powers q (powers p s) = powers (fun c => p c || q c) s
  | [] => rfl
  | c :: s => by
    have ih := powers_powers (p := p) hq s
    rw [powers, powers, exponent_or]
    by_cases hl : isLetter c = true
    · by_cases hp : exponent p s = true
      · rw [if_pos (by simp [hl, hp]), if_pos (by simp [hl, hp]), powers, if_neg (by simp [exponent_star hq]), powers,
          if_neg (by simp [show isLetter '*' = false from rfl]), powers, if_neg (by simp [show isLetter '*' = false from rfl]), ih]
      · rw [if_neg (by simp [hl, hp]), powers, exponent_powers hq]
        simp only [Bool.not_eq_true] at hp
        simp only [hp, Bool.false_or]
        split
        · rw [ih]
        · rw [ih]
    · rw [if_neg (by simp [hl]), if_neg (by simp [hl]), powers, if_neg (by simp [hl]), ih]

theorem three_powers (s : Str) : ['2', '3', '4'].foldl (fun y x => powers (fun c => c = x) y) s = powers twoToFour s := by
  simp only [List.foldl_cons, List.foldl_nil]
  rw [powers_powers (digits_one (d := '4') (by decide)), powers_powers (p := fun c => c = '2') (q := fun c => c = '3' || c = '4')]
  · congr 1
    funext c
    simp only [twoToFour, Bool.or_assoc]
  · intro c h
    exact digits_two c (by simp only [twoToFour, Bool.or_assoc, h, Bool.or_true])

theorem hasPower_powers {p : Char → Bool} (hp : Digits p) : ∀ s : Str, hasPower p (powers p s) = false
  | [] => rfl
  | c :: s => by
    have ih := hasPower_powers hp s
    rw [powers]
    split
    · simp [hasPower, exponent_star hp, ih, show isLetter '*' = false from rfl]
    · rename_i h
      rw [hasPower, exponent_powers hp, ih]
      simpa using h

theorem powers_none {p : Char → Bool} : ∀ {s : Str}, hasPower p s = false → powers p s = s
  | [], _ => rfl
  | c :: s, h => by
    rw [hasPower, Bool.or_eq_false_iff] at h
    rw [powers, h.1, if_neg (by simp), powers_none h.2]

/-- What follows a character that is no digit is dealt with on its own. -/
theorem powers_append {p : Char → Bool} (hp : Digits p) {c : Char} (hc : isDigit c = false) (t : Str) :
    ∀ s : Str, powers p (s ++ c :: t) = powers p s ++ powers p (c :: t)
  | [] => rfl
  | x :: s => by
    have ih := powers_append hp hc t s
    have : exponent p (s ++ c :: t) = exponent p s := by
      cases s with
      | nil =>
        have : p c = false := by
          cases h : p c with
          | false => rfl
          | true => rw [hp c h] at hc; cases hc
        simp [exponent, this]
      | cons d r =>
        cases r with
        | nil => simp [exponent, hc]
        | cons e r => simp [exponent]
    rw [List.cons_append, powers, powers, this, ih]
    split
    · simp
    · simp

/-- Without the guard. -/
theorem correct_eq (name : Str) : correct name =
    if ∃ f ∈ formulas, isInfix f (basic name) = true then basic name else powers twoToFour (basic name) := by
  simp only [correct, three_powers]
  by_cases hf : ∃ f ∈ formulas, isInfix f (basic name) = true
  · rw [if_pos hf, if_neg]
    obtain ⟨f, hm, hi⟩ := hf
    simp only [Bool.and_eq_true, List.all_eq_true, Bool.not_eq_true', not_and]
    intro _ h
    rw [h f hm] at hi
    cases hi
  · rw [if_neg hf]
    by_cases hh : hasPower twoToFour (basic name) = true
    · rw [if_pos]
      simp only [Bool.and_eq_true, List.all_eq_true, Bool.not_eq_true']
      refine ⟨hh, fun f hm => ?_⟩
      cases h : isInfix f (basic name) with
      | false => rfl
      | true => exact absurd ⟨f, hm, h⟩ hf
    · rw [if_neg (by simp [hh]), powers_none (by simpa using hh)]

/-! ### Replacements -/

/-- What the replacements of single characters make of a character. -/
def sub (c : Char) : Str :=
  if c = ' ' ∨ c = '-' then ['_'] else if c = '.' then ['*'] else if c = '^' then ['*', '*'] else [c]

theorem replaceAll_single (c : Char) (new : Str) : ∀ s : Str,
    replaceAll [c] new s = s.flatMap fun x => if x = c then new else [x]
  | [] => rfl
  | x :: s => by
    have ih := replaceAll_single c new s
    simp only [replaceAll, if_neg (by simp : [c] ≠ [])] at ih ⊢
    by_cases h : x = c
    · subst h
      have := replaceAux_hit (old := [x]) (new := new) (s := s) (by simp)
      rw [show x :: s = [x] ++ s from rfl, this, ih]
      simp
    · rw [replaceAux_miss (by rintro ⟨r, hr⟩; simp only [List.cons_append, List.nil_append, List.cons.injEq] at hr; exact h hr.1), ih]
      simp [h]

theorem replaceAll_none {old new s : Str} (h : old ≠ []) (hn : ¬ ∃ a b, s = a ++ old ++ b) : replaceAll old new s = s := by
  rw [replaceAll, if_neg h, replaceAux_none hn]

theorem not_infix_of_mem {c : Char} {old s : Str} (ho : c ∈ old) (hs : c ∉ s) : ¬ ∃ a b, s = a ++ old ++ b := by
  rintro ⟨a, b, rfl⟩
  exact hs (by simp [ho])

theorem mem_sub {c d : Char} (h : d ∈ sub c) : (d = '_' ∨ d = '*' ∨ d = c) ∧ d ≠ ' ' ∧ d ≠ '-' ∧ d ≠ '.' ∧ d ≠ '^' := by
  unfold sub at h
  split at h
  · simp only [List.mem_singleton] at h; subst h; exact ⟨.inl rfl, by decide⟩
  · split at h
    · simp only [List.mem_singleton] at h; subst h; exact ⟨.inr (.inl rfl), by decide⟩
    · split at h
      · simp only [List.mem_cons, List.not_mem_nil, or_false, or_self] at h; subst h; exact ⟨.inr (.inl rfl), by decide⟩
      · simp only [List.mem_singleton] at h
        subst h
        rename_i h1 h2 h3
        exact ⟨.inr (.inr rfl), fun e => h1 (.inl e), fun e => h1 (.inr e), h2, h3⟩

theorem singles (s : Str) :
    replaceAll c!"^" c!"**" (replaceAll c!"." c!"*" (replaceAll c!"-" c!"_" (replaceAll c!" " c!"_" s))) = s.flatMap sub := by
  rw [show (c!" " : Str) = [' '] from rfl, show (c!"-" : Str) = ['-'] from rfl, show (c!"." : Str) = ['.'] from rfl,
    show (c!"^" : Str) = ['^'] from rfl]
  simp only [replaceAll_single, List.flatMap_assoc]
  congr 1
  funext c
  by_cases h1 : c = ' '
  · subst h1; decide
  by_cases h2 : c = '-'
  · subst h2; decide
  by_cases h3 : c = '.'
  · subst h3; decide
  by_cases h4 : c = '^'
  · subst h4; decide
  simp [sub, h1, h2, h3, h4]

/-- A text without brackets. -/
theorem basic_plain {s : Str} (h : '(' ∉ s) : basic s =
    replaceAll c!"(s)" c!"s" (replaceAll c!"/hp*h" c!"/(hp*h)" (s.flatMap sub)) := by
  simp only [basic, replacements, List.foldl_cons, List.foldl_nil]
  rw [replaceAll_none (old := c!"(2011)") (by decide) (not_infix_of_mem (c := '(') (by decide) h),
    replaceAll_none (old := c!"% (obsolete)") (by decide) (not_infix_of_mem (c := '(') (by decide) h), singles]

theorem bracket_sub {s : Str} (h : '(' ∉ s) : '(' ∉ s.flatMap sub := by
  simp only [List.mem_flatMap, not_exists, not_and]
  intro c hc hm
  rcases (mem_sub hm).1 with e | e | e
  · exact absurd e (by decide)
  · exact absurd e (by decide)
  · exact h (e ▸ hc)

/-- A text without brackets and without `/hp.h`. -/
theorem basic_eq {s : Str} (h : '(' ∉ s) (hh : ¬ ∃ a b, s.flatMap sub = a ++ c!"/hp*h" ++ b) : basic s = s.flatMap sub := by
  rw [basic_plain h, replaceAll_none (old := c!"/hp*h") (by decide) hh,
    replaceAll_none (old := c!"(s)") (by decide) (not_infix_of_mem (c := '(') (by decide) (bracket_sub h))]

theorem powers_noDigit (p : Char → Bool) (hp : Digits p) : ∀ {s : Str}, (∀ c ∈ s, isDigit c = false) → powers p s = s
  | [], _ => rfl
  | c :: s, h => by
    have ih := powers_noDigit p hp (s := s) (fun x hx => h x (by simp [hx]))
    rw [powers, if_neg, ih]
    have : exponent p s = false := by
      cases s with
      | nil => rfl
      | cons d r =>
        have : p d = false := by
          cases hd : p d with
          | false => rfl
          | true => have := hp d hd; rw [h d (by simp)] at this; cases this
        simp [exponent, this]
    simp [this]

/-! ### Parts of a text -/

/-- A part of a text all of whose characters were exchanged. -/
theorem infix_map {f : Char → Char} {s pat : Str} (h : ∃ a b, s.map f = a ++ pat ++ b) :
    ∃ a t b, s = a ++ t ++ b ∧ t.map f = pat := by
  obtain ⟨a, b, h⟩ := h
  obtain ⟨x, y, rfl, h1, h2⟩ := List.map_eq_append_iff.1 h
  obtain ⟨z, w, rfl, h3, h4⟩ := List.map_eq_append_iff.1 h1
  exact ⟨z, w, y, rfl, h4⟩

theorem infix_map_same {f : Char → Char} {s pat : Str} (hf : ∀ d ∈ pat, ∀ c ∈ s, f c = d → c = d)
    (h : ∃ a b, s.map f = a ++ pat ++ b) : ∃ a b, s = a ++ pat ++ b := by
  obtain ⟨a, t, b, rfl, ht⟩ := infix_map h
  refine ⟨a, b, ?_⟩
  have : t = pat := by
    rw [← ht]
    conv_lhs => rw [← List.map_id t]
    refine List.map_congr_left fun c hc => ?_
    exact hf (f c) (ht ▸ List.mem_map_of_mem hc) c (by simp [hc]) rfl
  rw [this]

/-- A part without a certain character lies on one side of it. -/
theorem infix_sep {c : Char} {pat a b : Str} (hc : c ∉ pat) (h : ∃ x y, a ++ c :: b = x ++ pat ++ y) :
    (∃ x y, a = x ++ pat ++ y) ∨ ∃ x y, b = x ++ pat ++ y := by
  obtain ⟨x, y, h⟩ := h
  rw [List.append_assoc] at h
  rcases List.append_eq_append_iff.1 h with ⟨z, hx, hy⟩ | ⟨z, hx, hy⟩
  · cases z with
    | nil =>
      simp only [List.append_nil, List.nil_append] at hx hy
      cases pat with
      | nil => exact .inl ⟨a, [], by simp⟩
      | cons d p =>
        simp only [List.cons_append, List.cons.injEq] at hy
        exact absurd (by simp [hy.1]) hc
    | cons d z =>
      simp only [List.cons_append, List.cons.injEq] at hy
      exact .inr ⟨z, y, by simp [hy.2]⟩
  · rcases List.append_eq_append_iff.1 hy with ⟨w, h1, h2⟩ | ⟨w, h1, h2⟩
    · exact .inl ⟨x, w, by simp [hx, h1]⟩
    · cases w with
      | nil => exact .inl ⟨x, [], by simp [hx, h1]⟩
      | cons d w =>
        simp only [List.cons_append, List.cons.injEq] at h2
        exact absurd (by simp [h1, h2.1]) hc

/-- The first occurrence is replaced. -/
theorem replaceAux_first {c : Char} {o new b : Str} (hc : c ∉ o) : ∀ {a : Str}, (¬ ∃ x y, a = x ++ (c :: o) ++ y) →
    replaceAux (c :: o) new 0 (a ++ (c :: o) ++ b) = a ++ new ++ replaceAux (c :: o) new 0 b
  | [], _ => by
    rw [List.nil_append, replaceAux_hit (by simp)]
    simp
  | x :: a, h => by
    have ih := replaceAux_first (new := new) (b := b) hc (a := a)
      (fun ⟨u, v, e⟩ => h ⟨x :: u, v, by rw [e]; simp⟩)
    simp only [List.cons_append] at ih ⊢
    rw [replaceAux_miss, ih]
    rintro ⟨r, e⟩
    rw [List.cons_append, List.cons.injEq] at e
    have e2 : a ++ (c :: (o ++ b)) = o ++ r := by simpa using e.2
    rcases List.append_eq_append_iff.1 e2 with ⟨z, h1, h2⟩ | ⟨z, h1, h2⟩
    · cases z with
      | nil => exact h ⟨[], [], by simp [e.1, h1]⟩
      | cons d z =>
        simp only [List.cons_append, List.cons.injEq] at h2
        exact hc (by rw [h1]; simp [h2.1])
    · exact h ⟨[], z, by simp [e.1, h1]⟩

/-! ### Brackets -/

/-- Every bracket is followed by an `h`. -/
def follow : Str → Bool
  | [] => true
  | c :: s => (c != '(' || s.head? == some 'h') && follow s

theorem follow_none : ∀ {s : Str}, '(' ∉ s → follow s = true
  | [], _ => rfl
  | c :: s, h => by
    simp only [List.mem_cons, not_or] at h
    have : (c != '(') = true := by simpa using fun e => h.1 e.symm
    simp [follow, this, follow_none h.2]

theorem follow_split : ∀ {a b : Str}, follow (a ++ '(' :: b) = true → b.head? = some 'h'
  | [], b, h => by
    rw [List.nil_append, follow, Bool.and_eq_true] at h
    simpa using h.1
  | c :: a, b, h => by
    rw [List.cons_append, follow, Bool.and_eq_true] at h
    exact follow_split h.2

theorem follow_infix {d : Char} {pat s : Str} (hd : d ≠ 'h') (h : follow s = true) :
    ¬ ∃ a b, s = a ++ ('(' :: d :: pat) ++ b := by
  rintro ⟨a, b, rfl⟩
  rw [List.append_assoc, List.cons_append] at h
  have := follow_split h
  simp only [List.cons_append, List.head?_cons, Option.some.injEq] at this
  exact hd this

theorem follow_append {y : Str} : ∀ {a : Str}, '(' ∉ a → follow (a ++ y) = follow y
  | [], _ => rfl
  | c :: a, h => by
    simp only [List.mem_cons, not_or] at h
    have : (c != '(') = true := by simpa using fun e => h.1 e.symm
    rw [List.cons_append, follow, this, follow_append h.2]
    rfl

/-- The first of the occurrences. -/
theorem first_occurrence {old : Str} : ∀ (n : Nat) {t a b : Str}, a.length ≤ n → t = a ++ old ++ b → old ≠ [] →
    ∃ a b, t = a ++ old ++ b ∧ ¬ ∃ x y, a = x ++ old ++ y
  | n, t, a, b, hn, ht, ho => by
    by_cases h : ∃ x y, a = x ++ old ++ y
    · obtain ⟨x, y, rfl⟩ := h
      have hl : 0 < old.length := List.length_pos_iff.2 ho
      cases n with
      | zero => simp only [List.length_append] at hn; omega
      | succ n =>
        exact first_occurrence n (a := x) (b := y ++ old ++ b) (by simp only [List.length_append] at hn; omega)
          (by rw [ht]; simp) ho
    · exact ⟨a, b, ht, h⟩

/-- Where a part may lie that begins with a character it does not contain again. -/
theorem infix_at {c : Char} {o a r : Str} (hc : c ∉ o) (h : ∃ x y, a ++ c :: r = x ++ (c :: o) ++ y) :
    (∃ x y, a = x ++ (c :: o) ++ y) ∨ (∃ y, r = o ++ y) ∨ ∃ x y, r = x ++ (c :: o) ++ y := by
  obtain ⟨x, y, h⟩ := h
  rw [List.append_assoc] at h
  rcases List.append_eq_append_iff.1 h with ⟨z, hx, hy⟩ | ⟨z, hx, hy⟩
  · cases z with
    | nil =>
      simp only [List.nil_append, List.cons_append, List.cons.injEq, true_and] at hy
      exact .inr (.inl ⟨y, hy⟩)
    | cons d z =>
      simp only [List.cons_append, List.cons.injEq] at hy
      exact .inr (.inr ⟨z, y, by simp [hy.2]⟩)
  · cases z with
    | nil =>
      simp only [List.nil_append, List.cons_append, List.cons.injEq, true_and] at hy
      exact .inr (.inl ⟨y, hy.symm⟩)
    | cons d z =>
      rw [List.cons_append, List.cons_append, List.cons.injEq] at hy
      obtain ⟨rfl, hy⟩ := hy
      rcases List.append_eq_append_iff.1 hy with ⟨w, h1, h2⟩ | ⟨w, h1, h2⟩
      · exact .inl ⟨x, w, by simp [hx, h1]⟩
      · cases w with
        | nil => exact .inl ⟨x, [], by simp [hx, h1]⟩
        | cons e w =>
          simp only [List.cons_append, List.cons.injEq] at h2
          exact absurd (by simp [h1, h2.1]) hc

theorem infix_cons {c d : Char} {o r : Str} (hd : d ≠ c) (h : ∃ x y, d :: r = x ++ (c :: o) ++ y) :
    ∃ x y, r = x ++ (c :: o) ++ y := by
  obtain ⟨x, y, h⟩ := h
  cases x with
  | nil =>
    simp only [List.nil_append, List.cons_append, List.cons.injEq] at h
    exact absurd h.1 hd
  | cons e x =>
    simp only [List.cons_append, List.cons.injEq] at h
    exact ⟨x, y, by simpa using h.2⟩

/-- The unit `hp.h` gets brackets. -/
theorem hp_facts (P : Char → Prop) (hP : ∀ c ∈ c!"/(hp*h)", P c) :
    ∀ (n : Nat) {s : Str}, s.length ≤ n → '(' ∉ s → (∀ c ∈ s, P c) →
      follow (replaceAux c!"/hp*h" c!"/(hp*h)" 0 s) = true ∧
      (¬ ∃ a b, replaceAux c!"/hp*h" c!"/(hp*h)" 0 s = a ++ c!"/hp*h" ++ b) ∧
      ∀ c ∈ replaceAux c!"/hp*h" c!"/(hp*h)" 0 s, P c
  | n, s, hn, hb, hs => by
    by_cases h : ∃ a b, s = a ++ c!"/hp*h" ++ b
    · obtain ⟨a, b, h⟩ := h
      obtain ⟨a, b, rfl, ha⟩ := first_occurrence _ (Nat.le_refl _) h (by decide)
      have hr := replaceAux_first (c := '/') (o := c!"hp*h") (new := c!"/(hp*h)") (b := b) (by decide) ha
      rw [show ('/' :: c!"hp*h") = c!"/hp*h" from rfl] at hr
      rw [hr]
      simp only [List.mem_append, not_or] at hb
      cases n with
      | zero => simp only [List.length_append, show (c!"/hp*h").length = 5 from rfl] at hn; omega
      | succ n =>
        have ih := hp_facts P hP n (s := b) (by simp only [List.length_append, show (c!"/hp*h").length = 5 from rfl] at hn; omega)
          hb.2 (fun c hc => hs c (by simp [hc]))
        refine ⟨?_, ?_, ?_⟩
        · rw [List.append_assoc, follow_append hb.1.1]
          have : ∀ y, follow (c!"/(hp*h)" ++ y) = follow y := fun y => by simp [follow]
          rw [this]
          exact ih.1
        · intro hx
          rw [List.append_assoc] at hx
          rcases infix_at (c := '/') (o := c!"hp*h") (by decide) hx with hx | ⟨y, hx⟩ | hx
          · exact ha hx
          · have := (List.cons.inj hx).1
            exact absurd this (by decide)
          · refine ih.2.1 ?_
            have h1 := infix_cons (c := '/') (by decide) hx
            have h2 := infix_cons (c := '/') (by decide) h1
            have h3 := infix_cons (c := '/') (by decide) h2
            have h4 := infix_cons (c := '/') (by decide) h3
            have h5 := infix_cons (c := '/') (by decide) h4
            exact infix_cons (c := '/') (by decide) h5
        · intro c hc
          simp only [List.mem_append] at hc
          rcases hc with (hc | hc) | hc
          · exact hs c (by simp [hc])
          · exact hP c hc
          · exact ih.2.2 c hc
    · rw [replaceAux_none h]
      exact ⟨follow_none hb, h, hs⟩

end Verif.UnitNames
