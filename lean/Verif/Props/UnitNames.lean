import Mathlib.Tactic.FieldSimp
import Mathlib.Tactic.Linarith
import Mathlib.Tactic.Ring
import Mathlib.Tactic.NormNum
import Verif.Lemmas.UnitNames
import Verif.Spec.UnitNames

namespace Verif.UnitNames

open Verif.IlcdVars
open Spec

/-! ### Texts of units -/

theorem letter_iff {c : Char} : isLetter c = true ↔ Letter c := by
  simp [isLetter, Letter]

theorem letter_ne {c d : Char} (h : Letter c) (hd : isLetter d = false) : c ≠ d := by
  rintro rfl
  rw [letter_iff.2 h] at hd
  cases hd

theorem letter_noDigit {c : Char} (h : Letter c) : isDigit c = false := by
  cases hd : isDigit c with
  | false => rfl
  | true => have := letter_iff.2 h; rw [digit_not_letter hd] at this; cases this

/-- What the replacements make of a character of a unit. -/
def tr (c : Char) : Char := if c = ' ' ∨ c = '-' then '_' else if c = '.' then '*' else c

theorem flatMap_sub {s : Str} (h : '^' ∉ s) : s.flatMap sub = s.map tr := by
  induction s with
  | nil => rfl
  | cons c s ih =>
    simp only [List.mem_cons, not_or] at h
    rw [List.flatMap_cons, ih h.2, List.map_cons]
    have : sub c = [tr c] := by
      unfold sub tr
      by_cases h1 : c = ' ' ∨ c = '-'
      · simp [h1]
      · by_cases h2 : c = '.'
        · simp [h2]
        · have h3 : ¬ c = '^' := fun e => h.1 e.symm
          simp [h1, h2, h3]
    rw [this]
    rfl

/-- The digits of an exponent. -/
def Digit (d : Char) : Prop := d = '2' ∨ d = '3' ∨ d = '4'

theorem exp_cases {f : Factor} (h : f.Plain) : f.exp = 1 ∨ ∃ d, Digit d ∧ natStr f.exp = [d] ∧ f.exp ≠ 1 ∧
    ∃ c, f.sym.getLast? = some c ∧ Letter c := by
  rcases h.exp with h | ⟨h, hl⟩
  · exact .inl h
  · refine .inr ?_
    rcases h with h | h | h <;> rw [h]
    · exact ⟨'2', .inl rfl, by decide, by decide, hl⟩
    · exact ⟨'3', .inr (.inl rfl), by decide, by decide, hl⟩
    · exact ⟨'4', .inr (.inr rfl), by decide, by decide, hl⟩

/-- The characters of a unit. -/
def UnitChar (c : Char) : Prop := Letter c ∨ c = '_' ∨ c = ' ' ∨ c = '-' ∨ Digit c ∨ c = '.' ∨ c = '/'

theorem factor_chars {f : Factor} (h : f.Plain) : ∀ c ∈ f.eco, UnitChar c := by
  intro c hc
  rw [Factor.eco, List.mem_append] at hc
  rcases hc with hc | hc
  · rcases h.chars c hc with h | h | h | h
    · exact .inl h
    · exact .inr (.inl h)
    · exact .inr (.inr (.inl h))
    · exact .inr (.inr (.inr (.inl h)))
  · rcases exp_cases h with h1 | ⟨d, hd, hn, h1, _⟩
    · simp [h1] at hc
    · rw [if_neg h1, hn, List.mem_singleton] at hc
      exact .inr (.inr (.inr (.inr (.inl (hc ▸ hd)))))

theorem expr_chars {e : Expr} (h : e.Plain) : ∀ c ∈ e.eco, UnitChar c := by
  intro c hc
  rw [Expr.eco, List.mem_append, List.mem_flatMap] at hc
  rcases hc with hc | ⟨p, hp, hc⟩
  · exact factor_chars h.1 c hc
  · rw [List.mem_cons] at hc
    rcases hc with hc | hc
    · rcases p with ⟨op, f⟩
      cases op with
      | times => exact .inr (.inr (.inr (.inr (.inr (.inl hc)))))
      | per => exact .inr (.inr (.inr (.inr (.inr (.inr hc)))))
    · exact factor_chars (h.2 p hp) c hc

theorem unitChar_ne {c d : Char} (h : UnitChar c) (hl : isLetter d = false)
    (hd : d ∉ ['_', ' ', '-', '2', '3', '4', '.', '/']) : c ≠ d := by
  rintro rfl
  rcases h with h | h | h | h | h | h | h
  · rw [letter_iff.2 h] at hl; cases hl
  · exact hd (by simp [h])
  · exact hd (by simp [h])
  · exact hd (by simp [h])
  · rcases h with h | h | h <;> exact hd (by simp [h])
  · exact hd (by simp [h])
  · exact hd (by simp [h])

theorem tr_letter {c d : Char} (h : tr c = d) (hd : d ≠ '_') (hs : d ≠ '*') : c = d := by
  unfold tr at h
  split at h
  · exact absurd h.symm hd
  · split at h
    · exact absurd h.symm hs
    · exact h

theorem tr_star {c : Char} (h : tr c = '*') : c = '.' ∨ c = '*' := by
  unfold tr at h
  split at h
  · exact absurd h (by decide)
  · split at h
    · rename_i h'; exact .inl h'
    · exact .inr h

theorem pintName_eq {s : Str} (h : '.' ∉ s) : s.map tr = pintName s := by
  refine List.map_congr_left fun c hc => ?_
  have : c ≠ '.' := fun e => h (e ▸ hc)
  simp [tr, this]

theorem factor_tr {f : Factor} (h : f.Plain) : f.eco.map tr = f.stuck := by
  rw [Factor.eco, Factor.stuck, List.map_append, pintName_eq]
  · congr 1
    rcases exp_cases h with h1 | ⟨d, hd, hn, h1, _⟩
    · simp [h1]
    · rw [if_neg h1, hn]
      rcases hd with rfl | rfl | rfl <;> rfl
  · intro hm
    rcases h.chars _ hm with h | h | h | h
    · exact absurd (letter_iff.2 h) (by decide)
    · exact absurd h (by decide)
    · exact absurd h (by decide)
    · exact absurd h (by decide)

theorem expr_tr {e : Expr} (h : e.Plain) : e.eco.map tr = e.stuck := by
  rw [Expr.eco, Expr.stuck, List.map_append, factor_tr h.1, List.map_flatMap]
  congr 1
  refine List.flatMap_congr fun p hp => ?_
  rw [List.map_cons, factor_tr (h.2 p hp)]
  rcases p with ⟨op, f⟩
  cases op <;> rfl

theorem pintName_noDigit {s : Str} (h : ∀ c ∈ s, Letter c ∨ c = '_' ∨ c = ' ' ∨ c = '-') :
    ∀ c ∈ pintName s, isDigit c = false := by
  intro c hc
  obtain ⟨x, hx, rfl⟩ := List.mem_map.1 hc
  split
  · decide
  · rcases h x hx with h | h | h | h
    · exact letter_noDigit h
    · subst h; decide
    · subst h; decide
    · subst h; decide

theorem factor_powers {f : Factor} (h : f.Plain) : powers twoToFour f.stuck = f.pint := by
  rw [Factor.stuck, Factor.pint]
  have hn := pintName_noDigit h.chars
  rcases exp_cases h with h1 | ⟨d, hd, hs, h1, c, hc, hl⟩
  · simp only [h1, if_true, List.append_nil]
    exact powers_noDigit _ digits_two hn
  · rw [if_neg h1, if_neg h1, hs]
    obtain ⟨pre, hp⟩ : ∃ pre, f.sym = pre ++ [c] := by
      have := List.dropLast_append_getLast? c hc
      exact ⟨_, this.symm⟩
    have e : pintName f.sym = pintName pre ++ [c] := by
      rw [hp]
      have : c ≠ ' ' ∧ c ≠ '-' := ⟨letter_ne hl (by decide), letter_ne hl (by decide)⟩
      simp [pintName, this]
    rw [e] at hn ⊢
    rw [List.append_assoc, List.singleton_append, powers_append digits_two (letter_noDigit hl),
      powers_noDigit _ digits_two (fun x hx => hn x (by simp [hx]))]
    have : powers twoToFour [c, d] = [c, '*', '*', d] := by
      have he : exponent twoToFour [d] = true := by rcases hd with rfl | rfl | rfl <;> rfl
      rw [powers, if_pos (by rw [letter_iff.2 hl, he]; rfl)]
      rcases hd with rfl | rfl | rfl <;> rfl
    rw [this]
    simp

/-- The exponents of a unit, and of what stands before it. -/
theorem rest_powers : ∀ {l : List (Op × Factor)} (a : Str), (∀ p ∈ l, p.2.Plain) →
    powers twoToFour (a ++ l.flatMap fun p => p.1.pint :: p.2.stuck) =
      powers twoToFour a ++ l.flatMap fun p => p.1.pint :: p.2.pint
  | [], a, _ => by simp
  | p :: l, a, h => by
    have ih := rest_powers (l := l) (p.1.pint :: p.2.stuck) (fun q hq => h q (by simp [hq]))
    have hd : isDigit p.1.pint = false := by cases p.1 <;> rfl
    have hl : isLetter p.1.pint = false := by cases p.1 <;> rfl
    simp only [List.flatMap_cons, List.cons_append] at ih ⊢
    rw [powers_append digits_two hd, ih, powers, if_neg (by rw [hl]; simp), factor_powers (h p (by simp))]
    simp

theorem expr_powers {e : Expr} (h : e.Plain) : powers twoToFour e.stuck = e.pint := by
  rw [Expr.stuck, Expr.pint, rest_powers _ h.2, factor_powers h.1]

theorem expr_not_mem {e : Expr} (h : e.Plain) {d : Char} (hl : isLetter d = false)
    (hd : d ∉ ['_', ' ', '-', '2', '3', '4', '.', '/']) : d ∉ e.eco :=
  fun hm => unitChar_ne (expr_chars h d hm) hl hd rfl

theorem formulas_eq : formulas = substances := rfl

/-- A formula in the text given to `pint` was in the text of the unit. -/
theorem formula_tr {s f : Str} (hf : f ∈ substances) (h : isInfix f (s.map tr) = true) : isInfix f s = true := by
  rw [isInfix_iff] at h ⊢
  refine infix_map_same (fun d hd c _ he => ?_) h
  have : ∀ f ∈ substances, ∀ d ∈ f, d ≠ '_' ∧ d ≠ '*' := by decide
  exact tr_letter he (this f hf d hd).1 (this f hf d hd).2

theorem hp_tr {s : Str} (hs : '*' ∉ s) (h : ∃ a b, s.map tr = a ++ c!"/hp*h" ++ b) : ∃ a b, s = a ++ c!"/hp.h" ++ b := by
  obtain ⟨a, t, b, rfl, ht⟩ := infix_map h
  refine ⟨a, b, ?_⟩
  have hl : t.length = 5 := by simpa using congrArg List.length ht
  match t, hl, ht with
  | [c1, c2, c3, c4, c5], _, ht =>
    simp only [List.map_cons, List.map_nil, List.cons.injEq, and_true] at ht
    obtain ⟨h1, h2, h3, h4, h5⟩ := ht
    rw [tr_letter h1 (by decide) (by decide), tr_letter h2 (by decide) (by decide), tr_letter h3 (by decide) (by decide),
      tr_letter h5 (by decide) (by decide)]
    rcases tr_star h4 with rfl | rfl
    · rfl
    · exact absurd (by simp) hs

/-- The text of a plain unit after the replacements. -/
theorem basic_expr {e : Expr} (h : e.Plain) (hh : isInfix c!"/hp.h" e.eco = false) : basic e.eco = e.stuck := by
  have hc : '^' ∉ e.eco := expr_not_mem h (by decide) (by decide)
  have hs : '*' ∉ e.eco := expr_not_mem h (by decide) (by decide)
  rw [basic_eq (expr_not_mem h (by decide) (by decide)), flatMap_sub hc, expr_tr h]
  intro hx
  rw [flatMap_sub hc] at hx
  have := isInfix_iff.2 (hp_tr hs hx)
  rw [hh] at this
  cases this

/-- A product or quotient of powers becomes the text of the same product or quotient for `pint`. -/
theorem unit_read_partial {e : Expr} (h : e.Plain) (hf : ∀ f ∈ substances, isInfix f e.eco = false)
    (hh : isInfix c!"/hp.h" e.eco = false) : correct e.eco = e.pint := by
  rw [correct_eq, formulas_eq, basic_expr h hh, if_neg, expr_powers h]
  rintro ⟨f, hm, hi⟩
  rw [← expr_tr h] at hi
  have := formula_tr hm hi
  rw [hf f hm] at this
  cases this

theorem name_chars {s : Str} (h : ∀ c ∈ s, Letter c ∨ c = '_' ∨ c = ' ' ∨ c = '-') :
    ∀ c ∈ pintName s, c ≠ '*' ∧ c ≠ '/' ∧ c ≠ '(' ∧ c ≠ ')' := by
  intro c hc
  obtain ⟨x, hx, rfl⟩ := List.mem_map.1 hc
  split
  · decide
  · rcases h x hx with h | h | h | h
    · exact ⟨letter_ne h (by decide), letter_ne h (by decide), letter_ne h (by decide), letter_ne h (by decide)⟩
    · subst h; decide
    · subst h; decide
    · subst h; decide

theorem factor_reads (size : Str → ℚ) {f : Factor} (h : f.Plain) : Reads size false f.pint (f.value size) := by
  rw [Factor.pint, Factor.value]
  by_cases h1 : f.exp = 1
  · rw [if_pos h1, List.append_nil, h1, pow_one]
    exact .name (name_chars h.chars)
  · rw [if_neg h1, ← List.append_assoc]
    exact .power _ (name_chars h.chars)

theorem rest_reads (size : Str → ℚ) : ∀ {l : List (Op × Factor)} {a : Str} {v : ℚ}, (∀ p ∈ l, p.2.Plain) →
    Reads size true a v → Reads size true (a ++ l.flatMap fun p => p.1.pint :: p.2.pint)
      (l.foldl (fun v p => match p.1 with | .times => v * p.2.value size | .per => v / p.2.value size) v)
  | [], a, v, _, h => by simpa using h
  | p :: l, a, v, hp, h => by
    have hf := factor_reads size (hp p (by simp))
    rw [List.flatMap_cons, List.foldl_cons, ← List.append_assoc]
    refine rest_reads size (fun q hq => hp q (by simp [hq])) ?_
    rcases p with ⟨op, f⟩
    cases op with
    | times =>
      have := Reads.times h hf
      simpa [Op.pint] using this
    | per =>
      have := Reads.per h hf
      simpa [Op.pint] using this

/-- What `pint` is given has the value of the unit: each power is multiplied by or divided by as its own sign says. -/
theorem unit_value_partial (size : Str → ℚ) {e : Expr} (h : e.Plain) (hf : ∀ f ∈ substances, isInfix f e.eco = false)
    (hh : isInfix c!"/hp.h" e.eco = false) : Reads size true (correct e.eco) (e.value size) := by
  rw [unit_read_partial h hf hh, Expr.pint, Expr.value]
  exact rest_reads size h.2 (.one (factor_reads size h.1))

/-- Two powers after a division: the second one is multiplied by. -/
theorem denominator_partial (size : Str → ℚ) {e : Expr} {a b : Factor} (h : e.Plain) (ha : a.Plain) (hb : b.Plain)
    (hf : ∀ f ∈ substances, isInfix f (e.eco ++ c!"/" ++ a.eco ++ c!"." ++ b.eco) = false)
    (hh : isInfix c!"/hp.h" (e.eco ++ c!"/" ++ a.eco ++ c!"." ++ b.eco) = false) :
    Reads size true (correct (e.eco ++ c!"/" ++ a.eco ++ c!"." ++ b.eco)) (e.value size / a.value size * b.value size) := by
  have he : e.eco ++ c!"/" ++ a.eco ++ c!"." ++ b.eco =
      (⟨e.first, e.rest ++ [(.per, a), (.times, b)]⟩ : Expr).eco := by
    simp [Expr.eco, Op.eco]
  rw [he] at hf hh ⊢
  have := unit_value_partial size (e := ⟨e.first, e.rest ++ [(.per, a), (.times, b)]⟩)
    ⟨h.1, fun p hp => by
      simp only [List.mem_append, List.mem_cons, List.not_mem_nil, or_false] at hp
      rcases hp with hp | rfl | rfl
      · exact h.2 p hp
      · exact ha
      · exact hb⟩ hf hh
  simpa [Expr.value] using this

/-- It is not the value of the quotient by the product, unless the second power is worth 1. -/
theorem denominator_differs {x a b : ℚ} (hx : x ≠ 0) (ha : a ≠ 0) (hb : 0 < b) (h1 : b ≠ 1) : x / a * b ≠ x / (a * b) := by
  intro h
  have hb0 : b ≠ 0 := ne_of_gt hb
  field_simp at h
  have h2 : (b - 1) * (b + 1) = 0 := by
    have : b ^ 2 = 1 := h
    ring_nf
    rw [this]
    norm_num
  rcases mul_eq_zero.1 h2 with h2 | h2
  · exact h1 (by linarith)
  · linarith

theorem formula_sep {f a b : Str} (hf : f ∈ substances) (h : isInfix f (a ++ '/' :: b) = true) :
    isInfix f a = true ∨ isInfix f b = true := by
  have : ∀ f ∈ substances, '/' ∉ f := by decide
  rw [isInfix_iff] at h
  rcases infix_sep (this f hf) h with h | h
  · exact .inl (isInfix_iff.2 h)
  · exact .inr (isInfix_iff.2 h)

/-- Only horsepower hours after a division are read as a product to be divided by. -/
theorem horsepower_hours (size : Str → ℚ) {e : Expr} (h : e.Plain) (hf : ∀ f ∈ substances, isInfix f e.eco = false)
    (hh : isInfix c!"/hp.h" e.eco = false) :
    correct (e.eco ++ c!"/hp.h") = e.pint ++ c!"/(hp*h)" ∧
      Reads size true (correct (e.eco ++ c!"/hp.h")) (e.value size / (size c!"hp" * size c!"h")) := by
  have hbr : '(' ∉ e.eco := expr_not_mem h (by decide) (by decide)
  have hst : '*' ∉ e.eco := expr_not_mem h (by decide) (by decide)
  have hcr : '^' ∉ e.eco := expr_not_mem h (by decide) (by decide)
  have hm : (e.eco ++ c!"/hp.h").flatMap sub = e.stuck ++ c!"/hp*h" := by
    rw [List.flatMap_append, flatMap_sub hcr, expr_tr h]
    rfl
  have hno : ¬ ∃ a b, e.stuck = a ++ c!"/hp*h" ++ b := by
    intro hx
    rw [← expr_tr h] at hx
    have := isInfix_iff.2 (hp_tr hst hx)
    rw [hh] at this
    cases this
  have hbs : '(' ∉ e.stuck := by
    rw [← expr_tr h, ← flatMap_sub hcr]
    exact bracket_sub hbr
  have hb : basic (e.eco ++ c!"/hp.h") = e.stuck ++ c!"/(hp*h)" := by
    rw [basic_plain (by simpa using hbr), hm, replaceAll, replaceAll, if_neg (by decide), if_neg (by decide)]
    have := replaceAux_first (c := '/') (o := c!"hp*h") (new := c!"/(hp*h)") (b := []) (by decide) hno
    rw [show ('/' :: c!"hp*h") = c!"/hp*h" from rfl, List.append_nil] at this
    rw [this, show replaceAux c!"/hp*h" c!"/(hp*h)" 0 [] = [] from rfl, List.append_nil]
    refine replaceAux_none (follow_infix (d := 's') (by decide) ?_)
    rw [follow_append hbs]
    rfl
  have hc : correct (e.eco ++ c!"/hp.h") = e.pint ++ c!"/(hp*h)" := by
    rw [correct_eq, formulas_eq, hb, if_neg]
    · rw [show e.stuck ++ c!"/(hp*h)" = e.stuck ++ '/' :: c!"(hp*h)" from rfl,
        powers_append digits_two (by decide), expr_powers h]
      rfl
    · rintro ⟨f, hm, hi⟩
      rw [show e.stuck ++ c!"/(hp*h)" = e.stuck ++ '/' :: c!"(hp*h)" from rfl] at hi
      rcases formula_sep hm hi with hi | hi
      · rw [← expr_tr h] at hi
        have := formula_tr hm hi
        rw [hf f hm] at this
        cases this
      · have : ∀ f ∈ substances, isInfix f c!"(hp*h)" = false := by decide
        rw [this f hm] at hi
        cases hi
  refine ⟨hc, ?_⟩
  rw [hc]
  have h1 : Reads size true (c!"hp" ++ c!"*" ++ c!"h") (size c!"hp" * size c!"h") :=
    .times (.one (.name (by decide))) (.name (by decide))
  have h2 : Reads size true e.pint (e.value size) := rest_reads size h.2 (.one (factor_reads size h.1))
  simpa using Reads.per h2 (.bracket h1)

/-- `kg/m2` -/
example : correct c!"kg/m2" = c!"kg/m**2" := by decide

/-- `kg/m2.a` and `kg/hp.h` -/
example : correct c!"kg/m2.a" = c!"kg/m**2*a" ∧ correct c!"kg/hp.h" = c!"kg/(hp*h)" := by decide

/-- A unit that meets the hypotheses. -/
example : let e : Expr := ⟨⟨c!"metric ton", 1⟩, [(.times, ⟨c!"km", 1⟩), (.per, ⟨c!"m", 2⟩)]⟩
    e.eco = c!"metric ton.km/m2" ∧ e.pint = c!"metric_ton*km/m**2" ∧ (∀ f ∈ substances, isInfix f e.eco = false) ∧
      isInfix c!"/hp.h" e.eco = false ∧ correct e.eco = e.pint := by decide

/-! ### Substances in the name of a unit -/

theorem name_noDot {s : Str} (h : ∀ c ∈ s, Letter c ∨ c = '_' ∨ c = ' ' ∨ c = '-') {d : Char} (hl : isLetter d = false)
    (hd : d ∉ ['_', ' ', '-']) : d ∉ s := by
  intro hm
  rcases h d hm with h | h | h | h
  · rw [letter_iff.2 h] at hl; cases hl
  · exact hd (by simp [h])
  · exact hd (by simp [h])
  · exact hd (by simp [h])

/-- With one of the five formulas in the name of a unit, no exponent of the whole text is one for `pint`. -/
theorem formula_keeps_digits {pre f : Str} {e : Expr} (hp : ∀ c ∈ pre, Letter c ∨ c = '_' ∨ c = ' ' ∨ c = '-')
    (hf : f ∈ substances) (h : e.Plain) (hh : isInfix c!"/hp.h" ('/' :: e.eco) = false) :
    correct (pre ++ f ++ '/' :: e.eco) = pintName pre ++ f ++ '/' :: e.stuck := by
  have hfc : ∀ f ∈ substances, '(' ∉ f ∧ '^' ∉ f ∧ '*' ∉ f ∧ '/' ∉ f ∧ f.map tr = f := by decide
  obtain ⟨f1, f2, f3, f4, f5⟩ := hfc f hf
  have hb : '(' ∉ pre ++ f ++ '/' :: e.eco := by
    simp only [List.mem_append, List.mem_cons, not_or]
    exact ⟨⟨name_noDot hp (by decide) (by decide), f1⟩, by decide, expr_not_mem h (by decide) (by decide)⟩
  have hc : '^' ∉ pre ++ f ++ '/' :: e.eco := by
    simp only [List.mem_append, List.mem_cons, not_or]
    exact ⟨⟨name_noDot hp (by decide) (by decide), f2⟩, by decide, expr_not_mem h (by decide) (by decide)⟩
  have hs : '*' ∉ pre ++ f ++ '/' :: e.eco := by
    simp only [List.mem_append, List.mem_cons, not_or]
    exact ⟨⟨name_noDot hp (by decide) (by decide), f3⟩, by decide, expr_not_mem h (by decide) (by decide)⟩
  have hm : (pre ++ f ++ '/' :: e.eco).map tr = pintName pre ++ f ++ '/' :: e.stuck := by
    rw [List.map_append, List.map_append, List.map_cons, f5, expr_tr h,
      pintName_eq (name_noDot hp (by decide) (by decide))]
    rfl
  have hbas : basic (pre ++ f ++ '/' :: e.eco) = pintName pre ++ f ++ '/' :: e.stuck := by
    rw [basic_eq hb, flatMap_sub hc, hm]
    intro hx
    rw [flatMap_sub hc] at hx
    have hx := hp_tr hs hx
    have no : ¬ ∃ x y, '/' :: e.eco = x ++ c!"/hp.h" ++ y := by
      intro hx
      have := isInfix_iff.2 hx
      rw [hh] at this
      cases this
    rcases infix_at (c := '/') (o := c!"hp.h") (by decide) hx with hx | ⟨y, hx⟩ | ⟨x, y, hx⟩
    · refine not_infix_of_mem (c := '/') (by decide) ?_ hx
      simp only [List.mem_append, not_or]
      exact ⟨name_noDot hp (by decide) (by decide), f4⟩
    · exact no ⟨[], y, by rw [hx]; rfl⟩
    · exact no ⟨'/' :: x, y, by rw [hx]; rfl⟩
  rw [correct_eq, formulas_eq, hbas, if_pos]
  exact ⟨f, hf, isInfix_iff.2 ⟨pintName pre, '/' :: e.stuck, rfl⟩⟩

/-- `pint` takes the digit as a part of the name. The names `m2` and `m3` are defined, so with a prefix the prefix is not
raised to the power: the unit is read as another one. -/
theorem prefix_not_raised (size : Str → ℚ) {pre f k : Str} {q : ℚ} {n : Nat}
    (hp : ∀ c ∈ pre, Letter c ∨ c = '_' ∨ c = ' ' ∨ c = '-') (hf : f ∈ substances) (hk : ∀ c ∈ k, Letter c)
    (hn : n = 2 ∨ n = 3)
    (hdef : size (c!"m" ++ natStr n) = size c!"m" ^ n) (hpre : size (k ++ c!"m" ++ natStr n) = q * size (c!"m" ++ natStr n))
    (hkm : size (k ++ c!"m") = q * size c!"m") (hq : 0 < q) (hm : 0 < size c!"m") :
    Reads size true (correct (pre ++ f ++ '/' :: (k ++ c!"m" ++ natStr n)))
      (q ^ (n - 1) * (size (pintName pre ++ f) / size (k ++ c!"m") ^ n)) := by
  have hpl : (⟨⟨k ++ c!"m", n⟩, []⟩ : Expr).Plain := by
    refine ⟨⟨fun c hc => ?_, ?_⟩, by simp⟩
    · simp only [List.mem_append, List.mem_singleton] at hc
      rcases hc with hc | hc
      · exact .inl (hk c hc)
      · subst hc; exact .inl (.inl (by decide))
    · refine .inr ⟨by rcases hn with h | h <;> simp [h], 'm', by simp, .inl (by decide)⟩
  have hn1 : n ≠ 1 := by rcases hn with h | h <;> omega
  have he : (⟨⟨k ++ c!"m", n⟩, []⟩ : Expr).eco = k ++ c!"m" ++ natStr n := by simp [Expr.eco, Factor.eco, hn1]
  have hkn : pintName (k ++ c!"m") = k ++ c!"m" := by
    unfold pintName
    conv_rhs => rw [← List.map_id (k ++ c!"m")]
    refine List.map_congr_left fun c hc => ?_
    have hl : Letter c := by
      simp only [List.mem_append, List.mem_singleton] at hc
      rcases hc with hc | hc
      · exact hk c hc
      · subst hc; exact .inl (by decide)
    simp [letter_ne hl (show isLetter ' ' = false from rfl), letter_ne hl (show isLetter '-' = false from rfl)]
  have hs : (⟨⟨k ++ c!"m", n⟩, []⟩ : Expr).stuck = k ++ c!"m" ++ natStr n := by
    simp [Expr.stuck, Factor.stuck, hn1, hkn]
  have hdot : '.' ∉ '/' :: (k ++ c!"m" ++ natStr n) := by
    simp only [List.mem_cons, List.mem_append, not_or]
    refine ⟨by decide, ⟨fun hc => ?_, by decide⟩, by rcases hn with h | h <;> subst h <;> decide⟩
    exact letter_ne (hk _ hc) (show isLetter '.' = false from rfl) rfl
  have hc := formula_keeps_digits hp hf hpl (by
    cases hx : isInfix c!"/hp.h" ('/' :: (⟨⟨k ++ c!"m", n⟩, []⟩ : Expr).eco) with
    | false => rfl
    | true => exact absurd (isInfix_iff.1 hx) (not_infix_of_mem (c := '.') (by decide) (he ▸ hdot)))
  rw [he, hs] at hc
  rw [hc]
  have hfc : ∀ f ∈ substances, ∀ c ∈ f, c ≠ '*' ∧ c ≠ '/' ∧ c ≠ '(' ∧ c ≠ ')' := by decide
  have r1 : Reads size true (pintName pre ++ f) (size (pintName pre ++ f)) := .one (.name fun c hc => by
    simp only [List.mem_append] at hc
    rcases hc with hc | hc
    · exact name_chars hp c hc
    · exact hfc f hf c hc)
  have r2 : Reads size false (k ++ c!"m" ++ natStr n) (size (k ++ c!"m" ++ natStr n)) := .name fun c hc => by
    simp only [List.mem_append, List.mem_singleton] at hc
    rcases hc with (hc | hc) | hc
    · exact ⟨letter_ne (hk c hc) rfl, letter_ne (hk c hc) rfl, letter_ne (hk c hc) rfl, letter_ne (hk c hc) rfl⟩
    · subst hc; decide
    · rcases hn with h | h <;> subst h <;> revert hc <;> revert c <;> decide
  have := Reads.per r1 r2
  rw [hpre, hdef] at this
  rw [hkm]
  have hq0 : q ≠ 0 := ne_of_gt hq
  have hm0 : size c!"m" ≠ 0 := ne_of_gt hm
  have ev : q ^ (n - 1) * (size (pintName pre ++ f) / (q * size c!"m") ^ n) =
      size (pintName pre ++ f) / (q * size c!"m" ^ n) := by
    rw [mul_pow]
    generalize size c!"m" = m at *
    rcases hn with h | h
    · subst h
      rw [show 2 - 1 = 1 from rfl, pow_one]
      field_simp
    · subst h
      rw [show 3 - 1 = 2 from rfl]
      field_simp
  rw [ev]
  simpa using this

/-- `kg N2O/km2` -/
example : correct c!"kg N2O/km2" = c!"kg_N2O/km2" ∧ correct c!"kg/km2" = c!"kg/km**2" ∧
    correct c!"kg N2O/km^2" = c!"kg_N2O/km**2" := by decide

/-- Another formula with a digit from 2 to 4 becomes a power. -/
theorem other_formula {a b : Str} {l d : Char} (ha : ∀ c ∈ a, Letter c ∨ isDigit c = true ∨ c = '_' ∨ c = ' ' ∨ c = '-')
    (hb : ∀ c ∈ b, Letter c ∨ isDigit c = true ∨ c = '_' ∨ c = ' ' ∨ c = '-') (hl : Letter l) (hd : d = '2' ∨ d = '3' ∨ d = '4')
    (hn : ∀ c, b.head? = some c → isDigit c = false) (hf : ∀ f ∈ substances, isInfix f (a ++ l :: d :: b) = false) :
    ∃ x y, correct (a ++ l :: d :: b) = x ++ l :: '*' :: '*' :: d :: y := by
  have hdd : isDigit d = true := by rcases hd with rfl | rfl | rfl <;> rfl
  have hall : ∀ c ∈ a ++ l :: d :: b, Letter c ∨ isDigit c = true ∨ c = '_' ∨ c = ' ' ∨ c = '-' := by
    intro c hc
    simp only [List.mem_append, List.mem_cons] at hc
    rcases hc with hc | hc | hc | hc
    · exact ha c hc
    · exact .inl (hc ▸ hl)
    · exact .inr (.inl (hc ▸ hdd))
    · exact hb c hc
  have hne : ∀ k, isLetter k = false → isDigit k = false → k ∉ ['_', ' ', '-'] → k ∉ a ++ l :: d :: b := by
    intro k h1 h2 h3 hm
    rcases hall k hm with h | h | h | h | h
    · rw [letter_iff.2 h] at h1; cases h1
    · rw [h] at h2; cases h2
    · exact h3 (by simp [h])
    · exact h3 (by simp [h])
    · exact h3 (by simp [h])
  have hc : '^' ∉ a ++ l :: d :: b := hne _ (by decide) (by decide) (by decide)
  have hbas : basic (a ++ l :: d :: b) = (a ++ l :: d :: b).map tr := by
    rw [basic_eq (hne _ (by decide) (by decide) (by decide)), flatMap_sub hc]
    intro hx
    rw [flatMap_sub hc] at hx
    have := hp_tr (hne _ (by decide) (by decide) (by decide)) hx
    exact not_infix_of_mem (c := '/') (by decide) (hne _ (by decide) (by decide) (by decide)) this
  have htl : tr l = l := by
    unfold tr
    rw [if_neg, if_neg (letter_ne hl (by decide))]
    rintro (h | h)
    · exact letter_ne hl (by decide) h
    · exact letter_ne hl (by decide) h
  have htd : tr d = d := by rcases hd with rfl | rfl | rfl <;> rfl
  rw [correct_eq, formulas_eq, hbas, if_neg]
  · rw [List.map_append, List.map_cons, List.map_cons, htl, htd, powers_append digits_two (letter_noDigit hl), powers, if_pos]
    · rw [powers_digit _ hdd]
      exact ⟨_, _, rfl⟩
    · rw [letter_iff.2 hl]
      have hp : twoToFour d = true := by rcases hd with rfl | rfl | rfl <;> rfl
      cases b with
      | nil => simp [exponent, hp]
      | cons c b =>
        have h0 := hn c rfl
        have : isDigit (tr c) = false := by
          unfold tr
          split
          · rfl
          · split
            · rfl
            · exact h0
        simp [exponent, hp, this]
  · rintro ⟨f, hm, hi⟩
    have := formula_tr hm hi
    rw [hf f hm] at this
    cases this

example : correct c!"kg CO2-Eq" = c!"kg_CO**2_Eq" := by decide

/-! ### Which units are accepted -/

theorem powers_mem {p : Char → Bool} : ∀ {s : Str} {c : Char}, c ∈ powers p s → c = '*' ∨ c ∈ s
  | [], c, h => by simp [powers] at h
  | x :: s, c, h => by
    rw [powers] at h
    split at h
    · simp only [List.mem_cons] at h ⊢
      rcases h with h | h | h | h
      · exact .inr (.inl h)
      · exact .inl h
      · exact .inl h
      · rcases powers_mem h with h | h
        · exact .inl h
        · exact .inr (.inr h)
    · simp only [List.mem_cons] at h ⊢
      rcases h with h | h
      · exact .inr (.inl h)
      · rcases powers_mem h with h | h
        · exact .inl h
        · exact .inr (.inr h)

theorem replaceAux_mem {old new : Str} : ∀ {s : Str} {n : Nat} {c : Char}, c ∈ replaceAux old new n s → c ∈ new ∨ c ∈ s
  | [], n, c, h => by cases n <;> simp [replaceAux] at h
  | x :: s, n + 1, c, h => by
    rw [replaceAux] at h
    rcases replaceAux_mem h with h | h
    · exact .inl h
    · exact .inr (by simp [h])
  | x :: s, 0, c, h => by
    rw [replaceAux] at h
    split at h
    · rw [List.mem_append] at h
      rcases h with h | h
      · exact .inl h
      · rcases replaceAux_mem h with h | h
        · exact .inl h
        · exact .inr (by simp [h])
    · rw [List.mem_cons] at h
      rcases h with h | h
      · exact .inr (by simp [h])
      · rcases replaceAux_mem h with h | h
        · exact .inl h
        · exact .inr (by simp [h])

theorem replaceAll_mem {old new s : Str} {c : Char} (ho : old ≠ []) (h : c ∈ replaceAll old new s) : c ∈ new ∨ c ∈ s := by
  rw [replaceAll, if_neg ho] at h
  exact replaceAux_mem h

/-- No spaces, hyphens, points or carets are left. -/
theorem correct_chars (s : Str) : ∀ c ∈ correct s, c ≠ ' ' ∧ c ≠ '-' ∧ c ≠ '.' ∧ c ≠ '^' := by
  have hb : ∀ c ∈ basic s, c ≠ ' ' ∧ c ≠ '-' ∧ c ≠ '.' ∧ c ≠ '^' := by
    intro c hc
    simp only [basic, replacements, List.foldl_cons, List.foldl_nil] at hc
    rw [singles] at hc
    rcases replaceAll_mem (by decide) hc with h | h
    · exact (by decide : ∀ c ∈ c!"s", c ≠ ' ' ∧ c ≠ '-' ∧ c ≠ '.' ∧ c ≠ '^') c h
    rcases replaceAll_mem (by decide) h with h | h
    · exact (by decide : ∀ c ∈ c!"/(hp*h)", c ≠ ' ' ∧ c ≠ '-' ∧ c ≠ '.' ∧ c ≠ '^') c h
    obtain ⟨x, _, hx⟩ := List.mem_flatMap.1 h
    exact (mem_sub hx).2
  intro c hc
  rw [correct_eq] at hc
  split at hc
  · exact hb c hc
  · rcases powers_mem hc with h | h
    · subst h; decide
    · exact hb c h

/-- All that `units_def` defines is known to `pint` from the start, so nothing is gained by looking there: a unit is accepted if
`pint` knows the text, and else there is a `ValueError`. -/
theorem accepted_iff {known definable : Str → Bool} (hk : ∀ p ∈ unitsDef, known p.2 = true)
    (hd : ∀ n, definable n = true → ∃ p ∈ unitsDef, p.1 = n) (name : Str) :
    unitName known definable name = if known (correct name) = true then .ok (correct name) else .error .valueError := by
  simp only [unitName]
  by_cases h : known (correct name) = true
  · rw [if_pos h, if_pos h]
  · rw [if_neg h, if_neg h, if_neg]
    intro hx
    obtain ⟨p, hp, he⟩ := hd _ hx
    have : ∀ p ∈ unitsDef, p.1 = p.2 ∨ ' ' ∈ p.1 := by decide +kernel
    rcases this p hp with h1 | h1
    · exact h (by rw [← he, h1]; exact hk p hp)
    · rw [he] at h1
      exact (correct_chars name _ h1).1 rfl

/-- A negative exponent becomes a part of the name. -/
theorem negative_exponent {n : Str} {d : Char} (hn : ∀ c ∈ n, Letter c) (hd : isDigit d = true) :
    correct (n ++ ['-', d]) = n ++ ['_', d] := by
  have hall : ∀ k, isLetter k = false → isDigit k = false → k ≠ '-' → k ∉ n ++ ['-', d] := by
    intro k h1 h2 h3 hm
    simp only [List.mem_append, List.mem_cons, List.not_mem_nil, or_false] at hm
    rcases hm with hm | hm | hm
    · rw [letter_iff.2 (hn k hm)] at h1; cases h1
    · exact h3 hm
    · rw [hm, hd] at h2; cases h2
  have hc : '^' ∉ n ++ ['-', d] := hall _ (by decide) (by decide) (by decide)
  have htn : n.map tr = n := by
    conv_rhs => rw [← List.map_id n]
    refine List.map_congr_left fun c hc => ?_
    unfold tr
    rw [if_neg, if_neg (letter_ne (hn c hc) (by decide))]
    · rfl
    · rintro (h | h)
      · exact letter_ne (hn c hc) (by decide) h
      · exact letter_ne (hn c hc) (by decide) h
  have htd : tr d = d := by
    unfold tr
    rw [if_neg, if_neg]
    · rintro rfl; exact absurd hd (by decide)
    · rintro (rfl | rfl)
      · exact absurd hd (by decide)
      · exact absurd hd (by decide)
  have hbas : basic (n ++ ['-', d]) = n ++ ['_', d] := by
    rw [basic_eq (hall _ (by decide) (by decide) (by decide)), flatMap_sub hc, List.map_append, htn, List.map_cons, List.map_cons, htd]
    · rfl
    · intro hx
      rw [flatMap_sub hc] at hx
      have := hp_tr (hall _ (by decide) (by decide) (by decide)) hx
      exact not_infix_of_mem (c := '/') (by decide) (hall _ (by decide) (by decide) (by decide)) this
  rw [correct_eq, formulas_eq, hbas]
  split
  · rfl
  · rw [powers_append digits_two (by decide), powers_noDigit _ digits_two (fun c hc => letter_noDigit (hn c hc)), powers,
      if_neg (by simp [show isLetter '_' = false from rfl]), powers_digit _ hd]
    rfl

example : correct c!"s-1" = c!"s_1" := by decide

/-! ### Twice -/

theorem hp_powers {p : Char → Bool} (hp : Digits p) : ∀ {s : Str}, (∃ a b, powers p s = a ++ c!"/hp*h" ++ b) →
    ∃ a b, s = a ++ c!"/hp*h" ++ b
  | [], ⟨a, b, h⟩ => by simp [powers] at h
  | c :: s, h => by
    have key : ∀ {t : Str}, (∃ a b, c :: t = a ++ c!"/hp*h" ++ b) → (∃ y, c :: t = c!"/hp*h" ++ y) ∨ ∃ a b, t = a ++ c!"/hp*h" ++ b := by
      rintro t ⟨a, b, h⟩
      cases a with
      | nil => exact .inl ⟨b, by simpa using h⟩
      | cons x a =>
        simp only [List.cons_append, List.cons.injEq] at h
        exact .inr ⟨a, b, h.2⟩
    have up : (∃ a b, s = a ++ c!"/hp*h" ++ b) → ∃ a b, c :: s = a ++ c!"/hp*h" ++ b := by
      rintro ⟨a, b, h⟩
      exact ⟨c :: a, b, by rw [h]; rfl⟩
    rw [powers] at h
    split at h
    · rename_i hl
      rcases key h with ⟨y, h⟩ | h
      · have := (List.cons.inj h).1
        subst this
        exact absurd hl (by simp [show isLetter '/' = false from rfl])
      · have h2 := infix_cons (c := '/') (by decide) h
        have h3 := infix_cons (c := '/') (by decide) h2
        exact up (hp_powers hp h3)
    · rcases key h with ⟨y, h⟩ | h
      · obtain ⟨rfl, h'⟩ := List.cons.inj h
        replace h := h'
        change powers p s = 'h' :: 'p' :: '*' :: 'h' :: y at h
        -- the next characters stay
        have step : ∀ {x : Char} {t r : Str}, powers p t = x :: r → ∃ t', t = x :: t' ∧
            (r = powers p t' ∨ ∃ r', r = '*' :: '*' :: r' ∧ r' = powers p t') := by
          intro x t r ht
          cases t with
          | nil => simp [powers] at ht
          | cons z t =>
            rw [powers] at ht
            split at ht
            · obtain ⟨hx, ht'⟩ := List.cons.inj ht
              exact ⟨t, by rw [hx], .inr ⟨_, ht'.symm, rfl⟩⟩
            · obtain ⟨hx, ht'⟩ := List.cons.inj ht
              exact ⟨t, by rw [hx], .inl ht'.symm⟩
        obtain ⟨s1, rfl, h1 | ⟨r, h1, _⟩⟩ := step h
        · obtain ⟨s2, rfl, h2 | ⟨r, h2, _⟩⟩ := step h1.symm
          · obtain ⟨s3, rfl, h3 | ⟨r, h3, _⟩⟩ := step h2.symm
            · obtain ⟨s4, rfl, _⟩ := step h3.symm
              exact ⟨[], s4, rfl⟩
            · exact absurd (List.cons.inj h3).1 (by decide)
          · exact absurd (List.cons.inj (List.cons.inj h2).2).1 (by decide)
        · exact absurd (List.cons.inj h1).1 (by decide)
      · exact up (hp_powers hp h)

theorem follow_powers {p : Char → Bool} : ∀ {s : Str}, follow s = true → follow (powers p s) = true
  | [], _ => rfl
  | c :: s, h => by
    rw [follow, Bool.and_eq_true] at h
    have ih := follow_powers (p := p) h.2
    rw [powers]
    split
    · rename_i hl
      have hc : (c != '(') = true := by
        simp only [Bool.and_eq_true] at hl
        simpa using letter_ne (letter_iff.1 hl.1) (show isLetter '(' = false from rfl)
      simp [follow, hc, ih]
    · rw [follow, ih, Bool.and_true]
      cases s with
      | nil => simpa [powers] using h.1
      | cons x s =>
        obtain ⟨r, hr⟩ := powers_head p x s
        rw [hr]
        simpa using h.1

/-- A text that stays as it is. -/
theorem basic_same {s : Str} (h1 : follow s = true) (h2 : ¬ ∃ a b, s = a ++ c!"/hp*h" ++ b)
    (h3 : ∀ c ∈ s, c ≠ ' ' ∧ c ≠ '-' ∧ c ≠ '.' ∧ c ≠ '^') : basic s = s := by
  simp only [basic, replacements, List.foldl_cons, List.foldl_nil]
  rw [replaceAll_none (old := c!"(2011)") (by decide) (follow_infix (d := '2') (by decide) h1),
    replaceAll_none (old := c!"% (obsolete)") (by decide) (not_infix_of_mem (c := ' ') (by decide) (fun h => (h3 _ h).1 rfl)), singles]
  have : s.flatMap sub = s := by
    rw [flatMap_sub (fun h => (h3 _ h).2.2.2 rfl)]
    conv_rhs => rw [← List.map_id s]
    refine List.map_congr_left fun c hc => ?_
    obtain ⟨a, b, d, _⟩ := h3 c hc
    simp [tr, a, b, d]
  rw [this, replaceAll_none (old := c!"/hp*h") (by decide) h2,
    replaceAll_none (old := c!"(s)") (by decide) (follow_infix (d := 's') (by decide) h1)]

/-- A unit without brackets that has been corrected is not changed again. -/
theorem correct_twice_partial {s : Str} (h : '(' ∉ s) : correct (correct s) = correct s := by
  have hf := hp_facts (fun c => c ≠ ' ' ∧ c ≠ '-' ∧ c ≠ '.' ∧ c ≠ '^') (by decide) _ (Nat.le_refl _) (bracket_sub h)
    (fun c hc => by
      obtain ⟨x, _, hx⟩ := List.mem_flatMap.1 hc
      exact (mem_sub hx).2)
  have hb : basic s = replaceAux c!"/hp*h" c!"/(hp*h)" 0 (s.flatMap sub) := by
    rw [basic_plain h, replaceAll_none (old := c!"(s)") (by decide), replaceAll, if_neg (by decide)]
    rw [replaceAll, if_neg (by decide)]
    exact follow_infix (d := 's') (by decide) hf.1
  rw [← hb] at hf
  obtain ⟨h1, h2, h3⟩ := hf
  rw [correct_eq s]
  split
  · rename_i hx
    rw [correct_eq, basic_same h1 h2 h3, if_pos hx]
  · have h4 := follow_powers (p := twoToFour) h1
    have h5 : ¬ ∃ a b, powers twoToFour (basic s) = a ++ c!"/hp*h" ++ b := fun hx => h2 (hp_powers digits_two hx)
    have h6 : ∀ c ∈ powers twoToFour (basic s), c ≠ ' ' ∧ c ≠ '-' ∧ c ≠ '.' ∧ c ≠ '^' := by
      intro c hc
      rcases powers_mem hc with e | e
      · subst e; decide
      · exact h3 c e
    rw [correct_eq, formulas_eq, basic_same h4 h5 h6]
    split
    · rfl
    · exact powers_none (hasPower_powers digits_two _)

/-- So the units named in a formula are accepted like those of an exchange. -/
theorem formula_unit_partial {known definable : Str → Bool} {s : Str} (h : '(' ∉ s) :
    formulaUnit known definable s = unitName known definable s := by
  unfold formulaUnit
  cases hu : unitName known definable s with
  | error e => rfl
  | ok n =>
    have hn : n = correct s := by
      simp only [unitName] at hu
      split at hu
      · exact (Except.ok.inj hu).symm
      · split at hu
        · exact (Except.ok.inj hu).symm
        · cases hu
    subst hn
    simp only [unitName, correct_twice_partial h] at hu ⊢
    exact hu

/-- With brackets it can be changed again. -/
theorem correct_twice_fails : ∃ s : Str, correct (correct s) ≠ correct s := ⟨c!"((s))", by decide⟩

example : correct c!"kg/hp.h" = c!"kg/(hp*h)" ∧ correct c!"kg/(hp*h)" = c!"kg/(hp*h)" := by decide

end Verif.UnitNames
