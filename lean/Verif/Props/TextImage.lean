/-
Comments of an EcoSpold2 data set on their way to ILCD: the variables in the texts and the sources of the images.
-/
import Verif.Model.TextImage
import Verif.Spec.TextImage
import Verif.Lemmas.Segs
import Verif.Lemmas.Num
import Verif.Props.Validators
import Verif.Props.Refs
import Mathlib.Data.List.Forall2
import Mathlib.Data.List.Induction
import Mathlib.Tactic.ByContra

namespace Verif.TextImage
open Spec
open IlcdVars (replaceAll replaceAux replaceAux_hit)
open Segs (NoStart noStart_char replaceAux_pass noStart_nil)
open Validators (Re patternValidate uuidRe)
open Validators.Spec (UuidText)

theorem bind_iff {α β : Type} (m : Py α) (f : α → Py β) (b : β) :
    (m >>= f) = .ok b ↔ ∃ a, m = .ok a ∧ f a = .ok b := by
  cases m with
  | ok a => exact ⟨fun h => ⟨a, rfl, h⟩, fun ⟨_, h1, h2⟩ => by injection h1 with h1; subst h1; exact h2⟩
  | error e => exact ⟨fun h => (nomatch h), fun ⟨_, h1, _⟩ => (nomatch h1)⟩

/-! ## Variables -/

/-- What has become of a piece after one variable. -/
def step (n v : Str) : Piece → Piece
  | .lit s => .lit s
  | .var m => if m = n then .lit v else .var m

theorem mark_eq (n : Str) : mark n = '{' :: '{' :: (n ++ ['}', '}']) := rfl

theorem name_end {n m r rest : Str} (hn : '}' ∉ n) (hm : '}' ∉ m) (h : m ++ '}' :: rest = n ++ '}' :: r) : m = n := by
  induction m generalizing n with
  | nil =>
    cases n with
    | nil => rfl
    | cons c n =>
      simp only [List.nil_append, List.cons_append, List.cons.injEq] at h
      exact absurd (by rw [← h.1]; simp) hn
  | cons d m ih =>
    cases n with
    | nil =>
      simp only [List.nil_append, List.cons_append, List.cons.injEq] at h
      exact absurd (by rw [← h.1]; simp) hm
    | cons c n =>
      simp only [List.cons_append, List.cons.injEq] at h
      simp only [List.mem_cons, not_or] at hn hm
      rw [h.1, ih hn.2 hm.2 h.2]

/-- The place of another variable is passed over. -/
theorem noStart_var {n m rest : Str} (h : m ≠ n) (hn : '}' ∉ n) (hm : '{' ∉ m) (hm' : '}' ∉ m) :
    NoStart (mark n) ('{' :: '{' :: (m ++ ['}', '}'])) rest := by
  have h2 : NoStart (mark n) (m ++ ['}', '}']) rest := noStart_char (by simpa using hm)
  intro i hi hp
  match i, hi, hp with
  | 0, _, hp =>
    rw [mark_eq] at hp
    simp only [List.drop_zero, List.cons_append, List.cons_prefix_cons, true_and, List.append_assoc] at hp
    obtain ⟨r, hr⟩ := hp
    exact h (name_end hn hm' (by simpa using hr.symm))
  | 1, _, hp =>
    rw [mark_eq] at hp
    simp only [List.cons_append, List.drop_succ_cons, List.drop_zero, List.cons_prefix_cons, true_and] at hp
    cases m with
    | nil => simp at hp
    | cons c m =>
      simp only [List.cons_append, List.cons_prefix_cons] at hp
      exact hm (by rw [← hp.1]; simp)
  | i + 2, hi, hp =>
    exact h2 i (by simpa using hi) (by simpa using hp)

theorem subst_step {n v : Str} (hn : '}' ∉ n) : ∀ (ps : List Piece), (∀ p ∈ ps, p.Plain) →
    replaceAll (mark n) v (written ps) = written (ps.map (step n v)) := by
  intro ps hp
  have hne : mark n ≠ [] := by simp [mark_eq]
  unfold replaceAll
  rw [if_neg hne]
  induction ps with
  | nil => rfl
  | cons p ps ih =>
    have ih := ih (fun q hq => hp q (by simp [hq]))
    have hp := hp p (by simp)
    have hw : ∀ (q : Piece) l, written (q :: l) = q.written ++ written l := fun _ _ => rfl
    rw [List.map_cons, hw, hw, ← ih]
    cases p with
    | lit s => exact replaceAux_pass (List.prefix_refl _) (noStart_char hp)
    | var m =>
      by_cases h : m = n
      · subst h
        rw [step, if_pos rfl]
        exact replaceAux_hit hne
      · rw [step, if_neg h]
        exact replaceAux_pass (List.prefix_refl _) (noStart_var h hn hp.1 hp.2)

theorem step_plain {n v : Str} (hv : '{' ∉ v) {p : Piece} (h : p.Plain) : (step n v p).Plain := by
  cases p with
  | lit s => exact h
  | var m =>
    by_cases hm : m = n
    · rw [step, if_pos hm]; exact hv
    · rw [step, if_neg hm]; exact h

theorem filled_step (n v : Str) (vars : List (Str × Str)) (p : Piece) :
    (step n v p).filled vars = p.filled ((n, v) :: vars) := by
  cases p with
  | lit s => rfl
  | var m =>
    by_cases h : m = n
    · subst h; simp [step, Piece.filled]
    · have h' : ¬ n = m := fun e => h e.symm
      simp [step, h, Piece.filled, h']

/-- Every place of a variable is filled with the value of that variable, and nothing else is changed. -/
theorem variables_filled : ∀ (vars : List (Str × Str)) (ps : List Piece), (∀ p ∈ ps, p.Plain) →
    (∀ v ∈ vars, PlainVar v) → subst vars (written ps) = filled vars ps := by
  intro vars
  induction vars with
  | nil =>
    intro ps _ _
    unfold subst filled written
    congr 1
  | cons v vars ih =>
    obtain ⟨n, v⟩ := v
    intro ps hp hv
    have h1 := hv (n, v) (by simp)
    rw [subst, subst_step h1.1 ps hp, ih _ (by
      intro q hq
      obtain ⟨p, hp', rfl⟩ := List.mem_map.1 hq
      exact step_plain h1.2 (hp p hp')) (fun w hw => hv w (by simp [hw]))]
    unfold filled
    rw [List.flatMap_map]
    congr 1
    funext p
    exact filled_step _ _ _ _

example : subst [(c!"yield", c!"12 t/ha"), (c!"crop", c!"maize")] c!"The yield of {{crop}} is {{yield}}, see {{other}}." =
    c!"The yield of maize is 12 t/ha, see {{other}}." :=
  variables_filled [(c!"yield", c!"12 t/ha"), (c!"crop", c!"maize")]
    [.lit c!"The yield of ", .var c!"crop", .lit c!" is ", .var c!"yield", .lit c!", see ", .var c!"other", .lit c!"."]
    (by decide) (by decide)

/-- A text without opening braces in pairs is left as it is, whatever the variables are called and worth. -/
theorem no_place_kept (vars : List (Str × Str)) (s : Str) (h : ¬ c!"{{" <:+: s) : subst vars s = s := by
  induction vars with
  | nil => rfl
  | cons v vars ih =>
    obtain ⟨n, v⟩ := v
    rw [subst]
    have : replaceAll (mark n) v s = s := by
      unfold replaceAll
      rw [if_neg (by simp [mark_eq]), IlcdVars.replaceAux_none]
      rintro ⟨a, b, e⟩
      exact h ⟨a, n ++ c!"}}" ++ b, by rw [e, mark]; simp⟩
    rw [this]
    exact ih

example : ¬ c!"{{" <:+: c!"a {b} c" := by decide

/-- A value that itself has a place for a variable is filled if that variable comes later, and not if it came before:
the text depends on the order of the variables. -/
theorem order_matters (n m v : Str) (hn : '}' ∉ n) (hm : '}' ∉ m) (hn' : '{' ∉ n) (hm' : '{' ∉ m) (h : n ≠ m) :
    subst [(n, mark m), (m, v)] (mark n) = v ∧ subst [(m, v), (n, mark m)] (mark n) = mark m := by
  have key : ∀ a b w : Str, '}' ∉ a → '}' ∉ b → '{' ∉ b → replaceAll (mark a) w (mark b) = if b = a then w else mark b := by
    intro a b w ha hb hb'
    have := subst_step (v := w) ha [.var b] (by simp [Piece.Plain, hb, hb'])
    have e : written [Piece.var b] = mark b := by simp [written, Piece.written, mark_eq]
    rw [e] at this
    rw [this]
    by_cases hab : b = a <;> simp [step, hab, written, Piece.written, mark_eq]
  refine ⟨?_, ?_⟩
  · rw [subst, key n n _ hn hn hn', if_pos rfl, subst, key m m _ hm hm hm', if_pos rfl, subst]
  · rw [subst, key m n _ hm hn hn', if_neg h, subst, key n n _ hn hn hn', if_pos rfl, subst]

/-! ## Reading the comment -/

/-- The variables of a comment: each has a name and a value. -/
def Complete (l : List VarElem) (vars : List (Str × Str)) : Prop :=
  l = vars.map fun p => ⟨some p.1, some p.2⟩

theorem readVars_iff : ∀ (l : List VarElem) (vars : List (Str × Str)), readVars l = .ok vars ↔ Complete l vars
  | [], vars => by
    unfold readVars Complete
    cases vars <;> simp
  | v :: l, vars => by
    unfold readVars
    rw [bind_iff]
    have hv : ∀ p, readVar v = .ok p ↔ v = ⟨some p.1, some p.2⟩ := by
      intro p
      obtain ⟨n, t⟩ := v
      obtain ⟨a, b⟩ := p
      unfold readVar
      cases n <;> cases t <;> simp
    constructor
    · rintro ⟨p, h1, h2⟩
      obtain ⟨ps, h3, h4⟩ := (bind_iff _ _ _).1 h2
      cases h4
      rw [hv] at h1
      have := (readVars_iff l ps).1 h3
      unfold Complete at this ⊢
      simp [h1, this]
    · intro h
      unfold Complete at h
      cases vars with
      | nil => simp at h
      | cons p ps =>
        simp only [List.map_cons, List.cons.injEq] at h
        exact ⟨p, (hv p).2 h.1, (bind_iff _ _ _).2 ⟨ps, (readVars_iff l ps).2 h.2, rfl⟩⟩

theorem readVars_error : ∀ (l : List VarElem), (¬ ∃ vars, Complete l vars) → readVars l = .error .keyError
  | [], h => absurd ⟨[], rfl⟩ h
  | v :: l, h => by
    unfold readVars
    obtain ⟨n, t⟩ := v
    unfold readVar
    cases n with
    | none => rfl
    | some n =>
      cases t with
      | none => rfl
      | some t =>
        have : ¬ ∃ vars, Complete l vars := fun ⟨vars, e⟩ => h ⟨(n, t) :: vars, by unfold Complete at *; simp [e]⟩
        rw [readVars_error l this]
        rfl

/-! ## Identifiers -/

theorem isIdChar_iff (c : Char) : idChar c = true ↔ isIdChar c := by
  unfold idChar isIdChar
  simp only [Bool.or_eq_true, Bool.and_eq_true, decide_eq_true_eq]
  exact Iff.rfl

theorem idRe_lang (s : Str) : idRe.lang s ↔ IdText s := by
  have h : (fun c => idChar c = true) = isIdChar := funext fun c => propext (isIdChar_iff c)
  have e : ∀ n s, ((Re.cls idChar).times n).lang s ↔ Validators.Spec.repeated isIdChar n n s := by
    intro n s; rw [← h]; exact Re.times_lang' _ _ _
  exact Re.seq_lang _ _ (.cons (e 8) (.cons (Re.lit_lang _) (.cons (e 4) (.cons (Re.lit_lang _)
    (.cons (e 4) (.cons (Re.lit_lang _) (.cons (e 4) (.cons (Re.lit_lang _) (.cons (e 12) .nil)))))))))
    s

theorem idText_length {s : Str} (h : IdText s) : s.length = 36 := by
  simp only [IdText, Validators.Spec.followed, Validators.Spec.single, Validators.Spec.repeated] at h
  obtain ⟨a1, b1, rfl, h1, a2, b2, rfl, ⟨_, _, rfl⟩, a3, b3, rfl, h3, a4, b4, rfl, ⟨_, _, rfl⟩, a5, b5,
    rfl, h5, a6, b6, rfl, ⟨_, _, rfl⟩, a7, b7, rfl, h7, a8, b8, rfl, ⟨_, _, rfl⟩, a9, b9, rfl, h9,
    rfl⟩ := h
  simp only [List.length_append, List.length_cons, List.length_nil]
  omega

theorem isMatch_idRe (s : Str) : idRe.isMatch s = true ↔ IdText (s.take 36) := by
  rw [Re.isMatch_iff]
  constructor
  · rintro ⟨x, y, rfl, h⟩
    rw [idRe_lang] at h
    rw [List.take_append_of_le_length (idText_length h).ge, List.take_of_length_le (idText_length h).le]
    exact h
  · intro h
    exact ⟨s.take 36, s.drop 36, (List.take_append_drop 36 s).symm, (idRe_lang _).2 h⟩

theorem findId_iff : ∀ (s u : Str), findId s = some u ↔ FirstId s u
  | [], u => by
    unfold findId FirstId
    constructor
    · intro h; cases h
    · rintro ⟨h, a, b, e, -⟩
      have := idText_length h
      have := congrArg List.length e
      simp at this; omega
  | c :: s, u => by
    unfold findId
    split
    · rename_i h
      rw [isMatch_idRe] at h
      constructor
      · intro e
        cases e
        exact ⟨h, [], (c :: s).drop 36, by simp [List.take_append_drop], fun _ _ _ _ _ => Nat.zero_le _⟩
      · rintro ⟨hu, a, b, e, hf⟩
        have := hf [] ((c :: s).take 36) ((c :: s).drop 36) (by simp [List.take_append_drop]) h
        cases a with
        | cons d a => simp at this
        | nil =>
          rw [List.nil_append] at e
          rw [e, List.take_append_of_le_length (idText_length hu).ge, List.take_of_length_le (idText_length hu).le]
    · rename_i h
      rw [isMatch_idRe] at h
      rw [findId_iff s u]
      have hnil : ∀ {u' b'}, c :: s = [] ++ u' ++ b' → ¬ IdText u' := by
        intro u' b' e hu'
        apply h
        rw [e, List.nil_append, List.take_append_of_le_length (idText_length hu').ge,
          List.take_of_length_le (idText_length hu').le]
        exact hu'
      constructor
      · rintro ⟨hu, a, b, e, hf⟩
        refine ⟨hu, c :: a, b, by simp [e], ?_⟩
        intro a' u' b' e' hu'
        cases a' with
        | nil => exact absurd hu' (hnil e')
        | cons d a' =>
          simp only [List.cons_append, List.cons.injEq] at e'
          simpa using hf a' u' b' e'.2 hu'
      · rintro ⟨hu, a, b, e, hf⟩
        cases a with
        | nil => exact absurd hu (hnil e)
        | cons d a =>
          simp only [List.cons_append, List.cons.injEq] at e
          refine ⟨hu, a, b, e.2, ?_⟩
          intro a' u' b' e' hu'
          simpa using hf (c :: a') u' b' (by simp [e']) hu'

/-- If a text has a part in the shape of a UUID it has a first one. -/
theorem firstId_exists {s a u b : Str} (e : s = a ++ u ++ b) (h : IdText u) : ∃ v, FirstId s v := by
  induction a generalizing s with
  | nil =>
    exact ⟨u, h, [], b, by simpa using e, fun _ _ _ _ _ => Nat.zero_le _⟩
  | cons c a ih =>
    rw [List.cons_append, List.cons_append] at e
    obtain ⟨v, hv⟩ := ih rfl
    subst e
    have := (findId_iff _ _).2 hv
    cases h2 : findId (c :: (a ++ u ++ b)) with
    | some w => exact ⟨w, (findId_iff _ _).1 h2⟩
    | none =>
      rw [findId] at h2
      split at h2
      · cases h2
      · rw [this] at h2; cases h2

theorem natStr_log (n : Nat) : (natStr n).length = Nat.log 10 n + 1 := by
  induction n using Nat.strongRecOn with
  | _ n ih =>
    by_cases h : n < 10
    · rw [natStr_lt h, Nat.log_of_lt h]; rfl
    · have h' : 10 ≤ n := by omega
      rw [natStr_ge h', List.length_append, ih _ (by omega), Nat.log_of_one_lt_of_le (by decide) h']
      rfl

theorem parseDigits_natStr (n acc : Nat) : parseDigits acc (natStr n) = some (acc * 10 ^ (Nat.log 10 n + 1) + n) := by
  induction n using Nat.strongRecOn generalizing acc with
  | _ n ih =>
    by_cases h : n < 10
    · rw [natStr_lt h, Nat.log_of_lt h]
      have := parseDigits_snoc [] (by simp) n h acc
      simpa [parseDigits] using this
    · have h' : 10 ≤ n := by omega
      rw [natStr_ge h', parseDigits_snoc _ (fun c hc => natStr_digit hc) _ (by omega), ih _ (by omega),
        Nat.log_of_one_lt_of_le (by decide) h', Option.map_some]
      congr 1
      rw [pow_succ (n := Nat.log 10 (n / 10) + 1)]
      have := Nat.div_add_mod n 10
      rw [Nat.add_mul, ← Nat.mul_assoc]
      omega

theorem parseDigits_append : ∀ (l m : Str), (∀ c ∈ l, c.isDigit = true) → ∀ (acc : Nat),
    parseDigits acc (l ++ m) = (parseDigits acc l).bind fun n => parseDigits n m
  | [], m, _, acc => rfl
  | c :: l, m, h, acc => by
    have hne : c ≠ '_' := by rintro rfl; have := h '_' (by simp); simp at this
    rw [List.cons_append, parseDigits.eq_3 _ _ _ (by intro _ _ e; exact absurd e hne),
      parseDigits.eq_3 _ _ _ (by intro _ _ e; exact absurd e hne)]
    cases digitVal c with
    | none => rfl
    | some v => exact parseDigits_append l m (fun d hd => h d (by simp [hd])) _

theorem parseDigits_codes : ∀ (s : Str) (acc : Nat), parseDigits acc (codes s) =
    some (s.foldl (fun n c => n * 10 ^ (Nat.log 10 c.toNat + 1) + c.toNat) acc)
  | [], acc => rfl
  | c :: s, acc => by
    have : codes (c :: s) = natStr c.toNat ++ codes s := rfl
    rw [this, parseDigits_append _ _ (fun d hd => natStr_digit hd), parseDigits_natStr, Option.bind_some,
      parseDigits_codes s]
    rfl

theorem codes_digit {s : Str} {c : Char} (h : c ∈ codes s) : c.isDigit = true := by
  obtain ⟨d, -, h⟩ := List.mem_flatMap.1 h
  exact natStr_digit h

/-- The number from which the random identifier is drawn. -/
theorem seed_read (s : Str) (h : s ≠ []) : parseNat (codes s) = some (seed s) := by
  have key : ∀ l : Str, l ≠ [] → (∀ c ∈ l, c.isDigit = true) → parseNat l = parseDigits 0 l := by
    intro l hl hd
    cases l with
    | nil => exact absurd rfl hl
    | cons c l =>
      have hne : c ≠ '_' := by rintro rfl; have := hd '_' (by simp); simp at this
      rw [parseDigits.eq_3 _ _ _ (by intro _ _ e; exact absurd e hne), parseNat]
      cases digitVal c with
      | none => rfl
      | some v => simp
  rw [key _ ?_ (fun c => codes_digit), parseDigits_codes]
  · rfl
  · cases s with
    | nil => exact absurd rfl h
    | cons c s =>
      have : codes (c :: s) = natStr c.toNat ++ codes s := rfl
      rw [this]
      intro e
      exact natStr_ne_nil _ (List.append_eq_nil_iff.1 e).1

/-- The identifier made for a text: its first part in the shape of a UUID, otherwise one drawn from its codes. -/
theorem textUuid_iff (rnd : Nat → Str) (s u : Str) : textUuid rnd s = .ok u ↔
    FirstId s u ∨ ((¬ ∃ v, FirstId s v) ∧ s ≠ [] ∧ u = rnd (seed s)) := by
  unfold textUuid
  cases h : findId s with
  | some v =>
    have hv := (findId_iff _ _).1 h
    simp only [Except.ok.injEq]
    constructor
    · rintro rfl; exact .inl hv
    · rintro (hu | ⟨hn, -⟩)
      · rw [← findId_iff, h] at hu
        exact Option.some.inj hu
      · exact absurd ⟨v, hv⟩ hn
  | none =>
    have hn : ¬ ∃ v, FirstId s v := by
      rintro ⟨v, hv⟩
      rw [← findId_iff, h] at hv
      cases hv
    by_cases hs : s = []
    · subst hs
      simp [codes, parseNat, hn]
      exact fun hu => hn ⟨u, hu⟩
    · simp only [seed_read s hs, Except.ok.injEq]
      constructor
      · rintro rfl; exact .inr ⟨hn, hs, rfl⟩
      · rintro (hu | ⟨-, -, hu⟩)
        · exact absurd ⟨u, hu⟩ hn
        · exact hu.symm

/-- Only the empty text has no identifier. -/
theorem textUuid_error_iff (rnd : Nat → Str) (s : Str) (e : PyErr) :
    textUuid rnd s = .error e ↔ s = [] ∧ e = .valueError := by
  constructor
  · intro h
    by_cases hs : s = []
    · subst hs
      simp [textUuid, findId, codes, parseNat] at h
      exact ⟨rfl, h.symm⟩
    · exfalso
      unfold textUuid at h
      rw [seed_read s hs] at h
      cases hf : findId s <;> simp [hf] at h
  · rintro ⟨rfl, rfl⟩
    rfl

theorem seed_digits {s : Str} {c : Char} (hs : s.head? = some c) (hc : c.toNat ≠ 0) : natStr (seed s) = codes s := by
  have digit : ∀ d : Char, d.isDigit = true → ∃ k, k < 10 ∧ d = k.digitChar := by
    intro d hd
    simp only [Char.isDigit, Bool.and_eq_true, decide_eq_true_eq] at hd
    have h1 : 48 ≤ d.toNat := hd.1
    have h2 : d.toNat ≤ 57 := hd.2
    have : ∀ k : Fin 10, Char.ofNat (k.1 + 48) = (k : Nat).digitChar := by decide
    refine ⟨d.toNat - 48, by omega, ?_⟩
    have h3 := this ⟨d.toNat - 48, by omega⟩
    simp only at h3
    rw [← h3, Nat.sub_add_cancel h1, Char.ofNat_toNat]
  have key : ∀ l : Str, l ≠ [] → (∀ c ∈ l, c.isDigit = true) → l.head? ≠ some '0' → ∃ n, 0 < n ∧ natStr n = l := by
    intro l
    induction l using List.reverseRecOn with
    | nil => intro h; exact absurd rfl h
    | append_singleton l d ih =>
      intro _ hd h0
      obtain ⟨k, hk, rfl⟩ := digit d (hd d (by simp))
      by_cases hl : l = []
      · subst hl
        refine ⟨k, ?_, natStr_lt hk⟩
        by_contra hk0
        have : k = 0 := by omega
        subst this
        exact h0 rfl
      · obtain ⟨n, hn, e⟩ := ih hl (fun c hc => hd c (by simp [hc])) (by
          cases l with
          | nil => exact absurd rfl hl
          | cons c l => simpa using h0)
        refine ⟨n * 10 + k, by omega, ?_⟩
        rw [natStr_ge (by omega)]
        have e1 : (n * 10 + k) / 10 = n := by omega
        have e2 : (n * 10 + k) % 10 = k := by omega
        rw [e1, e2, e]
  have hne : s ≠ [] := by rintro rfl; cases hs
  have hcodes : codes s ≠ [] := by
    intro e
    have := seed_read s hne
    rw [e] at this; cases this
  obtain ⟨n, -, hn⟩ := key (codes s) hcodes (fun _ => codes_digit) (by
    cases s with
    | nil => exact absurd rfl hne
    | cons d s =>
      cases hs
      have e : codes (c :: s) = natStr c.toNat ++ codes s := rfl
      rw [e, List.head?_append_of_ne_nil _ (natStr_ne_nil _)]
      generalize c.toNat = m at hc
      clear e hcodes hne
      induction m using Nat.strongRecOn with
      | _ m ih =>
        by_cases h : m < 10
        · rw [natStr_lt h]
          have : ∀ k : Fin 10, k.1 ≠ 0 → (k : Nat).digitChar ≠ '0' := by decide
          simpa using this ⟨m, h⟩ hc
        · rw [natStr_ge (by omega), List.head?_append_of_ne_nil _ (natStr_ne_nil _)]
          exact ih _ (by omega) (by omega))
  have h1 := parseNat_natStr n
  rw [hn, seed_read s hne] at h1
  rw [Option.some.inj h1, hn]

theorem codes_cons {c d : Char} {s t : Str} (hc : Printable c) (hd : Printable d)
    (h : codes (c :: s) = codes (d :: t)) : c = d ∧ codes s = codes t := by
  have key : ∀ a b : Fin 95, natStr (a.1 + 32) <+: natStr (b.1 + 32) → a = b := by decide +kernel
  have e1 : codes (c :: s) = natStr c.toNat ++ codes s := rfl
  have e2 : codes (d :: t) = natStr d.toNat ++ codes t := rfl
  unfold Printable at hc hd
  have hcd : c.toNat = d.toNat := by
    have ka := key ⟨c.toNat - 32, by omega⟩ ⟨d.toNat - 32, by omega⟩
    have kb := key ⟨d.toNat - 32, by omega⟩ ⟨c.toNat - 32, by omega⟩
    simp only [Nat.sub_add_cancel hc.1, Nat.sub_add_cancel hd.1, Fin.mk.injEq] at ka kb
    have p1 : natStr c.toNat <+: codes (d :: t) := ⟨codes s, by rw [← h, e1]⟩
    have p2 : natStr d.toNat <+: codes (d :: t) := ⟨codes t, e2.symm⟩
    rcases Nat.le_total (natStr c.toNat).length (natStr d.toNat).length with hl | hl
    · have := ka (List.prefix_of_prefix_length_le p1 p2 hl); omega
    · have := kb (List.prefix_of_prefix_length_le p2 p1 hl); omega
  refine ⟨Char.toNat_inj.1 hcd, ?_⟩
  rw [e1, e2, hcd] at h
  exact List.append_cancel_left h

theorem codes_injective : ∀ (s t : Str), (∀ c ∈ s, Printable c) → (∀ c ∈ t, Printable c) → codes s = codes t → s = t
  | [], [], _, _, _ => rfl
  | [], d :: t, _, _, h => by
    have := seed_read (d :: t) (by simp)
    rw [← h] at this; cases this
  | c :: s, [], _, _, h => by
    have := seed_read (c :: s) (by simp)
    rw [h] at this; cases this
  | c :: s, d :: t, hs, ht, h => by
    obtain ⟨e1, e2⟩ := codes_cons (hs c (by simp)) (ht d (by simp)) h
    rw [e1, codes_injective s t (fun c hc => hs c (by simp [hc])) (fun c hc => ht c (by simp [hc])) e2]

/-- Two addresses of ordinary characters are given the same number only if they are the same. -/
theorem seed_injective (s t : Str) (hs : ∀ c ∈ s, Printable c) (ht : ∀ c ∈ t, Printable c) (h : seed s = seed t) :
    s = t := by
  have pos : ∀ s : Str, s ≠ [] → (∀ c ∈ s, Printable c) → natStr (seed s) = codes s ∧ 0 < seed s := by
    intro s hne hs
    cases s with
    | nil => exact absurd rfl hne
    | cons c s =>
      have hc := hs c (by simp)
      have h1 := seed_digits (s := c :: s) rfl (by unfold Printable at hc; omega)
      refine ⟨h1, ?_⟩
      by_contra h0
      have h0 : seed (c :: s) = 0 := by omega
      rw [h0] at h1
      have e1 : codes (c :: s) = natStr c.toNat ++ codes s := rfl
      have h2 := congrArg List.length h1
      rw [e1, List.length_append, natStr_log c.toNat] at h2
      have h3 : 0 < Nat.log 10 c.toNat := Nat.log_pos (by decide) (by unfold Printable at hc; omega)
      have h4 : (natStr 0).length = 1 := by decide
      omega
  by_cases h1 : s = []
  · by_cases h2 : t = []
    · rw [h1, h2]
    · have := (pos t h2 ht).2
      rw [← h, h1] at this
      cases this
  · by_cases h2 : t = []
    · have := (pos s h1 hs).2
      rw [h, h2] at this
      cases this
    · apply codes_injective s t hs ht
      rw [← (pos s h1 hs).1, ← (pos t h2 ht).1, h]

/-- With other characters two addresses can share their number, and so the identifier. -/
theorem seed_collision : ∃ s t : Str, s ≠ t ∧ seed s = seed t ∧ ∀ rnd, textUuid rnd s = textUuid rnd t :=
  ⟨[' ', 'Ō'], ['Ń', ' '], by decide, by decide +kernel, fun _ => rfl⟩

/-! ## Images -/

/-- What `addSource` does to the data set. -/
theorem addSource_iff (rnd : Nat → Str) (hr : ∀ n, UuidText (rnd n)) (short reference : Str) (s s' : St) (url : Str) :
    addSource rnd short reference s url = .ok s' ↔ ∃ u, Identified rnd url u ∧
      s' = ⟨s.refs ++ [⟨c!"../sources/" ++ u, u, c!"01.00.000", .one short⟩],
        Refs.make s.files (u, ⟨reference, url, c!"Images"⟩)⟩ := by
  have htake : ∀ v : Str, v.length = 36 → v.take 36 = v := fun v h => List.take_of_length_le h.le
  have hval : ∀ v w : Str, v.length = 36 → (patternValidate uuidRe (.str v) = .ok w ↔ UuidText v ∧ w = v) := by
    intro v w hv
    obtain ⟨h1, h2⟩ := Validators.uuid_accepts_iff_partial v
    rw [htake v hv] at h1 h2
    by_cases hu : UuidText v
    · rw [h1.2 hu]
      simp [hu, eq_comm]
    · rw [h2.2 hu]
      simp [hu]
  unfold addSource
  rw [bind_iff]
  constructor
  · rintro ⟨u, h1, h2⟩
    obtain ⟨w, h3, h4⟩ := (bind_iff _ _ _).1 h2
    injection h4 with h4
    rcases (textUuid_iff _ _ _).1 h1 with h | ⟨hn, hne, rfl⟩
    · obtain ⟨hu, rfl⟩ := (hval _ _ (idText_length h.1)).1 h3
      exact ⟨w, .inl ⟨h, hu⟩, h4.symm⟩
    · obtain ⟨-, rfl⟩ := (hval _ _ (Validators.uuidText_length (hr _))).1 h3
      exact ⟨_, .inr ⟨hn, hne, rfl⟩, h4.symm⟩
  · rintro ⟨u, hu, rfl⟩
    rcases hu with ⟨h, hu⟩ | ⟨hn, hne, rfl⟩
    · exact ⟨u, (textUuid_iff _ _ _).2 (.inl h), (bind_iff _ _ _).2 ⟨u, (hval _ _ (idText_length h.1)).2 ⟨hu, rfl⟩, rfl⟩⟩
    · exact ⟨_, (textUuid_iff _ _ _).2 (.inr ⟨hn, hne, rfl⟩), (bind_iff _ _ _).2
        ⟨_, (hval _ _ (Validators.uuidText_length (hr _))).2 ⟨hr _, rfl⟩, rfl⟩⟩

/-- An address is refused exactly when it is empty or its first part in the shape of a UUID is not one (capital letters,
or letters after `f`). -/
theorem addSource_refused (rnd : Nat → Str) (hr : ∀ n, UuidText (rnd n)) (short reference : Str) (s : St) (url : Str) :
    addSource rnd short reference s url = .error .valueError ↔ url = [] ∨ ∃ v, FirstId url v ∧ ¬ UuidText v := by
  constructor
  · intro h
    by_contra hn
    rw [not_or] at hn
    have : ∃ u, Identified rnd url u := by
      by_cases hf : ∃ v, FirstId url v
      · obtain ⟨v, hv⟩ := hf
        exact ⟨v, .inl ⟨hv, by by_contra hu; exact hn.2 ⟨v, hv, hu⟩⟩⟩
      · exact ⟨_, .inr ⟨hf, hn.1, rfl⟩⟩
    obtain ⟨u, hu⟩ := this
    have := (addSource_iff rnd hr short reference s _ url).2 ⟨u, hu, rfl⟩
    rw [h] at this
    cases this
  · intro h
    unfold addSource
    rcases h with rfl | ⟨v, hv, hu⟩
    · rfl
    · rw [(textUuid_iff rnd url v).2 (.inl hv)]
      have h2 := (Validators.uuid_accepts_iff_partial v).2
      rw [List.take_of_length_le (idText_length hv.1).le] at h2
      show (patternValidate uuidRe (.str v) >>= _) = _
      rw [h2.2 hu]
      rfl

/-- The images of a comment: every one has an address that can be identified; every one is referenced, in order, and the
files are those of the identifiers that are new, each with the first address of that identifier. -/
theorem doImages_iff (rnd : Nat → Str) (hr : ∀ n, UuidText (rnd n)) (field : Str) : ∀ (l : List (Option Str)) (s s' : St),
    doImages rnd field s l = .ok s' ↔ ∃ us : List (Str × Str), l = us.map (fun p => some p.1) ∧
      (∀ p ∈ us, Identified rnd p.1 p.2) ∧
      s' = ⟨s.refs ++ us.map (fun p => ⟨c!"../sources/" ++ p.2, p.2, c!"01.00.000", .one (c!"Image URL from " ++ field)⟩),
        Refs.makeAll s.files (us.map fun p => (p.2, ⟨c!"Image URL", p.1, c!"Images"⟩))⟩
  | [], s, s' => by
    unfold doImages
    constructor
    · intro h
      injection h with h
      exact ⟨[], rfl, by simp, by rw [← h]; simp [Refs.makeAll]⟩
    · rintro ⟨us, h1, -, h3⟩
      cases us with
      | nil => simp [Refs.makeAll] at h3; rw [h3]
      | cons => simp at h1
  | i :: l, s, s' => by
    unfold doImages
    rw [bind_iff]
    constructor
    · rintro ⟨s1, h1, h2⟩
      cases i with
      | none => cases h1
      | some url =>
        obtain ⟨u, hu, rfl⟩ := (addSource_iff rnd hr _ _ _ _ _).1 h1
        obtain ⟨us, rfl, h3, rfl⟩ := (doImages_iff rnd hr field l _ _).1 h2
        refine ⟨(url, u) :: us, rfl, ?_, ?_⟩
        · intro p hp
          rcases List.mem_cons.1 hp with rfl | hp
          · exact hu
          · exact h3 p hp
        · simp [Refs.makeAll]
    · rintro ⟨us, h1, h2, rfl⟩
      cases us with
      | nil => simp at h1
      | cons p us =>
        simp only [List.map_cons, List.cons.injEq] at h1
        obtain ⟨rfl, rfl⟩ := h1
        refine ⟨_, (addSource_iff rnd hr _ _ _ _ _).2 ⟨p.2, h2 p (by simp), rfl⟩, ?_⟩
        rw [doImages_iff rnd hr field]
        exact ⟨us, rfl, fun q hq => h2 q (by simp [hq]), by simp [Refs.makeAll]⟩

/-! ## The comment as a whole -/

/-- The texts and the images of a comment, in the order of the document. -/
def textsOf {T : Type} (bs : List (Block T)) : List (Text T) :=
  bs.flatMap fun | .texts l => l | _ => []

def imagesOf {T : Type} (bs : List (Block T)) : List (Option Str) :=
  bs.flatMap fun | .images l => l | _ => []

theorem doTexts_iff {T : Type} (vars : List (Str × Str)) : ∀ (l l' : List (Text T)), doTexts vars l = .ok l' ↔
    (vars ≠ [] → ∀ t ∈ l, t.text ≠ none) ∧ l' = l.map fun t => { t with text := t.text.map (subst vars) }
  | [], l' => by
    unfold doTexts
    simp [eq_comm]
  | t :: l, l' => by
    unfold doTexts
    rw [bind_iff]
    have ht : ∀ t', doText vars t = .ok t' ↔ (vars ≠ [] → t.text ≠ none) ∧
        t' = { t with text := t.text.map (subst vars) } := by
      intro t'
      obtain ⟨tag, x⟩ := t
      unfold doText
      cases vars with
      | nil =>
        cases x <;> simp [subst, eq_comm]
      | cons v vars =>
        cases x <;> simp [eq_comm]
    constructor
    · rintro ⟨t', h1, h2⟩
      obtain ⟨r, h3, h4⟩ := (bind_iff _ _ _).1 h2
      injection h4 with h4
      obtain ⟨h5, rfl⟩ := (ht t').1 h1
      obtain ⟨h6, rfl⟩ := (doTexts_iff vars l r).1 h3
      refine ⟨fun hv x hx => ?_, by rw [← h4]; rfl⟩
      rcases List.mem_cons.1 hx with rfl | hx
      · exact h5 hv
      · exact h6 hv x hx
    · rintro ⟨h1, rfl⟩
      refine ⟨_, (ht _).2 ⟨fun hv => h1 hv t (by simp), rfl⟩, (bind_iff _ _ _).2 ⟨_, (doTexts_iff vars l _).2
        ⟨fun hv x hx => h1 hv x (by simp [hx]), rfl⟩, rfl⟩⟩

theorem doImages_append (rnd : Nat → Str) (field : Str) : ∀ (a b : List (Option Str)) (s s' : St),
    doImages rnd field s (a ++ b) = .ok s' ↔ ∃ m, doImages rnd field s a = .ok m ∧ doImages rnd field m b = .ok s'
  | [], b, s, s' => by simp [doImages]
  | i :: a, b, s, s' => by
    rw [List.cons_append]
    simp only [doImages, bind_iff, doImages_append rnd field a b]
    constructor
    · rintro ⟨x, h1, m, h2, h3⟩; exact ⟨m, ⟨x, h1, h2⟩, h3⟩
    · rintro ⟨m, ⟨x, h1, h2⟩, h3⟩; exact ⟨x, h1, m, h2, h3⟩

theorem blocks_iff {T : Type} (rnd : Nat → Str) (field : Str) (vars : List (Str × Str)) :
    ∀ (bs : List (Block T)) (ts ts' : List (Text T)) (s s' : St),
    blocks rnd field vars (ts, s) bs = .ok (ts', s') ↔
      (vars ≠ [] → ∀ t ∈ textsOf bs, t.text ≠ none) ∧
      ts' = ts ++ (textsOf bs).map (fun t => { t with text := t.text.map (subst vars) }) ∧
      doImages rnd field s (imagesOf bs) = .ok s'
  | [], ts, ts', s, s' => by
    simp [blocks, textsOf, imagesOf, doImages, eq_comm]
  | .texts l :: bs, ts, ts', s, s' => by
    have e1 : textsOf (.texts l :: bs) = l ++ textsOf bs := rfl
    have e2 : imagesOf (.texts l :: bs) = imagesOf bs := rfl
    rw [blocks, bind_iff, e1, e2]
    constructor
    · rintro ⟨l', h1, h2⟩
      obtain ⟨h3, rfl⟩ := (doTexts_iff _ _ _).1 h1
      obtain ⟨h4, rfl, h5⟩ := (blocks_iff rnd field vars bs _ _ _ _).1 h2
      refine ⟨fun hv t ht => ?_, by simp, h5⟩
      rcases List.mem_append.1 ht with ht | ht
      · exact h3 hv t ht
      · exact h4 hv t ht
    · rintro ⟨h1, rfl, h3⟩
      refine ⟨_, (doTexts_iff _ _ _).2 ⟨fun hv t ht => h1 hv t (by simp [ht]), rfl⟩, ?_⟩
      rw [blocks_iff rnd field vars bs]
      exact ⟨fun hv t ht => h1 hv t (by simp [ht]), by simp, h3⟩
  | .images l :: bs, ts, ts', s, s' => by
    have e1 : textsOf (T := T) (.images l :: bs) = textsOf bs := rfl
    have e2 : imagesOf (T := T) (.images l :: bs) = l ++ imagesOf bs := rfl
    rw [blocks, bind_iff, e1, e2, doImages_append]
    constructor
    · rintro ⟨m, h1, h2⟩
      obtain ⟨h4, h5, h6⟩ := (blocks_iff rnd field vars bs _ _ _ _).1 h2
      exact ⟨h4, h5, m, h1, h6⟩
    · rintro ⟨h1, h2, m, h3, h4⟩
      exact ⟨m, h3, (blocks_iff rnd field vars bs _ _ _ _).2 ⟨h1, h2, h4⟩⟩
  | .variables l :: bs, ts, ts', s, s' => by
    have e1 : textsOf (T := T) (.variables l :: bs) = textsOf bs := rfl
    have e2 : imagesOf (T := T) (.variables l :: bs) = imagesOf bs := rfl
    rw [blocks, e1, e2]
    exact blocks_iff rnd field vars bs _ _ _ _

/-- The conversion of a comment, exactly: the variables are complete, every text has the places of variables replaced and
is otherwise carried over in order, and the images are made sources. The conversion stops otherwise. -/
theorem process_iff {T : Type} (rnd : Nat → Str) (field : Str) (s s' : St) (bs : List (Block T)) (ts : List (Text T)) :
    process rnd field s bs = .ok (ts, s') ↔ ∃ vars, Complete (variablesOf bs) vars ∧
      (vars ≠ [] → ∀ t ∈ textsOf bs, t.text ≠ none) ∧
      ts = (textsOf bs).map (fun t => { t with text := t.text.map (subst vars) }) ∧
      doImages rnd field s (imagesOf bs) = .ok s' := by
  unfold process
  rw [bind_iff]
  simp only [readVars_iff, blocks_iff, List.nil_append]

/-- A comment meant as pieces, with images: the texts say what is meant, with index and language, each image is
referenced, and its source has a file. -/
theorem comment_converted_partial {T : Type} (rnd : Nat → Str) (hr : ∀ n, UuidText (rnd n)) (field : Str) (s : St)
    (bs : List (Block T)) (vars : List (Str × Str)) (cs : List (T × List Piece)) (us : List (Str × Str))
    (hv : Complete (variablesOf bs) vars) (hp : ∀ v ∈ vars, PlainVar v)
    (ht : textsOf bs = cs.map fun c => ⟨c.1, some (written c.2)⟩) (hc : ∀ c ∈ cs, ∀ p ∈ c.2, p.Plain)
    (hi : imagesOf bs = us.map fun p => some p.1) (hu : ∀ p ∈ us, Identified rnd p.1 p.2) :
    ∃ s', process rnd field s bs = .ok (cs.map (fun c => ⟨c.1, some (filled vars c.2)⟩), s') ∧
      s'.refs.map (·.id) = s.refs.map (·.id) ++ us.map (·.2) ∧
      ∀ p ∈ us, p.2 ∈ s'.files.map (·.1) := by
  refine ⟨_, (process_iff _ _ _ _ _ _).2 ⟨vars, hv, ?_, ?_, (doImages_iff rnd hr field _ _ _).2 ⟨us, hi, hu, rfl⟩⟩, ?_, ?_⟩
  · intro _ t h
    rw [ht] at h
    obtain ⟨c, -, rfl⟩ := List.mem_map.1 h
    simp
  · rw [ht, List.map_map]
    apply List.map_congr_left
    intro c h
    simp [variables_filled vars c.2 (hc c h) hp]
  · simp
  · intro p hp
    have : ∀ (l files : List (Str × Info)) (u : Str), u ∈ files.map (·.1) ∨ u ∈ l.map (·.1) →
        u ∈ (Refs.makeAll files l).map (·.1) := by
      intro l
      induction l with
      | nil => intro files u h; simpa [Refs.makeAll] using h
      | cons w l ih =>
        intro files u h
        have hunf : Refs.makeAll files (w :: l) = Refs.makeAll (Refs.make files w) l := rfl
        rw [hunf]
        apply ih
        unfold Refs.make
        rcases h with h | h
        · left; split
          · exact h
          · rw [List.map_append]; exact List.mem_append_left _ h
        · rw [List.map_cons] at h
          rcases List.mem_cons.1 h with rfl | h
          · left; split
            · assumption
            · simp
          · exact .inr h
    exact this _ _ _ (.inr (List.mem_map.2 ⟨(p.2, _), List.mem_map.2 ⟨p, hp, rfl⟩, rfl⟩))

/-- A variable without a value stops the conversion of the comment, even if no text mentions it. -/
theorem empty_variable_stops {T : Type} (rnd : Nat → Str) (field : Str) (s : St) (bs : List (Block T)) (v : VarElem)
    (hv : v ∈ variablesOf bs) (ht : v.text = none) : process rnd field s bs = .error .keyError := by
  unfold process
  rw [readVars_error]
  · rfl
  · rintro ⟨vars, h⟩
    rw [h] at hv
    obtain ⟨p, -, rfl⟩ := List.mem_map.1 hv
    cases ht

/-- A blank text is passed over in silence without variables, and stops the conversion with them. -/
theorem blank_text {T : Type} (rnd : Nat → Str) (field : Str) (s : St) (tag : T) (v : Str × Str) :
    process rnd field s [.texts [⟨tag, none⟩]] = .ok ([⟨tag, none⟩], s) ∧
    process rnd field s [.texts [⟨tag, none⟩], .variables [⟨some v.1, some v.2⟩]] = .error .keyError :=
  ⟨rfl, rfl⟩

/-- Two images whose addresses share their part in the shape of a UUID are given the same source; the file has the first
address, the second is lost. -/
theorem second_image_lost (rnd : Nat → Str) (hr : ∀ n, UuidText (rnd n)) (field u a b : Str) (ha : FirstId a u)
    (hb : FirstId b u) (hu : UuidText u) (hab : a ≠ b) : ∃ s, doImages rnd field ⟨[], []⟩ [some a, some b] = .ok s ∧
      s.refs.map (·.id) = [u, u] ∧ (∃ w ∈ s.files, w.2.link = a) ∧ ¬ ∃ w ∈ s.files, w.2.link = b := by
  refine ⟨_, (doImages_iff rnd hr field _ _ _).2 ⟨[(a, u), (b, u)], rfl, ?_, rfl⟩, rfl, ?_, ?_⟩
  · intro p hp
    simp only [List.mem_cons, List.not_mem_nil, or_false] at hp
    rcases hp with rfl | rfl
    · exact .inl ⟨ha, hu⟩
    · exact .inl ⟨hb, hu⟩
  · simp [Refs.makeAll, Refs.make]
  · simp [Refs.makeAll, Refs.make, hab]

/-- Two images of ordinary addresses without such a part have sources of their own, if the identifiers drawn for
different numbers differ. -/
theorem images_apart_partial (rnd : Nat → Str) (hinj : ∀ m n, rnd m = rnd n → m = n) (a b u v : Str)
    (ha : ∀ c ∈ a, Printable c) (hb : ∀ c ∈ b, Printable c) (hna : ¬ ∃ w, FirstId a w) (hnb : ¬ ∃ w, FirstId b w)
    (hu : Identified rnd a u) (hv : Identified rnd b v) : u = v ↔ a = b := by
  rcases hu with ⟨h, -⟩ | ⟨-, hne, rfl⟩
  · exact absurd ⟨_, h⟩ hna
  rcases hv with ⟨h, -⟩ | ⟨-, hne', rfl⟩
  · exact absurd ⟨_, h⟩ hnb
  constructor
  · intro h
    exact seed_injective a b ha hb (hinj _ _ h)
  · rintro rfl; rfl

/-- The same address always leads to the same source. -/
theorem identified_unique (rnd : Nat → Str) {url u v : Str} (hu : Identified rnd url u) (hv : Identified rnd url v) :
    u = v := by
  have h1 : textUuid rnd url = .ok u := (textUuid_iff _ _ _).2 (hu.imp (·.1) id)
  have h2 : textUuid rnd url = .ok v := (textUuid_iff _ _ _).2 (hv.imp (·.1) id)
  rw [h1] at h2
  injection h2

/-! ## The hypotheses can be met -/

section Examples

def sampleId : Str := c!"0c3d5c6e-1f2a-4b3c-8d4e-5f6a7b8c9d0e"

/-- A number, drawn always the same. -/
def sampleRnd : Nat → Str := fun _ => sampleId

theorem sampleRnd_ok (n : Nat) : UuidText (sampleRnd n) := by
  have h := (Validators.uuid_accepts_iff_partial sampleId).1.1 (by decide +kernel)
  exact h

example : subst [(c!"a", c!"{{b}}"), (c!"b", c!"x")] c!"{{a}}" = c!"x" ∧
    subst [(c!"b", c!"x"), (c!"a", c!"{{b}}")] c!"{{a}}" = c!"{{b}}" :=
  order_matters c!"a" c!"b" c!"x" (by decide) (by decide) (by decide) (by decide) (by decide)

example : FirstId (c!"http://a.org/" ++ sampleId ++ c!".png") sampleId := (findId_iff _ _).1 (by decide +kernel)

/-- Two pictures of one folder. -/
example (rnd : Nat → Str) (hr : ∀ n, UuidText (rnd n)) : ∃ s,
    doImages rnd c!"generalComment" ⟨[], []⟩
      [some (c!"http://a.org/" ++ sampleId ++ c!"/1.png"), some (c!"http://a.org/" ++ sampleId ++ c!"/2.png")] = .ok s ∧
    s.refs.map (·.id) = [sampleId, sampleId] ∧ (∃ w ∈ s.files, w.2.link = c!"http://a.org/" ++ sampleId ++ c!"/1.png") ∧
    ¬ ∃ w ∈ s.files, w.2.link = c!"http://a.org/" ++ sampleId ++ c!"/2.png" :=
  second_image_lost rnd hr _ sampleId _ _ ((findId_iff _ _).1 (by decide +kernel))
    ((findId_iff _ _).1 (by decide +kernel)) (sampleRnd_ok 0) (by decide)

/-- An identifier in capital letters. -/
example (rnd : Nat → Str) (hr : ∀ n, UuidText (rnd n)) (s : St) :
    addSource rnd c!"Dataset Icon" c!"Dataset Icon" s c!"http://a.org/0C3D5C6E-1F2A-4B3C-8D4E-5F6A7B8C9D0E.png" =
      .error .valueError :=
  (addSource_refused rnd hr _ _ s _).2 (.inr ⟨c!"0C3D5C6E-1F2A-4B3C-8D4E-5F6A7B8C9D0E",
    (findId_iff _ _).1 (by decide +kernel), by
      have h := (Validators.uuid_accepts_iff_partial c!"0C3D5C6E-1F2A-4B3C-8D4E-5F6A7B8C9D0E").2.1 (by decide +kernel)
      exact h⟩)

example : Identified sampleRnd c!"http://a.org/1.png" sampleId ∧ (∀ c ∈ c!"http://a.org/1.png", Printable c) := by
  refine ⟨.inr ⟨?_, by decide, rfl⟩, by unfold Printable; decide⟩
  rintro ⟨v, hv⟩
  have : findId c!"http://a.org/1.png" = none := by decide +kernel
  rw [(findId_iff _ _).2 hv] at this
  cases this

/-- A comment with a variable, two languages and an image. -/
example (s : St) : ∃ s', process sampleRnd c!"technology" s
      [.texts [⟨(1, c!"en"), some c!"Made of {{mat}}."⟩, ⟨(1, c!"de"), some c!"Aus {{mat}}."⟩],
       .images [some sampleId], .variables [⟨some c!"mat", some c!"steel"⟩]] =
      .ok ([⟨(1, c!"en"), some c!"Made of steel."⟩, ⟨(1, c!"de"), some c!"Aus steel."⟩], s') ∧
    s'.refs.map (·.id) = s.refs.map (·.id) ++ [sampleId] ∧ ∀ p ∈ [(sampleId, sampleId)], p.2 ∈ s'.files.map (·.1) :=
  comment_converted_partial sampleRnd sampleRnd_ok c!"technology" s _ [(c!"mat", c!"steel")]
    [((1, c!"en"), [.lit c!"Made of ", .var c!"mat", .lit c!"."]), ((1, c!"de"), [.lit c!"Aus ", .var c!"mat", .lit c!"."])]
    [(sampleId, sampleId)] rfl (by decide) rfl (by decide) rfl (by
      intro p hp
      simp only [List.mem_cons, List.not_mem_nil, or_false] at hp
      subst hp
      exact .inl ⟨(findId_iff _ _).1 (by decide +kernel), sampleRnd_ok 0⟩)

end Examples

end Verif.TextImage
