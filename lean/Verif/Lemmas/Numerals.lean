import Verif.Spec.Numerals
import Verif.Lemmas.Num

namespace Verif.Numerals
open Spec

theorem digitVal_iff (c : Char) (d : Nat) : digitVal c = some d ↔ Digit c d := by
  constructor
  · intro h
    unfold digitVal at h
    split at h
    · rename_i hc
      obtain ⟨h0, h9⟩ := hc
      have e0 : 48 ≤ c.toNat := h0
      have e9 : c.toNat ≤ 57 := h9
      cases h
      have hk : c = Char.ofNat c.toNat := (Char.ofNat_toNat c).symm
      generalize c.toNat = k at *
      subst hk
      have : ∀ k : Fin 10, (c!"0123456789")[((k : Nat) + 48) - '0'.toNat]? = some (Char.ofNat (k + 48)) := by decide
      have h := this ⟨k - 48, by omega⟩
      have e : k - 48 + 48 = k := by omega
      simp only [e] at h
      exact h
    · cases h
  · intro h
    have hd : d < 10 := by
      have := (List.getElem?_eq_some_iff.1 h).1
      simpa using this
    have : ∀ d : Fin 10, ∀ c ∈ (c!"0123456789")[(d : Nat)]?, digitVal c = some (d : Nat) := by decide
    exact this ⟨d, hd⟩ c h

theorem parseDigits_cons {c : Char} (hc : c ≠ '_') (acc : Nat) (l : Str) :
    parseDigits acc (c :: l) = (digitVal c).bind fun d => parseDigits (acc * 10 + d) l := by
  rw [parseDigits.eq_3 _ _ _ (by intro _ _ e; exact absurd e hc)]
  cases digitVal c <;> rfl

theorem parseDigits_one {c : Char} (acc : Nat) :
    parseDigits acc [c] = (digitVal c).bind fun d => some (acc * 10 + d) := by
  rw [parseDigits.eq_3 _ _ _ (by intro _ _ _ e; simp at e)]
  cases digitVal c <;> simp [parseDigits]

theorem digit_ne {c : Char} {d : Nat} (h : digitVal c = some d) : c ≠ '_' := by
  rintro rfl
  revert h
  simp [show digitVal '_' = none by decide]

theorem numeral_of_parse {s : Str} {acc : Nat} (hs : Numeral s acc) : ∀ {l : Str} {n : Nat},
    parseDigits acc l = some n → Numeral (s ++ l) n := by
  intro l
  induction acc, l using parseDigits.induct generalizing s with
  | case1 acc =>
    intro n h
    simp [parseDigits] at h
    subst h
    simpa using hs
  | case2 acc c l d hd ih =>
    intro n h
    rw [parseDigits, hd] at h
    have := ih (.apart _ _ c d hs ((digitVal_iff _ _).1 hd)) h
    simpa using this
  | case3 acc c l hd =>
    intro n h
    rw [parseDigits, hd] at h
    cases h
  | case4 acc c l hne d hd ih =>
    intro n h
    rw [parseDigits.eq_3 _ _ _ hne, hd] at h
    have := ih (.next _ _ c d hs ((digitVal_iff _ _).1 hd)) h
    simpa using this
  | case5 acc c l hne hd =>
    intro n h
    rw [parseDigits.eq_3 _ _ _ hne, hd] at h
    cases h

theorem parseDigits_append : ∀ {l : Str} {acc n : Nat}, parseDigits acc l = some n → ∀ m,
    parseDigits acc (l ++ m) = parseDigits n m := by
  intro l acc
  induction acc, l using parseDigits.induct with
  | case1 acc =>
    intro n h m
    simp [parseDigits] at h
    simp [h]
  | case2 acc c l d hd ih =>
    intro n h m
    rw [parseDigits, hd] at h
    rw [List.cons_append, List.cons_append, parseDigits, hd]
    exact ih h m
  | case3 acc c l hd =>
    intro n h
    rw [parseDigits, hd] at h
    cases h
  | case4 acc c l hne d hd ih =>
    intro n h m
    rw [parseDigits.eq_3 _ _ _ hne, hd] at h
    rw [List.cons_append, parseDigits_cons (digit_ne hd), hd]
    exact ih h m
  | case5 acc c l hne hd =>
    intro n h
    rw [parseDigits.eq_3 _ _ _ hne, hd] at h
    cases h

theorem parseNat_iff (s : Str) (n : Nat) : parseNat s = some n ↔ Numeral s n := by
  constructor
  · intro h
    cases s with
    | nil => cases h
    | cons c l =>
      rw [parseNat] at h
      cases hd : digitVal c with
      | none => simp [hd] at h
      | some d =>
        rw [hd] at h
        exact numeral_of_parse (.first c d ((digitVal_iff _ _).1 hd)) h
  · intro h
    induction h with
    | first c d h => simp [parseNat, (digitVal_iff _ _).2 h, parseDigits]
    | next s n c d _ h ih =>
      cases s with
      | nil => cases ih
      | cons a l =>
        rw [List.cons_append, parseNat]
        rw [parseNat] at ih
        cases ha : digitVal a with
        | none => simp [ha] at ih
        | some x =>
          rw [ha] at ih
          simp only
          rw [parseDigits_append ih, parseDigits_one, (digitVal_iff _ _).2 h]
          rfl
    | apart s n c d _ h ih =>
      cases s with
      | nil => cases ih
      | cons a l =>
        rw [List.cons_append, parseNat]
        rw [parseNat] at ih
        cases ha : digitVal a with
        | none => simp [ha] at ih
        | some x =>
          rw [ha] at ih
          simp only
          rw [parseDigits_append ih, parseDigits, (digitVal_iff _ _).2 h]
          simp [parseDigits]

/-- The characters at the ends of a numeral. -/
theorem numeral_ends {s : Str} {n : Nat} (h : Numeral s n) :
    (∃ c d t, s = c :: t ∧ Digit c d) ∧ ∃ c d t, s = t ++ [c] ∧ Digit c d := by
  induction h with
  | first c d h => exact ⟨⟨c, d, [], rfl, h⟩, ⟨c, d, [], rfl, h⟩⟩
  | next s n c d _ h ih =>
    obtain ⟨⟨a, x, t, rfl, ha⟩, _⟩ := ih
    exact ⟨⟨a, x, t ++ [c], rfl, ha⟩, ⟨c, d, _, rfl, h⟩⟩
  | apart s n c d _ h ih =>
    obtain ⟨⟨a, x, t, rfl, ha⟩, _⟩ := ih
    exact ⟨⟨a, x, t ++ ['_', c], rfl, ha⟩, ⟨c, d, (a :: t) ++ ['_'], by simp, h⟩⟩

theorem digit_facts {c : Char} {d : Nat} (h : Digit c d) : pySpace c = false ∧ c ≠ '-' ∧ c ≠ '+' := by
  have hd : d < 10 := by
    have := (List.getElem?_eq_some_iff.1 h).1
    simpa using this
  have : ∀ d : Fin 10, ∀ c ∈ (c!"0123456789")[(d : Nat)]?, pySpace c = false ∧ c ≠ '-' ∧ c ≠ '+' := by decide
  exact this ⟨d, hd⟩ c h

theorem signed_ends {s : Str} {i : Int} (h : Signed s i) :
    (∃ c t, s = c :: t ∧ pySpace c = false) ∧ ∃ c t, s = t ++ [c] ∧ pySpace c = false := by
  cases h with
  | plain s n h =>
    obtain ⟨⟨a, x, t, rfl, ha⟩, ⟨b, y, u, hu, hb⟩⟩ := numeral_ends h
    exact ⟨⟨a, t, rfl, (digit_facts ha).1⟩, ⟨b, u, hu, (digit_facts hb).1⟩⟩
  | plus s n h =>
    obtain ⟨_, ⟨b, y, u, rfl, hb⟩⟩ := numeral_ends h
    exact ⟨⟨'+', _, rfl, by decide⟩, ⟨b, '+' :: u, rfl, (digit_facts hb).1⟩⟩
  | minus s n h =>
    obtain ⟨_, ⟨b, y, u, rfl, hb⟩⟩ := numeral_ends h
    exact ⟨⟨'-', _, rfl, by decide⟩, ⟨b, '-' :: u, rfl, (digit_facts hb).1⟩⟩

theorem dropWhile_space {a s : Str} (h : ∀ c ∈ a, pySpace c = true) :
    (a ++ s).dropWhile pySpace = s.dropWhile pySpace := by
  induction a with
  | nil => rfl
  | cons c a ih =>
    rw [List.cons_append, List.dropWhile_cons_of_pos (h c (by simp))]
    exact ih fun c hc => h c (by simp [hc])

theorem strip_around {a s b : Str} (ha : ∀ c ∈ a, pySpace c = true) (hb : ∀ c ∈ b, pySpace c = true)
    (h1 : ∃ c t, s = c :: t ∧ pySpace c = false) (h2 : ∃ c t, s = t ++ [c] ∧ pySpace c = false) :
    strip (a ++ s ++ b) = s := by
  obtain ⟨c, t, hs, hc⟩ := h1
  obtain ⟨e, u, hs', he⟩ := h2
  have hl : lstrip (a ++ s ++ b) = s ++ b := by
    rw [lstrip, List.append_assoc, dropWhile_space ha, hs, List.cons_append, List.dropWhile_cons_of_neg (by simp [hc])]
  rw [strip, hl, rstrip, List.reverse_append, dropWhile_space (by simpa using hb), hs', List.reverse_append]
  rw [show [e].reverse ++ u.reverse = e :: u.reverse from rfl, List.dropWhile_cons_of_neg (by simp [he])]
  simp

theorem takeWhile_space {s : Str} {c : Char} (h : c ∈ s.takeWhile pySpace) : pySpace c = true := by
  induction s with
  | nil => cases h
  | cons a s ih =>
    by_cases ha : pySpace a = true
    · rw [List.takeWhile_cons_of_pos ha] at h
      rcases List.mem_cons.1 h with rfl | h
      · exact ha
      · exact ih h
    · rw [List.takeWhile_cons_of_neg ha] at h
      cases h

theorem strip_split (s : Str) : ∃ a b, (∀ c ∈ a, pySpace c = true) ∧ (∀ c ∈ b, pySpace c = true) ∧
    s = a ++ strip s ++ b := by
  refine ⟨s.takeWhile pySpace, ((lstrip s).reverse.takeWhile pySpace).reverse, ?_, ?_, ?_⟩
  · intro c hc
    exact takeWhile_space hc
  · intro c hc
    exact takeWhile_space (List.mem_reverse.1 hc)
  · have h1 : strip s ++ ((lstrip s).reverse.takeWhile pySpace).reverse = lstrip s := by
      rw [strip, rstrip, ← List.reverse_append, List.takeWhile_append_dropWhile, List.reverse_reverse]
    rw [List.append_assoc, h1, lstrip, List.takeWhile_append_dropWhile]

theorem signed_iff (s : Str) (i : Int) : (match s with
    | '-' :: l => (parseNat l).map fun n => -(n : Int)
    | '+' :: l => (parseNat l).map fun n => (n : Int)
    | l => (parseNat l).map fun n => (n : Int) : Option Int) = some i ↔ Signed s i := by
  constructor
  · intro h
    have key : ∀ {l : Str} {n : Int}, (do let a ← parseNat l; pure (a : Int)) = some n → ∃ m : Nat, Numeral l m ∧ (m : Int) = n := by
      intro l n h
      cases hp : parseNat l with
      | none => rw [hp] at h; cases h
      | some m =>
        rw [hp] at h
        exact ⟨m, (parseNat_iff _ _).1 hp, Option.some.inj h⟩
    split at h <;> rw [Option.map_eq_some_iff] at h <;> obtain ⟨n, hn, rfl⟩ := h <;> obtain ⟨m, hm, rfl⟩ := key hn
    · exact .minus _ _ hm
    · exact .plus _ _ hm
    · exact .plain _ _ hm
  · intro h
    cases h with
    | plain s n h =>
      obtain ⟨⟨a, x, t, rfl, ha⟩, _⟩ := numeral_ends h
      have := digit_facts ha
      split
      · rename_i e; simp at e; exact absurd e.1 this.2.1
      · rename_i e; simp at e; exact absurd e.1 this.2.2
      · rw [(parseNat_iff _ _).2 h]; rfl
    | plus s n h => simp [(parseNat_iff _ _).2 h]
    | minus s n h => simp [(parseNat_iff _ _).2 h]

theorem parseInt_iff (s : Str) (i : Int) : parseInt s = some i ↔ Reads (.str s) i := by
  unfold parseInt
  refine Iff.trans (signed_iff (strip s) i) ?_
  constructor
  · intro h
    obtain ⟨a, b, ha, hb, hs⟩ := strip_split s
    rw [hs]
    exact .text _ _ _ _ ha hb h
  · intro h
    cases h with
    | text a s b i ha hb h =>
      rw [strip_around ha hb (signed_ends h).1 (signed_ends h).2]
      exact h

theorem tdiv_iff (n : Int) {d : Nat} (hd : 0 < d) (i : Int) : n.tdiv d = i ↔ Reads (.float n d) i := by
  constructor
  · rintro rfl
    rcases Int.le_total 0 n with h | h
    · obtain ⟨m, rfl⟩ := Int.eq_ofNat_of_zero_le h
      rw [show ((m : Int).tdiv d) = ((m / d : Nat) : Int) from rfl]
      exact .cut m d (m / d) (Nat.div_mul_le_self m d) (by
        rw [Nat.mul_comm]
        exact Nat.lt_mul_div_succ m hd)
    · obtain ⟨m, hm⟩ := Int.eq_ofNat_of_zero_le (Int.neg_nonneg.2 h)
      have : n = -(m : Int) := by omega
      subst this
      rw [Int.neg_tdiv, show ((m : Int).tdiv d) = ((m / d : Nat) : Int) from rfl]
      exact .cutNeg m d (m / d) (Nat.div_mul_le_self m d) (by
        rw [Nat.mul_comm]
        exact Nat.lt_mul_div_succ m hd)
  · intro h
    have key : ∀ m k : Nat, k * d ≤ m → m < (k + 1) * d → m / d = k := fun m k h1 h2 =>
      Nat.div_eq_of_lt_le h1 h2
    cases h with
    | cut n d k h1 h2 =>
      rw [show ((n : Int).tdiv d) = ((n / d : Nat) : Int) from rfl, key n k h1 h2]
    | cutNeg n d k h1 h2 =>
      rw [Int.neg_tdiv, show ((n : Int).tdiv d) = ((n / d : Nat) : Int) from rfl, key n k h1 h2]

end Verif.Numerals
