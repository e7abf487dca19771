import Verif.Model.Validators
import Verif.Spec.Validators
import Verif.Lemmas.Num
import Mathlib.Data.List.Dedup

namespace Verif.Validators

theorem mem_intRange {a i : Int} {n : Nat} : i ∈ intRange a n ↔ a ≤ i ∧ i < a + n := by
  simp only [intRange, List.mem_map, List.mem_range]
  constructor
  · rintro ⟨k, hk, rfl⟩; omega
  · rintro ⟨h1, h2⟩; exact ⟨(i - a).toNat, by omega, by omega⟩

theorem limEnd_ok {lim : Limit} {ignore : Bool} {s s' : Str}
    (h : limEnd lim ignore (some s) = .ok s') : s' = s := by
  unfold limEnd at h
  dsimp only at h
  split at h
  · cases h; rfl
  · cases h

/-! ### Unique lists -/

theorem firstOccurrences_nodup {α : Type} [DecidableEq α] (l : List α) :
    (Spec.firstOccurrences l).Nodup := by
  simp [Spec.firstOccurrences, List.nodup_dedup]

theorem mem_firstOccurrences {α : Type} [DecidableEq α] {a : α} {l : List α} :
    a ∈ Spec.firstOccurrences l ↔ a ∈ l := by
  simp [Spec.firstOccurrences]

theorem firstOccurrences_snoc {α : Type} [DecidableEq α] (l : List α) (a : α) :
    Spec.firstOccurrences (l ++ [a]) =
      if a ∈ l then Spec.firstOccurrences l else Spec.firstOccurrences l ++ [a] := by
  simp only [Spec.firstOccurrences, List.reverse_append, List.reverse_cons, List.reverse_nil,
    List.nil_append, List.singleton_append]
  split
  · rename_i h; rw [List.dedup_cons_of_mem (by simpa using h)]
  · rename_i h; rw [List.dedup_cons_of_notMem (by simpa using h)]; simp

theorem addNew_eq {α : Type} [DecidableEq α] (done l : List α) :
    addNew (Spec.firstOccurrences done) l = Spec.firstOccurrences (done ++ l) := by
  induction l generalizing done with
  | nil => simp [addNew]
  | cons a l ih =>
    have e : done ++ a :: l = (done ++ [a]) ++ l := by simp
    rw [e, ← ih (done ++ [a]), firstOccurrences_snoc, addNew]
    simp only [mem_firstOccurrences]
    split <;> rfl

/-! ### Regular expressions -/

/-- The language of an expression. -/
def Re.lang : Re → Str → Prop
  | .eps, s => s = []
  | .cls p, s => ∃ c, p c = true ∧ s = [c]
  | .cat a b, s => ∃ x y, s = x ++ y ∧ a.lang x ∧ b.lang y
  | .alt a b, s => a.lang s ∨ b.lang s
  | .star p, s => ∀ c ∈ s, p c = true

theorem mem_starRests {p : Char → Bool} {s r : Str} :
    r ∈ starRests p s ↔ ∃ x, s = x ++ r ∧ ∀ c ∈ x, p c = true := by
  induction s with
  | nil =>
    simp only [starRests, List.mem_singleton]
    constructor
    · rintro rfl; exact ⟨[], by simp⟩
    · rintro ⟨x, h, _⟩; simp at h; exact h.2
  | cons c s ih =>
    rw [starRests]
    split
    · rename_i hc
      simp only [List.mem_cons, ih]
      constructor
      · rintro (rfl | ⟨x, rfl, hx⟩)
        · exact ⟨[], by simp⟩
        · exact ⟨c :: x, by simp, by simpa [hc] using hx⟩
      · rintro ⟨x, h, hx⟩
        cases x with
        | nil => left; simpa using h.symm
        | cons d x =>
          simp only [List.cons_append, List.cons.injEq] at h
          exact Or.inr ⟨x, h.2, fun c hc => hx c (by simp [hc])⟩
    · rename_i hc
      simp only [List.mem_singleton]
      constructor
      · rintro rfl; exact ⟨[], by simp⟩
      · rintro ⟨x, h, hx⟩
        cases x with
        | nil => simpa using h.symm
        | cons d x =>
          simp only [List.cons_append, List.cons.injEq] at h
          have := hx d (by simp)
          rw [← h.1] at this
          exact absurd this (by simpa using hc)

theorem Re.mem_rests (r : Re) (s t : Str) : t ∈ r.rests s ↔ ∃ x, s = x ++ t ∧ r.lang x := by
  induction r generalizing s t with
  | eps => simp [Re.rests, Re.lang, eq_comm]
  | cls p =>
    cases s with
    | nil => simp [Re.rests, Re.lang]
    | cons c s =>
      simp only [Re.rests, Re.lang]
      constructor
      · intro h
        split at h
        · rename_i hp
          simp at h; subst h
          exact ⟨[c], by simp, c, hp, rfl⟩
        · simp at h
      · rintro ⟨x, h, d, hd, rfl⟩
        simp at h
        rw [h.1, if_pos hd]; simp [h.2]
  | cat a b iha ihb =>
    simp only [Re.rests, Re.lang, List.mem_flatMap, iha, ihb]
    constructor
    · rintro ⟨u, ⟨x, rfl, hx⟩, y, rfl, hy⟩
      exact ⟨x ++ y, by simp, x, y, rfl, hx, hy⟩
    · rintro ⟨_, rfl, x, y, rfl, hx, hy⟩
      exact ⟨y ++ t, ⟨x, by simp, hx⟩, y, rfl, hy⟩
  | alt a b iha ihb =>
    simp only [Re.rests, Re.lang, List.mem_append, iha, ihb]
    constructor
    · rintro (⟨x, h, hx⟩ | ⟨x, h, hx⟩)
      · exact ⟨x, h, .inl hx⟩
      · exact ⟨x, h, .inr hx⟩
    · rintro ⟨x, h, hx | hx⟩
      · exact .inl ⟨x, h, hx⟩
      · exact .inr ⟨x, h, hx⟩
  | star p => simp only [Re.rests, Re.lang, mem_starRests]

/-- `re.match` succeeds exactly when some beginning of the text is in the language. -/
theorem Re.isMatch_iff (r : Re) (s : Str) : r.isMatch s = true ↔ ∃ x y, s = x ++ y ∧ r.lang x := by
  rw [Re.isMatch, Bool.not_eq_true', List.isEmpty_eq_false_iff_exists_mem]
  simp only [Re.mem_rests]
  constructor
  · rintro ⟨t, x, h⟩; exact ⟨x, t, h⟩
  · rintro ⟨x, t, h⟩; exact ⟨t, x, h⟩

theorem Re.times_lang (p : Char → Bool) (n : Nat) (s : Str) :
    ((Re.cls p).times n).lang s ↔ s.length = n ∧ ∀ c ∈ s, p c = true := by
  induction n generalizing s with
  | zero => simp only [Re.times, Re.lang, List.length_eq_zero_iff]; constructor
            · rintro rfl; simp
            · exact fun h => h.1
  | succ n ih =>
    simp only [Re.times, Re.lang, ih]
    constructor
    · rintro ⟨x, y, rfl, ⟨c, hc, rfl⟩, hl, hy⟩
      simp [hl, hc]; exact hy
    · rintro ⟨hl, hs⟩
      cases s with
      | nil => simp at hl
      | cons c s =>
        exact ⟨[c], s, by simp, ⟨c, hs c (by simp), rfl⟩, by simpa using hl,
          fun d hd => hs d (by simp [hd])⟩

theorem Re.upTo_lang (p : Char → Bool) (n : Nat) (s : Str) :
    ((Re.cls p).upTo n).lang s ↔ s.length ≤ n ∧ ∀ c ∈ s, p c = true := by
  induction n generalizing s with
  | zero => simp only [Re.upTo, Re.lang, Nat.le_zero, List.length_eq_zero_iff]; constructor
            · rintro rfl; simp
            · exact fun h => h.1
  | succ n ih =>
    simp only [Re.upTo, Re.lang, ih]
    constructor
    · rintro (⟨x, y, rfl, ⟨c, hc, rfl⟩, hl, hy⟩ | rfl)
      · simp [hc]; exact ⟨by omega, hy⟩
      · simp
    · rintro ⟨hl, hs⟩
      cases s with
      | nil => exact .inr rfl
      | cons c s =>
        exact .inl ⟨[c], s, by simp, ⟨c, hs c (by simp), rfl⟩, by simpa using hl,
          fun d hd => hs d (by simp [hd])⟩

theorem followed_cons (L : Spec.Lang) (Ls : List Spec.Lang) (s : Str) :
    Spec.followed (L :: Ls) s ↔ ∃ a b, s = a ++ b ∧ L a ∧ Spec.followed Ls b := Iff.rfl

/-- Sequences of expressions and of languages. -/
theorem Re.seq_lang (rs : List Re) (Ls : List Spec.Lang)
    (h : List.Forall₂ (fun r L => ∀ s, Re.lang r s ↔ L s) rs Ls) (s : Str) :
    (Re.seq rs).lang s ↔ Spec.followed Ls s := by
  induction h generalizing s with
  | nil => simp [Re.seq, Re.lang, Spec.followed]
  | cons h _ ih => simp only [Re.seq, Re.lang, Spec.followed, h, ih]

theorem Re.lit_lang (d : Char) (s : Str) : (Re.lit d).lang s ↔ Spec.single (· = d) s := by
  simp [Re.lit, Re.lang, Spec.single]

theorem Re.opt_lang {r : Re} {L : Spec.Lang} (h : ∀ s, r.lang s ↔ L s) (s : Str) :
    r.opt.lang s ↔ Spec.optional L s := by
  simp [Re.opt, Re.lang, Spec.optional, h]

theorem Re.times_lang' (p : Char → Bool) (n : Nat) (s : Str) :
    ((Re.cls p).times n).lang s ↔ Spec.repeated (fun c => p c = true) n n s := by
  rw [Re.times_lang, Spec.repeated]
  constructor
  · rintro ⟨h, h'⟩; exact ⟨by omega, by omega, h'⟩
  · rintro ⟨h, h', h''⟩; exact ⟨by omega, h''⟩

theorem lowerHex_iff (c : Char) : lowerHex c = true ↔ Spec.isHex c := by
  constructor
  · intro h
    simp only [lowerHex, Bool.or_eq_true, Bool.and_eq_true, decide_eq_true_eq] at h
    have hn : (97 ≤ c.toNat ∧ c.toNat ≤ 102) ∨ (48 ≤ c.toNat ∧ c.toNat ≤ 57) := h
    have hc : c = Char.ofNat c.toNat := (Char.ofNat_toNat c).symm
    have : ∀ n : Fin 128, ((97 ≤ n.val ∧ n.val ≤ 102) ∨ (48 ≤ n.val ∧ n.val ≤ 57)) →
        Char.ofNat n.val ∈ c!"0123456789abcdef" := by decide
    have := this ⟨c.toNat, by omega⟩ hn
    rw [Spec.isHex, hc]; exact this
  · intro h
    have : ∀ c ∈ c!"0123456789abcdef", lowerHex c = true := by decide
    exact this c h

end Verif.Validators
