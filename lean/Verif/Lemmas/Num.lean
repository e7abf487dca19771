import Verif.Model.PyVal
import Verif.Lemmas.Py

namespace Verif

theorem natStr_length_le_iff {n k : Nat} (h : 0 < k) : (natStr n).length ≤ k ↔ n < 10 ^ k :=
  Nat.length_toDigits_le_iff (by decide) h

theorem natStr_length_pos (n : Nat) : 0 < (natStr n).length := Nat.length_toDigits_pos

theorem natStr_lt {n : Nat} (h : n < 10) : natStr n = [n.digitChar] := Nat.toDigits_of_lt_base h

theorem natStr_ge {n : Nat} (h : 10 ≤ n) : natStr n = natStr (n / 10) ++ [(n % 10).digitChar] :=
  Nat.toDigits_of_base_le (by decide) h

theorem natStr_ne_nil (n : Nat) : natStr n ≠ [] := Nat.toDigits_ne_nil

theorem natStr_digit {n : Nat} {c : Char} (h : c ∈ natStr n) : c.isDigit = true :=
  Nat.isDigit_of_mem_toDigits (by decide) (by decide) h

theorem digitVal_digitChar {d : Nat} (h : d < 10) : digitVal d.digitChar = some d := by
  have : ∀ d : Fin 10, digitVal (d : Nat).digitChar = some (d : Nat) := by decide
  exact this ⟨d, h⟩

theorem digitChar_ne_underscore {d : Nat} (h : d < 10) : d.digitChar ≠ '_' := by
  have : ∀ d : Fin 10, (d : Nat).digitChar ≠ '_' := by decide
  exact this ⟨d, h⟩

theorem parseDigits_snoc (l : Str) (hl : ∀ c ∈ l, c.isDigit = true) (d : Nat) (h : d < 10) (acc : Nat) :
    parseDigits acc (l ++ [d.digitChar]) = (parseDigits acc l).map fun n => n * 10 + d := by
  induction l generalizing acc with
  | nil =>
    have : parseDigits acc [d.digitChar] = some (acc * 10 + d) := by
      rw [parseDigits.eq_3 _ _ _ (by intro c l hc; simp at hc), digitVal_digitChar h]
      rfl
    simpa [parseDigits] using this
  | cons c l ih =>
    have hc := hl c (by simp)
    have hne : c ≠ '_' := by rintro rfl; simp at hc
    rw [List.cons_append, parseDigits.eq_3 _ _ _ (by intro _ _ e; exact absurd e hne),
      parseDigits.eq_3 _ _ _ (by intro _ _ e; exact absurd e hne)]
    cases digitVal c with
    | none => rfl
    | some v => exact ih (fun c hc => hl c (by simp [hc])) _

theorem parseNat_natStr (n : Nat) : parseNat (natStr n) = some n := by
  induction n using Nat.strongRecOn with
  | _ n ih =>
    by_cases h : n < 10
    · rw [natStr_lt h]
      simp [parseNat, digitVal_digitChar h, parseDigits]
    · have h' : 10 ≤ n := by omega
      have hi := ih (n / 10) (by omega)
      rw [natStr_ge h']
      obtain ⟨c, l, hcl⟩ := List.exists_cons_of_ne_nil (natStr_ne_nil (n / 10))
      rw [hcl] at hi ⊢
      simp only [List.cons_append, parseNat] at hi ⊢
      cases hd : digitVal c with
      | none => simp [hd] at hi
      | some d =>
        simp only [hd] at hi ⊢
        rw [parseDigits_snoc l (fun c hc => natStr_digit (n := n / 10) (by rw [hcl]; simp [hc])) _
          (by omega), hi]
        simp; omega

theorem pySpace_digit {c : Char} (h : c.isDigit = true) : pySpace c = false := by
  simp only [Char.isDigit, Bool.and_eq_true, decide_eq_true_eq] at h
  have h1 : 48 ≤ c.toNat := h.1
  have h2 : c.toNat ≤ 57 := h.2
  simp only [pySpace, Bool.or_eq_false_iff, Bool.and_eq_false_iff, decide_eq_false_iff_not,
    beq_eq_false_iff_ne]
  omega

theorem strip_eq_self {x : Str} (h1 : ∀ c ∈ x.head?, pySpace c = false)
    (h2 : ∀ c ∈ x.getLast?, pySpace c = false) : strip x = x := by
  have e1 : lstrip x = x := by
    cases x with
    | nil => rfl
    | cons c l => simp [lstrip, h1 c (by simp)]
  rw [strip, e1, rstrip]
  have : x.reverse.dropWhile pySpace = x.reverse := by
    cases hx : x.reverse with
    | nil => rfl
    | cons c l =>
      have hc : pySpace c = false := h2 c (by
        have := congrArg List.reverse hx
        simp at this
        rw [this]; simp)
      simp [hc]
  rw [this, List.reverse_reverse]

theorem strip_natStr (n : Nat) : strip (natStr n) = natStr n :=
  strip_eq_self (fun _ hc => pySpace_digit (natStr_digit (n := n) (List.mem_of_mem_head? hc)))
    (fun _ hc => pySpace_digit (natStr_digit (n := n) (List.mem_of_mem_getLast? hc)))

theorem strip_neg_natStr (n : Nat) : strip ('-' :: natStr n) = '-' :: natStr n := by
  refine strip_eq_self (fun c hc => ?_) (fun c hc => ?_)
  · simp at hc; subst hc; decide
  · obtain ⟨c', l, h⟩ := List.exists_cons_of_ne_nil (natStr_ne_nil n)
    rw [h, List.getLast?_cons_cons, ← h] at hc
    exact pySpace_digit (natStr_digit (n := n) (List.mem_of_mem_getLast? hc))

/-- `int(str(i)) == i` -/
theorem parseInt_intStr (i : Int) : parseInt (intStr i) = some i := by
  cases i with
  | ofNat n =>
    simp only [intStr, parseInt, strip_natStr]
    have hn := parseNat_natStr n
    split
    · rename_i l h
      have := natStr_digit (n := n) (c := '-') (by rw [h]; simp)
      simp at this
    · rename_i l h
      have := natStr_digit (n := n) (c := '+') (by rw [h]; simp)
      simp at this
    · simp [hn]
  | negSucc n =>
    simp only [intStr, parseInt, strip_neg_natStr]
    simp [parseNat_natStr]
    omega

end Verif
