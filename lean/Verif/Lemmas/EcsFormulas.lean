/-
Lemmas on the corrections of formulas.
-/
import Verif.Model.EcsVars
import Verif.Lemmas.Segs

namespace Verif.EcsVars
open IlcdVars (replaceAll replaceAux replaceAux_skip replaceAux_hit replaceAux_miss replaceAux_none startsWith_iff)
open Segs Spec

theorem startsWith_prefix {x s : Str} : startsWith x s = true ↔ x <+: s := by
  rw [startsWith_iff]
  exact ⟨fun ⟨r, h⟩ => ⟨r, h.symm⟩, fun ⟨r, h⟩ => ⟨r, h.symm⟩⟩

/-! ### References -/

theorem refMark_cons (e r : Str) : refMark e ++ r = 'R' :: (c!"ef('" ++ (e ++ (c!"')" ++ r))) := by
  simp [refMark, List.append_assoc]

theorem findRefs_pass : ∀ {b rest : Str}, NoStart c!"Ref('" b rest → findRefsAux 0 (b ++ rest) = findRefsAux 0 rest
  | [], _, _ => rfl
  | c :: b, rest, h => by
    rw [List.cons_append, findRefsAux]
    rw [if_neg]
    · exact findRefs_pass h.tail
    · intro hs
      exact h 0 (by simp) (by simpa using startsWith_prefix.1 hs)

theorem findRefs_skip : ∀ a s : Str, findRefsAux a.length (a ++ s) = findRefsAux 0 s
  | [], _ => rfl
  | _ :: a, s => findRefs_skip a s

theorem upToClose_eq {rest : Str} : ∀ {e : Str}, NoStart c!"')" e (c!"')" ++ rest) → '\n' ∉ e →
    upToClose (e ++ (c!"')" ++ rest)) = some e
  | [], _, _ => by simp [upToClose, startsWith]
  | c :: e, h, hn => by
    simp only [List.mem_cons, not_or] at hn
    rw [List.cons_append, upToClose, if_neg, if_neg (Ne.symm hn.1), upToClose_eq h.tail hn.2]
    · rfl
    · intro hs
      exact h 0 (by simp) (by simpa using startsWith_prefix.1 hs)

theorem close_borderless : Borderless c!"')" := by decide

theorem ref_borderless : Borderless c!"Ref('" := by decide

theorem upToClose_ref {e : Str} (h : PlainRef e) (r : Str) : upToClose (e ++ (c!"')" ++ r)) = some e :=
  upToClose_eq (noStart_before close_borderless h.close) h.line

theorem findRefs_ref {e : Str} (h : PlainRef e) (r : Str) :
    findRefsAux 0 (refMark e ++ r) = e :: findRefsAux 0 r := by
  have hs : startsWith c!"Ref('" ('R' :: (c!"ef('" ++ (e ++ (c!"')" ++ r)))) = true :=
    startsWith_prefix.2 ⟨e ++ (c!"')" ++ r), rfl⟩
  rw [refMark_cons, findRefsAux, if_pos hs]
  have : (c!"ef('" ++ (e ++ (c!"')" ++ r))).drop 4 = e ++ (c!"')" ++ r) := rfl
  rw [this, upToClose_ref h]
  simp only
  have h2 := findRefs_skip (c!"ef('" ++ (e ++ c!"')")) r
  have hl : (c!"ef('" ++ (e ++ c!"')")).length = 4 + e.length + 2 := by simp; omega
  rw [hl] at h2
  rw [← h2]
  simp [List.append_assoc]

theorem refMark_prefix {e e' : Str} (h : PlainRef e) (h' : PlainRef e') (hne : e' ≠ e) (r : Str) :
    ¬ refMark e <+: refMark e' ++ r := by
  rintro ⟨q, hq⟩
  apply hne
  simp only [refMark, List.append_assoc, List.append_cancel_left_eq] at hq
  have h1 := upToClose_ref h q
  have h2 := upToClose_ref h' r
  rw [hq, h2] at h1
  exact Option.some.inj h1

theorem refMark_tail {e : Str} (h : PlainRef e) (r : Str) : NoStart c!"Ref('" (refMark e).tail r := by
  apply noStart_char
  have := h.start
  simp [refMark, this]

theorem refMark_start (e : Str) : c!"Ref('" <+: refMark e := ⟨e ++ c!"')", by simp [refMark]⟩

theorem findRefs_rend {val : Str → Str} {last : Str} : ∀ {l : List (Str × Str)}, (∀ p ∈ l, PlainRef p.2) →
    ¬ c!"Ref('" <:+: rend val l last → findRefsAux 0 (rend refMark l last) = l.map Prod.snd
  | [], _, h => by
    simp only [rend] at h ⊢
    have := findRefs_pass (noStart_end h)
    rw [List.append_nil] at this
    exact this
  | (t, e) :: l, hp, h => by
    simp only [rend] at h ⊢
    have hs : NoStart c!"Ref('" t (refMark e ++ rend refMark l last) := by
      obtain ⟨q, hq⟩ := refMark_start e
      rw [← hq, List.append_assoc]
      exact noStart_before ref_borderless (infix_left h)
    rw [findRefs_pass hs, findRefs_ref (hp (t, e) (by simp)),
      findRefs_rend (fun p hm => hp p (by simp [hm])) (infix_right (infix_right h))]
    rfl

/-! ### Conversions of units -/

theorem unit_borderless : Borderless c!"UnitConversion" := by decide

theorem unitMark_start (e : Str) : c!"UnitConversion" <+: unitMark e := ⟨_, rfl⟩

/-- A call without parentheses inside. -/
structure NoParens (e : Str) : Prop where
  opening : '(' ∉ e
  closing : ')' ∉ e
  start : ¬ c!"UnitConversion" <:+: e

theorem unitMark_tail {e : Str} (h : NoParens e) (r : Str) : NoStart c!"UnitConversion" (unitMark e).tail r := by
  have he : (unitMark e).tail = (c!"nitConversion" ++ ['(']) ++ (e ++ [')']) := by simp [unitMark]
  rw [he]
  apply NoStart.append
  · apply noStart_sep (by decide) (by decide)
    intro hi
    have := hi.length_le
    simp at this
  · exact noStart_sep (by decide) (by decide) h.start

theorem unitMark_prefix {e e' : Str} (h : NoParens e) (h' : NoParens e') (hne : e' ≠ e) (r : Str) :
    ¬ unitMark e <+: unitMark e' ++ r := by
  rintro ⟨q, hq⟩
  apply hne
  simp only [unitMark, List.append_assoc, List.append_cancel_left_eq] at hq
  have := congrArg (List.takeWhile fun c => c != ')') hq
  have hx : ∀ {x : Str} (y : Str), ')' ∉ x → (x ++ (c!")" ++ y)).takeWhile (fun c => c != ')') = x := by
    intro x y hx
    rw [List.takeWhile_append_of_pos]
    · simp
    · intro c hc
      simp only [bne_iff_ne, ne_eq]
      rintro rfl
      exact hx hc
  rw [hx _ h.closing, hx _ h'.closing] at this
  exact this.symm

theorem endsWith_suffix {x s : Str} : endsWith x s = true ↔ x <:+ s := by
  unfold endsWith
  exact List.isSuffixOf_iff_suffix

/-- Nothing before the text can take part in a word that ends in it. -/
def Fresh (seen : Str) : Prop := seen = [] ∨ ∃ s, seen = s ++ [')']

theorem fresh_end {seen b w : Str} (hf : Fresh seen) (hw : ')' ∉ w) (h : w <:+ seen ++ b) : w <:+ b := by
  obtain ⟨q, hq⟩ := h
  by_cases hl : w.length ≤ b.length
  · have := List.suffix_of_suffix_length_le ⟨q, hq⟩ (List.suffix_append seen b) hl
    exact this
  · rcases hf with rfl | ⟨s, rfl⟩
    · exact ⟨q, hq⟩
    · exfalso
      apply hw
      have h1 : [')'] ++ b <:+ (s ++ [')']) ++ b := ⟨s, by simp⟩
      have h2 := List.suffix_of_suffix_length_le h1 ⟨q, hq⟩ (by simp; omega)
      exact h2.subset (by simp)

theorem scan_text {w : Str} (hw : w = c!"UnitConversion") : ∀ {b seen : Str} {found : List Str} {d : Int},
    (∀ a c : Str, b = a ++ c → a ≠ [] → ¬ w <:+ seen ++ a) →
    b.foldl scanStep ⟨d, false, seen, [], found⟩ = ⟨d, false, seen ++ b, [], found⟩
  | [], seen, found, d, _ => by simp
  | c :: b, seen, found, d, h => by
    rw [List.foldl_cons]
    have hstep : scanStep ⟨d, false, seen, [], found⟩ c = ⟨d, false, seen ++ [c], [], found⟩ := by
      have h1 := h [c] b rfl (by simp)
      have h2 : endsWith c!"UnitConversion" (seen ++ [c]) = false := by
        rw [← hw, Bool.eq_false_iff]
        exact fun hc => h1 (endsWith_suffix.1 hc)
      simp [scanStep, h2]
    rw [hstep, scan_text hw]
    · simp
    · intro a r hab hne hs
      refine h (c :: a) r (by simp [hab]) (by simp) ?_
      simpa using hs

theorem scan_on : ∀ {b seen call : Str} {found : List Str} {d : Int}, '(' ∉ b → ')' ∉ b →
    b.foldl scanStep ⟨d, true, seen, call, found⟩ = ⟨d, true, seen ++ b, call ++ b, found⟩
  | [], seen, call, found, d, _, _ => by simp
  | c :: b, seen, call, found, d, h1, h2 => by
    simp only [List.mem_cons, not_or] at h1 h2
    have hstep : scanStep ⟨d, true, seen, call, found⟩ c = ⟨d, true, seen ++ [c], call ++ [c], found⟩ := by
      simp only [scanStep, Ne.symm h1.1, Ne.symm h2.1, false_and, if_false, if_true]
      split <;> rfl
    rw [List.foldl_cons, hstep, scan_on h1.2 h2.2]
    simp

theorem inner_call (e : Str) : inner (c!"(" ++ e ++ c!")") = e := by
  simp [inner]

theorem scan_call {t e seen : Str} {found : List Str} (hf : Fresh seen) (ht : ¬ c!"UnitConversion" <:+: t)
    (he : NoParens e) :
    (t ++ unitMark e).foldl scanStep ⟨0, false, seen, [], found⟩ =
      ⟨0, false, seen ++ (t ++ unitMark e), [], found ++ [e]⟩ := by
  have hsplit : t ++ unitMark e = (t ++ c!"UnitConversio") ++ (['n'] ++ (['('] ++ (e ++ [')']))) := by
    simp [unitMark]
  have hword : t ++ c!"UnitConversion" = (t ++ c!"UnitConversio") ++ ['n'] := by simp
  have hnone : ¬ c!"UnitConversion" <:+: t ++ c!"UnitConversio" := by
    rintro ⟨a, b, hab⟩
    have hn := noStart_before (rest := []) unit_borderless ht
    by_cases hl : a.length < t.length
    · apply hn a.length hl
      have : t ++ (c!"UnitConversion" ++ []) = a ++ (c!"UnitConversion" ++ (b ++ ['n'])) := by
        rw [List.append_nil, hword, ← hab]; simp [List.append_assoc]
      rw [this, List.drop_left]
      exact ⟨_, rfl⟩
    · have := congrArg List.length hab
      simp at this
      omega
  rw [hsplit, List.foldl_append, scan_text rfl, List.foldl_append, List.foldl_append, List.foldl_append]
  · have h1 : [ 'n' ].foldl scanStep ⟨0, false, seen ++ (t ++ c!"UnitConversio"), [], found⟩ =
        ⟨0, true, seen ++ (t ++ c!"UnitConversion"), [], found⟩ := by
      have h2 : endsWith c!"UnitConversion" (seen ++ (t ++ c!"UnitConversio") ++ ['n']) = true :=
        endsWith_suffix.2 ⟨seen ++ t, by simp⟩
      simp only [List.foldl_cons, List.foldl_nil, scanStep, h2, if_true]
      simp
    have h3 : ['('].foldl scanStep ⟨0, true, seen ++ (t ++ c!"UnitConversion"), [], found⟩ =
        ⟨1, true, seen ++ (t ++ c!"UnitConversion") ++ ['('], ['('], found⟩ := by
      simp only [List.foldl_cons, List.foldl_nil, scanStep]
      split <;> simp
    have h4 : ∀ sn : Str, [')'].foldl scanStep ⟨1, true, sn, ['('] ++ e, found⟩ = ⟨0, false, sn ++ [')'], [], found ++ [e]⟩ := by
      intro sn
      have h5 : endsWith c!"UnitConversion" (sn ++ [')']) = false := by
        rw [Bool.eq_false_iff]
        intro hc
        obtain ⟨q, hq⟩ := endsWith_suffix.1 hc
        have := congrArg List.getLast? hq
        simp at this
      have h6 : inner ((['('] ++ e) ++ [')']) = e := inner_call e
      simp only [List.foldl_cons, List.foldl_nil, scanStep, h5, h6]
      simp
    rw [h1, h3, scan_on he.opening he.closing, h4]
    simp [List.append_assoc]
  · intro a c hab hne hs
    apply hnone
    have := fresh_end hf (by decide) hs
    exact this.isInfix.trans (hab ▸ (List.prefix_append a c).isInfix)

theorem scan_rend {val : Str → Str} {last : Str} : ∀ {l : List (Str × Str)} {seen : Str} {found : List Str}, Fresh seen →
    (∀ p ∈ l, NoParens p.2) → ¬ c!"UnitConversion" <:+: rend val l last →
    ((rend unitMark l last).foldl scanStep ⟨0, false, seen, [], found⟩).found = found ++ l.map Prod.snd
  | [], seen, found, hf, _, h => by
    simp only [rend] at h ⊢
    rw [scan_text rfl]
    · simp
    · intro a c hab hne hs
      exact h ((fresh_end hf (by decide) hs).isInfix.trans (hab ▸ (List.prefix_append a c).isInfix))
  | (t, e) :: l, seen, found, hf, hp, h => by
    simp only [rend] at h ⊢
    rw [← List.append_assoc, List.foldl_append, scan_call hf (infix_left h) (hp (t, e) (by simp)),
      scan_rend ?_ (fun p hm => hp p (by simp [hm])) (infix_right (infix_right h))]
    · simp
    · exact .inr ⟨seen ++ t ++ c!"UnitConversion" ++ c!"(" ++ e, by simp [unitMark, List.append_assoc]⟩

/-! ### Texts split at commas, and single characters replaced -/

theorem replaceAux_char {c : Char} {new : Str} : ∀ s : Str,
    replaceAux [c] new 0 s = s.flatMap fun x => if x = c then new else [x]
  | [] => rfl
  | x :: s => by
    rw [replaceAux]
    by_cases h : x = c
    · subst h
      rw [if_pos (by simp [startsWith])]
      simp [replaceAux_char s]
    · rw [if_neg (by simp [startsWith, Ne.symm h])]
      simp [replaceAux_char s, h]

theorem replaceAll_char {c : Char} {new : Str} (s : Str) :
    replaceAll [c] new s = s.flatMap fun x => if x = c then new else [x] := by
  rw [replaceAll, if_neg (by simp), replaceAux_char]

theorem replaceAll_char_none {c : Char} {new s : Str} (h : c ∉ s) : replaceAll [c] new s = s := by
  rw [replaceAll_char]
  induction s with
  | nil => rfl
  | cons x s ih =>
    simp only [List.mem_cons, not_or] at h
    simp [Ne.symm h.1, ih h.2]

theorem replaceAll_char_append {c : Char} {new a b : Str} :
    replaceAll [c] new (a ++ b) = replaceAll [c] new a ++ replaceAll [c] new b := by
  simp [replaceAll_char]

theorem splitComma_ne (s : Str) (k : Nat) : splitCommaAux k s ≠ [] := by
  induction s generalizing k with
  | nil => cases k <;> simp [splitCommaAux]
  | cons c s ih =>
    cases k with
    | succ k => exact ih k
    | zero =>
      rw [splitCommaAux]
      split
      · simp
      · split <;> simp

theorem splitComma_pass {rest : Str} : ∀ {x : Str}, NoStart c!", " x (c!", " ++ rest) →
    splitCommaAux 0 (x ++ (c!", " ++ rest)) = x :: splitCommaAux 0 rest
  | [], _ => by simp [splitCommaAux, startsWith]
  | c :: x, h => by
    rw [List.cons_append, splitCommaAux, if_neg, splitComma_pass h.tail]
    intro hs
    exact h 0 (by simp) (by simpa using startsWith_prefix.1 hs)

theorem splitComma_none : ∀ {x : Str}, ¬ c!", " <:+: x → splitCommaAux 0 x = [x]
  | [], _ => rfl
  | c :: x, h => by
    rw [splitCommaAux, if_neg, splitComma_none (fun h' => h (h'.trans (List.suffix_cons c x).isInfix))]
    intro hs
    exact h (startsWith_prefix.1 hs).isInfix

theorem splitComma_three {x a b : Str} (hx : ¬ c!", " <:+: x) (ha : ¬ c!", " <:+: a) (hb : ¬ c!", " <:+: b) :
    splitComma (x ++ (c!", " ++ (a ++ (c!", " ++ b)))) = [x, a, b] := by
  have hbl : Borderless c!", " := by decide
  rw [splitComma, splitComma_pass (noStart_before hbl hx), splitComma_pass (noStart_before hbl ha),
    splitComma_none hb]

end Verif.EcsVars
