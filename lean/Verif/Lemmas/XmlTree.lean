/-
Elements of an XML file: what is written for an element is read as the element.
-/
import Verif.Lemmas.XmlText
import Verif.Spec.XmlWrite

namespace Verif.XmlWrite
open Verif.XmlParse
open Verif.Xml (Elem)
open Spec (IsName Named NamedAll Plain PlainAll newlines newlinesAll Same SameAll)

/-! ### Names -/

theorem nameStart_nameChar {c : Char} (h : nameStart c = true) : nameChar c = true := by
  simp [nameChar, h]

theorem nameChar_not {c x : Char} (h : nameChar c = true) (hx : nameChar x = false) : c ≠ x := by
  intro he; subst he; rw [h] at hx; exact absurd hx (by simp)

theorem nameChar_space {c : Char} (h : nameChar c = true) : xmlSpace c = false := by
  have h1 := nameChar_not h (x := ' ') (by decide)
  have h2 := nameChar_not h (x := '\t') (by decide)
  have h3 := nameChar_not h (x := '\n') (by decide)
  have h4 := nameChar_not h (x := '\r') (by decide)
  simp [xmlSpace, h1, h2, h3, h4]

theorem nameChar_xmlChar {c : Char} (h : nameChar c = true) : xmlChar c = true := by
  have hl : ∀ a b : Char, (a ≤ b) ↔ a.toNat ≤ b.toNat := fun a b => Iff.rfl
  simp only [nameChar, nameStart, letter, digit, Bool.or_eq_true, Bool.and_eq_true, decide_eq_true_eq, hl,
    beq_iff_eq] at h
  have hc : 32 ≤ c.toNat ∧ c.toNat ≤ 0xd7ff := by
    rcases h with ((((h | h) | h) | h) | h) | h
    · rcases h with ⟨h1, h2⟩ | ⟨h1, h2⟩
      · have e1 : 'a'.toNat = 97 := rfl
        have e2 : 'z'.toNat = 122 := rfl
        omega
      · have e1 : 'A'.toNat = 65 := rfl
        have e2 : 'Z'.toNat = 90 := rfl
        omega
    · subst h; decide
    · subst h; decide
    · have e1 : '0'.toNat = 48 := rfl
      have e2 : '9'.toNat = 57 := rfl
      omega
    · subst h; decide
    · subst h; decide
  simp [xmlChar, hc.1, hc.2]

theorem isName_all {n : Str} (h : IsName n) : ∀ c ∈ n, nameChar c = true := by
  cases n with
  | nil => exact h.elim
  | cons c l =>
    intro x hx
    rcases List.mem_cons.1 hx with rfl | hx
    · exact nameStart_nameChar h.1
    · exact h.2 x hx

theorem isName_cons {n : Str} (h : IsName n) : ∃ c l, n = c :: l ∧ nameStart c = true := by
  cases n with
  | nil => exact h.elim
  | cons c l => exact ⟨c, l, rfl, h.1⟩

theorem takeName_append {n : Str} (h : IsName n) {c : Char} (hc : nameChar c = false) (r : Str) :
    takeName (n ++ c :: r) = some (n, c :: r) := by
  unfold takeName
  rw [take_prefix r (isName_all h) hc, drop_prefix r (isName_all h) hc]
  obtain ⟨x, l, rfl, hx⟩ := isName_cons h
  simp [hx]

/-! ### Attributes -/

theorem attrsText_nil : attrsText [] = [] := rfl
theorem attrsText_cons (a : Str × Str) (l : List (Str × Str)) :
    attrsText (a :: l) = ' ' :: (a.1 ++ '=' :: (quoteattr a.2 ++ attrsText l)) := by
  simp [attrsText]

theorem attrsText_length (l : List (Str × Str)) : l.length ≤ (attrsText l).length := by
  induction l with
  | nil => simp
  | cons a l ih => rw [attrsText_cons]; simp only [List.length_cons, List.length_append]; omega

theorem attributes_text (l : List (Str × Str)) (hn : ∀ a ∈ l, IsName a.1) (hd : (l.map Prod.fst).Nodup)
    (n : Nat) (h : l.length < n) (r : Str) : attributes n (attrsText l ++ '>' :: r) = some (l, '>' :: r) := by
  induction l generalizing n with
  | nil =>
    obtain ⟨m, rfl⟩ : ∃ m, n = m + 1 := ⟨n - 1, by simp at h; omega⟩
    simp [attrsText_nil, attributes, xmlSpace]
  | cons a l ih =>
    obtain ⟨m, rfl⟩ : ∃ m, n = m + 1 := ⟨n - 1, by simp at h; omega⟩
    have ha := hn a (by simp)
    obtain ⟨c, k, hk, hc⟩ := isName_cons ha
    have hcn := nameStart_nameChar hc
    rw [attrsText_cons]
    have e0 : (' ' :: (a.1 ++ '=' :: (quoteattr a.2 ++ attrsText l)) ++ '>' :: r) =
        ' ' :: (a.1 ++ '=' :: (quoteattr a.2 ++ (attrsText l ++ '>' :: r))) := by simp
    have e1 : (' ' :: (a.1 ++ '=' :: (quoteattr a.2 ++ (attrsText l ++ '>' :: r)))).dropWhile xmlSpace =
        c :: (k ++ '=' :: (quoteattr a.2 ++ (attrsText l ++ '>' :: r))) := by
      rw [hk, List.dropWhile_cons, if_pos (by decide), List.cons_append, List.dropWhile_cons,
        if_neg (by rw [nameChar_space hcn]; decide)]
    have e2 : (' ' :: (a.1 ++ '=' :: (quoteattr a.2 ++ (attrsText l ++ '>' :: r)))).takeWhile xmlSpace ≠ [] := by
      rw [List.takeWhile_cons, if_pos (by decide)]; simp
    have e3 : takeName (c :: (k ++ '=' :: (quoteattr a.2 ++ (attrsText l ++ '>' :: r)))) =
        some (a.1, '=' :: (quoteattr a.2 ++ (attrsText l ++ '>' :: r))) := by
      have := takeName_append ha (c := '=') (by decide) (quoteattr a.2 ++ (attrsText l ++ '>' :: r))
      rw [hk] at this ⊢
      exact this
    have e4 : (quoteattr a.2 ++ (attrsText l ++ '>' :: r)).dropWhile xmlSpace =
        quoteattr a.2 ++ (attrsText l ++ '>' :: r) := by
      obtain ⟨q, t, hq, hq'⟩ := quoteattr_head a.2
      rw [hq, List.cons_append, List.dropWhile_cons, if_neg]
      rcases hq' with rfl | rfl <;> decide
    have e5 := ih (fun b hb => hn b (by simp [hb])) (List.nodup_cons.1 hd).2 m (by simp at h; omega)
    rw [e0, attributes, e1]
    simp only [nameChar_not hcn (x := '>') (by decide), nameChar_not hcn (x := '/') (by decide), or_self, if_false,
      e2, e3]
    have e6 : ('=' :: (quoteattr a.2 ++ (attrsText l ++ '>' :: r))).dropWhile xmlSpace =
        '=' :: (quoteattr a.2 ++ (attrsText l ++ '>' :: r)) := by
      rw [List.dropWhile_cons, if_neg (by decide)]
    rw [e6]
    simp only [if_true, e4, attrValue_quoteattr, e5]
    rw [if_neg (List.nodup_cons.1 hd).1]

/-! ### Texts between tags -/

theorem noInfix {s : Str} (h : '>' ∉ s) : isInfix c!"]]>" s = false := by
  induction s with
  | nil => rfl
  | cons c s ih =>
    rw [isInfix, ih fun hc => h (by simp [hc]), Bool.or_false]
    cases hp : startsWith c!"]]>" (c :: s) with
    | false => rfl
    | true =>
      exfalso
      apply h
      have := List.isPrefixOf_iff_prefix.1 hp
      exact this.subset (by simp)

theorem chars_append {a a' : Str} (h : ∀ c ∈ a, c ≠ '<' ∧ c ≠ '>') (hd : decode none a = some a') (r : Str) :
    chars (a ++ '<' :: r) = some (a', '<' :: r) := by
  unfold chars
  rw [take_until r fun c hc => (h c hc).1, drop_until r fun c hc => (h c hc).1,
    noInfix fun hc => (h _ hc).2 rfl]
  simp [hd]

/-- A text without anything to escape. -/
def Clear (s : Str) : Prop := ∀ c ∈ s, c ≠ '<' ∧ c ≠ '>' ∧ c ≠ '&'

theorem decode_clear {s : Str} (h : Clear s) (r : Str) : decode none (s ++ r) = (decode none r).map (s ++ ·) := by
  induction s with
  | nil => simp
  | cons c s ih =>
    rw [List.cons_append, decode, if_neg (h c (by simp)).2.2, ih fun c hc => h c (by simp [hc]), Option.map_map]
    rfl

theorem indent_clear (d : Nat) : Clear (indent d) := by
  intro c hc
  rw [List.eq_of_mem_replicate hc]
  decide

theorem indent_space (d : Nat) : (indent d).all xmlSpace = true := by
  rw [List.all_eq_true]
  intro c hc
  rw [List.eq_of_mem_replicate hc]
  decide

theorem clear_append {a b : Str} (ha : Clear a) (hb : Clear b) : Clear (a ++ b) := by
  intro c hc
  rcases List.mem_append.1 hc with hc | hc
  · exact ha c hc
  · exact hb c hc

theorem clear_nl : Clear ['\n'] := by
  intro c hc; simp at hc; subst hc; decide

/-! ### Elements -/

mutual
/-- The element as it is read, with the white space between its children. -/
def raw (d : Nat) (tail : Str) : Tree → Elem
  | .mk n a ks c =>
    .mk n a (someText (if ks.isEmpty then c else '\n' :: indent (d + 1))) (raws (d + 1) (c ++ indent d) ks)
      (someText tail)
def raws (d : Nat) (fin : Str) : List Tree → List Elem
  | [] => []
  | t :: ts => raw d ('\n' :: (if ts.isEmpty then fin else indent d)) t :: raws d fin ts
end

mutual
def cost : Tree → Nat
  | .mk _ _ ks _ => 1 + costs ks
def costs : List Tree → Nat
  | [] => 1
  | t :: ts => 1 + cost t + costs ts
end

theorem setTail_raw (d : Nat) (tail : Str) (t : Tree) : setTail tail (raw d [] t) = raw d tail t := by
  cases t; simp [raw, setTail]

theorem endTag_name {n : Str} (h : IsName n) (r : Str) : endTag n ('<' :: '/' :: (n ++ '>' :: r)) = some r := by
  rw [endTag, takeName_append h (by decide)]
  simp [xmlSpace]

theorem element_body_head (d : Nat) {t : Tree} (h : Named t) :
    ∃ c r, body d t = '<' :: c :: r ∧ c ≠ '/' := by
  cases t with
  | mk n a ks c =>
    rw [Named] at h
    obtain ⟨x, l, rfl, hx⟩ := isName_cons h.1
    refine ⟨x, _, by rw [body]; rfl, nameChar_not (nameStart_nameChar hx) (by decide)⟩

mutual
theorem element_body (t : Tree) (h : Named t) (d n : Nat) (hn : cost t ≤ n) (r : Str) :
    element n (body d t ++ r) = some (raw d [] t, r) := by
  match t with
  | .mk name a ks c =>
    rw [Named] at h
    rw [cost] at hn
    obtain ⟨m, rfl⟩ : ∃ m, n = m + 1 := ⟨n - 1, by omega⟩
    have hb : body d (.mk name a ks c) ++ r = '<' :: (name ++ (attrsText a ++ '>' ::
        ((if ks.isEmpty then escape c else '\n' :: (lines (d + 1) ks ++ (escape c ++ indent d))) ++
          '<' :: '/' :: (name ++ '>' :: r)))) := by
      rw [body]; simp
    rw [hb, element]
    have hat : ∃ x y, attrsText a ++ '>' ::
        ((if ks.isEmpty then escape c else '\n' :: (lines (d + 1) ks ++ (escape c ++ indent d))) ++
          '<' :: '/' :: (name ++ '>' :: r)) = x :: y ∧ nameChar x = false := by
      cases a with
      | nil => exact ⟨'>', _, rfl, by decide⟩
      | cons b l => rw [attrsText_cons]; exact ⟨' ', _, rfl, by decide⟩
    obtain ⟨x, y, hxy, hx⟩ := hat
    have h1 : takeName (name ++ (attrsText a ++ '>' ::
        ((if ks.isEmpty then escape c else '\n' :: (lines (d + 1) ks ++ (escape c ++ indent d))) ++
          '<' :: '/' :: (name ++ '>' :: r)))) = some (name, attrsText a ++ '>' ::
        ((if ks.isEmpty then escape c else '\n' :: (lines (d + 1) ks ++ (escape c ++ indent d))) ++
          '<' :: '/' :: (name ++ '>' :: r))) := by
      rw [hxy]; exact takeName_append h.1 hx y
    rw [h1]
    simp only
    rw [attributes_text a h.2.1 h.2.2.1 _ (by
      have := attrsText_length a
      simp only [List.length_append, List.length_cons]; omega)]
    simp only
    cases ks with
    | nil =>
      have h2 := content_lines [] trivial [] [] (by intro c hc; simp at hc) c (by intro c hc; simp at hc) (d + 1) m
        (by omega) (name ++ '>' :: r)
      simp only [lines, List.nil_append, List.append_nil, List.isEmpty_nil, if_true] at h2 ⊢
      rw [h2]
      simp only
      rw [endTag_name h.1]
      simp [raw, raws, someText]
    | cons k ks =>
      have h2 := content_lines (k :: ks) h.2.2.2 ['\n'] (indent d) (indent_clear d) c clear_nl (d + 1) m
        (by omega) (name ++ '>' :: r)
      simp only [List.isEmpty_cons, Bool.false_eq_true, if_false, List.cons_append, List.nil_append,
        List.append_assoc] at h2 ⊢
      rw [h2]
      simp only
      rw [endTag_name h.1]
      simp [raw, someText]

theorem content_lines (ks : List Tree) (h : NamedAll ks) (pre ind : Str) (hind : Clear ind) (c : Str)
    (hpre : Clear pre) (d n : Nat) (hn : costs ks ≤ n) (r : Str) :
    content n (pre ++ (lines d ks ++ (escape c ++ (ind ++ '<' :: '/' :: r)))) =
      some (pre ++ (if ks.isEmpty then c ++ ind else indent d), raws d (c ++ ind) ks, '<' :: '/' :: r) := by
  match ks with
  | [] =>
    rw [costs] at hn
    obtain ⟨m, rfl⟩ : ∃ m, n = m + 1 := ⟨n - 1, by omega⟩
    have e : pre ++ (lines d [] ++ (escape c ++ (ind ++ '<' :: '/' :: r))) =
        (pre ++ (escape c ++ ind)) ++ '<' :: '/' :: r := by simp [lines]
    have hd : decode none (pre ++ (escape c ++ ind)) = some (pre ++ (c ++ ind)) := by
      rw [decode_clear hpre, decode_escape]
      have := decode_clear hind []
      rw [List.append_nil] at this
      rw [this]
      simp [decode]
    have hs : ∀ x ∈ pre ++ (escape c ++ ind), x ≠ '<' ∧ x ≠ '>' := by
      intro x hx
      simp only [List.mem_append] at hx
      rcases hx with hx | hx | hx
      · exact ⟨(hpre x hx).1, (hpre x hx).2.1⟩
      · exact escape_safe c x hx
      · exact ⟨(hind x hx).1, (hind x hx).2.1⟩
    rw [e, content, chars_append hs hd]
    simp [raws]
  | t :: ts =>
    rw [costs] at hn
    rw [NamedAll] at h
    obtain ⟨m, rfl⟩ : ∃ m, n = m + 1 := ⟨n - 1, by omega⟩
    obtain ⟨x, y, hxy, hx⟩ := element_body_head d h.1
    have e : pre ++ (lines d (t :: ts) ++ (escape c ++ (ind ++ '<' :: '/' :: r))) =
        (pre ++ indent d) ++ '<' :: (x :: (y ++ '\n' :: (lines d ts ++ (escape c ++ (ind ++ '<' :: '/' :: r))))) := by
      rw [lines, hxy]; simp
    have hd : decode none (pre ++ indent d) = some (pre ++ indent d) := by
      have := decode_clear (clear_append hpre (indent_clear d)) []
      rw [List.append_nil] at this
      rw [this]; simp [decode]
    have hcl := clear_append hpre (indent_clear d)
    rw [e, content, chars_append (fun c hc => ⟨(hcl c hc).1, (hcl c hc).2.1⟩) hd]
    have he := element_body t h.1 d m (by omega) ('\n' :: (lines d ts ++ (escape c ++ (ind ++ '<' :: '/' :: r))))
    rw [hxy] at he
    simp only [List.cons_append] at he
    have hc := content_lines ts h.2 ['\n'] ind hind c clear_nl d m (by omega) r
    simp only [List.cons_append, List.nil_append] at hc
    simp only
    split
    · rename_i heq
      simp only [List.cons.injEq, true_and] at heq
      exact absurd heq.1 hx
    · rw [he]
      simp only
      rw [hc]
      simp only [setTail_raw]
      simp [raws]
end

mutual
theorem cost_le (t : Tree) (d : Nat) : cost t + 1 ≤ (body d t).length := by
  match t with
  | .mk name a ks c =>
    rw [cost, body]
    cases ks with
    | nil => simp [costs]; omega
    | cons k ks =>
      have := costs_le (k :: ks) (d + 1)
      simp at this ⊢
      omega
theorem costs_le (ks : List Tree) (d : Nat) : costs ks ≤ (lines d ks).length + 1 := by
  match ks with
  | [] => simp [costs]
  | t :: ts =>
    have h1 := cost_le t d
    have h2 := costs_le ts d
    rw [costs, lines]
    simp
    omega
end

end Verif.XmlWrite
