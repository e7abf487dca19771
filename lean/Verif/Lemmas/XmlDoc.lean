/-
The XML file of a data set: when it can be read, and what is read.
-/
import Verif.Lemmas.XmlTree

namespace Verif.XmlWrite
open Verif.XmlParse
open Verif.Xml (Elem)
open Spec (IsName Named NamedAll Plain PlainAll newlines newlinesAll Same SameAll)

/-! ### Ends of lines -/

theorem normNl_left {a : Str} (h : '\r' ∉ a) (b : Str) : normNl (a ++ b) = a ++ normNl b := by
  rw [normNl_append _ _ (joins_left h), normNl_id h]

theorem name_noCr {n : Str} (h : IsName n) : '\r' ∉ n := fun hc =>
  nameChar_not (isName_all h _ hc) (x := '\r') (by decide) rfl

theorem attrsText_noCr {a : List (Str × Str)} (h : ∀ x ∈ a, IsName x.1) : '\r' ∉ attrsText a := by
  induction a with
  | nil => simp [attrsText_nil]
  | cons b l ih =>
    rw [attrsText_cons]
    simp only [List.mem_cons, List.mem_append, not_or]
    exact ⟨by decide, name_noCr (h b (by simp)), by decide, quoteattr_noCr _, ih fun x hx => h x (by simp [hx])⟩

theorem indent_noCr (d : Nat) : '\r' ∉ indent d := fun h => by
  have := List.eq_of_mem_replicate h
  exact absurd this (by decide)

theorem normNl_escape_append (c : Str) {x : Char} (hx : x ≠ '\n') (r : Str) :
    normNl (escape c ++ x :: r) = escape (normNl c) ++ normNl (x :: r) := by
  rw [normNl_append _ _ (joins_head hx), normNl_escape]

theorem indent_cons (d : Nat) (r : Str) : ∃ x y, indent d ++ '<' :: r = x :: y ∧ x ≠ '\n' := by
  cases d with
  | zero => exact ⟨'<', r, rfl, by decide⟩
  | succ d =>
    have : indent (d + 1) = ' ' :: List.replicate (2 * d + 1) ' ' := by
      rw [indent, ← List.replicate_succ]; rfl
    rw [this]
    exact ⟨' ', _, rfl, by decide⟩

theorem newlinesAll_isEmpty (ks : List Tree) : (newlinesAll ks).isEmpty = ks.isEmpty := by
  cases ks <;> rfl

mutual
theorem normNl_body (t : Tree) (h : Named t) (d : Nat) (r : Str) :
    normNl (body d t ++ r) = body d (newlines t) ++ normNl r := by
  match t with
  | .mk name a ks c =>
    rw [Named] at h
    have hb : ∀ (ks : List Tree) (c r : Str), body d (.mk name a ks c) ++ r = ('<' :: (name ++ (attrsText a ++ ['>']))) ++
        ((if ks.isEmpty then escape c else '\n' :: (lines (d + 1) ks ++ (escape c ++ indent d))) ++
          '<' :: ('/' :: (name ++ ['>']) ++ r)) := by
      intro ks c r; rw [body]; simp
    have hp : '\r' ∉ '<' :: (name ++ (attrsText a ++ ['>'])) := by
      simp only [List.mem_cons, List.mem_append, not_or]
      exact ⟨by decide, name_noCr h.1, attrsText_noCr h.2.1, by decide, by simp⟩
    have he : '\r' ∉ '/' :: (name ++ ['>']) := by
      simp only [List.mem_cons, List.mem_append, not_or]
      exact ⟨by decide, name_noCr h.1, by decide, by simp⟩
    have hrest : normNl ('<' :: ('/' :: (name ++ ['>']) ++ r)) = '<' :: ('/' :: (name ++ ['>']) ++ normNl r) := by
      rw [normNl_cons (by decide), normNl_left he]
    rw [newlines, hb, hb, normNl_left hp]
    congr 1
    rw [newlinesAll_isEmpty]
    cases ks with
    | nil =>
      simp only [List.isEmpty_nil, if_true]
      rw [normNl_escape_append c (by decide), hrest]
    | cons k ks =>
      simp only [List.isEmpty_cons, Bool.false_eq_true, if_false]
      have e : ∀ (l c r : Str), ('\n' :: (l ++ (escape c ++ indent d)) ++ r) = ['\n'] ++ (l ++ (escape c ++ (indent d ++ r))) := by
        intro l c r; simp
      rw [e, e, normNl_left (by decide), normNl_lines (k :: ks) h.2.2.2]
      obtain ⟨x, y, hxy, hx⟩ := indent_cons d ('/' :: (name ++ ['>']) ++ r)
      rw [hxy, normNl_escape_append c hx, ← hxy, normNl_left (indent_noCr d), hrest]
theorem normNl_lines (ks : List Tree) (h : NamedAll ks) (d : Nat) (r : Str) :
    normNl (lines d ks ++ r) = lines d (newlinesAll ks) ++ normNl r := by
  match ks with
  | [] => rw [newlinesAll, lines]; rfl
  | t :: ts =>
    rw [NamedAll] at h
    have e : ∀ (b l : Str), indent d ++ (b ++ '\n' :: l) ++ r = indent d ++ (b ++ ('\n' :: (l ++ r))) := by
      intro b l; simp
    have e' : ∀ (b l r : Str), indent d ++ (b ++ '\n' :: l) ++ r = indent d ++ (b ++ ('\n' :: (l ++ r))) := by
      intro b l r; simp
    rw [newlinesAll, lines, lines, e, e', normNl_left (indent_noCr d), normNl_body t h.1, normNl_cons (by decide),
      normNl_lines ts h.2]
end

/-! ### Characters -/

theorem name_xmlChar {n : Str} (h : IsName n) : n.all xmlChar = true := by
  rw [List.all_eq_true]
  exact fun c hc => nameChar_xmlChar (isName_all h c hc)

theorem indent_xmlChar (d : Nat) : (indent d).all xmlChar = true := by
  rw [List.all_eq_true]
  intro c hc
  rw [List.eq_of_mem_replicate hc]
  decide

theorem attrsText_xmlChar {a : List (Str × Str)} (h : ∀ x ∈ a, IsName x.1) :
    (attrsText a).all xmlChar = true ↔ ∀ x ∈ a, x.2.all xmlChar = true := by
  induction a with
  | nil => simp [attrsText_nil]
  | cons b l ih =>
    have hs : xmlChar ' ' = true := by decide
    have hq : xmlChar '=' = true := by decide
    rw [attrsText_cons]
    simp only [List.all_cons, List.all_append, Bool.and_eq_true, hs, hq, name_xmlChar (h b (by simp)), true_and,
      xmlChar_quoteattr, ih fun x hx => h x (by simp [hx]), List.mem_cons, forall_eq_or_imp]

mutual
theorem body_xmlChar (t : Tree) (h : Named t) (d : Nat) : (body d t).all xmlChar = true ↔ Plain t := by
  match t with
  | .mk name a ks c =>
    rw [Named] at h
    have x1 : xmlChar '<' = true := by decide
    have x2 : xmlChar '>' = true := by decide
    have x3 : xmlChar '/' = true := by decide
    have x4 : xmlChar '\n' = true := by decide
    rw [body, Plain]
    simp only [List.all_cons, List.all_append, Bool.and_eq_true, x1, x2, x3, name_xmlChar h.1, true_and,
      attrsText_xmlChar h.2.1, List.all_nil, and_true]
    apply and_congr_right
    intro _
    cases ks with
    | nil => simp [xmlChar_escape, PlainAll]
    | cons k ks =>
      simp only [List.isEmpty_cons, Bool.false_eq_true, if_false, List.all_cons, List.all_append, Bool.and_eq_true, x4,
        true_and, xmlChar_escape, indent_xmlChar, and_true, lines_xmlChar (k :: ks) h.2.2.2 (d + 1)]
      exact and_comm
theorem lines_xmlChar (ks : List Tree) (h : NamedAll ks) (d : Nat) :
    (lines d ks).all xmlChar = true ↔ PlainAll ks := by
  match ks with
  | [] => simp [lines, PlainAll]
  | t :: ts =>
    rw [NamedAll] at h
    have x4 : xmlChar '\n' = true := by decide
    rw [lines, PlainAll]
    simp only [List.all_cons, List.all_append, Bool.and_eq_true, indent_xmlChar, true_and, x4, body_xmlChar t h.1 d,
      lines_xmlChar ts h.2 d]
end

mutual
theorem named_newlines (t : Tree) (h : Named t) : Named (newlines t) := by
  match t with
  | .mk name a ks c =>
    rw [Named] at h
    rw [newlines, Named]
    exact ⟨h.1, h.2.1, h.2.2.1, namedAll_newlines ks h.2.2.2⟩
theorem namedAll_newlines (ks : List Tree) (h : NamedAll ks) : NamedAll (newlinesAll ks) := by
  match ks with
  | [] => rw [newlinesAll, NamedAll]; trivial
  | t :: ts =>
    rw [NamedAll] at h
    rw [newlinesAll, NamedAll]
    exact ⟨named_newlines t h.1, namedAll_newlines ts h.2⟩
end

/-! ### Documents -/

theorem document_text (t : Tree) (h : Named t) :
    (Plain t → document (header ++ body 0 t) = some (raw 0 [] (newlines t))) ∧
    (¬ Plain t → document (header ++ body 0 t) = none) := by
  have hn : normNl (header ++ body 0 t) = header ++ body 0 (newlines t) := by
    rw [normNl_left (by decide)]
    have := normNl_body t h 0 []
    rw [List.append_nil, normNl, List.append_nil] at this
    rw [this]
  have hc : (normNl (header ++ body 0 t)).all xmlChar = true ↔ Plain t := by
    rw [normNl_xmlChar, List.all_append, Bool.and_eq_true, body_xmlChar t h 0]
    exact and_iff_right (by decide)
  constructor
  · intro hp
    have h1 := hc.2 hp
    unfold document
    rw [hn] at h1 ⊢
    simp only [h1, if_true]
    have h2 : startsWith declaration (header ++ body 0 (newlines t)) = true := by
      rw [startsWith, List.isPrefixOf_iff_prefix]
      exact ⟨'\n' :: body 0 (newlines t), rfl⟩
    have h3 : (header ++ body 0 (newlines t)).drop declaration.length = '\n' :: body 0 (newlines t) := by
      have : header ++ body 0 (newlines t) = declaration ++ '\n' :: body 0 (newlines t) := rfl
      rw [this, List.drop_left]
    obtain ⟨x, y, hxy, _⟩ := element_body_head 0 (named_newlines t h)
    have h4 : ('\n' :: body 0 (newlines t)).dropWhile xmlSpace = body 0 (newlines t) := by
      rw [hxy, List.dropWhile_cons, if_pos (by decide), List.dropWhile_cons, if_neg (by decide)]
    rw [if_pos h2, h3, h4]
    have h5 := element_body (newlines t) (named_newlines t h) 0 ((body 0 (newlines t)).length + 1)
      (by have := cost_le (newlines t) 0; omega) []
    rw [List.append_nil] at h5
    rw [h5]
    simp
  · intro hp
    have h1 : (normNl (header ++ body 0 t)).all xmlChar = false := by
      rw [Bool.eq_false_iff]; exact fun h => hp (hc.1 h)
    unfold document
    simp only [h1]
    rfl

/-! ### The same element -/

theorem raw_tail (d : Nat) (tail : Str) (t : Tree) : (raw d tail t).tail = someText tail := by
  cases t; simp [raw, Xml.Elem.tail]

mutual
theorem same_raw (t : Tree) (d : Nat) (tail : Str) : Same t (raw d tail t) := by
  match t with
  | .mk n a [] c =>
    simp only [raw, List.isEmpty_nil, if_true, raws, someText]
    exact Same.leaf n a c _
  | .mk n a (k :: ks) c =>
    simp only [raw, List.isEmpty_cons, Bool.false_eq_true, if_false, someText]
    refine Same.node n a k ks c _ _ _ ?_ (same_raws (k :: ks) (by simp) (d + 1) c (indent d) (indent_space d))
    rw [List.all_cons, indent_space]; decide
theorem same_raws (ks : List Tree) (hk : ks ≠ []) (d : Nat) (c ind : Str) (hi : ind.all xmlSpace = true) :
    SameAll c ks (raws d (c ++ ind) ks) := by
  match ks with
  | [] => exact absurd rfl hk
  | [t] =>
    simp only [raws, List.isEmpty_nil, if_true]
    refine SameAll.last c t _ ['\n'] ind (same_raw t d _) (by decide) hi ?_
    rw [raw_tail]; simp [someText]
  | t :: u :: ts =>
    rw [raws]
    simp only [List.isEmpty_cons, Bool.false_eq_true, if_false]
    refine SameAll.cons c t u ts _ _ ('\n' :: indent d) (same_raw t d _) ?_ ?_
      (same_raws (u :: ts) (by simp) d c ind hi)
    · rw [List.all_cons, indent_space]; decide
    · rw [raw_tail]; simp [someText]
end

end Verif.XmlWrite
