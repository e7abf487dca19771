/-
Facts about matches, replacements and marks, for the properties of sentences.
-/
import Verif.Model.Sentences
import Verif.Spec.Sentences
import Verif.Lemmas.IlcdVars
import Mathlib.Data.List.Forall2
import Mathlib.Tactic.ByContra

namespace Verif.Sentences

open Spec IlcdVars

/-! ### Marks -/

theorem unmark_prd (s : Str) : unmark (c!"<prd>" ++ s) = '.' :: unmark s := by
  simp [unmark]

theorem unmark_stop (s : Str) : unmark (c!"<stop>" ++ s) = unmark s := by
  simp [unmark]

theorem unmark_cons (c : Char) (s : Str)
    (h : c = '<' → ¬ c!"prd>" <+: s ∧ ¬ c!"stop>" <+: s) : unmark (c :: s) = c :: unmark s := by
  rw [unmark.eq_def]
  split
  · rename_i e
    cases e
    exact absurd ⟨_, rfl⟩ (h rfl).1
  · rename_i e
    cases e
    exact absurd ⟨_, rfl⟩ (h rfl).2
  · rename_i e
    cases e
    rfl
  · rename_i e
    cases e

theorem unmark_free (a z : Str) (h : '<' ∉ a) : unmark (a ++ z) = a ++ unmark z := by
  induction a with
  | nil => rfl
  | cons c a ih =>
    simp only [List.mem_cons, not_or] at h
    rw [List.cons_append, unmark_cons _ _ (fun e => absurd e.symm h.1), ih h.2]
    rfl

theorem unmark_self (a : Str) (h : '<' ∉ a) : unmark a = a := by
  have := unmark_free a [] h
  simpa [unmark] using this

/-- How a text begins, as far as marks are concerned. -/
theorem mark_cases (s : Str) : s = [] ∨ (∃ z, s = c!"<prd>" ++ z) ∨ (∃ z, s = c!"<stop>" ++ z) ∨
    ∃ c z, s = c :: z ∧ (c = '<' → ¬ c!"prd>" <+: z ∧ ¬ c!"stop>" <+: z) := by
  cases s with
  | nil => exact .inl rfl
  | cons c z =>
    right
    by_cases hc : c = '<'
    · by_cases h1 : c!"prd>" <+: z
      · obtain ⟨y, rfl⟩ := h1
        exact .inl ⟨y, by rw [hc]; rfl⟩
      · by_cases h2 : c!"stop>" <+: z
        · obtain ⟨y, rfl⟩ := h2
          exact .inr (.inl ⟨y, by rw [hc]; rfl⟩)
        · exact .inr (.inr ⟨c, z, rfl, fun _ => ⟨h1, h2⟩⟩)
    · exact .inr (.inr ⟨c, z, rfl, fun e => absurd e hc⟩)

theorem markless_unmark (s : Str) (h : Markless s) : unmark s = s := by
  induction s with
  | nil => rfl
  | cons c s ih =>
    have hs : Markless s := by
      constructor
      · rintro ⟨a, b, e⟩; exact h.1 ⟨c :: a, b, by rw [e]; rfl⟩
      · rintro ⟨a, b, e⟩; exact h.2 ⟨c :: a, b, by rw [e]; rfl⟩
    rw [unmark_cons, ih hs]
    rintro rfl
    constructor
    · rintro ⟨b, rfl⟩; exact h.1 ⟨[], b, rfl⟩
    · rintro ⟨b, rfl⟩; exact h.2 ⟨[], b, rfl⟩

/-! ### Matches -/

/-- A text made of characters of the classes. -/
def Exact (alt : Alt) (a : Str) : Prop := List.Forall₂ (fun k c => Cls.has k c = true) alt a

theorem fits_iff (alt : Alt) (s : Str) :
    fits alt s = true ↔ ∃ a z, s = a ++ z ∧ Exact alt a := by
  induction alt generalizing s with
  | nil => simp only [fits, true_iff]; exact ⟨[], s, rfl, .nil⟩
  | cons k ks ih =>
    cases s with
    | nil =>
      simp only [fits, Bool.false_eq_true, false_iff]
      rintro ⟨a, z, e, h⟩
      cases h
      cases e
    | cons c s =>
      simp only [fits, Bool.and_eq_true, ih]
      constructor
      · rintro ⟨hk, a, z, rfl, h⟩
        exact ⟨c :: a, z, rfl, .cons hk h⟩
      · rintro ⟨a, z, e, h⟩
        cases h with
        | cons hk h =>
          cases e
          exact ⟨hk, _, _, rfl, h⟩

/-- The parts of a match, place by place. -/
def Parts (its : List Item) (as : List Str) : Prop :=
  List.Forall₂ (fun it a => ∃ alt ∈ Item.alts it, Exact alt a) its as

def outOf (its : List Item) (as : List Str) : Str := (List.zipWith Item.out its as).flatten

theorem matchAt_some (its : List Item) (s : Str) (n : Nat) (o : Str)
    (h : matchAt its s = some (n, o)) :
    ∃ as z, Parts its as ∧ s = as.flatten ++ z ∧ n = as.flatten.length ∧ o = outOf its as := by
  induction its generalizing s n o with
  | nil =>
    simp only [matchAt, Option.some.injEq, Prod.mk.injEq] at h
    exact ⟨[], s, .nil, rfl, h.1.symm, h.2.symm⟩
  | cons it its ih =>
    simp only [matchAt] at h
    obtain ⟨alt, hm, h'⟩ := List.exists_of_findSome?_eq_some h
    clear h
    rename' h' => h
    split at h
    · rename_i hf
      obtain ⟨a, z, rfl, he⟩ := (fits_iff alt s).1 hf
      have hl : alt.length = a.length := List.Forall₂.length_eq he
      rw [hl, List.drop_left, List.take_left] at h
      cases hr : matchAt its z with
      | none => rw [hr] at h; cases h
      | some r =>
        rw [hr] at h
        simp only [Option.map_some, Option.some.injEq, Prod.mk.injEq] at h
        obtain ⟨as, y, hp, rfl, hn, ho⟩ := ih z r.1 r.2 hr
        refine ⟨a :: as, y, .cons ⟨alt, hm, he⟩ hp, by simp, ?_, ?_⟩
        · rw [← h.1, hn]; simp
        · rw [← h.2, ho]; simp [outOf]
    · cases h

/-- Nothing is missed: where the parts of a match stand, there is a match. -/
theorem matchAt_parts (its : List Item) (as : List Str) (z : Str) (h : Parts its as) :
    ∃ n o, matchAt its (as.flatten ++ z) = some (n, o) := by
  induction its generalizing as z with
  | nil => exact ⟨_, _, rfl⟩
  | cons it its ih =>
    cases h with
    | @cons _ a _ as' ha hp =>
      obtain ⟨alt, hm, he⟩ := ha
      obtain ⟨n, o, hr⟩ := ih as' z hp
      simp only [matchAt]
      cases hf : it.alts.findSome? (fun alt =>
        if fits alt ((a :: as').flatten ++ z) then
          (matchAt its (((a :: as').flatten ++ z).drop alt.length)).map fun r =>
            (alt.length + r.1, it.out (((a :: as').flatten ++ z).take alt.length) ++ r.2)
        else none) with
      | some r => exact ⟨r.1, r.2, rfl⟩
      | none =>
        have := List.findSome?_eq_none_iff.1 hf alt hm
        have hl : alt.length = a.length := List.Forall₂.length_eq he
        rw [if_pos ((fits_iff alt _).2 ⟨a, as'.flatten ++ z, by simp, he⟩)] at this
        rw [List.flatten_cons, List.append_assoc, hl, List.drop_left, hr] at this
        cases this

theorem subAux_drop (its : List Item) (k : Nat) (s : Str) : subAux its k s = sub its (s.drop k) := by
  induction s generalizing k with
  | nil => cases k <;> simp [sub, subAux]
  | cons c s ih =>
    cases k with
    | zero => rfl
    | succ k => rw [subAux, ih]; rfl

theorem sub_none (its : List Item) (c : Char) (s : Str) (h : matchAt its (c :: s) = none) :
    sub its (c :: s) = c :: sub its s := by
  rw [sub, subAux, h]
  rfl

theorem sub_some (its : List Item) (as : List Str) (z : Str) (n : Nat) (o : Str)
    (h : matchAt its (as.flatten ++ z) = some (n, o)) (hn : n = as.flatten.length)
    (hne : as.flatten ≠ []) : sub its (as.flatten ++ z) = o ++ sub its z := by
  cases hf : as.flatten with
  | nil => exact absurd hf hne
  | cons c m =>
    rw [hf] at h hn
    rw [sub, List.cons_append, subAux, ← List.cons_append, h]
    simp only [subAux_drop]
    rw [hn, List.length_cons, Nat.add_sub_cancel, List.drop_left]

/-! ### Statements that leave marks alone -/

/-- The letters of the marks. -/
def markLetter (c : Char) : Bool := (c!"prdsto").contains c

def Cls.clear (k : Cls) : Bool := !k.has '<' && !k.has '>'

/-- No character of the class is a letter of a mark. -/
def Cls.special : Cls → Bool
  | .lit c => !markLetter c
  | .alpha => false
  | .upper => false
  | .space => true

def Tok.special : Tok → Bool
  | .chr c => !markLetter c
  | .prd => true
  | .stop => true

def Tok.clear : Tok → Bool
  | .chr c => c != '<' && c != '>'
  | .prd => true
  | .stop => true

def Item.clear (it : Item) : Bool :=
  it.alts.all (·.all Cls.clear) && (match it.put with | none => true | some ts => ts.all Tok.clear)

def Item.special (it : Item) : Bool := it.alts.all (·.any Cls.special)

def Item.shield (it : Item) : Bool :=
  match it.put with | none => it.special | some ts => ts.any Tok.special

/-- The statement neither reads nor writes a part of a mark. -/
def safe (its : List Item) : Bool :=
  its.all Item.clear && its.any Item.special && its.any Item.shield

theorem special_has (k : Cls) (c : Char) (hk : k.special = true) (h : k.has c = true) :
    markLetter c = false := by
  cases k with
  | lit x => simp only [Cls.has, beq_iff_eq] at h; subst h; simpa [Cls.special] using hk
  | alpha => cases hk
  | upper => cases hk
  | space =>
    simp only [Cls.has] at h
    by_contra hm
    simp only [markLetter, List.contains_eq_mem, decide_eq_true_eq, Bool.not_eq_false] at hm
    simp only [List.mem_cons, List.not_mem_nil, or_false] at hm
    rcases hm with rfl | rfl | rfl | rfl | rfl | rfl <;> revert h <;> decide

theorem exact_clear (alt : Alt) (a : Str) (h : Exact alt a) (hc : alt.all Cls.clear = true) :
    '<' ∉ a ∧ '>' ∉ a := by
  induction h with
  | nil => simp
  | @cons k c ks cs hk _ ih =>
    simp only [List.all_cons, Bool.and_eq_true] at hc
    obtain ⟨i1, i2⟩ := ih hc.2
    have hk' := hc.1
    simp only [Cls.clear, Bool.and_eq_true, Bool.not_eq_true'] at hk'
    simp only [List.mem_cons, not_or]
    refine ⟨⟨?_, i1⟩, ⟨?_, i2⟩⟩
    · rintro rfl; rw [hk'.1] at hk; cases hk
    · rintro rfl; rw [hk'.2] at hk; cases hk

theorem exact_special (alt : Alt) (a : Str) (h : Exact alt a) (hc : alt.any Cls.special = true) :
    ∃ c ∈ a, markLetter c = false := by
  induction h with
  | nil => cases hc
  | @cons k c ks cs hk _ ih =>
    simp only [List.any_cons, Bool.or_eq_true] at hc
    rcases hc with hc | hc
    · exact ⟨c, by simp, special_has k c hc hk⟩
    · obtain ⟨x, hx, hm⟩ := ih hc
      exact ⟨x, by simp [hx], hm⟩

/-- The first character of a text that is no letter of a mark. -/
def lead (s : Str) : Option Char := s.find? (fun c => !markLetter c)

theorem lead_append (a b : Str) : lead (a ++ b) = (lead a).or (lead b) := by
  simp [lead, List.find?_append]

/-- A text after which marks are read as before. -/
def Closed (o : Str) : Prop := ∀ z, unmark (o ++ z) = unmark o ++ unmark z

theorem Closed.append {a b : Str} (ha : Closed a) (hb : Closed b) : Closed (a ++ b) := by
  intro z
  rw [List.append_assoc, ha, hb, ha, List.append_assoc]

theorem closed_free (a : Str) (h : '<' ∉ a) : Closed a := by
  intro z
  rw [unmark_free a z h, unmark_self a h]

theorem closed_tok (t : Tok) (h : t.clear = true) : Closed t.text := by
  cases t with
  | chr c =>
    refine closed_free _ ?_
    simp only [Tok.clear, Bool.and_eq_true, bne_iff_ne] at h
    simpa [Tok.text] using fun e : '<' = c => h.1 e.symm
  | prd => intro z; simp only [Tok.text]; rw [unmark_prd]; rfl
  | stop => intro z; simp only [Tok.text]; rw [unmark_stop]; rfl

theorem closed_render (ts : List Tok) (h : ts.all Tok.clear = true) : Closed (render ts) := by
  induction ts with
  | nil => intro z; rfl
  | cons t ts ih =>
    simp only [List.all_cons, Bool.and_eq_true] at h
    exact (closed_tok t h.1).append (ih h.2)

theorem lead_free (a : Str) (h : '>' ∉ a) : lead a ≠ some '>' := by
  intro e
  exact h (List.mem_of_find?_eq_some e)

theorem lead_tok (t : Tok) (h : t.clear = true) : lead t.text ≠ some '>' := by
  cases t with
  | chr c =>
    refine lead_free _ ?_
    simp only [Tok.clear, Bool.and_eq_true, bne_iff_ne] at h
    simpa [Tok.text] using fun e : '>' = c => h.2 e.symm
  | prd => decide
  | stop => decide

theorem lead_or {a b : Str} (ha : lead a ≠ some '>') (hb : lead b ≠ some '>') :
    lead (a ++ b) ≠ some '>' := by
  rw [lead_append]
  cases h : lead a with
  | none => simpa using hb
  | some x => rw [h] at ha; simpa using ha

theorem lead_render (ts : List Tok) (h : ts.all Tok.clear = true) : lead (render ts) ≠ some '>' := by
  induction ts with
  | nil => decide
  | cons t ts ih =>
    simp only [List.all_cons, Bool.and_eq_true] at h
    exact lead_or (lead_tok t h.1) (ih h.2)

theorem lead_render_some (ts : List Tok) (h : ts.any Tok.special = true) : lead (render ts) ≠ none := by
  induction ts with
  | nil => cases h
  | cons t ts ih =>
    simp only [List.any_cons, Bool.or_eq_true] at h
    show lead (t.text ++ render ts) ≠ none
    rw [lead_append]
    rcases h with h | h
    · have : lead t.text ≠ none := by
        cases t with
        | chr c =>
          simp only [Tok.special, Bool.not_eq_true'] at h
          simp [Tok.text, lead, h]
        | prd => decide
        | stop => decide
      cases hl : lead t.text with
      | none => exact absurd hl this
      | some x => simp
    · cases hl : lead t.text with
      | none => simpa using ih h
      | some x => simp

/-- What is known of a match of a safe statement. -/
structure Fine (m o : Str) : Prop where
  noOpen : '<' ∉ m
  noShut : '>' ∉ m
  special : ∃ c ∈ m, markLetter c = false
  closed : Closed o
  lead_ne : lead o ≠ some '>'
  lead_some : lead o ≠ none

theorem item_out (it : Item) (a : Str) (alt : Alt) (hm : alt ∈ it.alts) (he : Exact alt a)
    (hc : it.clear = true) : '<' ∉ a ∧ '>' ∉ a ∧ Closed (it.out a) ∧ lead (it.out a) ≠ some '>' := by
  simp only [Item.clear, Bool.and_eq_true, List.all_eq_true (l := it.alts)] at hc
  obtain ⟨h1, h2⟩ := exact_clear alt a he (hc.1 alt hm)
  refine ⟨h1, h2, ?_⟩
  unfold Item.out
  cases hp : it.put with
  | none => exact ⟨closed_free a h1, lead_free a h2⟩
  | some ts =>
    have := hc.2
    rw [hp] at this
    exact ⟨closed_render ts this, lead_render ts this⟩

theorem fine_parts (its : List Item) (as : List Str) (hp : Parts its as) (hs : safe its = true) :
    Fine as.flatten (outOf its as) := by
  simp only [safe, Bool.and_eq_true] at hs
  obtain ⟨⟨hc, hsp⟩, hsh⟩ := hs
  have key : '<' ∉ as.flatten ∧ '>' ∉ as.flatten ∧ Closed (outOf its as) ∧
      lead (outOf its as) ≠ some '>' ∧
      (its.any Item.special = true → ∃ c ∈ as.flatten, markLetter c = false) ∧
      (its.any Item.shield = true → lead (outOf its as) ≠ none) := by
    clear hsp hsh
    induction hp with
    | nil => exact ⟨by simp, by simp, fun z => rfl, by decide,
        fun h => absurd h (by simp), fun h => absurd h (by simp)⟩
    | @cons it a its as ha _ ih =>
      simp only [List.all_cons, Bool.and_eq_true] at hc
      obtain ⟨alt, hm, he⟩ := ha
      obtain ⟨i1, i2, i3, i4, i5, i6⟩ := ih hc.2
      obtain ⟨j1, j2, j3, j4⟩ := item_out it a alt hm he hc.1
      have ho : outOf (it :: its) (a :: as) = it.out a ++ outOf its as := by simp [outOf]
      rw [ho]
      refine ⟨?_, ?_, j3.append i3, lead_or j4 i4, ?_, ?_⟩
      · simp only [List.flatten_cons, List.mem_append, not_or]; exact ⟨j1, i1⟩
      · simp only [List.flatten_cons, List.mem_append, not_or]; exact ⟨j2, i2⟩
      · intro h
        simp only [List.any_cons, Bool.or_eq_true] at h
        rcases h with h | h
        · simp only [Item.special, List.all_eq_true] at h
          obtain ⟨c, hc', hk⟩ := exact_special alt a he (h alt hm)
          exact ⟨c, by simp [hc'], hk⟩
        · obtain ⟨c, hc', hk⟩ := i5 h
          exact ⟨c, by rw [List.flatten_cons]; exact List.mem_append_right _ hc', hk⟩
      · intro h
        rw [lead_append]
        simp only [List.any_cons, Bool.or_eq_true] at h
        rcases h with h | h
        · have : lead (it.out a) ≠ none := by
            unfold Item.shield at h
            unfold Item.out
            cases hp : it.put with
            | none =>
              rw [hp] at h
              simp only [Item.special, List.all_eq_true] at h
              obtain ⟨c, hc', hk⟩ := exact_special alt a he (h alt hm)
              intro hn
              have := List.find?_eq_none.1 hn c hc'
              simp [hk] at this
            | some ts =>
              rw [hp] at h
              exact lead_render_some ts h
          cases hl : lead (it.out a) with
          | none => exact absurd hl this
          | some x => simp
        · cases hl : lead (it.out a) with
          | none => simpa using i6 h
          | some x => simp
  exact ⟨key.1, key.2.1, key.2.2.2.2.1 hsp, key.2.2.1, key.2.2.2.1, key.2.2.2.2.2 hsh⟩

/-- The two marks. -/
theorem no_match_mark (its : List Item) (hs : safe its = true) (w z : Str)
    (hw : w.all (fun c => markLetter c || c == '<') = true) :
    matchAt its (w ++ '>' :: z) = none := by
  cases h : matchAt its (w ++ '>' :: z) with
  | none => rfl
  | some r =>
    exfalso
    obtain ⟨as, y, hp, he, _, _⟩ := matchAt_some its _ r.1 r.2 h
    have hf := fine_parts its as hp hs
    obtain ⟨c, hc, hk⟩ := hf.special
    rcases List.append_eq_append_iff.1 he with ⟨u, h1, h2⟩ | ⟨u, h1, h2⟩
    · cases u with
      | nil =>
        rw [List.append_nil] at h1
        rw [h1] at hc
        have := List.all_eq_true.1 hw c hc
        rw [hk] at this
        simp only [Bool.false_or, beq_iff_eq] at this
        subst this
        exact hf.noOpen (h1 ▸ hc)
      | cons x u =>
        rw [List.cons_append] at h2
        cases h2
        exact hf.noShut (by rw [h1]; simp)
    · have hc' : c ∈ w := by rw [h1]; exact List.mem_append_left _ hc
      have := List.all_eq_true.1 hw c hc'
      rw [hk] at this
      simp only [Bool.false_or, beq_iff_eq] at this
      subst this
      exact hf.noOpen hc

theorem sub_mark (its : List Item) (hs : safe its = true) (w z : Str)
    (hw : w.all (fun c => markLetter c || c == '<') = true) :
    sub its (w ++ '>' :: z) = w ++ sub its ('>' :: z) := by
  induction w with
  | nil => rfl
  | cons c w ih =>
    have hn := no_match_mark its hs (c :: w) z hw
    rw [List.cons_append] at hn ⊢
    rw [sub_none its c _ hn, ih (by simp only [List.all_cons, Bool.and_eq_true] at hw; exact hw.2)]
    rfl

theorem no_match_shut (its : List Item) (hs : safe its = true) (z : Str) :
    matchAt its ('>' :: z) = none := by
  cases h : matchAt its ('>' :: z) with
  | none => rfl
  | some r =>
    exfalso
    obtain ⟨as, y, hp, he, _, _⟩ := matchAt_some its _ r.1 r.2 h
    have hf := fine_parts its as hp hs
    cases hm : as.flatten with
    | nil => obtain ⟨c, hc, _⟩ := hf.special; rw [hm] at hc; cases hc
    | cons c m =>
      rw [hm] at he
      cases he
      exact hf.noShut (by rw [hm]; simp)

theorem sub_prd (its : List Item) (hs : safe its = true) (z : Str) :
    sub its (c!"<prd>" ++ z) = c!"<prd>" ++ sub its z := by
  have := sub_mark its hs c!"<prd" z (by decide)
  rw [sub_none its _ _ (no_match_shut its hs z)] at this
  exact this

theorem sub_stop (its : List Item) (hs : safe its = true) (z : Str) :
    sub its (c!"<stop>" ++ z) = c!"<stop>" ++ sub its z := by
  have := sub_mark its hs c!"<stop" z (by decide)
  rw [sub_none its _ _ (no_match_shut its hs z)] at this
  exact this

/-- The end of a mark in the result was there before. -/
theorem sub_tail (its : List Item) (hs : safe its = true) (w s : Str)
    (hw : w.all markLetter = true) (h : w ++ ['>'] <+: sub its s) : w ++ ['>'] <+: s := by
  induction w generalizing s with
  | nil =>
    cases s with
    | nil => exact h
    | cons c s =>
      cases hm : matchAt its (c :: s) with
      | none =>
        rw [sub_none its c s hm] at h
        obtain ⟨t, ht⟩ := h
        cases ht
        exact ⟨s, rfl⟩
      | some r =>
        exfalso
        obtain ⟨as, y, hp, he, hn, ho⟩ := matchAt_some its _ r.1 r.2 hm
        have hf := fine_parts its as hp hs
        have hne : as.flatten ≠ [] := by
          intro e; obtain ⟨x, hx, _⟩ := hf.special; rw [e] at hx; cases hx
        rw [he] at hm
        rw [he, sub_some its as y r.1 r.2 hm hn hne, ho] at h
        obtain ⟨t, ht⟩ := h
        cases hoo : outOf its as with
        | nil => exact hf.lead_some (by rw [hoo]; rfl)
        | cons x o =>
          rw [hoo] at ht
          cases ht
          exact hf.lead_ne (by rw [hoo]; rfl)
  | cons x w ih =>
    simp only [List.all_cons, Bool.and_eq_true] at hw
    cases s with
    | nil => exact h
    | cons c s =>
      cases hm : matchAt its (c :: s) with
      | none =>
        rw [sub_none its c s hm] at h
        obtain ⟨t, ht⟩ := h
        simp only [List.cons_append] at ht
        injection ht with h1 h2
        obtain ⟨y, hy⟩ := ih s hw.2 ⟨t, h2⟩
        exact ⟨y, by rw [← hy, h1]; rfl⟩
      | some r =>
        exfalso
        obtain ⟨as, y, hp, he, hn, ho⟩ := matchAt_some its _ r.1 r.2 hm
        have hf := fine_parts its as hp hs
        have hne : as.flatten ≠ [] := by
          intro e; obtain ⟨x, hx, _⟩ := hf.special; rw [e] at hx; cases hx
        rw [he] at hm
        rw [he, sub_some its as y r.1 r.2 hm hn hne, ho] at h
        obtain ⟨t, ht⟩ := h
        have hl : lead ((x :: w) ++ ['>'] ++ t) = some '>' := by
          have hnone : lead (x :: w) = none := by
            refine List.find?_eq_none.2 ?_
            intro d hd
            have : (x :: w).all markLetter = true := by simp [hw]
            have := List.all_eq_true.1 this d hd
            simp [this]
          rw [lead_append, lead_append, hnone]
          rfl
        rw [ht, lead_append] at hl
        cases hq : lead (outOf its as) with
        | none => exact hf.lead_some hq
        | some q =>
          rw [hq] at hl
          simp only [Option.some_or] at hl
          exact hf.lead_ne (hq.trans hl)

/-- Induction along the marks and the matches of a text. -/
theorem sub_induct (its : List Item) (hs : safe its = true) (P : Str → Str → Prop)
    (hnil : P [] [])
    (hprd : ∀ z, P z (sub its z) → P (c!"<prd>" ++ z) (c!"<prd>" ++ sub its z))
    (hstop : ∀ z, P z (sub its z) → P (c!"<stop>" ++ z) (c!"<stop>" ++ sub its z))
    (hchr : ∀ c z, (c = '<' → ¬ c!"prd>" <+: z ∧ ¬ c!"stop>" <+: z) →
      (c = '<' → ¬ c!"prd>" <+: sub its z ∧ ¬ c!"stop>" <+: sub its z) →
      P z (sub its z) → P (c :: z) (c :: sub its z))
    (hmatch : ∀ as z, Parts its as → Fine as.flatten (outOf its as) → P z (sub its z) →
      P (as.flatten ++ z) (outOf its as ++ sub its z)) (s : Str) : P s (sub its s) := by
  have H : ∀ n (s : Str), s.length ≤ n → P s (sub its s) := by
    intro n
    induction n with
    | zero =>
      intro s h
      have : s = [] := List.eq_nil_of_length_eq_zero (by omega)
      subst this
      exact hnil
    | succ n ih =>
      intro s hlen
      rcases mark_cases s with rfl | ⟨z, rfl⟩ | ⟨z, rfl⟩ | ⟨c, z, rfl, hc⟩
      · exact hnil
      · rw [sub_prd its hs]
        exact hprd z (ih z (by simp only [List.length_append, List.length_cons, List.length_nil] at hlen; omega))
      · rw [sub_stop its hs]
        exact hstop z (ih z (by simp only [List.length_append, List.length_cons, List.length_nil] at hlen; omega))
      · cases hm : matchAt its (c :: z) with
        | none =>
          rw [sub_none its c z hm]
          refine hchr c z hc ?_ (ih z (by simp only [List.length_cons] at hlen; omega))
          intro e
          exact ⟨fun h => (hc e).1 (sub_tail its hs c!"prd" z (by decide) h),
            fun h => (hc e).2 (sub_tail its hs c!"stop" z (by decide) h)⟩
        | some r =>
          obtain ⟨as, y, hp, he, hn, ho⟩ := matchAt_some its _ r.1 r.2 hm
          have hf := fine_parts its as hp hs
          have hne : as.flatten ≠ [] := by
            intro e; obtain ⟨x, hx, _⟩ := hf.special; rw [e] at hx; cases hx
          rw [he] at hm
          rw [he, sub_some its as y r.1 r.2 hm hn hne, ho]
          refine hmatch as y hp hf (ih y ?_)
          have h1 := congrArg List.length he
          have h2 : 0 < as.flatten.length := List.length_pos_iff.2 hne
          simp only [List.length_append, List.length_cons] at h1 hlen
          omega
  exact H s.length s (Nat.le_refl _)

/-! ### Statements that keep the characters of some kind -/

/-- The characters of a kind in a text of the classes, if they are fixed. -/
def altText (f : Char → Bool) : Alt → Option Str
  | [] => some []
  | .lit c :: ks => (altText f ks).map fun s => if f c then c :: s else s
  | .space :: ks => altText f ks
  | .alpha :: _ => none
  | .upper :: _ => none

theorem altText_exact (f : Char → Bool) (hf : ∀ c, pySpace c = true → f c = false) (alt : Alt)
    (a w : Str) (h : Exact alt a) (hw : altText f alt = some w) : a.filter f = w := by
  induction h generalizing w with
  | nil => simp only [altText, Option.some.injEq] at hw; exact hw
  | @cons k c ks cs hk _ ih =>
    cases k with
    | lit x =>
      simp only [Cls.has, beq_iff_eq] at hk
      subst hk
      simp only [altText, Option.map_eq_some_iff] at hw
      obtain ⟨v, hv, rfl⟩ := hw
      rw [List.filter_cons, ih v hv]
    | space =>
      simp only [altText] at hw
      rw [List.filter_cons, hf c hk, ih w hw]
      rfl
    | alpha => cases hw
    | upper => cases hw

/-- A place whose replacement has the same characters of the kind. -/
def Item.keeps (f : Char → Bool) (it : Item) : Bool :=
  match it.put with
  | none => true
  | some ts => it.alts.all fun alt => altText f alt == some ((unmark (render ts)).filter f)

theorem outOf_filter (f : Char → Bool) (hf : ∀ c, pySpace c = true → f c = false)
    (its : List Item) (as : List Str) (hp : Parts its as) (hc : its.all Item.clear = true)
    (hk : its.all (Item.keeps f) = true) :
    (unmark (outOf its as)).filter f = as.flatten.filter f := by
  induction hp with
  | nil => rfl
  | @cons it a its as ha _ ih =>
    simp only [List.all_cons, Bool.and_eq_true] at hc hk
    obtain ⟨alt, hm, he⟩ := ha
    obtain ⟨j1, _, j3, _⟩ := item_out it a alt hm he hc.1
    have ho : outOf (it :: its) (a :: as) = it.out a ++ outOf its as := by simp [outOf]
    rw [ho, j3, List.filter_append, ih hc.2 hk.2, List.flatten_cons, List.filter_append]
    congr 1
    have hk1 := hk.1
    unfold Item.keeps at hk1
    unfold Item.out
    cases hpt : it.put with
    | none => simp only; rw [unmark_self a j1]
    | some ts =>
      rw [hpt] at hk1
      simp only [List.all_eq_true, beq_iff_eq] at hk1
      exact (altText_exact f hf alt a _ he (hk1 alt hm)).symm

theorem sub_keeps (f : Char → Bool) (hf : ∀ c, pySpace c = true → f c = false)
    (its : List Item) (hs : safe its = true) (hk : its.all (Item.keeps f) = true) (s : Str) :
    (unmark (sub its s)).filter f = (unmark s).filter f := by
  have hc : its.all Item.clear = true := by
    simp only [safe, Bool.and_eq_true] at hs; exact hs.1.1
  refine sub_induct its hs (fun s t => (unmark t).filter f = (unmark s).filter f) rfl ?_ ?_ ?_ ?_ s
  · intro z h; rw [unmark_prd, unmark_prd, List.filter_cons, List.filter_cons, h]
  · intro z h; rw [unmark_stop, unmark_stop, h]
  · intro c z h1 h2 h
    rw [unmark_cons c z h1, unmark_cons c _ h2, List.filter_cons, List.filter_cons, h]
  · intro as z hp hfin h
    rw [hfin.closed, unmark_free _ z hfin.noOpen, List.filter_append, List.filter_append, h,
      outOf_filter f hf its as hp hc hk]

/-- A statement changes a text only where it finds a match. -/
theorem sub_hit (f : Char → Bool) (its : List Item) (hs : safe its = true) (s : Str) :
    sub its s = s ∨ ∃ as, Parts its as ∧ Occurs (as.flatten.filter f) ((unmark s).filter f) := by
  refine sub_induct its hs (fun s t => t = s ∨ ∃ as, Parts its as ∧
    Occurs (as.flatten.filter f) ((unmark s).filter f)) (.inl rfl) ?_ ?_ ?_ ?_ s
  · rintro z (h | ⟨as, hp, a, b, h⟩)
    · exact .inl (by rw [h])
    · refine .inr ⟨as, hp, ?_⟩
      rw [unmark_prd, List.filter_cons, h]
      split
      · exact ⟨'.' :: a, b, rfl⟩
      · exact ⟨a, b, rfl⟩
  · rintro z (h | ⟨as, hp, a, b, h⟩)
    · exact .inl (by rw [h])
    · exact .inr ⟨as, hp, a, b, by rw [unmark_stop, h]⟩
  · rintro c z h1 h2 (h | ⟨as, hp, a, b, h⟩)
    · exact .inl (by rw [h])
    · refine .inr ⟨as, hp, ?_⟩
      rw [unmark_cons c z h1, List.filter_cons, h]
      split
      · exact ⟨c :: a, b, rfl⟩
      · exact ⟨a, b, rfl⟩
  · intro as z hp hfin _
    refine .inr ⟨as, hp, [], (unmark z).filter f, ?_⟩
    rw [unmark_free _ z hfin.noOpen, List.filter_append]
    rfl

/-! ### The last two statements -/

theorem replace_prd (z : Str) :
    replaceAll c!"<prd>" c!"." (c!"<prd>" ++ z) = '.' :: replaceAll c!"<prd>" c!"." z := by
  simp [replaceAll, replaceAux, startsWith]

theorem replace_chr (c : Char) (z : Str) (h : c = '<' → ¬ c!"prd>" <+: z) :
    replaceAll c!"<prd>" c!"." (c :: z) = c :: replaceAll c!"<prd>" c!"." z := by
  have : startsWith c!"<prd>" (c :: z) = false := by
    by_contra hb
    simp only [startsWith, Bool.not_eq_false, List.isPrefixOf_iff_prefix] at hb
    obtain ⟨t, ht⟩ := hb
    cases ht
    exact h rfl ⟨t, rfl⟩
  simp only [replaceAll, replaceAux]
  rw [if_neg (by simp), this, if_neg (by simp)]
  rfl

theorem replace_stop (z : Str) :
    replaceAll c!"<prd>" c!"." (c!"<stop>" ++ z) = c!"<stop>" ++ replaceAll c!"<prd>" c!"." z := by
  simp [replaceAll, replaceAux, startsWith]

theorem replace_tail (w s : Str) (hw : '.' ∉ w) (h : w <+: replaceAll c!"<prd>" c!"." s) :
    w <+: s := by
  induction w generalizing s with
  | nil => exact ⟨s, rfl⟩
  | cons x w ih =>
    simp only [List.mem_cons, not_or] at hw
    have step : ∀ c z, s = c :: z → (c = '<' → ¬ c!"prd>" <+: z) → x :: w <+: s := by
      rintro c z rfl hc
      rw [replace_chr c z hc] at h
      obtain ⟨t, ht⟩ := h
      injection ht with h1 h2
      obtain ⟨y, hy⟩ := ih z hw.2 ⟨t, h2⟩
      exact ⟨y, by rw [← hy, h1]; rfl⟩
    rcases mark_cases s with rfl | ⟨z, rfl⟩ | ⟨z, rfl⟩ | ⟨c, z, rfl, hc⟩
    · exact h
    · rw [replace_prd] at h
      obtain ⟨t, ht⟩ := h
      injection ht with h1 _
      exact absurd h1.symm hw.1
    · exact step '<' (c!"stop>" ++ z) rfl (by rintro - ⟨t, ht⟩; cases ht)
    · exact step c z rfl (fun e => (hc e).1)

theorem splitAux_cur (sep : Str) (k : Nat) (cur s : Str) :
    ∃ l ls, splitAux sep k [] s = l :: ls ∧ splitAux sep k cur s = (cur.reverse ++ l) :: ls := by
  induction s generalizing k cur with
  | nil => exact ⟨[], [], by simp [splitAux], by simp [splitAux]⟩
  | cons c s ih =>
    cases k with
    | succ k => simpa only [splitAux] using ih k cur
    | zero =>
      simp only [splitAux]
      split
      · exact ⟨[], _, rfl, by simp⟩
      · obtain ⟨l, ls, h1, h2⟩ := ih 0 [c]
        obtain ⟨l', ls', h3, h4⟩ := ih 0 (c :: cur)
        rw [h3] at h1
        cases h1
        exact ⟨c :: l, ls, by rw [h2]; rfl, by rw [h4]; simp⟩

theorem splitAux_skip (sep : Str) (k : Nat) (cur s : Str) :
    splitAux sep k cur s = splitAux sep 0 cur (s.drop k) := by
  induction s generalizing k with
  | nil => cases k <;> rfl
  | cons c s ih =>
    cases k with
    | zero => rfl
    | succ k => rw [splitAux, ih]; rfl

theorem split_stop (z : Str) : splitStr c!"<stop>" (c!"<stop>" ++ z) = [] :: splitStr c!"<stop>" z := by
  simp [splitStr, splitAux, startsWith]

theorem split_chr (c : Char) (z : Str) (h : c = '<' → ¬ c!"stop>" <+: z) :
    ∃ l ls, splitStr c!"<stop>" z = l :: ls ∧ splitStr c!"<stop>" (c :: z) = (c :: l) :: ls := by
  have : startsWith c!"<stop>" (c :: z) = false := by
    by_contra hb
    simp only [startsWith, Bool.not_eq_false, List.isPrefixOf_iff_prefix] at hb
    obtain ⟨t, ht⟩ := hb
    cases ht
    exact h rfl ⟨t, rfl⟩
  obtain ⟨l, ls, h1, h2⟩ := splitAux_cur c!"<stop>" 0 [c] z
  refine ⟨l, ls, h1, ?_⟩
  simp only [splitStr, splitAux, this]
  exact h2

theorem split_ne_nil (s : Str) : splitStr c!"<stop>" s ≠ [] := by
  obtain ⟨l, ls, h, _⟩ := splitAux_cur c!"<stop>" 0 [] s
  intro e
  rw [splitStr, h] at e
  cases e

/-- The pieces are the text with the full stops back and without the marks. -/
theorem pieces_flatten (s : Str) :
    (splitStr c!"<stop>" (replaceAll c!"<prd>" c!"." s)).flatten = unmark s := by
  have H : ∀ n (s : Str), s.length ≤ n →
      (splitStr c!"<stop>" (replaceAll c!"<prd>" c!"." s)).flatten = unmark s := by
    intro n
    induction n with
    | zero =>
      intro s h
      have : s = [] := List.eq_nil_of_length_eq_zero (by omega)
      subst this
      rfl
    | succ n ih =>
      intro s hlen
      rcases mark_cases s with rfl | ⟨z, rfl⟩ | ⟨z, rfl⟩ | ⟨c, z, rfl, hc⟩
      · rfl
      · rw [replace_prd, unmark_prd]
        obtain ⟨l, ls, h1, h2⟩ := split_chr '.' (replaceAll c!"<prd>" c!"." z)
          (fun e => absurd e (by decide))
        have := ih z (by simp only [List.length_append, List.length_cons, List.length_nil] at hlen; omega)
        rw [h1] at this
        rw [h2, ← this]
        rfl
      · rw [replace_stop, split_stop, unmark_stop]
        exact ih z (by simp only [List.length_append, List.length_cons, List.length_nil] at hlen; omega)
      · rw [replace_chr c z (fun e => (hc e).1), unmark_cons c z hc]
        obtain ⟨l, ls, h1, h2⟩ := split_chr c (replaceAll c!"<prd>" c!"." z)
          (fun e h => (hc e).2 (replace_tail _ z (by decide) h))
        have := ih z (by simp only [List.length_cons] at hlen; omega)
        rw [h1] at this
        rw [h2, ← this]
        rfl
  exact H s.length s (Nat.le_refl _)

theorem split_single (s x : Str) (h : splitStr c!"<stop>" s = [x]) : s = x := by
  induction s generalizing x with
  | nil => simp only [splitStr, splitAux, List.reverse_nil, List.cons.injEq, and_true] at h; exact h
  | cons c s ih =>
    by_cases hc : c = '<' ∧ c!"stop>" <+: s
    · obtain ⟨rfl, z, rfl⟩ := hc
      have := split_stop z
      rw [show c!"<stop>" ++ z = '<' :: (c!"stop>" ++ z) from rfl] at this
      rw [this] at h
      simp only [List.cons.injEq] at h
      exact absurd h.2 (split_ne_nil z)
    · obtain ⟨l, ls, h1, h2⟩ := split_chr c s (fun e h => hc ⟨e, h⟩)
      rw [h2] at h
      cases h
      rw [ih l h1]

theorem replace_dotless (s : Str) (h : '.' ∉ replaceAll c!"<prd>" c!"." s) :
    replaceAll c!"<prd>" c!"." s = s := by
  induction s with
  | nil => rfl
  | cons c s ih =>
    by_cases hc : c = '<' ∧ c!"prd>" <+: s
    · obtain ⟨rfl, z, rfl⟩ := hc
      have := replace_prd z
      rw [show c!"<prd>" ++ z = '<' :: (c!"prd>" ++ z) from rfl] at this
      rw [this] at h
      exact absurd (List.mem_cons_self) h
    · have := replace_chr c s (fun e h => hc ⟨e, h⟩)
      rw [this] at h ⊢
      rw [ih (fun hm => h (List.mem_cons_of_mem _ hm))]

/-! ### Length -/

def Item.grows (it : Item) : Bool :=
  match it.put with
  | none => true
  | some ts => it.alts.all fun alt => alt.length ≤ (render ts).length

theorem sub_length (its : List Item) (hs : safe its = true) (hg : its.all Item.grows = true)
    (s : Str) : s.length ≤ (sub its s).length := by
  refine sub_induct its hs (fun s t => s.length ≤ t.length) (Nat.le_refl _) ?_ ?_ ?_ ?_ s
  · intro z h; simpa using h
  · intro z h; simpa using h
  · intro c z _ _ h; simpa using h
  · intro as z hp hfin h
    have : as.flatten.length ≤ (outOf its as).length := by
      clear h hs hfin
      induction hp with
      | nil => exact Nat.le_refl _
      | @cons it a its as ha _ ih =>
        simp only [List.all_cons, Bool.and_eq_true] at hg
        have ho : outOf (it :: its) (a :: as) = it.out a ++ outOf its as := by simp [outOf]
        rw [ho, List.flatten_cons, List.length_append, List.length_append]
        have h1 : a.length ≤ (it.out a).length := by
          have hg1 := hg.1
          unfold Item.grows at hg1
          unfold Item.out
          cases hpt : it.put with
          | none => exact Nat.le_refl _
          | some ts =>
            rw [hpt] at hg1
            obtain ⟨alt, hm, he⟩ := ha
            simp only [List.all_eq_true, decide_eq_true_eq] at hg1
            have := hg1 alt hm
            rwa [List.Forall₂.length_eq he] at this
        exact Nat.add_le_add h1 (ih hg.2)
    simp only [List.length_append]
    omega

/-! ### Small facts -/

theorem unmark_end (t : Str) : unmark (t ++ c!"  ") = unmark t ++ c!"  " := by
  have H : ∀ n (t : Str), t.length ≤ n → unmark (t ++ c!"  ") = unmark t ++ c!"  " := by
    intro n
    induction n with
    | zero =>
      intro s h
      have : s = [] := List.eq_nil_of_length_eq_zero (by omega)
      subst this
      rfl
    | succ n ih =>
      intro s hlen
      rcases mark_cases s with rfl | ⟨z, rfl⟩ | ⟨z, rfl⟩ | ⟨c, z, rfl, hc⟩
      · rfl
      · rw [List.append_assoc, unmark_prd, unmark_prd,
          ih z (by simp only [List.length_append, List.length_cons, List.length_nil] at hlen; omega)]
        rfl
      · rw [List.append_assoc, unmark_stop, unmark_stop,
          ih z (by simp only [List.length_append, List.length_cons, List.length_nil] at hlen; omega)]
      · have pre : ∀ w : Str, ' ' ∉ w → w <+: z ++ c!"  " → w <+: z := by
          rintro w hw ⟨y, hy⟩
          rcases List.append_eq_append_iff.1 hy with ⟨u, h1, h2⟩ | ⟨u, h1, h2⟩
          · exact ⟨u, h1.symm⟩
          · cases u with
            | nil => exact ⟨[], by simpa using h1⟩
            | cons x u =>
              rw [List.cons_append] at h2
              injection h2 with h3 _
              exact absurd (by rw [h1, ← h3]; simp) hw
        rw [List.cons_append, unmark_cons c z hc, unmark_cons c (z ++ c!"  "),
          ih z (by simp only [List.length_cons] at hlen; omega)]
        · rfl
        · intro e
          exact ⟨fun h => (hc e).1 (pre _ (by decide) h), fun h => (hc e).2 (pre _ (by decide) h)⟩
  exact H t.length t (Nat.le_refl _)

theorem unmark_frame (t : Str) : unmark (c!" " ++ t ++ c!"  ") = c!" " ++ unmark t ++ c!"  " := by
  rw [List.append_assoc, unmark_free c!" " _ (by decide), unmark_end, List.append_assoc]

theorem mem_unmark (t : Str) (c : Char) (h : c ∈ unmark t) : c ∈ t ∨ c = '.' := by
  have H : ∀ n (t : Str), t.length ≤ n → c ∈ unmark t → c ∈ t ∨ c = '.' := by
    intro n
    induction n with
    | zero =>
      intro s h hc
      have : s = [] := List.eq_nil_of_length_eq_zero (by omega)
      subst this
      exact .inl hc
    | succ n ih =>
      intro s hlen hm
      rcases mark_cases s with rfl | ⟨z, rfl⟩ | ⟨z, rfl⟩ | ⟨x, z, rfl, hc⟩
      · exact .inl hm
      · rw [unmark_prd, List.mem_cons] at hm
        rcases hm with hm | hm
        · exact .inr hm
        · exact (ih z (by simp only [List.length_append, List.length_cons, List.length_nil] at hlen; omega)
            hm).imp_left (List.mem_append_right _)
      · rw [unmark_stop] at hm
        exact (ih z (by simp only [List.length_append, List.length_cons, List.length_nil] at hlen; omega)
            hm).imp_left (List.mem_append_right _)
      · rw [unmark_cons x z hc, List.mem_cons] at hm
        rcases hm with hm | hm
        · exact .inl (by simp [hm])
        · exact (ih z (by simp only [List.length_cons] at hlen; omega) hm).imp_left
            (List.mem_cons_of_mem _)
  exact H t.length t (Nat.le_refl _) h

theorem filter_dropWhile (f : Char → Bool) (hf : ∀ c, pySpace c = true → f c = false) (s : Str) :
    (s.dropWhile pySpace).filter f = s.filter f := by
  induction s with
  | nil => rfl
  | cons c s ih =>
    rw [List.dropWhile_cons]
    split
    · rename_i h
      rw [ih, List.filter_cons, hf c h]
      rfl
    · rfl

theorem filter_strip (f : Char → Bool) (hf : ∀ c, pySpace c = true → f c = false) (s : Str) :
    (strip s).filter f = s.filter f := by
  unfold strip rstrip lstrip
  rw [List.filter_reverse, filter_dropWhile f hf, ← List.filter_reverse, List.reverse_reverse,
    filter_dropWhile f hf]

theorem filter_map_strip (f : Char → Bool) (hf : ∀ c, pySpace c = true → f c = false)
    (l : List Str) : ((l.map strip).flatten).filter f = l.flatten.filter f := by
  induction l with
  | nil => rfl
  | cons x l ih =>
    rw [List.map_cons, List.flatten_cons, List.flatten_cons, List.filter_append, List.filter_append,
      ih, filter_strip f hf]

theorem exact_word (w a : Str) : Exact (word w) a ↔ a = w := by
  induction w generalizing a with
  | nil => simp only [word, List.map_nil, Exact, List.forall₂_nil_left_iff]
  | cons c w ih =>
    simp only [word, List.map_cons, Exact, List.forall₂_cons_left_iff] at ih ⊢
    constructor
    · rintro ⟨b, u, hb, hu, rfl⟩
      simp only [Cls.has, beq_iff_eq] at hb
      rw [hb, (ih u).1 hu]
    · rintro rfl
      exact ⟨c, w, by simp [Cls.has], (ih w).2 rfl, rfl⟩

theorem part_word (w a : Str) (p : Option (List Tok))
    (h : ∃ alt ∈ Item.alts ⟨[word w], p⟩, Exact alt a) : a = w := by
  obtain ⟨alt, hm, he⟩ := h
  simp only [List.mem_singleton] at hm
  subst hm
  exact (exact_word w a).1 he

theorem part_words (ws : List Str) (a : Str) (p : Option (List Tok))
    (h : ∃ alt ∈ Item.alts ⟨ws.map word, p⟩, Exact alt a) : a ∈ ws := by
  obtain ⟨alt, hm, he⟩ := h
  simp only [List.mem_map] at hm
  obtain ⟨w, hw, rfl⟩ := hm
  rw [(exact_word w a).1 he]
  exact hw

theorem infix_of_occurs {w s : Str} (h : Occurs w s) : w <:+: s := by
  obtain ⟨a, b, e⟩ := h
  exact ⟨a, b, e.symm⟩

end Verif.Sentences
