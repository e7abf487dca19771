/-
Lemmas on the words of formulas and the textual replacement.
-/
import Verif.Spec.IlcdVars
import Verif.Lemmas.Assoc
import Mathlib.Data.List.Perm.Basic

namespace Verif.IlcdVars
open Spec

/-- The text begins with a character of names. -/
def headWord : Str → Bool
  | [] => false
  | c :: _ => wordChar c

theorem tokens_other {c : Char} {s : Str} (h : wordChar c = false) : tokens (c :: s) = [c] :: tokens s := by
  simp [tokens, h]

theorem tokens_nil {s : Str} : tokens s = [] ↔ s = [] := by
  cases s with
  | nil => simp [tokens]
  | cons c s =>
    simp only [reduceCtorEq, iff_false]
    unfold tokens
    split
    · split
      · split <;> simp
      · simp
    · simp

theorem tokens_word : ∀ {w : Str} {r : Str}, IsWord w → headWord r = false → tokens (w ++ r) = w :: tokens r
  | [], _, h, _ => absurd rfl h.1
  | [c], r, h, hr => by
    have hc : wordChar c = true := h.2 c (by simp)
    cases r with
    | nil => simp [tokens, hc]
    | cons d r' =>
      have hd : wordChar d = false := hr
      have : tokens (d :: r') = [d] :: tokens r' := tokens_other hd
      rw [List.singleton_append, tokens.eq_def]
      simp only [hc, if_true, this, hd, Bool.false_eq_true, if_false]
  | c :: d :: w, r, h, hr => by
    have hc : wordChar c = true := h.2 c (by simp)
    have hd : wordChar d = true := h.2 d (by simp)
    have ih := tokens_word (w := d :: w) (r := r) ⟨by simp, fun x hx => h.2 x (by simp [hx])⟩ hr
    rw [List.cons_append, List.cons_append, tokens.eq_def]
    rw [List.cons_append] at ih
    simp only [hc, if_true, ih, hd]

/-- The lists of words: words, and other characters, where no two words stand side by side. -/
inductive Good : List Str → Prop
  | nil : Good []
  | other {c : Char} {l : List Str} : wordChar c = false → Good l → Good ([c] :: l)
  | word {w : Str} {l : List Str} : IsWord w → Good l → headWord l.flatten = false → Good (w :: l)

theorem tokens_flatten {l : List Str} (h : Good l) : tokens l.flatten = l := by
  induction h with
  | nil => rfl
  | other hc _ ih => rw [List.flatten_cons, List.singleton_append, tokens_other hc, ih]
  | word hw _ hr ih => rw [List.flatten_cons, tokens_word hw hr, ih]

theorem exists_good : ∀ s : Str, ∃ l, Good l ∧ l.flatten = s
  | [] => ⟨[], .nil, rfl⟩
  | c :: s => by
    obtain ⟨l, hl, rfl⟩ := exists_good s
    by_cases hc : wordChar c = true
    · cases hl with
      | nil => exact ⟨[[c]], .word ⟨by simp, by simpa using hc⟩ .nil rfl, rfl⟩
      | other hd hl' => exact ⟨[c] :: _, .word ⟨by simp, by simpa using hc⟩ (.other hd hl') hd, rfl⟩
      | @word w l' hw hl' hr =>
        refine ⟨(c :: w) :: l', .word ⟨by simp, ?_⟩ hl' hr, rfl⟩
        intro x hx
        rcases List.mem_cons.1 hx with rfl | hx
        · exact hc
        · exact hw.2 x hx
    · exact ⟨[c] :: l, .other (by simpa using hc) hl, rfl⟩

theorem tokens_good (s : Str) : Good (tokens s) ∧ (tokens s).flatten = s := by
  obtain ⟨l, hl, rfl⟩ := exists_good s
  rw [tokens_flatten hl]
  exact ⟨hl, rfl⟩

/-! ### Replacement -/

theorem startsWith_iff {x s : Str} : startsWith x s = true ↔ ∃ r, s = x ++ r := by
  unfold startsWith
  rw [List.isPrefixOf_iff_prefix]
  exact ⟨fun ⟨r, h⟩ => ⟨r, h.symm⟩, fun ⟨r, h⟩ => ⟨r, h.symm⟩⟩

theorem isInfix_iff {x : Str} : ∀ {s : Str}, isInfix x s = true ↔ ∃ a b, s = a ++ x ++ b
  | [] => by
    simp only [isInfix, List.isEmpty_iff]
    constructor
    · rintro rfl; exact ⟨[], [], rfl⟩
    · rintro ⟨a, b, h⟩
      have := congrArg List.length h
      simp only [List.length_nil, List.length_append] at this
      exact List.length_eq_zero_iff.1 (by omega)
  | c :: s => by
    simp only [isInfix, Bool.or_eq_true, startsWith_iff, isInfix_iff (s := s)]
    constructor
    · rintro (⟨r, h⟩ | ⟨a, b, h⟩)
      · exact ⟨[], r, by simpa using h⟩
      · exact ⟨c :: a, b, by simp [h]⟩
    · rintro ⟨a, b, h⟩
      cases a with
      | nil => exact .inl ⟨b, by simpa using h⟩
      | cons d a =>
        simp only [List.cons_append, List.cons.injEq] at h
        exact .inr ⟨a, b, h.2⟩

theorem replaceAux_skip (old new : Str) : ∀ (a s : Str), replaceAux old new a.length (a ++ s) = replaceAux old new 0 s
  | [], s => rfl
  | c :: a, s => by
    simp only [List.length_cons, List.cons_append, replaceAux]
    exact replaceAux_skip old new a s

/-- At an occurrence. -/
theorem replaceAux_hit {old new s : Str} (h : old ≠ []) :
    replaceAux old new 0 (old ++ s) = new ++ replaceAux old new 0 s := by
  cases old with
  | nil => exact absurd rfl h
  | cons c o =>
    rw [List.cons_append, replaceAux, if_pos (startsWith_iff.2 ⟨s, by simp⟩)]
    congr 1
    exact replaceAux_skip _ _ o s

theorem replaceAux_miss {old new s : Str} {c : Char} (h : ¬ ∃ r, c :: s = old ++ r) :
    replaceAux old new 0 (c :: s) = c :: replaceAux old new 0 s := by
  rw [replaceAux, if_neg (fun e => h (startsWith_iff.1 e))]

/-- Nothing to replace. -/
theorem replaceAux_none {old new : Str} : ∀ {s : Str}, (¬ ∃ a b, s = a ++ old ++ b) → replaceAux old new 0 s = s
  | [], _ => rfl
  | c :: s, h => by
    rw [replaceAux_miss (fun ⟨r, hr⟩ => h ⟨[], r, by simpa using hr⟩),
      replaceAux_none (fun ⟨a, b, e⟩ => h ⟨c :: a, b, by simp [e]⟩)]

/-- A word that does not contain the name is passed over. -/
theorem replaceAux_word {n m : Str} (hn : IsWord n) : ∀ {w r : Str}, (∀ c ∈ w, wordChar c = true) →
    headWord r = false → (¬ ∃ a b, w = a ++ n ++ b) → replaceAux n m 0 (w ++ r) = w ++ replaceAux n m 0 r
  | [], r, _, _, _ => rfl
  | c :: w, r, hw, hr, h => by
    rw [List.cons_append, replaceAux_miss ?_,
      replaceAux_word hn (fun x hx => hw x (by simp [hx])) hr (fun ⟨a, b, e⟩ => h ⟨c :: a, b, by simp [e]⟩)]
    · rfl
    · rintro ⟨q, hq⟩
      have hq : (c :: w) ++ r = n ++ q := by simpa using hq
      rcases List.append_eq_append_iff.1 hq with ⟨x, hx, hx'⟩ | ⟨x, hx, hx'⟩
      · -- the name is longer than the word
        cases x with
        | nil => exact h ⟨[], [], by simpa using hx.symm⟩
        | cons d x =>
          have hd : wordChar d = true := hn.2 d (by rw [hx]; simp)
          rw [hx', List.cons_append, headWord, hd] at hr
          simp at hr
      · exact h ⟨[], x, by simpa using hx⟩

theorem replace_tokens {n m : Str} (hn : IsWord n) : ∀ {l : List Str}, Good l →
    (∀ t ∈ l, (∃ a b, t = a ++ n ++ b) → n = t) →
    replaceAux n m 0 l.flatten = (l.map fun t => if t = n then m else t).flatten := by
  intro l hl
  induction hl with
  | nil => intro _; rfl
  | @other c l hc hl ih =>
    intro h
    have hne : [c] ≠ n := by
      rintro rfl
      rw [hn.2 c (by simp)] at hc
      simp at hc
    rw [List.flatten_cons, List.singleton_append, replaceAux_miss ?_, ih (fun t ht => h t (by simp [ht]))]
    · simp [hne]
    · rintro ⟨r, hr⟩
      cases hn' : n with
      | nil => exact hn.1 hn'
      | cons d n' =>
        rw [hn', List.cons_append, List.cons.injEq] at hr
        have := hn.2 d (by rw [hn']; simp)
        rw [← hr.1, hc] at this
        simp at this
  | @word w l hw hl hr ih =>
    intro h
    have ih' := ih (fun t ht => h t (by simp [ht]))
    by_cases e : w = n
    · subst e
      rw [List.flatten_cons, replaceAux_hit hw.1, ih']
      simp
    · rw [List.flatten_cons, replaceAux_word hn hw.2 hr ?_, ih']
      · simp [e]
      · intro hx
        exact e (h w (by simp) hx).symm

theorem Good.map_word {l : List Str} {g : Str → Str} (h : Good l) (hw : ∀ t, IsWord t → t ∈ l → IsWord (g t))
    (ho : ∀ c, wordChar c = false → g [c] = [c]) : Good (l.map g) := by
  induction h with
  | nil => exact .nil
  | other hc hl ih =>
    rw [List.map_cons, ho _ hc]
    exact .other hc (ih (fun t h1 h2 => hw t h1 (by simp [h2])))
  | @word w l h1 hl hr ih =>
    have ih' := ih (fun t h1 h2 => hw t h1 (by simp [h2]))
    refine .word (hw w h1 (by simp)) ih' ?_
    cases hl with
    | nil => rfl
    | other hc _ => rw [List.map_cons, ho _ hc]; exact hc
    | @word w2 _ hw2 _ _ =>
      exfalso
      cases hw2' : w2 with
      | nil => exact hw2.1 hw2'
      | cons d w2' =>
        have := hw2.2 d (by rw [hw2']; simp)
        rw [hw2', List.flatten_cons, List.cons_append, headWord, this] at hr
        simp at hr

/-- The replacement of one name, in words. -/
theorem replace_words {n m f : Str} (hn : IsWord n) (hm : IsWord m)
    (h : ∀ t ∈ tokens f, (∃ a b, t = a ++ n ++ b) → n = t) :
    tokens (if isInfix n f then replaceAll n m f else f) = (tokens f).map fun t => if t = n then m else t := by
  obtain ⟨hg, hf⟩ := tokens_good f
  have e : (if isInfix n f then replaceAll n m f else f) = replaceAux n m 0 f := by
    split
    · rw [replaceAll, if_neg hn.1]
    · rename_i hi
      rw [replaceAux_none]
      intro hx
      exact hi (isInfix_iff.2 hx)
  rw [e]
  conv_lhs => rw [← hf]
  rw [replace_tokens hn hg h, tokens_flatten]
  refine hg.map_word ?_ ?_
  · intro t ht _
    split
    · exact hm
    · exact ht
  · intro c hc
    rw [if_neg]
    rintro rfl
    rw [hn.2 c (by simp)] at hc
    simp at hc

theorem uc_word {n : Str} (hn : IsWord n) : IsWord (c!"uc" ++ n) := by
  refine ⟨by simp, ?_⟩
  intro c hc
  simp only [List.cons_append, List.nil_append, List.mem_cons] at hc
  rcases hc with rfl | rfl | hc
  · rfl
  · rfl
  · exact hn.2 c hc

/-- A name that does not begin with a letter stands in `uc` + a name only inside that name. -/
theorem infix_uc {n k : Str} (hn : conform n = false) (hne : n ≠ []) (h : ∃ a b, c!"uc" ++ k = a ++ n ++ b) :
    ∃ a b, k = a ++ n ++ b := by
  obtain ⟨a, b, h⟩ := h
  cases n with
  | nil => exact absurd rfl hne
  | cons x n =>
    have hx : isLetter x = false := hn
    match a, h with
    | [], h =>
      simp only [List.cons_append, List.nil_append, List.cons.injEq] at h
      rw [← h.1] at hx
      exact absurd hx (by decide)
    | [y], h =>
      simp only [List.cons_append, List.nil_append, List.cons.injEq] at h
      rw [← h.2.1] at hx
      exact absurd hx (by decide)
    | y :: z :: a, h =>
      simp only [List.cons_append, List.nil_append, List.cons.injEq] at h
      exact ⟨a, b, by simp [h.2.2]⟩

/-- The new name of a word. -/
def ren (names : List Str) (t : Str) : Str := if t ∈ names then c!"uc" ++ t else t

/-- The dictionary of renamed variables for a list of names. -/
def dictOf (names : List Str) : List (Str × Str) := names.map fun n => (n, c!"uc" ++ n)

theorem rename_words : ∀ {names : List Str} {f : Str}, (∀ n ∈ names, IsWord n ∧ conform n = false) → names.Nodup →
    (∀ t ∈ tokens f, ∀ n ∈ names, (∃ a b, t = a ++ n ++ b) → n = t) →
    tokens (rename (dictOf names) f) = (tokens f).map (ren names)
  | [], f, _, _, _ => by
    have : ren [] = id := by funext t; simp [ren]
    simp [dictOf, rename, this]
  | n :: l, f, hn, hnd, h => by
    have hn1 := hn n (by simp)
    have hnl : n ∉ l := (List.nodup_cons.1 hnd).1
    have hstep := replace_words (m := c!"uc" ++ n) hn1.1 (uc_word hn1.1) (fun t ht => h t ht n (by simp))
    have ih := rename_words (names := l) (f := if isInfix n f then replaceAll n (c!"uc" ++ n) f else f)
      (fun k hk => hn k (by simp [hk])) (List.nodup_cons.1 hnd).2 ?_
    · rw [dictOf, List.map_cons, rename]
      rw [dictOf] at ih
      rw [ih, hstep, List.map_map]
      apply List.map_congr_left
      intro t ht
      simp only [Function.comp, ren, List.mem_cons]
      by_cases e : t = n
      · subst e
        simp only [if_true, true_or]
        rw [if_neg]
        intro hmem
        have := (hn _ (List.mem_cons_of_mem _ hmem)).2
        exact absurd this (by simp [conform, isLetter])
      · simp [e]
    · rw [hstep]
      intro t ht k hk hin
      obtain ⟨t0, ht0, rfl⟩ := List.mem_map.1 ht
      by_cases e : t0 = n
      · subst e
        simp only [if_true] at hin ⊢
        have hk1 := hn k (List.mem_cons_of_mem _ hk)
        have := h t0 ht0 k (List.mem_cons_of_mem _ hk) (infix_uc hk1.2 hk1.1.1 hin)
        subst this
        exact absurd hk hnl
      · simp only [e, if_false] at hin ⊢
        exact h t0 ht0 k (List.mem_cons_of_mem _ hk) hin

end Verif.IlcdVars
