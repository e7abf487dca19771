/-
Facts about the full stops of a text while it is cut into sentences.
-/
import Verif.Lemmas.Sentences

namespace Verif.Sentences

open Spec IlcdVars

/-! ### Every `<prd>` stands beside a letter -/

/-- The text begins with a letter. -/
def hd : Str → Bool
  | [] => false
  | c :: _ => isAlpha c

/-- Every `<prd>` has a letter before or after it; the flag tells of the character in front. -/
def okPrd : Bool → Str → Bool
  | p, '<' :: 'p' :: 'r' :: 'd' :: '>' :: s => (p || hd s) && okPrd false s
  | _, '<' :: 's' :: 't' :: 'o' :: 'p' :: '>' :: s => okPrd false s
  | _, c :: s => okPrd (isAlpha c) s
  | _, [] => true

theorem okPrd_prd (p : Bool) (s : Str) :
    okPrd p (c!"<prd>" ++ s) = ((p || hd s) && okPrd false s) := by
  simp [okPrd]

theorem okPrd_stop (p : Bool) (s : Str) : okPrd p (c!"<stop>" ++ s) = okPrd false s := by
  simp [okPrd]

theorem okPrd_cons (p : Bool) (c : Char) (s : Str)
    (h : c = '<' → ¬ c!"prd>" <+: s ∧ ¬ c!"stop>" <+: s) : okPrd p (c :: s) = okPrd (isAlpha c) s := by
  rw [okPrd.eq_def]
  split
  · rename_i e
    cases e
    exact absurd ⟨_, rfl⟩ (h rfl).1
  · rename_i e
    cases e
    exact absurd ⟨_, rfl⟩ (h rfl).2
  · rename_i e
    cases e
    rfl
  · rename_i e
    cases e

/-- The last character, if there is one, is a letter. -/
def runA (p : Bool) (m : Str) : Bool := m.foldl (fun _ c => isAlpha c) p

theorem okPrd_free (p : Bool) (a s : Str) (h : '<' ∉ a) : okPrd p (a ++ s) = okPrd (runA p a) s := by
  induction a generalizing p with
  | nil => rfl
  | cons c a ih =>
    simp only [List.mem_cons, not_or] at h
    rw [List.cons_append, okPrd_cons p c _ (fun e => absurd e.symm h.1), ih _ h.2]
    rfl

theorem okPrd_markless (p : Bool) (s : Str) (h : Markless s) : okPrd p s = true := by
  induction s generalizing p with
  | nil => rfl
  | cons c s ih =>
    have hs : Markless s := by
      constructor
      · rintro ⟨a, b, e⟩; exact h.1 ⟨c :: a, b, by rw [e]; rfl⟩
      · rintro ⟨a, b, e⟩; exact h.2 ⟨c :: a, b, by rw [e]; rfl⟩
    rw [okPrd_cons, ih _ hs]
    rintro rfl
    constructor
    · rintro ⟨b, rfl⟩; exact h.1 ⟨[], b, rfl⟩
    · rintro ⟨b, rfl⟩; exact h.2 ⟨[], b, rfl⟩

theorem runA_append (p : Bool) (a b : Str) : runA p (a ++ b) = runA (runA p a) b := by
  simp [runA]

theorem runA_last (p : Bool) (a : Str) (c : Char) : runA p (a ++ [c]) = isAlpha c := by
  simp [runA]

def Cls.alph : Cls → Bool
  | .lit c => isAlpha c
  | .alpha => true
  | .upper => true
  | .space => false

def Cls.nonalph : Cls → Bool
  | .lit c => !isAlpha c
  | .alpha => false
  | .upper => false
  | .space => true

theorem alph_has (k : Cls) (c : Char) (hk : k.alph = true) (h : k.has c = true) :
    isAlpha c = true := by
  cases k with
  | lit x => simp only [Cls.has, beq_iff_eq] at h; subst h; exact hk
  | alpha => exact h
  | upper => simp only [Cls.has] at h; simp [isAlpha, h]
  | space => cases hk

theorem space_not_alpha (c : Char) (h : pySpace c = true) : isAlpha c = false := by
  simp only [pySpace, Bool.or_eq_true, Bool.and_eq_true, decide_eq_true_eq, beq_iff_eq] at h
  simp only [isAlpha, isUpper, Bool.or_eq_false_iff, Bool.and_eq_false_iff, decide_eq_false_iff_not]
  omega

theorem nonalph_has (k : Cls) (c : Char) (hk : k.nonalph = true) (h : k.has c = true) :
    isAlpha c = false := by
  cases k with
  | lit x =>
    simp only [Cls.has, beq_iff_eq] at h; subst h
    simpa [Cls.nonalph] using hk
  | alpha => cases hk
  | upper => cases hk
  | space => exact space_not_alpha c h

def lastIs (q : Cls → Bool) (alt : Alt) : Bool :=
  match alt.getLast? with
  | some k => q k
  | none => false

def firstIs (q : Cls → Bool) : Alt → Bool
  | [] => false
  | k :: _ => q k

/-- The replacement begins with a letter at this place. -/
def Item.opens (it : Item) : Bool := it.put.isNone && it.alts.all (firstIs Cls.alph)

/-- No `<prd>`, and no letter. -/
def Tok.plain : Tok → Bool
  | .chr c => !isAlpha c && c != '<'
  | .prd => false
  | .stop => true

/-- The replacement puts every `<prd>` beside a letter. -/
def walk : Bool → List Item → Bool
  | _, [] => true
  | k, ⟨alts, none⟩ :: its => alts.all (fun a => !a.isEmpty) && walk (alts.all (lastIs Cls.alph)) its
  | k, ⟨alts, some [.prd]⟩ :: its =>
    alts.all (lastIs Cls.nonalph) && (k || its.head?.any Item.opens) && walk false its
  | _, ⟨alts, some ts⟩ :: its =>
    alts.all (lastIs Cls.nonalph) && !ts.isEmpty && ts.all Tok.plain && walk false its

theorem exact_last (q : Cls → Bool) (alt : Alt) (a : Str) (h : Exact alt a)
    (hl : lastIs q alt = true) : ∃ k c b, q k = true ∧ Cls.has k c = true ∧ a = b ++ [c] := by
  unfold lastIs at hl
  cases hg : alt.getLast? with
  | none => rw [hg] at hl; cases hl
  | some k =>
    rw [hg] at hl
    obtain ⟨ks, rfl⟩ := List.getLast?_eq_some_iff.1 hg
    obtain ⟨b, c', _, h2, rfl⟩ : ∃ b c', Exact ks b ∧ Exact [k] c' ∧ a = b ++ c' := by
      have hf := List.Forall₂.flip h
      exact ⟨a.take ks.length, a.drop ks.length, (List.forall₂_take_append _ _ _ hf).flip,
        (List.forall₂_drop_append _ _ _ hf).flip, (List.take_append_drop _ _).symm⟩
    obtain ⟨c, u, hk, hu, rfl⟩ := List.forall₂_cons_left_iff.1 h2
    rw [List.forall₂_nil_left_iff.1 hu]
    exact ⟨k, c, b, hl, hk, rfl⟩

theorem exact_nonempty (alt : Alt) (a : Str) (h : Exact alt a) (hl : alt.isEmpty = false) :
    ∃ b c, a = b ++ [c] := by
  rcases List.eq_nil_or_concat a with rfl | ⟨b, c, rfl⟩
  · cases h; cases hl
  · exact ⟨b, c, by simp⟩

theorem okPrd_plain (ts : List Tok) (h : ts.all Tok.plain = true) (hne : ts.isEmpty = false)
    (p : Bool) (s : Str) : okPrd p (render ts ++ s) = okPrd false s := by
  induction ts generalizing p with
  | nil => cases hne
  | cons t ts ih =>
    simp only [List.all_cons, Bool.and_eq_true] at h
    have h1 : ∀ z, okPrd p (t.text ++ z) = okPrd false z := by
      intro z
      cases t with
      | chr c =>
        have := h.1
        simp only [Tok.plain, Bool.and_eq_true, Bool.not_eq_true', bne_iff_ne] at this
        simp only [Tok.text, List.cons_append, List.nil_append]
        rw [okPrd_cons p c z (fun e => absurd e this.2), this.1]
      | prd => cases h.1
      | stop => exact okPrd_stop p z
    have : render (t :: ts) = t.text ++ render ts := rfl
    rw [this, List.append_assoc, h1]
    cases ts with
    | nil => rfl
    | cons t' ts => exact ih h.2 rfl false

theorem opens_head (its : List Item) (as : List Str) (hp : Parts its as)
    (h : its.head?.any Item.opens = true) (s : Str) : hd (outOf its as ++ s) = true := by
  cases hp with
  | nil => cases h
  | @cons it a its as ha _ =>
    simp only [List.head?_cons, Option.any_some, Item.opens, Bool.and_eq_true, List.all_eq_true] at h
    obtain ⟨alt, hm, he⟩ := ha
    have hf := h.2 alt hm
    have ho : outOf (it :: its) (a :: as) = it.out a ++ outOf its as := by simp [outOf]
    have hout : it.out a = a := by
      unfold Item.out
      cases hpt : it.put with
      | none => rfl
      | some ts => rw [hpt] at h; cases h.1
    rw [ho, hout]
    cases he with
    | nil => cases hf
    | cons hk _ => exact alph_has _ _ hf hk

theorem walk_sound (its : List Item) (as : List Str) (hp : Parts its as)
    (hc : its.all Item.clear = true) (k p : Bool) (hw : walk k its = true) (hkp : k = true → p = true)
    (t : Str) (ht : okPrd (runA p as.flatten) t = true) : okPrd p (outOf its as ++ t) = true := by
  induction hp generalizing k p with
  | nil => exact ht
  | @cons it a its as ha hp' ih =>
    simp only [List.all_cons, Bool.and_eq_true] at hc
    have ho : outOf (it :: its) (a :: as) = it.out a ++ outOf its as := by simp [outOf]
    rw [ho, List.append_assoc]
    rw [List.flatten_cons, runA_append] at ht
    obtain ⟨alt, hm, he⟩ := ha
    obtain ⟨j1, _, _, _⟩ := item_out it a alt hm he hc.1
    obtain ⟨alts, put⟩ := it
    have nonalph : alts.all (lastIs Cls.nonalph) = true → runA p a = false := by
      intro h
      obtain ⟨k', c, b, hq, hh, rfl⟩ := exact_last _ alt a he (List.all_eq_true.1 h alt hm)
      rw [runA_last]
      exact nonalph_has k' c hq hh
    cases put with
    | none =>
      simp only [walk, Bool.and_eq_true] at hw
      show okPrd p (a ++ (outOf its as ++ t)) = true
      rw [okPrd_free p a _ j1]
      refine ih hc.2 _ _ hw.2 ?_ ht
      intro h
      obtain ⟨k', c, b, hq, hh, rfl⟩ := exact_last _ alt a he (List.all_eq_true.1 h alt hm)
      rw [runA_last]
      exact alph_has k' c hq hh
    | some ts =>
      have other : alts.all (lastIs Cls.nonalph) = true → ts.isEmpty = false →
          ts.all Tok.plain = true → walk false its = true →
          okPrd p (render ts ++ (outOf its as ++ t)) = true := by
        intro h1 h2 h3 h4
        rw [okPrd_plain ts h3 h2]
        rw [nonalph h1] at ht
        exact ih hc.2 _ _ h4 (fun h => nomatch h) ht
      show okPrd p (render ts ++ (outOf its as ++ t)) = true
      unfold walk at hw
      split at hw
      · rename_i e; cases e
      · rename_i e; cases e
      · rename_i e
        cases e
        simp only [Bool.and_eq_true, Bool.or_eq_true] at hw
        obtain ⟨⟨h1, h2⟩, h3⟩ := hw
        show okPrd p (c!"<prd>" ++ (outOf its as ++ t)) = true
        rw [okPrd_prd]
        rw [nonalph h1] at ht
        have hi := ih hc.2 _ _ h3 (fun h => nomatch h) ht
        simp only [Bool.and_eq_true, Bool.or_eq_true]
        refine ⟨?_, hi⟩
        rcases h2 with h2 | h2
        · exact .inl (hkp h2)
        · exact .inr (opens_head its as hp' h2 t)
      · rename_i e
        cases e
        simp only [Bool.and_eq_true, Bool.not_eq_true'] at hw
        exact other hw.1.1.1 hw.1.1.2 hw.1.2 hw.2

/-- The replacement begins with a letter if what was read does. -/
def headOk : List Item → Bool
  | [] => false
  | ⟨alts, none⟩ :: _ => alts.all fun a => !a.isEmpty
  | ⟨alts, some _⟩ :: _ => alts.all (firstIs Cls.nonalph)

theorem headOk_sound (its : List Item) (as : List Str) (hp : Parts its as) (h : headOk its = true)
    (s t : Str) (hs : hd (as.flatten ++ s) = true) : hd (outOf its as ++ t) = true := by
  cases hp with
  | nil => cases h
  | @cons it a its as ha _ =>
    obtain ⟨alt, hm, he⟩ := ha
    obtain ⟨alts, put⟩ := it
    have ho : outOf (⟨alts, put⟩ :: its) (a :: as) = Item.out ⟨alts, put⟩ a ++ outOf its as := by
      simp [outOf]
    rw [ho]
    cases put with
    | none =>
      simp only [headOk, List.all_eq_true, Bool.not_eq_true'] at h
      have := h alt hm
      cases he with
      | nil => cases this
      | cons hk _ => exact hs
    | some ts =>
      simp only [headOk, List.all_eq_true] at h
      have := h alt hm
      cases he with
      | nil => cases this
      | @cons k c _ _ hk _ =>
        have := nonalph_has k c this hk
        have hs' : isAlpha c = true := hs
        rw [this] at hs'
        cases hs'

theorem sub_okPrd (its : List Item) (hs : safe its = true) (hw : walk false its = true)
    (hh : headOk its = true) (s : Str) :
    (hd s = true → hd (sub its s) = true) ∧
      ∀ p, okPrd p s = true → okPrd p (sub its s) = true := by
  have hc : its.all Item.clear = true := by
    simp only [safe, Bool.and_eq_true] at hs; exact hs.1.1
  refine sub_induct its hs (fun s t => (hd s = true → hd t = true) ∧
    ∀ p, okPrd p s = true → okPrd p t = true) ⟨id, fun _ => id⟩ ?_ ?_ ?_ ?_ s
  · rintro z ⟨h1, h2⟩
    refine ⟨id, fun p h => ?_⟩
    rw [okPrd_prd] at h ⊢
    simp only [Bool.and_eq_true, Bool.or_eq_true] at h ⊢
    exact ⟨h.1.imp_right h1, h2 _ h.2⟩
  · rintro z ⟨h1, h2⟩
    refine ⟨id, fun p h => ?_⟩
    rw [okPrd_stop] at h ⊢
    exact h2 _ h
  · rintro c z hz1 hz2 ⟨h1, h2⟩
    refine ⟨id, fun p h => ?_⟩
    rw [okPrd_cons p c _ hz1] at h
    rw [okPrd_cons p c _ hz2]
    exact h2 _ h
  · rintro as z hp hfin ⟨h1, h2⟩
    refine ⟨headOk_sound its as hp hh z _, fun p h => ?_⟩
    rw [okPrd_free p _ z hfin.noOpen] at h
    exact walk_sound its as hp hc false p hw (fun h => nomatch h) _ (h2 _ h)

/-! ### Replacing a single character -/

theorem sub_char (x : Char) (ts : List Tok) (s : Str) :
    sub [swap [x] ts] s = s.flatMap fun c => if c = x then render ts else [c] := by
  induction s with
  | nil => rfl
  | cons c s ih =>
    rw [List.flatMap_cons, ← ih]
    by_cases h : c = x
    · subst h
      have hm : matchAt [swap [c] ts] (c :: s) = some (1, render ts) := by
        simp [matchAt, swap, word, fits, Cls.has, Item.out]
      rw [sub, subAux, hm, if_pos rfl]
      rfl
    · have hm : matchAt [swap [x] ts] (c :: s) = none := by
        simp [matchAt, swap, word, fits, Cls.has, h]
      rw [sub_none _ _ _ hm, if_neg h]
      rfl

/-- Every full stop is followed by the beginning of a mark. -/
def dotted : Str → Bool
  | [] => true
  | c :: s => (c != '.' || s.head? == some '<') && dotted s

theorem dotted_made (s : Str) :
    dotted (s.flatMap fun c => if c = '.' then render [.chr '.', .stop] else [c]) = true := by
  induction s with
  | nil => rfl
  | cons c s ih =>
    rw [List.flatMap_cons]
    split
    · show dotted (c!".<stop>" ++ _) = true
      simp [dotted, ih]
    · rename_i h
      simp [dotted, ih, h]

theorem dotted_kept (x : Char) (hx : x ≠ '.') (hx' : x ≠ '<') (s : Str) (h : dotted s = true) :
    dotted (s.flatMap fun c => if c = x then render [.chr x, .stop] else [c]) = true := by
  induction s with
  | nil => rfl
  | cons c s ih =>
    simp only [dotted, Bool.and_eq_true] at h
    have hi := ih h.2
    rw [List.flatMap_cons]
    split
    · show dotted (x :: c!"<stop>" ++ _) = true
      simp only [List.cons_append, List.nil_append, dotted, hi]
      simp [hx]
    · simp only [List.cons_append, List.nil_append, dotted, hi, Bool.and_true]
      have := h.1
      simp only [Bool.or_eq_true, beq_iff_eq] at this ⊢
      refine this.imp_right fun e => ?_
      cases s with
      | nil => cases e
      | cons d s =>
        simp only [List.head?_cons, Option.some.injEq] at e
        subst e
        rw [List.flatMap_cons, if_neg (Ne.symm hx')]
        rfl

/-! ### No number with decimals -/

def digit (c : Char) : Bool := 48 ≤ c.toNat && c.toNat ≤ 57

theorem digit_iff (c : Char) : digit c = true ↔ Digit c := by
  simp only [digit, Digit, Bool.and_eq_true, decide_eq_true_eq]
  constructor
  · rintro ⟨h1, h2⟩; exact ⟨h1, h2⟩
  · rintro ⟨h1, h2⟩; exact ⟨h1, h2⟩

theorem digit_not_alpha (c : Char) (h : digit c = true) : isAlpha c = false := by
  simp only [digit, Bool.and_eq_true, decide_eq_true_eq] at h
  simp only [isAlpha, isUpper, Bool.or_eq_false_iff, Bool.and_eq_false_iff, decide_eq_false_iff_not]
  omega

/-- The text begins with a digit. -/
def dg : Str → Bool
  | [] => false
  | c :: _ => digit c

/-- A digit, a point and a digit. -/
def Dec (s : Str) : Prop := ∃ d e, digit d = true ∧ digit e = true ∧ [d, '.', e] <:+: s

theorem dec_cons (c : Char) (s : Str) (h : Dec (c :: s)) :
    Dec s ∨ (digit c = true ∧ ∃ e, digit e = true ∧ ['.', e] <+: s) := by
  obtain ⟨d, e, hd, he, a, b, h⟩ := h
  cases a with
  | nil =>
    simp only [List.nil_append, List.cons_append] at h
    injection h with h1 h2
    exact .inr ⟨h1 ▸ hd, e, he, b, h2⟩
  | cons x a =>
    simp only [List.cons_append] at h
    injection h with h1 h2
    exact .inl ⟨d, e, hd, he, a, b, by simpa using h2⟩

theorem dec_append (a s : Str) (ha : a.all (fun c => !digit c) = true) (h : Dec (a ++ s)) :
    Dec s := by
  induction a with
  | nil => exact h
  | cons c a ih =>
    simp only [List.all_cons, Bool.and_eq_true, Bool.not_eq_true'] at ha
    rcases dec_cons c _ h with h | ⟨h, _⟩
    · exact ih ha.2 h
    · rw [ha.1] at h; cases h

theorem dg_replace (s : Str) (h : dg (replaceAll c!"<prd>" c!"." s) = true) : dg s = true := by
  rcases mark_cases s with rfl | ⟨z, rfl⟩ | ⟨z, rfl⟩ | ⟨c, z, rfl, hc⟩
  · exact h
  · rw [replace_prd] at h; cases h
  · rw [replace_stop] at h; cases h
  · rw [replace_chr c z (fun e => (hc e).1)] at h; exact h

theorem no_decimal (s : Str) (p q : Bool) (hpq : p = true → q = false) (ho : okPrd q s = true)
    (hd' : dotted s = true) :
    ¬ Dec (replaceAll c!"<prd>" c!"." s) ∧
      (p = true → ∀ e, digit e = true → ¬ ['.', e] <+: replaceAll c!"<prd>" c!"." s) := by
  have H : ∀ n (s : Str) (p q : Bool), s.length ≤ n → (p = true → q = false) → okPrd q s = true →
      dotted s = true → ¬ Dec (replaceAll c!"<prd>" c!"." s) ∧
      (p = true → ∀ e, digit e = true → ¬ ['.', e] <+: replaceAll c!"<prd>" c!"." s) := by
    intro n
    induction n with
    | zero =>
      intro s p q h _ _ _
      have : s = [] := List.eq_nil_of_length_eq_zero (by omega)
      subst this
      refine ⟨?_, ?_⟩
      · rintro ⟨d, e, _, _, a, b, h⟩
        have := congrArg List.length h
        simp [replaceAll, replaceAux] at this
      · rintro - e he ⟨b, h⟩; cases h
    | succ n ih =>
      intro s p q hlen hpq ho hd'
      rcases mark_cases s with rfl | ⟨z, rfl⟩ | ⟨z, rfl⟩ | ⟨c, z, rfl, hc⟩
      · exact ih [] p q (by simp) hpq ho hd'
      · rw [okPrd_prd, Bool.and_eq_true, Bool.or_eq_true] at ho
        have hz : dotted z = true := by
          simp only [List.cons_append, List.nil_append, dotted, Bool.and_eq_true] at hd'
          exact hd'.2.2.2.2.2
        have hi := ih z false false
          (by simp only [List.length_append, List.length_cons, List.length_nil] at hlen; omega)
          (fun h => nomatch h) ho.2 hz
        rw [replace_prd]
        refine ⟨fun h => ?_, ?_⟩
        · exact hi.1 (dec_append ['.'] _ (by decide) h)
        · rintro hp e he ⟨b, h⟩
          injection h with _ h2
          have h3 : dg z = true := dg_replace z (by rw [← h2]; exact he)
          rcases ho.1 with h4 | h4
          · rw [hpq hp] at h4; cases h4
          · cases z with
            | nil => cases h3
            | cons c z =>
              have := digit_not_alpha c h3
              rw [show hd (c :: z) = isAlpha c from rfl, this] at h4
              cases h4
      · rw [okPrd_stop] at ho
        have hz : dotted z = true := by
          simp only [List.cons_append, List.nil_append, dotted, Bool.and_eq_true] at hd'
          exact hd'.2.2.2.2.2.2
        have hi := ih z false false
          (by simp only [List.length_append, List.length_cons, List.length_nil] at hlen; omega)
          (fun h => nomatch h) ho hz
        rw [replace_stop]
        refine ⟨fun h => hi.1 (dec_append c!"<stop>" _ (by decide) h), ?_⟩
        rintro - e he ⟨b, h⟩
        cases h
      · rw [okPrd_cons q c z hc] at ho
        simp only [dotted, Bool.and_eq_true, Bool.or_eq_true, bne_iff_ne, beq_iff_eq] at hd'
        have hi := ih z (digit c) (isAlpha c) (by simp only [List.length_cons] at hlen; omega)
          (digit_not_alpha c) ho hd'.2
        rw [replace_chr c z (fun e => (hc e).1)]
        refine ⟨fun h => ?_, ?_⟩
        · rcases dec_cons c _ h with h | ⟨h1, e, he, h2⟩
          · exact hi.1 h
          · exact hi.2 h1 e he h2
        · rintro hp e he ⟨b, h⟩
          injection h with h1 h2
          have h3 : dg z = true := dg_replace z (by rw [← h2]; exact he)
          rcases hd'.1 with h4 | h4
          · exact h4 h1.symm
          · cases z with
            | nil => cases h4
            | cons x z =>
              simp only [List.head?_cons, Option.some.injEq] at h4
              subst h4
              cases h3
  exact H s.length s p q (Nat.le_refl _) hpq ho hd'

theorem split_infix (s x : Str) (h : x ∈ splitStr c!"<stop>" s) : x <:+: s := by
  have H : ∀ n (s : Str), s.length ≤ n → ∃ l ls, splitStr c!"<stop>" s = l :: ls ∧ l <+: s ∧
      ∀ x ∈ ls, x <:+: s := by
    intro n
    induction n with
    | zero =>
      intro s h
      have : s = [] := List.eq_nil_of_length_eq_zero (by omega)
      subst this
      exact ⟨[], [], rfl, List.prefix_refl _, by simp⟩
    | succ n ih =>
      intro s hlen
      cases s with
      | nil => exact ⟨[], [], rfl, List.prefix_refl _, by simp⟩
      | cons c s =>
        by_cases hc : c = '<' ∧ c!"stop>" <+: s
        · obtain ⟨rfl, z, rfl⟩ := hc
          have := split_stop z
          rw [show c!"<stop>" ++ z = '<' :: (c!"stop>" ++ z) from rfl] at this
          rw [this]
          obtain ⟨l, ls, h1, h2, h3⟩ := ih z
            (by simp only [List.length_append, List.length_cons, List.length_nil] at hlen; omega)
          refine ⟨[], _, rfl, List.nil_prefix, ?_⟩
          rw [h1]
          have suf : z <:+ '<' :: (c!"stop>" ++ z) := ⟨c!"<stop>", rfl⟩
          intro x hx
          rcases List.mem_cons.1 hx with rfl | hx
          · exact h2.isInfix.trans suf.isInfix
          · exact (h3 x hx).trans suf.isInfix
        · obtain ⟨l, ls, h1, h2⟩ := split_chr c s (fun e h => hc ⟨e, h⟩)
          obtain ⟨l', ls', h3, h4, h5⟩ := ih s (by simp only [List.length_cons] at hlen; omega)
          rw [h1] at h3
          cases h3
          refine ⟨c :: l, ls, h2, ?_, fun x hx => (h5 x hx).trans ⟨[c], [], by simp⟩⟩
          obtain ⟨y, hy⟩ := h4
          exact ⟨y, by rw [← hy]; rfl⟩
  obtain ⟨l, ls, h1, h2, h3⟩ := H s.length s (Nat.le_refl _)
  rw [h1] at h
  rcases List.mem_cons.1 h with rfl | h
  · exact h2.isInfix
  · exact h3 x h

theorem strip_infix (x : Str) : strip x <:+: x := by
  unfold strip rstrip lstrip
  have h1 : (x.dropWhile pySpace) <:+ x := List.dropWhile_suffix _
  have h2 : ((x.dropWhile pySpace).reverse.dropWhile pySpace).reverse <+: x.dropWhile pySpace := by
    have := List.dropWhile_suffix pySpace (l := (x.dropWhile pySpace).reverse)
    have := List.reverse_prefix.2 this
    simpa using this
  exact h2.isInfix.trans h1.isInfix

theorem dec_infix {x y : Str} (h : Dec x) (hxy : x <:+: y) : Dec y := by
  obtain ⟨d, e, hd, he, h⟩ := h
  exact ⟨d, e, hd, he, h.trans hxy⟩

theorem dec_iff (s : Str) : Dec s ↔ Decimal s := by
  constructor
  · rintro ⟨d, e, hd, he, a, b, h⟩
    exact ⟨d, e, (digit_iff d).1 hd, (digit_iff e).1 he, a, b, h.symm⟩
  · rintro ⟨d, e, hd, he, a, b, h⟩
    exact ⟨d, e, (digit_iff d).2 hd, (digit_iff e).2 he, a, b, h.symm⟩

end Verif.Sentences
