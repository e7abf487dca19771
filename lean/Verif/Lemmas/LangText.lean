import Verif.Model.LangText
import Verif.Spec.LangText
import Verif.Lemmas.Validators
import Mathlib.Data.List.Perm.Basic
import Mathlib.Data.List.Induction
import Mathlib.Data.Char
import Mathlib.Tactic.Common

namespace Verif.LangText
open Verif.Validators (firstOccurrences_snoc mem_firstOccurrences firstOccurrences_nodup)
open Verif.Validators.Spec (firstOccurrences)

/-! ### The order of texts -/

theorem strLe_refl (a : Str) : strLe a a = true := by
  induction a with
  | nil => rfl
  | cons x a ih => simp [strLe, ih]

theorem strLe_total (a b : Str) : strLe a b = true ∨ strLe b a = true := by
  induction a generalizing b with
  | nil => exact .inl rfl
  | cons x a ih =>
    cases b with
    | nil => exact .inr rfl
    | cons y b =>
      simp only [strLe, Bool.or_eq_true, decide_eq_true_eq, Bool.and_eq_true, beq_iff_eq]
      rcases lt_trichotomy x y with h | h | h
      · exact .inl (.inl h)
      · subst h
        rcases ih b with h | h
        · exact .inl (.inr ⟨rfl, h⟩)
        · exact .inr (.inr ⟨rfl, h⟩)
      · exact .inr (.inl h)

theorem strLe_trans {a b c : Str} (h1 : strLe a b = true) (h2 : strLe b c = true) :
    strLe a c = true := by
  induction a generalizing b c with
  | nil => rfl
  | cons x a ih =>
    cases b with
    | nil => simp [strLe] at h1
    | cons y b =>
      cases c with
      | nil => simp [strLe] at h2
      | cons z c =>
        simp only [strLe, Bool.or_eq_true, decide_eq_true_eq, Bool.and_eq_true, beq_iff_eq] at *
        rcases h1 with h1 | ⟨rfl, h1⟩
        · rcases h2 with h2 | ⟨rfl, h2⟩
          · exact .inl (Char.lt_trans h1 h2)
          · exact .inl h1
        · rcases h2 with h2 | ⟨rfl, h2⟩
          · exact .inl h2
          · exact .inr ⟨rfl, ih h1 h2⟩

theorem before_of_strLe {a b : Str} (h : strLe a b = true) (hne : a ≠ b) : Spec.Before a b := by
  induction a generalizing b with
  | nil => exact .inl ⟨b, fun e => hne e.symm, rfl⟩
  | cons x a ih =>
    cases b with
    | nil => simp [strLe] at h
    | cons y b =>
      simp only [strLe, Bool.or_eq_true, decide_eq_true_eq, Bool.and_eq_true, beq_iff_eq] at h
      rcases h with h | ⟨rfl, h⟩
      · exact .inr ⟨[], x, y, a, b, rfl, rfl, h⟩
      · rcases ih h (fun e => hne (by rw [e])) with ⟨t, ht, rfl⟩ | ⟨p, u, v, s, t, rfl, rfl, huv⟩
        · exact .inl ⟨t, ht, rfl⟩
        · exact .inr ⟨x :: p, u, v, s, t, rfl, rfl, huv⟩

theorem strLe_of_before {a b : Str} (h : Spec.Before a b) : strLe a b = true := by
  rcases h with ⟨t, _, rfl⟩ | ⟨p, x, y, s, t, rfl, rfl, hxy⟩
  · induction a with
    | nil => rfl
    | cons x a ih => simp [strLe, ih]
  · induction p with
    | nil => simp [strLe, hxy]
    | cons z p ih => simp [strLe, ih]

theorem not_before_self (a : Str) : ¬ Spec.Before a a := by
  rintro (⟨t, ht, h⟩ | ⟨p, x, y, s, t, h1, h2, hxy⟩)
  · simp at h; exact ht h
  · rw [h1] at h2
    simp at h2
    rw [h2.1] at hxy
    exact absurd hxy (by simp)

/-! ### Validation -/

/-- The entry as a triple. -/
def Entry.given (e : Entry) : Spec.Given := ⟨e.index, e.lang, e.text⟩

def ofGiven (e : Spec.Given) : Entry := ⟨e.index, e.lang, e.text⟩

@[simp] theorem ofGiven_index (e : Spec.Given) : (ofGiven e).index = e.index := rfl
@[simp] theorem ofGiven_lang (e : Spec.Given) : (ofGiven e).lang = e.lang := rfl
@[simp] theorem ofGiven_text (e : Spec.Given) : (ofGiven e).text = e.text := rfl

theorem dictGet_iff (d : List (Str × PyVal)) (k : Str) (v : PyVal) :
    dictGet k d = some v ↔ Spec.Has d k v := by
  induction d with
  | nil => simp [dictGet, Spec.Has]
  | cons p d ih =>
    obtain ⟨k', v'⟩ := p
    simp only [dictGet]
    split
    · rename_i h
      subst h
      constructor
      · intro h; cases h; exact ⟨[], d, rfl, by simp⟩
      · rintro ⟨a, b, e, ha⟩
        cases a with
        | nil => simp at e; simp [e.1]
        | cons q a =>
          simp at e
          have := ha q (by simp)
          rw [← e.1] at this
          exact absurd rfl this
    · rename_i h
      rw [ih]
      constructor
      · rintro ⟨a, b, rfl, ha⟩
        exact ⟨(k', v') :: a, b, rfl, fun p hp => by
          rcases List.mem_cons.1 hp with rfl | hp'
          · exact h
          · exact ha p hp'⟩
      · rintro ⟨a, b, e, ha⟩
        cases a with
        | nil => simp at e; exact absurd e.1.1 h
        | cons q a =>
          simp at e
          exact ⟨a, b, e.2, fun p hp => ha p (by simp [hp])⟩

theorem langOk_iff (langs : Option (List Str)) (s : Str) :
    langOk langs s = true ↔ s.length = 2 ∧ ∀ ls, langs = some ls → s ∈ ls := by
  cases langs <;> simp [langOk]

theorem validateText_iff (keys : List Str) (x : PyVal) (d : List (Str × PyVal)) (s : Str) :
    validateText keys x = .ok (d, s) ↔
      x = .dict d ∧ (∀ p ∈ d, p.1 ∈ keys) ∧ Spec.Has d c!"#text" (.str s) := by
  cases x with
  | dict d' =>
    simp only [validateText, PyVal.dict.injEq]
    by_cases hk : (d'.all fun (k, _) => keys.contains k) = true
    · rw [if_pos hk]
      have hk' : ∀ p ∈ d', p.1 ∈ keys := by simpa using hk
      cases hg : dictGet c!"#text" d' with
      | none =>
        simp only [reduceCtorEq, false_iff]
        rintro ⟨rfl, _, h⟩
        rw [← dictGet_iff, hg] at h; cases h
      | some v =>
        have hh := (dictGet_iff d' _ v).1 hg
        constructor
        · intro h
          cases v with
          | str t => simp at h; obtain ⟨rfl, rfl⟩ := h; exact ⟨rfl, hk', hh⟩
          | _ => simp at h
        · rintro ⟨rfl, _, h⟩
          rw [← dictGet_iff, hg] at h; cases h; rfl
    · rw [if_neg hk]
      simp only [reduceCtorEq, false_iff]
      rintro ⟨rfl, h, _⟩
      exact hk (by simpa using h)
  | _ => simp [validateText]

theorem validateEntry_iff (langs : Option (List Str)) (x : PyVal) (e : Spec.Given) :
    validateEntry langs x = .ok (ofGiven e) ↔ Spec.IsEntry langs x e := by
  simp only [validateEntry, Spec.IsEntry]
  cases ht : validateText [c!"@index", c!"@lang", c!"#text"] x with
  | error err =>
    simp only [reduceCtorEq, false_iff]
    rintro ⟨d, v, rfl, hk, h1, _⟩
    have : validateText [c!"@index", c!"@lang", c!"#text"] (.dict d) = .ok (d, e.text) :=
      (validateText_iff _ _ _ _).2 ⟨rfl, fun p hp => by simpa using hk p hp, h1⟩
    rw [this] at ht; cases ht
  | ok ds =>
    obtain ⟨d, s⟩ := ds
    obtain ⟨rfl, hk, h1⟩ := (validateText_iff _ _ _ _).1 ht
    simp only [validateIndex, validateLang]
    constructor
    · intro h
      cases hi : dictGet c!"@index" d with
      | none => simp [hi] at h
      | some v =>
        cases hv : v.toInt with
        | none => simp [hi, hv] at h
        | some i =>
          cases hl : dictGet c!"@lang" d with
          | none => simp [hi, hv, hl] at h
          | some w =>
            cases w with
            | str l =>
              simp only [hi, hv, hl] at h
              by_cases ho : langOk langs l = true
              · simp only [ho, if_true, Except.ok.injEq] at h
                have hh := (langOk_iff langs l).1 ho
                cases e
                simp only [ofGiven, Entry.mk.injEq] at h
                obtain ⟨rfl, rfl, rfl⟩ := h
                exact ⟨d, v, rfl, fun p hp => by simpa using hk p hp, h1, (dictGet_iff _ _ _).1 hi,
                  hv, (dictGet_iff _ _ _).1 hl, hh.1, hh.2⟩
              · simp [ho] at h
            | _ => simp [hi, hv, hl] at h
    · rintro ⟨d', v, hd, _, h1', hi, hv, hl, h2, h3⟩
      cases hd
      rw [← dictGet_iff] at hi hl h1 h1'
      rw [h1] at h1'
      cases h1'
      simp [hi, hv, hl, (langOk_iff langs e.lang).2 ⟨h2, h3⟩, ofGiven]

theorem notBlank_iff (s : Str) : notBlank s = true ↔ Spec.Visible s := by
  cases s with
  | nil => simp [notBlank, Spec.Visible]
  | cons c s => simp [notBlank, isSpaceStr, Spec.Visible]

theorem ofGiven_surj (e : Entry) : ∃ g, ofGiven g = e := ⟨e.given, rfl⟩

theorem ofGiven_inj {a b : Spec.Given} (h : ofGiven a = ofGiven b) : a = b := by
  cases a; cases b; simpa [ofGiven] using h

theorem validateAll_iff (langs : Option (List Str)) (l : List PyVal) (es : List Spec.Given) :
    validateAll (validateEntry langs) l = .ok (es.map ofGiven) ↔
      List.Forall₂ (Spec.IsEntry langs) l es := by
  induction l generalizing es with
  | nil => cases es <;> simp [validateAll]
  | cons x l ih =>
    cases es with
    | nil =>
      simp only [validateAll, List.map_nil]
      cases validateEntry langs x with
      | error e => simp
      | ok a => cases validateAll (validateEntry langs) l <;> simp
    | cons e es =>
      rw [List.forall₂_cons, ← ih, ← validateEntry_iff]
      simp only [validateAll, List.map_cons]
      cases validateEntry langs x with
      | error e => simp
      | ok a => cases validateAll (validateEntry langs) l <;> simp

theorem filter_visible (es : List Spec.Given) :
    (es.map ofGiven).filter (fun e => notBlank e.text) =
      (es.filter (fun e => Spec.Visible e.text)).map ofGiven := by
  rw [List.filter_map]
  congr 1
  apply List.filter_congr
  intro e _
  simp only [Function.comp, ofGiven_text]
  rw [Bool.eq_iff_iff, notBlank_iff, decide_eq_true_iff]

theorem asList_items (o : PyVal) : asList o = Spec.items o := by cases o <;> rfl

theorem retrieve_ok (langs : Option (List Str)) (o : PyVal) (es : List Spec.Given)
    (h : List.Forall₂ (Spec.IsEntry langs) (Spec.items o) es) :
    retrieve (validateEntry langs) o =
      .ok ((es.filter (fun e => Spec.Visible e.text)).map ofGiven) := by
  rw [retrieve, asList_items, (validateAll_iff langs _ es).2 h]
  simp only [filter_visible]

theorem retrieve_bad (langs : Option (List Str)) (o : PyVal)
    (h : ¬ ∃ es, List.Forall₂ (Spec.IsEntry langs) (Spec.items o) es) :
    ∃ e, retrieve (validateEntry langs) o = .error e := by
  cases hv : validateAll (validateEntry langs) (asList o) with
  | error e => exact ⟨e, by rw [retrieve, hv]⟩
  | ok es =>
    exfalso
    apply h
    refine ⟨es.map Entry.given, (validateAll_iff langs _ _).1 ?_⟩
    rw [← asList_items, hv, List.map_map]
    have : ofGiven ∘ Entry.given = id := rfl
    rw [this, List.map_id]

/-- The accepted entries of a history exist and are unique. -/
theorem accepted_exists (langs : Option (List Str)) (os : List PyVal) : ∃ r, Spec.Accepted langs os r := by
  induction os with
  | nil => exact ⟨[], .nil⟩
  | cons o os ih =>
    obtain ⟨r, hr⟩ := ih
    by_cases h : ∃ es, List.Forall₂ (Spec.IsEntry langs) (Spec.items o) es
    · obtain ⟨es, hes⟩ := h
      exact ⟨_, .good hes hr⟩
    · exact ⟨_, .bad h hr⟩

theorem history_merge (t : TextCls) (langs : Option (List Str)) (os : List PyVal)
    (r : List Spec.Given) (h : Spec.Accepted langs os r) (x : List Entry) :
    history (add t (validateEntry langs)) x os = addMerged t x (r.map ofGiven) := by
  induction h generalizing x with
  | nil => rfl
  | @good o os es r he _ ih =>
    have : history (add t (validateEntry langs)) x (o :: os) =
      history (add t (validateEntry langs)) (tryAdd (add t (validateEntry langs)) x o) os := rfl
    rw [this, ih, tryAdd, add, retrieve_ok langs o es he]
    simp [addMerged, List.foldl_append]
  | @bad o os r he _ ih =>
    have : history (add t (validateEntry langs)) x (o :: os) =
      history (add t (validateEntry langs)) (tryAdd (add t (validateEntry langs)) x o) os := rfl
    obtain ⟨e, he⟩ := retrieve_bad langs o he
    rw [this, ih, tryAdd, add, he]

theorem history_plain (langs : Option (List Str)) (os : List PyVal)
    (r : List Spec.Given) (h : Spec.Accepted langs os r) (x : List Entry) :
    history (addPlain (validateEntry langs)) x os = x ++ r.map ofGiven := by
  induction h generalizing x with
  | nil => simp [history]
  | @good o os es r he _ ih =>
    have : history (addPlain (validateEntry langs)) x (o :: os) =
      history (addPlain (validateEntry langs)) (tryAdd (addPlain (validateEntry langs)) x o) os := rfl
    rw [this, ih, tryAdd, addPlain, retrieve_ok langs o es he]
    simp
  | @bad o os r he _ ih =>
    have : history (addPlain (validateEntry langs)) x (o :: os) =
      history (addPlain (validateEntry langs)) (tryAdd (addPlain (validateEntry langs)) x o) os := rfl
    obtain ⟨e, he⟩ := retrieve_bad langs o he
    rw [this, ih, tryAdd, addPlain, he]

theorem accepted_visible {langs : Option (List Str)} {os : List PyVal} {r : List Spec.Given}
    (h : Spec.Accepted langs os r) : ∀ e ∈ r, Spec.Visible e.text := by
  induction h with
  | nil => simp
  | good _ _ ih =>
    intro e he
    rcases List.mem_append.1 he with he | he
    · simpa using (List.mem_filter.1 he).2
    · exact ih e he
  | bad _ _ ih => exact ih

/-! ### Merging -/

/-- The key of an entry. -/
def key (e : Spec.Given) : Int × Str := (e.index, e.lang)

/-- The entry held for a key after the entries `es`. -/
def merged (sep : Option Str) (es : List Spec.Given) (k : Int × Str) : Entry :=
  ⟨k.1, k.2, Spec.combine sep (Spec.textsOf es k.1 k.2)⟩

theorem textsOf_snoc (es : List Spec.Given) (e : Spec.Given) (i : Int) (L : Str) :
    Spec.textsOf (es ++ [e]) i L =
      Spec.textsOf es i L ++ if e.index = i ∧ e.lang = L then [e.text] else [] := by
  simp only [Spec.textsOf, List.filter_append, List.map_append]
  congr 1
  by_cases h : e.index = i ∧ e.lang = L <;> simp [List.filter, h]

theorem textsOf_ne_nil {es : List Spec.Given} {k : Int × Str} (h : k ∈ es.map key) :
    Spec.textsOf es k.1 k.2 ≠ [] := by
  obtain ⟨e, he, rfl⟩ := List.mem_map.1 h
  intro hn
  have hm : e.text ∈ Spec.textsOf es (key e).1 (key e).2 :=
    List.mem_map.2 ⟨e, by simp [key, he], rfl⟩
  rw [hn] at hm
  simp at hm

theorem combine_snoc (t : TextCls) (l : List Str) (x : Str) (h : l ≠ []) :
    Spec.combine t.sep (l ++ [x]) = t.addText (Spec.combine t.sep l) x := by
  cases ht : t.sep with
  | none => simp [Spec.combine, TextCls.addText, ht]
  | some s => simp [Spec.combine, TextCls.addText, ht, join_append_singleton s l x h]

theorem combine_single (sep : Option Str) (x : Str) : Spec.combine sep [x] = x := by
  cases sep <;> rfl

theorem mergeOne_map (t : TextCls) (ks : List (Int × Str)) (hn : ks.Nodup)
    (f : Int × Str → Str) (e : Entry) :
    mergeOne t (ks.map fun k => ⟨k.1, k.2, f k⟩) e =
      if (e.index, e.lang) ∈ ks then
        ks.map fun k => ⟨k.1, k.2, if k = (e.index, e.lang) then t.addText (f k) e.text else f k⟩
      else (ks.map fun k => ⟨k.1, k.2, f k⟩) ++ [e] := by
  induction ks with
  | nil => simp [mergeOne]
  | cons k ks ih =>
    have hn' := List.nodup_cons.1 hn
    simp only [List.map_cons, mergeOne]
    by_cases hk : k = (e.index, e.lang)
    · subst hk
      simp only [and_self, if_true, List.mem_cons, true_or]
      congr 1
      apply List.map_congr_left
      intro k hk
      have : k ≠ (e.index, e.lang) := fun h => hn'.1 (h ▸ hk)
      simp [this]
    · have hk' : ¬ (k.1 = e.index ∧ k.2 = e.lang) := fun h => hk (Prod.ext h.1 h.2)
      rw [if_neg hk', ih hn'.2]
      have : ((e.index, e.lang) ∈ k :: ks) ↔ ((e.index, e.lang) ∈ ks) := by
        simp [Ne.symm hk]
      by_cases hm : (e.index, e.lang) ∈ ks
      · simp [hm, hk]
      · simp [hm, Ne.symm hk]

/-- After merging the entries `es`, the field holds one entry per key, in order of first use, with
the combined texts. -/
theorem addMerged_eq (t : TextCls) (es : List Spec.Given) :
    addMerged t [] (es.map ofGiven) = (firstOccurrences (es.map key)).map (merged t.sep es) := by
  induction es using List.reverseRecOn with
  | nil => simp [addMerged, firstOccurrences]
  | append_singleton es e ih =>
    have ih' : List.foldl (mergeOne t) [] (es.map ofGiven) = _ := ih
    rw [List.map_append, addMerged, List.foldl_append, ih']
    simp only [List.map_cons, List.map_nil, List.foldl_cons, List.foldl_nil, List.map_append]
    have hm : merged t.sep es = fun k => ⟨k.1, k.2, Spec.combine t.sep (Spec.textsOf es k.1 k.2)⟩ := rfl
    have hmo := mergeOne_map t (firstOccurrences (es.map key)) (firstOccurrences_nodup _)
      (fun k => Spec.combine t.sep (Spec.textsOf es k.1 k.2)) (ofGiven e)
    have hkey : ((ofGiven e).index, (ofGiven e).lang) = key e := rfl
    simp only [hkey, ofGiven_text, mem_firstOccurrences] at hmo
    rw [hm, hmo, firstOccurrences_snoc]
    by_cases hk : key e ∈ es.map key
    · simp only [hk, if_true]
      apply List.map_congr_left
      intro k hk'
      rw [mem_firstOccurrences] at hk'
      simp only [merged, textsOf_snoc, Entry.mk.injEq, true_and]
      by_cases h : k = key e
      · subst h
        simp only [if_true]
        rw [if_pos ⟨rfl, rfl⟩]
        exact (combine_snoc t _ _ (textsOf_ne_nil hk')).symm
      · have : ¬ (e.index = k.1 ∧ e.lang = k.2) := fun h' => h (Prod.ext h'.1.symm h'.2.symm)
        simp [h, this]
    · simp only [hk, if_false, List.map_append, List.map_cons, List.map_nil]
      congr 1
      · apply List.map_congr_left
        intro k hk'
        rw [mem_firstOccurrences] at hk'
        have : ¬ (e.index = k.1 ∧ e.lang = k.2) := by
          rintro ⟨h1, h2⟩
          apply hk
          have : key e = k := Prod.ext h1 h2
          rw [this]; exact hk'
        simp [merged, textsOf_snoc, this]
      · have h0 : Spec.textsOf es e.index e.lang = [] := by
          simp only [Spec.textsOf, List.map_eq_nil_iff, List.filter_eq_nil_iff, decide_eq_true_eq]
          rintro e' he' ⟨h1, h2⟩
          apply hk
          have : key e = key e' := Prod.ext h1.symm h2.symm
          rw [this]; exact List.mem_map_of_mem he'
        have : Spec.textsOf (es ++ [e]) (key e).1 (key e).2 = [e.text] := by
          rw [textsOf_snoc]; simp [key, h0]
        simp only [merged, this, combine_single]
        rfl

/-! ### Concatenation by language -/

def langText (x : List Entry) (L : Str) : Str :=
  join c!"\n" ((x.filter fun e => e.lang = L).map (·.text))

theorem concatLang_map (ks : List Str) (hn : ks.Nodup) (f : Str → Str) (e : Entry)
    (hf : ∀ k ∈ ks, f k ≠ []) :
    concatLang (ks.map fun k => (k, f k)) e =
      if e.lang ∈ ks then
        ks.map fun k => (k, if k = e.lang then f k ++ (c!"\n" ++ e.text) else f k)
      else (ks.map fun k => (k, f k)) ++ [(e.lang, e.text)] := by
  induction ks with
  | nil => simp [concatLang]
  | cons k ks ih =>
    have hn' := List.nodup_cons.1 hn
    simp only [List.map_cons, concatLang]
    have hfk := hf k (by simp)
    have hfk' : (f k).isEmpty = false := by simpa using hfk
    by_cases hk : k = e.lang
    · subst hk
      simp only [hfk', List.mem_cons, true_or, Bool.false_eq_true, if_false, if_true, List.cons.injEq, true_and]
      apply List.map_congr_left
      intro k hk
      have : k ≠ e.lang := fun h => hn'.1 (h ▸ hk)
      simp [this]
    · rw [if_neg hk, ih hn'.2 (fun k hk => hf k (by simp [hk]))]
      by_cases hm : e.lang ∈ ks
      · simp [hm, hk]
      · simp [hm, Ne.symm hk]

theorem join_ne_nil (sep : Str) (l : List Str) (hl : l ≠ []) (h : ∀ x ∈ l, x ≠ []) : join sep l ≠ [] := by
  match l, hl with
  | [x], _ => exact h x (by simp)
  | x :: y :: l, _ =>
    have := h x (by simp)
    simp [join, this]

theorem foldl_concatLang (x : List Entry) (hx : ∀ e ∈ x, e.text ≠ []) :
    x.foldl concatLang [] =
      (firstOccurrences (x.map (·.lang))).map fun L => (L, langText x L) := by
  induction x using List.reverseRecOn with
  | nil => simp [firstOccurrences]
  | append_singleton x e ih =>
    have ih := ih (fun e he => hx e (by simp [he]))
    rw [List.foldl_append, ih]
    simp only [List.foldl_cons, List.foldl_nil, List.map_append, List.map_cons, List.map_nil]
    have hne : ∀ L ∈ firstOccurrences (x.map (·.lang)), (x.filter fun e => e.lang = L).map (·.text) ≠ [] := by
      intro L hL
      rw [mem_firstOccurrences, List.mem_map] at hL
      obtain ⟨e', he', rfl⟩ := hL
      intro hn
      have : e'.text ∈ (x.filter fun e => e.lang = e'.lang).map (·.text) :=
        List.mem_map.2 ⟨e', by simp [he'], rfl⟩
      rw [hn] at this; simp at this
    rw [concatLang_map _ (firstOccurrences_nodup _), firstOccurrences_snoc]
    · simp only [mem_firstOccurrences]
      have hsn : ∀ L, langText (x ++ [e]) L =
          join c!"\n" ((x.filter fun e => e.lang = L).map (·.text) ++
            if e.lang = L then [e.text] else []) := by
        intro L
        simp only [langText, List.filter_append, List.map_append]
        congr 2
        by_cases h : e.lang = L <;> simp [List.filter, h]
      by_cases hk : e.lang ∈ x.map (·.lang)
      · simp only [hk, if_true]
        apply List.map_congr_left
        intro L hL
        rw [hsn]
        by_cases h : L = e.lang
        · subst h
          rw [if_pos rfl, if_pos rfl, join_append_singleton _ _ _ (hne _ hL)]
          simp [langText]
        · simp [h, Ne.symm h, langText]
      · simp only [hk, if_false, List.map_append, List.map_cons, List.map_nil]
        congr 1
        · apply List.map_congr_left
          intro L hL
          rw [hsn]
          have : e.lang ≠ L := fun h => hk (by rw [h]; rw [mem_firstOccurrences] at hL; exact hL)
          simp [this, langText]
        · have h0 : (x.filter fun e' => e'.lang = e.lang) = [] := by
            simp only [List.filter_eq_nil_iff, decide_eq_true_eq]
            intro e' he' h
            exact hk (List.mem_map.2 ⟨e', he', h⟩)
          simp [hsn, h0, join]
    · intro L hL
      refine join_ne_nil _ _ (hne L hL) ?_
      intro s hs
      obtain ⟨e', he', rfl⟩ := List.mem_map.1 hs
      exact hx e' (by simp [(List.mem_filter.1 he').1])

theorem byIndex_total (a b : Entry) : byIndex a b = true ∨ byIndex b a = true := by
  simp only [byIndex, decide_eq_true_eq]; omega

theorem byIndex_trans (a b c : Entry) (h1 : byIndex a b = true) (h2 : byIndex b c = true) :
    byIndex a c = true := by
  simp only [byIndex, decide_eq_true_eq] at *; omega

/-! ### The entries written -/

/-- The text is written as it is, not split. -/
def Fits (t : TextCls) (ignore : Bool) (s : Str) : Prop :=
  ∀ lim, t.limit = some lim → t.splits = true → ignore = false → s.length ≤ upper lim

theorem pieces_fits {t : TextCls} {ignore : Bool} {sent : Str → List Str} {s : Str} {ps : List Str}
    (hf : Fits t ignore s) (h : pieces t ignore sent s = .ok ps) : ps = [s] := by
  simp only [pieces] at h
  cases hl : t.limit with
  | none => simp [hl] at h; exact h.symm
  | some lim =>
    simp only [hl] at h
    have : (t.splits && !ignore && decide (s.length > upper lim)) = false := by
      by_contra hc
      simp at hc
      have := hf lim hl hc.1 hc.2.1
      omega
    rw [this] at h
    simp only [Bool.false_eq_true, if_false] at h
    split at h
    · cases h
    · rename_i s' hs
      rw [Validators.limEnd_ok hs] at h
      cases h; rfl

theorem endValidate_fits {κ : Type} {t : TextCls} {ignore : Bool} {sent : Str → List Str}
    {l out : List (κ × Str)} (hf : ∀ p ∈ l, Fits t ignore p.2)
    (h : endValidate t ignore sent l = .ok out) : out = l := by
  induction l generalizing out with
  | nil => simp [endValidate] at h; exact h
  | cons p l ih =>
    obtain ⟨k, s⟩ := p
    simp only [endValidate] at h
    split at h
    · cases h
    · rename_i ps hps
      split at h
      · cases h
      · rename_i r hr
        cases h
        rw [pieces_fits (hf (k, s) (by simp)) hps, ih (fun p hp => hf p (by simp [hp])) hr]
        simp

theorem sorted_strict {x : List (Str × Str)} (hs : x.Pairwise fun a b => strLe a.1 b.1 = true)
    (hn : (x.map Prod.fst).Nodup) : (x.map Prod.fst).Pairwise Spec.Before := by
  rw [List.pairwise_map]
  rw [List.Nodup, List.pairwise_map] at hn
  exact (hs.and hn).imp fun h => before_of_strLe h.1 h.2

theorem byLang_eq (x : List Entry) (hx : ∀ e ∈ x, e.text ≠ []) :
    ((byLang x).map Prod.fst).Pairwise Spec.Before ∧
    (∀ L, L ∈ (byLang x).map Prod.fst ↔ ∃ e ∈ x, e.lang = L) ∧
    ∀ p ∈ byLang x, p.2 = langText (sortBy byIndex x) p.1 := by
  have hx' : ∀ e ∈ sortBy byIndex x, e.text ≠ [] := fun e he => hx e ((mem_sortBy _).1 he)
  have hf := foldl_concatLang _ hx'
  have hperm := sortBy_perm (fun a b : Str × Str => strLe a.1 b.1)
    ((sortBy byIndex x).foldl concatLang [])
  have hfst : ((sortBy byIndex x).foldl concatLang []).map Prod.fst =
      firstOccurrences ((sortBy byIndex x).map (·.lang)) := by
    rw [hf, List.map_map]
    exact List.map_id'' (fun _ => rfl) _
  have hsorted : (byLang x).Pairwise fun a b => strLe a.1 b.1 = true :=
    sortBy_sorted (fun a b : Str × Str => strLe a.1 b.1) (fun a b => strLe_total a.1 b.1)
      (fun a b c => strLe_trans) _
  refine ⟨sorted_strict hsorted ?_, ?_, ?_⟩
  · rw [byLang]
    refine (hperm.map Prod.fst).nodup_iff.2 ?_
    rw [hfst]; exact firstOccurrences_nodup _
  · intro L
    rw [byLang, (hperm.map Prod.fst).mem_iff, hfst, mem_firstOccurrences, List.mem_map]
    constructor
    · rintro ⟨e, he, rfl⟩; exact ⟨e, (mem_sortBy _).1 he, rfl⟩
    · rintro ⟨e, he, rfl⟩; exact ⟨e, (mem_sortBy _).2 he, rfl⟩
  · intro p hp
    rw [byLang, mem_sortBy, hf, List.mem_map] at hp
    obtain ⟨L, _, rfl⟩ := hp
    rfl

/-- The text of a language is the specified one. -/
theorem langText_isText (sep : Option Str) (es : List Spec.Given) (L : Str) :
    Spec.IsText sep es L (langText (sortBy byIndex ((firstOccurrences (es.map key)).map
      (merged sep es))) L) := by
  generalize hxs : sortBy byIndex ((firstOccurrences (es.map key)).map (merged sep es)) = xs
  have hperm : xs.Perm ((firstOccurrences (es.map key)).map (merged sep es)) := hxs ▸ sortBy_perm _ _
  have hsort : xs.Pairwise fun a b => byIndex a b = true :=
    hxs ▸ sortBy_sorted _ byIndex_total byIndex_trans _
  have hmem : ∀ e, e ∈ xs ↔ ∃ g ∈ es, e = merged sep es (key g) := by
    intro e
    rw [hperm.mem_iff, List.mem_map]
    constructor
    · rintro ⟨k, hk, rfl⟩
      rw [mem_firstOccurrences, List.mem_map] at hk
      obtain ⟨g, hg, rfl⟩ := hk
      exact ⟨g, hg, rfl⟩
    · rintro ⟨g, hg, rfl⟩
      exact ⟨key g, mem_firstOccurrences.2 (List.mem_map_of_mem hg), rfl⟩
  have hnd : (xs.map fun e => (e.index, e.lang)).Nodup := by
    refine (hperm.map _).nodup_iff.2 ?_
    rw [List.map_map]
    have : ((fun e : Entry => (e.index, e.lang)) ∘ merged sep es) = id := rfl
    rw [this, List.map_id]
    exact firstOccurrences_nodup _
  refine ⟨(xs.filter fun e => e.lang = L).map (·.index), ?_, ?_, ?_⟩
  · rw [List.pairwise_map]
    have h1 := hsort.filter (fun e => decide (e.lang = L))
    have h2 : (xs.filter fun e => e.lang = L).Pairwise
        fun a b => (a.index, a.lang) ≠ (b.index, b.lang) :=
      (List.pairwise_map.1 hnd).filter _
    refine (h1.and h2).imp_of_mem ?_
    intro a b ha hb h
    have ha' : a.lang = L := by simpa using (List.mem_filter.1 ha).2
    have hb' : b.lang = L := by simpa using (List.mem_filter.1 hb).2
    have h1 : a.index ≤ b.index := by simpa [byIndex] using h.1
    have h2 : a.index ≠ b.index := fun e => h.2 (by rw [e, ha', hb'])
    omega
  · intro i
    simp only [List.mem_map, List.mem_filter, decide_eq_true_eq]
    constructor
    · rintro ⟨e, ⟨he, hl⟩, rfl⟩
      obtain ⟨g, hg, rfl⟩ := (hmem e).1 he
      exact ⟨g, hg, hl, rfl⟩
    · rintro ⟨g, hg, rfl, rfl⟩
      exact ⟨merged sep es (key g), ⟨(hmem _).2 ⟨g, hg, rfl⟩, rfl⟩, rfl⟩
  · rw [langText, List.map_map]
    congr 1
    apply List.map_congr_left
    intro e he
    have hl : e.lang = L := by simpa using (List.mem_filter.1 he).2
    obtain ⟨g, _, rfl⟩ := (hmem e).1 (List.mem_filter.1 he).1
    rw [← hl]
    rfl

theorem visible_ne_nil {s : Str} (h : Spec.Visible s) : s ≠ [] := by
  rintro rfl; obtain ⟨c, hc, _⟩ := h; simp at hc

theorem combine_ne_nil (sep : Option Str) (l : List Str) (hl : l ≠ []) (h : ∀ x ∈ l, x ≠ []) :
    Spec.combine sep l ≠ [] := by
  cases sep with
  | some s => exact join_ne_nil s l hl h
  | none =>
    have : l.getLastD [] = l.getLast hl := by
      rw [List.getLastD_eq_getLast?, List.getLast?_eq_some_getLast hl]; rfl
    rw [Spec.combine, this]
    exact h _ (List.getLast_mem hl)

theorem merged_ne_nil (sep : Option Str) (es : List Spec.Given) (hv : ∀ e ∈ es, Spec.Visible e.text)
    (k : Int × Str) (hk : k ∈ es.map key) : (merged sep es k).text ≠ [] := by
  refine combine_ne_nil _ _ (textsOf_ne_nil hk) ?_
  intro s hs
  obtain ⟨e, he, rfl⟩ := List.mem_map.1 hs
  exact visible_ne_nil (hv e (List.mem_filter.1 he).1)

end Verif.LangText
