/-
C101, C102: the texts on method and data sources.
-/
import Verif.Spec.RepTexts
import Verif.Props.LangText
import Verif.Props.CommentsBack

namespace Verif.RepTexts
open LangText (Entry base validateEntry addMerged byLang ofGiven endMulti)
open Validators (mem_firstOccurrences)
open Validators.Spec (firstOccurrences)
open LangText.Spec (Given Visible textsOf combine IsText Before)

/-! ### What one element gives -/

/-- The language and the paragraph of an element, if any. -/
def res (dflt : Option Str) (f : Field) (x : XText) : Py (Option (Str × Str)) :=
  match f.left x with
  | .error e => .error e
  | .ok true => .ok none
  | .ok false =>
    match Spec.textOf x with
    | none => .error .keyError
    | some t =>
      match f.clean (f.label ++ t) with
      | .error e => .error e
      | .ok p =>
        match Spec.langOf dflt x with
        | none => .error .valueError
        | some L => if L.length = 2 then .ok (some (L, p)) else .error .valueError

/-- The index of its entry. -/
def idx (n : Nat) (f : Field) : Int := match f.fixed with | some i => i | none => (n : Int)

/-- The running number after it. -/
def next (n : Nat) (f : Field) : Nat := match f.fixed with | some _ => n | none => n + 1

theorem textAddIndex_eq (dflt : Option Str) (f : Field) (n : Nat) (x : XText) :
    textAddIndex dflt f.label f.fixed n x =
      match Spec.textOf x with
      | none => .error .keyError
      | some t => .ok (⟨idx n f, Spec.langOf dflt x, f.label ++ t⟩, next n f) := by
  unfold textAddIndex idx next
  cases x with
  | plain s => rfl
  | tagged l t => cases t with
    | none => rfl
    | some t => cases l <;> rfl

theorem add_val (x : List Entry) (o : Out) :
    LangText.add (base 32000) (validateEntry none) x o.val =
      match o.lang with
      | none => .error .valueError
      | some L =>
        if L.length = 2 then
          .ok (addMerged (base 32000) x (if Visible o.text then [⟨o.index, L, o.text⟩] else []))
        else .error .valueError := by
  obtain ⟨i, l, t⟩ := o
  cases l with
  | none => rfl
  | some L =>
    by_cases hL : L.length = 2
    · by_cases hv : LangText.notBlank t = true
      · have hv' := (LangText.notBlank_iff t).1 hv
        simp [LangText.add, LangText.retrieve, Out.val, LangText.asList, LangText.validateAll, validateEntry,
          LangText.validateText, LangText.dictGet, LangText.validateIndex, LangText.validateLang, LangText.langOk,
          PyVal.toInt, hL, hv, hv']
      · have hv' : ¬ Visible t := fun h => hv ((LangText.notBlank_iff t).2 h)
        simp [LangText.add, LangText.retrieve, Out.val, LangText.asList, LangText.validateAll, validateEntry,
          LangText.validateText, LangText.dictGet, LangText.validateIndex, LangText.validateLang, LangText.langOk,
          PyVal.toInt, hL, hv, hv']
    · simp [LangText.add, LangText.retrieve, Out.val, LangText.asList, LangText.validateAll, validateEntry,
          LangText.validateText, LangText.dictGet, LangText.validateIndex, LangText.validateLang, LangText.langOk,
          PyVal.toInt, hL]

/-- The entries an element gives to the field `tgt`. -/
def givenOf (dflt : Option Str) (tgt : Target) (n : Nat) (f : Field) (x : XText) : List Given :=
  match res dflt f x with
  | .ok (some (L, p)) => if f.target = tgt ∧ Visible p then [⟨idx n f, L, p⟩] else []
  | _ => []

/-- The running number after an element. -/
def after (dflt : Option Str) (n : Nat) (f : Field) (x : XText) : Nat :=
  match res dflt f x with
  | .ok (some _) => next n f
  | _ => n

theorem addMerged_nil (t : LangText.TextCls) (x : List Entry) : addMerged t x [] = x := rfl

theorem step_text (dflt : Option Str) (s : St) (f : Field) (x : XText) :
    (∀ e, res dflt f x = .error e → step dflt s (.text f x) = .error e) ∧
    (∀ r, res dflt f x = .ok r → ∃ s', step dflt s (.text f x) = .ok s' ∧ s'.number = after dflt s.number f x ∧
      ∀ tgt, s'.get tgt = addMerged (base 32000) (s.get tgt) ((givenOf dflt tgt s.number f x).map ofGiven)) := by
  simp only [step, textAddIndex_eq, givenOf, after]
  unfold res
  cases hl : f.left x with
  | error e => simp
  | ok b =>
    cases b with
    | true => simp [addMerged_nil]
    | false =>
      cases ht : Spec.textOf x with
      | none => simp
      | some t =>
        simp only
        cases hc : f.clean (f.label ++ t) with
        | error e => simp
        | ok p =>
          simp only
          cases hL : Spec.langOf dflt x with
          | none =>
            cases htg : f.target <;> simp [put, add_val]
          | some L =>
            by_cases h2 : L.length = 2
            · by_cases hv : Visible p
              · cases htg : f.target <;> simp [put, add_val, h2, hv] <;>
                  intro tgt <;> cases tgt <;> simp [St.get, addMerged_nil, ofGiven]
              · cases htg : f.target <;> simp [put, add_val, h2, hv] <;>
                  intro tgt <;> cases tgt <;> simp [St.get, addMerged_nil]
            · cases htg : f.target <;> simp [put, add_val, h2]

/-! ### The whole document -/

/-- The entries given to the field `tgt`. -/
def givens (dflt : Option Str) (tgt : Target) : Nat → List Ev → List Given
  | _, [] => []
  | n, .other :: l => givens dflt tgt (n + 1) l
  | n, .text f x :: l => givenOf dflt tgt n f x ++ givens dflt tgt (after dflt n f x) l

theorem addMerged_append (t : LangText.TextCls) (x a b : List Entry) :
    addMerged t x (a ++ b) = addMerged t (addMerged t x a) b := List.foldl_append

theorem run_entries {dflt : Option Str} {evs : List Ev} {s s' : St} (h : run dflt s evs = .ok s') (tgt : Target) :
    s'.get tgt = addMerged (base 32000) (s.get tgt) ((givens dflt tgt s.number evs).map ofGiven) := by
  induction evs generalizing s with
  | nil => cases h; rfl
  | cons e l ih =>
    cases e with
    | other => exact ih (s := ⟨s.number + 1, s.sampling, s.extrapolations⟩) h
    | text f x =>
      obtain ⟨h1, h2⟩ := step_text dflt s f x
      cases hr : res dflt f x with
      | error e => simp [run, h1 e hr] at h
      | ok r =>
        obtain ⟨s1, e1, e2, e3⟩ := h2 r hr
        simp only [run, e1] at h
        rw [ih h, e3 tgt, e2, givens, List.map_append, addMerged_append]

/-- The elements are read up to the first that cannot be. -/
theorem run_ok_iff (dflt : Option Str) (evs : List Ev) (s : St) :
    (∃ s', run dflt s evs = .ok s') ↔ ∀ f x, .text f x ∈ evs → ∃ r, res dflt f x = .ok r := by
  induction evs generalizing s with
  | nil => simp [run]
  | cons e l ih =>
    cases e with
    | other =>
      simp only [run, step, ih]
      simp
    | text f x =>
      obtain ⟨h1, h2⟩ := step_text dflt s f x
      cases hr : res dflt f x with
      | error e =>
        simp only [run, h1 e hr]
        constructor
        · rintro ⟨_, h⟩; cases h
        · intro h
          obtain ⟨r, h⟩ := h f x (by simp)
          rw [hr] at h; cases h
      | ok r =>
        obtain ⟨s1, e1, _⟩ := h2 r hr
        simp only [run, e1, ih]
        constructor
        · intro h f' x' hm
          rcases List.mem_cons.1 hm with e | hm
          · cases e; exact ⟨r, hr⟩
          · exact h _ _ hm
        · intro h f' x' hm
          exact h _ _ (by simp [hm])

/-- The error is that of the first element that cannot be read. -/
theorem run_error {dflt : Option Str} {a b : List Ev} {f : Field} {x : XText} {e : PyErr} (s : St)
    (ha : ∀ f x, .text f x ∈ a → ∃ r, res dflt f x = .ok r) (hx : res dflt f x = .error e) :
    run dflt s (a ++ .text f x :: b) = .error e := by
  induction a generalizing s with
  | nil => simp [run, (step_text dflt s f x).1 e hx]
  | cons v a ih =>
    cases v with
    | other =>
      simp only [List.cons_append, run, step]
      exact ih _ (fun f x hm => ha f x (by simp [hm]))
    | text f' x' =>
      obtain ⟨r, hr⟩ := ha f' x' (by simp)
      obtain ⟨s1, e1, _⟩ := (step_text dflt s f' x').2 r hr
      simp only [List.cons_append, run, e1]
      exact ih _ (fun f x hm => ha f x (by simp [hm]))

/-! ### The text of a field -/

/-- The paragraph of an element for a field and a language. -/
def para (dflt : Option Str) (tgt : Target) (L : Str) (f : Field) (x : XText) : Option Str :=
  match res dflt f x with
  | .ok (some (L', p)) => if f.target = tgt ∧ L' = L ∧ Visible p then some p else none
  | _ => none

def own (dflt : Option Str) (tgt : Target) (L : Str) (evs : List Ev) : List Str :=
  evs.filterMap fun e => match e with
    | .text f x => if f = .procedure then para dflt tgt L f x else none
    | .other => none

def rest (dflt : Option Str) (tgt : Target) (L : Str) (evs : List Ev) : List Str :=
  evs.filterMap fun e => match e with
    | .text f x => if f = .procedure then none else para dflt tgt L f x
    | .other => none

def paras (dflt : Option Str) (tgt : Target) (L : Str) (evs : List Ev) : List Str :=
  (if own dflt tgt L evs = [] then [] else [join c!"; " (own dflt tgt L evs)]) ++ rest dflt tgt L evs

theorem fixed_eq (f : Field) : f.fixed = if f = .procedure then some 0 else none := by
  cases f <;> rfl

theorem givenOf_shape (dflt : Option Str) (tgt : Target) (n : Nat) (f : Field) (x : XText) :
    (givenOf dflt tgt n f x = [] ∧ ∀ L, para dflt tgt L f x = none) ∨
    ∃ L p, givenOf dflt tgt n f x = [⟨idx n f, L, p⟩] ∧ Visible p ∧ after dflt n f x = next n f ∧
      ∀ L', para dflt tgt L' f x = if L = L' then some p else none := by
  unfold givenOf para after
  cases hr : res dflt f x with
  | error e => left; simp
  | ok r =>
    cases r with
    | none => left; simp
    | some q =>
      obtain ⟨L, p⟩ := q
      by_cases h : f.target = tgt ∧ Visible p
      · right
        refine ⟨L, p, by simp [h], h.2, rfl, fun L' => ?_⟩
        simp [h.1, h.2]
      · left
        refine ⟨by simp [h], fun L' => ?_⟩
        simp only
        rw [if_neg]
        rintro ⟨h1, _, h3⟩
        exact h ⟨h1, h3⟩

theorem after_le (dflt : Option Str) (n : Nat) (f : Field) (x : XText) : n ≤ after dflt n f x := by
  unfold after next
  split
  · split <;> omega
  · exact le_refl _

theorem givens_visible (dflt : Option Str) (tgt : Target) (n : Nat) (evs : List Ev) :
    ∀ g ∈ givens dflt tgt n evs, Visible g.text := by
  induction evs generalizing n with
  | nil => simp [givens]
  | cons e l ih =>
    cases e with
    | other => exact ih _
    | text f x =>
      intro g hg
      rw [givens, List.mem_append] at hg
      rcases hg with hg | hg
      · rcases givenOf_shape dflt tgt n f x with ⟨h, _⟩ | ⟨L, p, h, hv, _⟩
        · rw [h] at hg; simp at hg
        · rw [h, List.mem_singleton] at hg; subst hg; exact hv
      · exact ih _ g hg

theorem givens_index (dflt : Option Str) (tgt : Target) (n : Nat) (evs : List Ev) :
    ∀ g ∈ givens dflt tgt n evs, g.index = 0 ∨ (n : Int) ≤ g.index := by
  induction evs generalizing n with
  | nil => simp [givens]
  | cons e l ih =>
    cases e with
    | other => intro g hg; have := ih (n + 1) g hg; omega
    | text f x =>
      intro g hg
      rw [givens, List.mem_append] at hg
      rcases hg with hg | hg
      · rcases givenOf_shape dflt tgt n f x with ⟨h, _⟩ | ⟨L, p, h, _⟩
        · rw [h] at hg; simp at hg
        · rw [h, List.mem_singleton] at hg; subst hg
          simp only [idx, fixed_eq]
          split <;> simp_all
      · have := ih _ g hg
        have := after_le dflt n f x
        omega

theorem givens_sorted (dflt : Option Str) (tgt : Target) (n : Nat) (hn : 0 < n) (evs : List Ev) :
    ((givens dflt tgt n evs).filter fun g => g.index ≠ 0).Pairwise fun a b => a.index < b.index := by
  induction evs generalizing n with
  | nil => simp [givens]
  | cons e l ih =>
    cases e with
    | other => exact ih _ (by omega)
    | text f x =>
      rw [givens, List.filter_append]
      have hle := after_le dflt n f x
      rcases givenOf_shape dflt tgt n f x with ⟨h, _⟩ | ⟨L, p, h, hv, ha, _⟩
      · rw [h]; exact ih _ (by omega)
      · rw [h]
        by_cases hf : f = .procedure
        · subst hf
          exact ih _ (by omega)
        · have hi : idx n f = (n : Int) := by simp [idx, fixed_eq, hf]
          have hnx : next n f = n + 1 := by simp [next, fixed_eq, hf]
          rw [List.filter_cons_of_pos (by simp [hi]; omega), List.filter_nil, List.singleton_append, List.pairwise_cons]
          refine ⟨fun g hg => ?_, ih _ (by omega)⟩
          obtain ⟨hg1, hg2⟩ := List.mem_filter.1 hg
          have := givens_index dflt tgt _ l g hg1
          rw [ha, hnx] at this
          simp at hg2
          simp only [hi]
          omega

theorem givens_texts (dflt : Option Str) (tgt : Target) (L : Str) (n : Nat) (hn : 0 < n) (evs : List Ev) :
    ((givens dflt tgt n evs).filter fun g => g.index = 0 ∧ g.lang = L).map (·.text) = own dflt tgt L evs ∧
    ((givens dflt tgt n evs).filter fun g => g.index ≠ 0 ∧ g.lang = L).map (·.text) = rest dflt tgt L evs := by
  induction evs generalizing n with
  | nil => simp [givens, own, rest]
  | cons e l ih =>
    cases e with
    | other => exact ih _ (by omega)
    | text f x =>
      have hle := after_le dflt n f x
      obtain ⟨i1, i2⟩ := ih (after dflt n f x) (by omega)
      rw [givens, List.filter_append, List.filter_append, List.map_append, List.map_append, i1, i2]
      rcases givenOf_shape dflt tgt n f x with ⟨h, hp⟩ | ⟨L', p, h, _, _, hp⟩
      · rw [h]; simp [own, rest, hp]
      · rw [h]
        by_cases hf : f = .procedure
        · subst hf
          have hi : idx n .procedure = 0 := rfl
          by_cases hL : L' = L
          · simp [own, rest, hp, hL, hi]
          · simp [own, rest, hp, hL, hi]
        · have hi : idx n f = (n : Int) := by simp [idx, fixed_eq, hf]
          have h0 : n ≠ 0 := by omega
          by_cases hL : L' = L
          · simp [own, rest, hp, hL, hi, hf, h0]
          · simp [own, rest, hp, hL, hi, hf, h0]

theorem filter_unique {l : List Given} (h : l.Pairwise fun a b => a.index < b.index) {g : Given} (hg : g ∈ l) :
    l.filter (fun e => e.index = g.index) = [g] := by
  induction l with
  | nil => simp at hg
  | cons a l ih =>
    rw [List.pairwise_cons] at h
    rcases List.mem_cons.1 hg with rfl | hg
    · rw [List.filter_cons_of_pos (by simp), List.filter_eq_nil_iff.2]
      intro e he
      have := h.1 e he
      simp; omega
    · have := h.1 g hg
      rw [List.filter_cons_of_neg (by simp; omega)]
      exact ih h.2 hg

/-- The text of a language, if the entries have the index 0 or increasing indexes. -/
theorem isText_unique {sep : Option Str} {gs : List Given} {L t : Str} (h0 : ∀ g ∈ gs, 0 ≤ g.index)
    (hs : (gs.filter fun g => g.index ≠ 0).Pairwise fun a b => a.index < b.index) (h : IsText sep gs L t) :
    t = join c!"\n" ((if (gs.filter fun g => g.index = 0 ∧ g.lang = L).map (·.text) = [] then [] else
        [combine sep ((gs.filter fun g => g.index = 0 ∧ g.lang = L).map (·.text))]) ++
      (gs.filter fun g => g.index ≠ 0 ∧ g.lang = L).map (·.text)) := by
  obtain ⟨ix, hp, hm, rfl⟩ := h
  have hs' : (gs.filter fun g => g.index ≠ 0 ∧ g.lang = L).Pairwise fun a b => a.index < b.index := by
    have := hs.filter (fun g => decide (g.lang = L))
    rw [List.filter_filter] at this
    refine (List.filter_congr ?_) ▸ this
    intro g _
    simp [and_comm]
  have hix : ix = (if (gs.filter fun g => g.index = 0 ∧ g.lang = L).map (·.text) = [] then [] else [0]) ++
      (gs.filter fun g => g.index ≠ 0 ∧ g.lang = L).map (·.index) := by
    apply Comments.sorted_ext hp
    · rw [List.pairwise_append]
      refine ⟨by split <;> simp, List.pairwise_map.2 hs', fun a ha b hb => ?_⟩
      obtain ⟨g, hg, rfl⟩ := List.mem_map.1 hb
      obtain ⟨hg1, hg2⟩ := List.mem_filter.1 hg
      have := h0 g hg1
      simp at hg2
      split at ha
      · simp at ha
      · simp at ha; subst ha; omega
    · intro i
      rw [hm, List.mem_append]
      constructor
      · rintro ⟨g, hg, hL, rfl⟩
        by_cases hz : g.index = 0
        · left
          have : (gs.filter fun g => g.index = 0 ∧ g.lang = L).map (·.text) ≠ [] := by
            intro hn
            rw [List.map_eq_nil_iff, List.filter_eq_nil_iff] at hn
            exact hn g hg (by simp [hz, hL])
          rw [if_neg this, hz]; simp
        · right
          exact List.mem_map.2 ⟨g, List.mem_filter.2 ⟨hg, by simp [hz, hL]⟩, rfl⟩
      · rintro (hi | hi)
        · split at hi
          · simp at hi
          · rename_i hn
            rw [List.mem_singleton] at hi
            rw [List.map_eq_nil_iff, List.filter_eq_nil_iff] at hn
            push Not at hn
            obtain ⟨g, hg, hg2⟩ := hn
            simp at hg2
            exact ⟨g, hg, hg2.2, by rw [hg2.1, hi]⟩
        · obtain ⟨g, hg, rfl⟩ := List.mem_map.1 hi
          obtain ⟨hg1, hg2⟩ := List.mem_filter.1 hg
          simp at hg2
          exact ⟨g, hg1, hg2.2, rfl⟩
  subst hix
  congr 1
  rw [List.map_append, List.map_map]
  congr 1
  · split <;> simp [textsOf]
  · apply List.map_congr_left
    intro g hg
    have hu := filter_unique hs' hg
    obtain ⟨hg1, hg2⟩ := List.mem_filter.1 hg
    simp at hg2
    have : textsOf gs g.index L = [g.text] := by
      unfold textsOf
      have h2 : gs.filter (fun e => e.index = g.index ∧ e.lang = L) = [g] := by
        rw [← hu, List.filter_filter]
        apply List.filter_congr
        intro e _
        simp only [Bool.decide_and]
        by_cases he : e.index = g.index
        · simp [he, hg2.1]
        · simp [he]
      rw [h2]; rfl
    simp only [Function.comp, this, LangText.combine_single]

/-- Merged entries, shown by language. -/
theorem shows_merged (t : LangText.TextCls) (gs : List Given) (hv : ∀ g ∈ gs, Visible g.text) :
    LangText.Shows t.sep gs (byLang (addMerged t [] (gs.map ofGiven))) := by
  rw [LangText.addMerged_eq]
  obtain ⟨h1, h2, h3⟩ := LangText.byLang_eq ((firstOccurrences (gs.map LangText.key)).map (LangText.merged t.sep gs)) (by
    intro e he
    obtain ⟨k, hk, rfl⟩ := List.mem_map.1 he
    exact LangText.merged_ne_nil _ _ hv _ (mem_firstOccurrences.1 hk))
  refine ⟨h1, fun L => ?_, fun p hp => ?_⟩
  · rw [h2]
    constructor
    · rintro ⟨e, he, rfl⟩
      obtain ⟨k, hk, rfl⟩ := List.mem_map.1 he
      obtain ⟨g, hg, rfl⟩ := List.mem_map.1 (mem_firstOccurrences.1 hk)
      exact ⟨g, hg, rfl⟩
    · rintro ⟨g, hg, rfl⟩
      exact ⟨_, List.mem_map_of_mem (mem_firstOccurrences.2 (List.mem_map_of_mem hg)), rfl⟩
  · rw [h3 p hp]
    exact LangText.langText_isText t.sep gs p.1

theorem paras_nil_iff {dflt : Option Str} {tgt : Target} {L : Str} {evs : List Ev} :
    paras dflt tgt L evs = [] ↔ own dflt tgt L evs = [] ∧ rest dflt tgt L evs = [] := by
  unfold paras
  by_cases h : own dflt tgt L evs = [] <;> simp [h]

/-- After a document, a field holds for each language the paragraphs of that language. -/
theorem run_shows {dflt : Option Str} {evs : List Ev} {n : Nat} {s : St} (hn : 0 < n)
    (h : run dflt ⟨n, [], []⟩ evs = .ok s) (tgt : Target) :
    ((byLang (s.get tgt)).map Prod.fst).Pairwise Before ∧
    ∀ L t, (L, t) ∈ byLang (s.get tgt) ↔ paras dflt tgt L evs ≠ [] ∧ t = join c!"\n" (paras dflt tgt L evs) := by
  have he := run_entries h tgt
  have h0 : (⟨n, [], []⟩ : St).get tgt = [] := by cases tgt <;> rfl
  rw [h0] at he
  obtain ⟨s1, s2, s3⟩ := shows_merged (base 32000) _ (givens_visible dflt tgt n evs)
  rw [← he] at s1 s2 s3
  have hi := givens_index dflt tgt n evs
  have hi0 : ∀ g ∈ givens dflt tgt n evs, 0 ≤ g.index := fun g hg => by have := hi g hg; omega
  have hs := givens_sorted dflt tgt n hn evs
  have key : ∀ L t, (L, t) ∈ byLang (s.get tgt) → t = join c!"\n" (paras dflt tgt L evs) := by
    intro L t hm
    have := isText_unique hi0 hs (s3 (L, t) hm)
    obtain ⟨t1, t2⟩ := givens_texts dflt tgt L n hn evs
    rw [t1, t2] at this
    exact this
  have hL : ∀ L, L ∈ (byLang (s.get tgt)).map Prod.fst ↔ paras dflt tgt L evs ≠ [] := by
    intro L
    rw [s2, Ne, paras_nil_iff]
    obtain ⟨t1, t2⟩ := givens_texts dflt tgt L n hn evs
    rw [← t1, ← t2, List.map_eq_nil_iff, List.filter_eq_nil_iff, List.map_eq_nil_iff, List.filter_eq_nil_iff]
    constructor
    · rintro ⟨g, hg, rfl⟩ ⟨a, b⟩
      have h1 := a g hg
      have h2 := b g hg
      simp at h1 h2
      exact h1 h2
    · intro hn
      by_contra hc
      push Not at hc
      apply hn
      constructor <;> intro g hg <;> simp [hc g hg]
  refine ⟨s1, fun L t => ⟨fun hm => ⟨(hL L).1 (List.mem_map.2 ⟨_, hm, rfl⟩), key L t hm⟩, ?_⟩⟩
  rintro ⟨hp, rfl⟩
  obtain ⟨⟨L', t'⟩, hm, rfl⟩ := List.mem_map.1 ((hL L).2 hp)
  rw [← key _ _ hm]; exact hm

/-! ### C101: the texts arrive -/

theorem row_of (f : Field) : ∃ r, Spec.table.find? (fun r => r.element = f.name) = some r ∧ r ∈ Spec.table ∧
    r.element = f.name ∧ r.field = f.target.name ∧ r.heading = f.label ∧ r.noneIsNothing = f.skips := by
  cases f <;> exact ⟨_, rfl, by simp [Spec.table], rfl, rfl, rfl, rfl⟩

theorem row_unique : ∀ r ∈ Spec.table, Spec.table.find? (fun q => q.element = r.element) = some r := by
  intro r hr
  simp only [Spec.table, List.mem_cons, List.not_mem_nil, or_false] at hr
  rcases hr with rfl | rfl | rfl | rfl | rfl | rfl | rfl | rfl | rfl | rfl | rfl | rfl | rfl <;> rfl

theorem name_inj {a b : Target} : a.name = b.name ↔ a = b := by
  cases a <;> cases b <;> simp [Target.name]

theorem procedure_iff (f : Field) : f.name = c!"samplingProcedure" ↔ f = .procedure := by
  cases f <;> simp [Field.name]

/-- A mark does not begin in a text without its first letter. -/
theorem infix_after {a : Char} {q : Str} : ∀ {l t : Str}, a ∉ l → (a :: q) <:+: l ++ t → (a :: q) <:+: t
  | [], _, _, h => h
  | c :: l, t, hl, h => by
    rw [List.cons_append, List.infix_cons_iff] at h
    rcases h with h | h
    · obtain ⟨r, hr⟩ := h
      simp only [List.cons_append, List.cons.injEq] at hr
      exact absurd (by simp [hr.1]) hl
    · exact infix_after (fun hm => hl (by simp [hm])) h

theorem clean_foreign (f : Field) (t : Str) (h1 : f = .constants → ¬ c!"Energy: " <:+: t)
    (h2 : f = .devMethod → ¬ c!"Original ecoinvent System Model: " <:+: t) :
    f.clean (f.label ++ t) = .ok (f.label ++ t) := by
  cases f <;> try rfl
  · have h : ¬ c!"Original ecoinvent System Model: " <:+: Field.devMethod.label ++ t :=
      fun h => h2 rfl (infix_after (by decide) h)
    simp only [Field.clean, Comments.search_none Comments.marks_model h, Option.isSome_none, Bool.false_eq_true, if_false]
  · have h : ¬ c!"Energy: " <:+: Field.constants.label ++ t := fun h => h1 rfl (infix_after (by decide) h)
    have := Comments.unmarked_kept .typeError (Tables.inverse Tables.energy) (p := c!"Energy:")
      (text := Field.constants.label ++ t) (by decide) h
    simp only [Field.clean, this]

/-- The lines of the programme do not occur in an element. -/
def Own (f : Field) (x : XText) : Prop := ∀ t, Spec.textOf x = some t →
  (f = .constants → ¬ c!"Energy: " <:+: t) ∧ (f = .devMethod → ¬ c!"Original ecoinvent System Model: " <:+: t)

theorem left_eq (f : Field) (x : XText) :
    (∀ s, f.skips = true → x = .plain s → f.left x = .error .typeError) ∧
    ((f.skips = true → ∀ s, x ≠ .plain s) → ∀ t, Spec.textOf x = some t →
      f.left x = .ok (decide (f.skips = true ∧ t = c!"none"))) ∧
    ((f.skips = true → ∀ s, x ≠ .plain s) → Spec.textOf x = none →
      f.left x = .error .keyError ∨ f.left x = .ok false) := by
  refine ⟨?_, ?_, ?_⟩
  · rintro s hs rfl
    simp [Field.left, hs, XText.body]
  · intro h t ht
    by_cases hs : f.skips = true
    · cases x with
      | plain s => exact absurd rfl (h hs s)
      | tagged l t' =>
        simp only [Spec.textOf] at ht
        subst ht
        simp only [Field.left, hs, if_true, XText.body, true_and]
        congr 1
        by_cases hn : t = c!"none" <;> simp [hn]
    · simp [Field.left, hs]
  · intro h ht
    by_cases hs : f.skips = true
    · cases x with
      | plain s => exact absurd rfl (h hs s)
      | tagged l t' =>
        simp only [Spec.textOf] at ht
        subst ht
        left
        simp [Field.left, hs, XText.body]
    · right; simp [Field.left, hs]

/-- What an element gives, if it has none of the lines of the programme. -/
theorem res_foreign (dflt : Option Str) (f : Field) (x : XText) (h : Own f x) :
    ((∃ s, f.skips = true ∧ x = .plain s) → res dflt f x = .error .typeError) ∧
    ((f.skips = true → ∀ s, x ≠ .plain s) → Spec.textOf x = none → res dflt f x = .error .keyError) ∧
    ((f.skips = true → ∀ s, x ≠ .plain s) → ∀ t, Spec.textOf x = some t → (f.skips = true ∧ t = c!"none") →
      res dflt f x = .ok none) ∧
    ((f.skips = true → ∀ s, x ≠ .plain s) → ∀ t, Spec.textOf x = some t → ¬ (f.skips = true ∧ t = c!"none") →
      (∀ L, Spec.langOf dflt x = some L → L.length = 2 → res dflt f x = .ok (some (L, f.label ++ t))) ∧
      ((¬ ∃ L, Spec.langOf dflt x = some L ∧ L.length = 2) → res dflt f x = .error .valueError)) := by
  obtain ⟨l1, l2, l3⟩ := left_eq f x
  refine ⟨?_, ?_, ?_, ?_⟩
  · rintro ⟨s, hs, hx⟩
    simp only [res, l1 s hs hx]
  · intro h1 ht
    rcases l3 h1 ht with e | e <;> simp only [res, e, ht]
  · intro h1 t ht hn
    simp only [res, l2 h1 t ht, decide_eq_true hn]
  · intro h1 t ht hn
    have hc := clean_foreign f t (h t ht).1 (h t ht).2
    constructor
    · intro L hL h2
      simp only [res, l2 h1 t ht, decide_eq_false hn, ht, hc, hL, h2, if_true]
    · intro hx
      simp only [res, l2 h1 t ht, decide_eq_false hn, ht, hc]
      cases hL : Spec.langOf dflt x with
      | none => rfl
      | some L =>
        have : L.length ≠ 2 := fun h2 => hx ⟨L, hL, h2⟩
        simp only [if_neg this]

theorem readable_iff (dflt : Option Str) (f : Field) (x : XText) (h : Own f x) :
    (∃ r, res dflt f x = .ok r) ↔ Spec.Readable dflt (f.name, x) := by
  obtain ⟨r1, r2, r3, r4⟩ := res_foreign dflt f x h
  obtain ⟨r, hfind, hmem, he, _, _, hk⟩ := row_of f
  constructor
  · rintro ⟨q, hq⟩
    have hp : f.skips = true → ∀ s, x ≠ .plain s := by
      intro hs s hx
      rw [r1 ⟨s, hs, hx⟩] at hq; cases hq
    cases ht : Spec.textOf x with
    | none => rw [r2 hp ht] at hq; cases hq
    | some t =>
      refine ⟨r, hmem, he, t, ht, by rw [hk]; exact hp, ?_⟩
      rw [hk]
      by_cases hn : f.skips = true ∧ t = c!"none"
      · exact .inl hn
      · right
        by_contra hc
        rw [(r4 hp t ht hn).2 hc] at hq; cases hq
  · rintro ⟨r', hmem', he', t, ht, hp, hL⟩
    have hrr : r' = r := by
      have h1 := row_unique r' hmem'
      rw [show r'.element = f.name from he', hfind] at h1
      exact (Option.some.inj h1).symm
    subst hrr
    rw [hk] at hp hL
    by_cases hn : f.skips = true ∧ t = c!"none"
    · exact ⟨_, r3 hp t ht hn⟩
    · obtain ⟨L, h1, h2⟩ := hL.resolve_left hn
      exact ⟨_, (r4 hp t ht hn).1 L h1 h2⟩

theorem para_spec (dflt : Option Str) (tgt : Target) (L : Str) (f : Field) (x : XText) (h : Own f x)
    (hr : Spec.Readable dflt (f.name, x)) :
    para dflt tgt L f x = Spec.paragraph dflt tgt.name L (f.name, x) := by
  obtain ⟨r1, r2, r3, r4⟩ := res_foreign dflt f x h
  obtain ⟨r, hfind, hmem, he, hfd, hh, hk⟩ := row_of f
  obtain ⟨r', hmem', he', t, ht, hp, hL⟩ := hr
  have hrr : r' = r := by
    have h1 := row_unique r' hmem'
    rw [show r'.element = f.name from he', hfind] at h1
    exact (Option.some.inj h1).symm
  subst hrr
  rw [hk] at hp hL
  unfold Spec.paragraph para
  simp only [hfind, ht, hk, hh, hfd, name_inj]
  by_cases hn : f.skips = true ∧ t = c!"none"
  · rw [r3 hp t ht hn]
    simp [hn]
  · obtain ⟨L', h1, h2⟩ := hL.resolve_left hn
    rw [(r4 hp t ht hn).1 L' h1 h2, h1]
    simp only [Option.some.injEq, hn, not_false_eq_true, true_and]

theorem paras_spec (dflt : Option Str) (tgt : Target) (L : Str) (evs : List Ev) (hf : Spec.Foreign (Spec.docOf evs))
    (hr : ∀ e ∈ Spec.docOf evs, Spec.Readable dflt e) :
    paras dflt tgt L evs = Spec.paragraphs dflt tgt.name L (Spec.docOf evs) := by
  have key : own dflt tgt L evs =
        ((Spec.docOf evs).filter fun e => e.1 = c!"samplingProcedure").filterMap (Spec.paragraph dflt tgt.name L) ∧
      rest dflt tgt L evs =
        ((Spec.docOf evs).filter fun e => e.1 ≠ c!"samplingProcedure").filterMap (Spec.paragraph dflt tgt.name L) := by
    induction evs with
    | nil => exact ⟨rfl, rfl⟩
    | cons e l ih =>
      cases e with
      | other => exact ih hf hr
      | text f x =>
        have hd : Spec.docOf (.text f x :: l) = (f.name, x) :: Spec.docOf l := rfl
        rw [hd] at hf hr
        obtain ⟨i1, i2⟩ := ih (fun e he => hf e (by simp [he])) (fun e he => hr e (by simp [he]))
        have hown : Own f x := by
          intro t ht
          obtain ⟨a, b⟩ := hf _ List.mem_cons_self t ht
          exact ⟨fun e => a (by subst e; rfl), fun e => b (by subst e; rfl)⟩
        have hp := para_spec dflt tgt L f x hown (hr _ List.mem_cons_self)
        rw [hd]
        by_cases hproc : f = .procedure
        · have hn : f.name = c!"samplingProcedure" := (procedure_iff f).2 hproc
          rw [List.filter_cons_of_pos (by simp [hn]), List.filter_cons_of_neg (by simp [hn]), List.filterMap_cons, ← hp,
            ← i1, ← i2]
          simp only [own, rest, List.filterMap_cons, hproc, if_true]
          constructor <;> first | trivial | rfl
        · have hn : f.name ≠ c!"samplingProcedure" := fun h => hproc ((procedure_iff f).1 h)
          rw [List.filter_cons_of_neg (by simp [hn]), List.filter_cons_of_pos (by simp [hn]), List.filterMap_cons, ← hp,
            ← i1, ← i2]
          simp only [own, rest, List.filterMap_cons, hproc, if_false]
          constructor <;> first | trivial | rfl
  unfold paras Spec.paragraphs
  rw [key.1, key.2]

theorem own_of_foreign {evs : List Ev} (hf : Spec.Foreign (Spec.docOf evs)) {f : Field} {x : XText}
    (hm : .text f x ∈ evs) : Own f x := by
  intro t ht
  have : (f.name, x) ∈ Spec.docOf evs := List.mem_filterMap.2 ⟨_, hm, rfl⟩
  obtain ⟨a, b⟩ := hf _ this t ht
  exact ⟨fun e => a (by subst e; rfl), fun e => b (by subst e; rfl)⟩

theorem mem_docOf {evs : List Ev} {e : Str × XText} :
    e ∈ Spec.docOf evs ↔ ∃ f x, .text f x ∈ evs ∧ e = (f.name, x) := by
  unfold Spec.docOf
  rw [List.mem_filterMap]
  constructor
  · rintro ⟨v, hv, h⟩
    cases v with
    | other => cases h
    | text f x => cases h; exact ⟨f, x, hv, rfl⟩
  · rintro ⟨f, x, hv, rfl⟩
    exact ⟨_, hv, rfl⟩

/-- Texts of at most 32000 characters are written as they are. -/
theorem endMulti_fits {x : List Entry} {sent : Str → List Str} {ignore : Bool}
    (h : ∀ p ∈ byLang x, p.2.length ≤ 32000) : endMulti (base 32000) ignore sent x = .ok (byLang x) := by
  unfold endMulti
  generalize byLang x = l at h
  induction l with
  | nil => rfl
  | cons p l ih =>
    obtain ⟨k, s⟩ := p
    have hs : s.length ≤ 32000 := h (k, s) (by simp)
    have hp : LangText.pieces (base 32000) ignore sent s = .ok [s] := by
      simp [LangText.pieces, base, LangText.upper, Validators.limEnd, Validators.Limit.holds, hs, Nat.not_lt.2 hs]
    simp only [LangText.endValidate, hp, ih (fun p hp => h p (by simp [hp]))]
    rfl

/-- C101, for data sets without lines written by the programme itself and texts up to 32000 characters: if every
element is readable, the data set is converted, and each of the two fields is written in exactly the languages in
which one of its elements has a text, with the paragraphs of that language: the texts on the sampling procedure first
and then each text under its own heading, in the order of the document; nothing is lost, repeated or put into
the other field. -/
theorem texts_arrive_partial (dflt : Option Str) (evs : List Ev) (n : Nat) (hn : 0 < n)
    (hf : Spec.Foreign (Spec.docOf evs)) (hr : ∀ e ∈ Spec.docOf evs, Spec.Readable dflt e) (ignore : Bool)
    (sent : Str → List Str)
    (hfit : ∀ tgt : Target, ∀ L, (join c!"\n" (Spec.paragraphs dflt tgt.name L (Spec.docOf evs))).length ≤ 32000) :
    ∃ s, run dflt ⟨n, [], []⟩ evs = .ok s ∧ ∀ tgt : Target, ∃ out,
      endMulti (base 32000) ignore sent (s.get tgt) = .ok out ∧ (out.map Prod.fst).Pairwise Before ∧
      ∀ L t, (L, t) ∈ out ↔ Spec.paragraphs dflt tgt.name L (Spec.docOf evs) ≠ [] ∧
        t = join c!"\n" (Spec.paragraphs dflt tgt.name L (Spec.docOf evs)) := by
  obtain ⟨s, hs⟩ := (run_ok_iff dflt evs ⟨n, [], []⟩).2 fun f x hm =>
    (readable_iff dflt f x (own_of_foreign hf hm)).2 (hr _ (mem_docOf.2 ⟨f, x, hm, rfl⟩))
  refine ⟨s, hs, fun tgt => ?_⟩
  obtain ⟨h1, h2⟩ := run_shows hn hs tgt
  simp only [paras_spec dflt tgt _ evs hf hr] at h2
  refine ⟨_, endMulti_fits ?_, h1, h2⟩
  rintro ⟨L, t⟩ hp
  rw [((h2 L t).1 hp).2]
  exact hfit tgt L

/-- The data set is converted exactly if every element is readable. -/
theorem converted_iff (dflt : Option Str) (evs : List Ev) (s : St) (hf : Spec.Foreign (Spec.docOf evs)) :
    (∃ s', run dflt s evs = .ok s') ↔ ∀ e ∈ Spec.docOf evs, Spec.Readable dflt e := by
  rw [run_ok_iff]
  constructor
  · intro h e he
    obtain ⟨f, x, hm, rfl⟩ := mem_docOf.1 he
    exact (readable_iff dflt f x (own_of_foreign hf hm)).1 (h f x hm)
  · intro h f x hm
    exact (readable_iff dflt f x (own_of_foreign hf hm)).2 (h _ (mem_docOf.2 ⟨f, x, hm, rfl⟩))

/-- C101 in full is false: a deviation written without a language stops the conversion of the data set, though the same
text is accepted for the principles themselves. -/
theorem plain_deviation_stops (dflt : Option Str) (s : St) (t : Str) (rest : List Ev) :
    run dflt s (.text .devCutOff (.plain t) :: rest) = .error .typeError ∧
    ∃ s', run dflt s [.text .cutOff (.plain t)] = .ok s' := by
  constructor
  · exact run_error (a := []) s (by simp) rfl
  · refine (run_ok_iff dflt _ s).2 fun f x hm => ?_
    simp only [List.mem_singleton, Ev.text.injEq] at hm
    obtain ⟨rfl, rfl⟩ := hm
    exact ⟨_, rfl⟩

/-- So does a text without a language if the data set has no default, with a `ValueError`. -/
theorem no_language_stops (s : St) (t : Str) (rest : List Ev) :
    run none s (.text .cutOff (.tagged none (some t)) :: rest) = .error .valueError :=
  run_error (a := []) s (by simp) rfl

/-- A data set with texts in two languages, one of them by default. -/
def sample : List Ev := [
  .text .devMethod (.tagged (some c!"en") (some c!"none")),
  .other,
  .text .cutOff (.tagged (some c!"en") (some c!"5 %")),
  .text .cutOff (.tagged (some c!"de") (some c!"5 Prozent")),
  .text .treatment (.plain c!"linear"),
  .text .devTreatment (.tagged none (some c!"two inputs")),
  .text .procedure (.tagged (some c!"en") (some c!"one site")),
  .text .advice (.tagged (some c!"en") (some c!"with care"))]

theorem sample_foreign : Spec.Foreign (Spec.docOf sample) := by
  intro e he t ht
  simp only [sample, Spec.docOf, List.filterMap_cons, List.filterMap_nil, List.mem_cons, List.not_mem_nil, or_false] at he
  rcases he with rfl | rfl | rfl | rfl | rfl | rfl | rfl <;> cases ht <;> exact ⟨by decide, by decide⟩

theorem sample_readable : ∀ e ∈ Spec.docOf sample, Spec.Readable (some c!"en") e := by
  rw [← converted_iff _ _ ⟨1000, [], []⟩ sample_foreign]
  exact ⟨_, rfl⟩

example : ∃ s, run (some c!"en") ⟨1000, [], []⟩ sample = .ok s ∧
    endMulti (base 32000) false (fun s => [s]) s.sampling = .ok [
      (c!"de", c!"Data Cut-Off And Completeness Principles: 5 Prozent"),
      (c!"en", c!"one site\nData Cut-Off And Completeness Principles: 5 %\nUse Advice for Dataset: with care")] ∧
    endMulti (base 32000) false (fun s => [s]) s.extrapolations = .ok [
      (c!"en", c!"Data Treatment and Extrapolations Principles: linear\nDeviations from Data Treatment and Extrapolations Principles: two inputs")] := by
  refine ⟨_, rfl, ?_, ?_⟩ <;> decide +kernel

/-! ### C102: there and back -/

/-- A data set as the programme writes it. -/
structure Good (e : Ecs) : Prop where
  samplingLang : ∀ p ∈ e.sampling, p.1.length = 2 ∧ Visible p.2
  samplingOnce : (e.sampling.map Prod.fst).Nodup
  extrapLang : ∀ p ∈ e.extrapolations, p.1.length = 2 ∧ Visible p.2
  extrapOnce : (e.extrapolations.map Prod.fst).Nodup
  energy : e.energy ∈ Tables.energy.map Prod.fst
  model : Comments.Spec.OneLine e.model.2
  english : e.model.1 = c!"en"

/-- `e'` comes from `e` by a conversion to ILCD and one back: the elements are read in the order of the format with
any other elements between them; energy values and the system model are those of `Comments`, in English. -/
def Trip (e e' : Ecs) : Prop :=
  ∃ dflt evs n s, 0 < n ∧ texts evs = toIlcd e ∧ run dflt ⟨n, [], []⟩ evs = .ok s ∧
    e'.sampling = byLang (s.get .sampling) ∧ e'.extrapolations = byLang (s.get .extrapolations) ∧
    e'.energy ∈ Tables.energy.map Prod.fst ∧ Comments.Spec.OneLine e'.model.2 ∧ e'.model.1 = c!"en"

theorem own_texts (dflt : Option Str) (tgt : Target) (L : Str) (evs : List Ev) :
    own dflt tgt L evs = own dflt tgt L (texts evs) ∧ rest dflt tgt L evs = rest dflt tgt L (texts evs) := by
  induction evs with
  | nil => exact ⟨rfl, rfl⟩
  | cons e l ih =>
    cases e with
    | other => exact ih
    | text f x =>
      have : texts (.text f x :: l) = .text f x :: texts l := rfl
      rw [this]
      constructor
      · simp only [own, List.filterMap_cons] at ih ⊢
        rw [ih.1]
      · simp only [rest, List.filterMap_cons] at ih ⊢
        rw [ih.2]

theorem res_method (dflt : Option Str) (m : Str) (h : Comments.Spec.OneLine m) :
    res dflt .devMethod (.tagged (some c!"en") (some (c!"Original ecoinvent System Model: " ++ m))) =
      .ok (some (c!"en", c!"Deviations from LCI Method Principles: ")) := by
  have hd := congrArg Prod.snd ((Comments.deviation_text m).1 h)
  simp only [Comments.deviationComment] at hd
  have hl : Field.devMethod.left (.tagged (some c!"en") (some (c!"Original ecoinvent System Model: " ++ m))) = .ok false := by
    simp [Field.left, Field.skips, XText.body]
  have hc : Field.devMethod.clean (Field.devMethod.label ++ (c!"Original ecoinvent System Model: " ++ m)) =
      .ok c!"Deviations from LCI Method Principles: " := congrArg Except.ok hd
  simp only [res, hl, Spec.textOf, hc, Spec.langOf]
  rfl

theorem res_energy (dflt : Option Str) (c : Str) (h : c ∈ Tables.energy.map Prod.fst) :
    res dflt .constants (.tagged (some c!"en") (some (Comments.energyLine c))) =
      .ok (some (c!"en", c!"Modelling Constants: ")) := by
  have : ∀ c ∈ Tables.energy.map Prod.fst,
      Field.constants.clean (Field.constants.label ++ Comments.energyLine c) = .ok c!"Modelling Constants: " := by
    decide +kernel
  simp only [res, Field.left, Field.skips, Bool.false_eq_true, if_false, Spec.textOf, this c h, Spec.langOf]
  rfl

theorem res_other (dflt : Option Str) {f : Field} (h : f = .treatment ∨ f = .procedure) {L : Str} (hL : L.length = 2)
    (t : Str) : res dflt f (.tagged (some L) (some t)) = .ok (some (L, f.label ++ t)) := by
  rcases h with rfl | rfl <;>
    simp [res, Field.left, Field.skips, Spec.textOf, Field.clean, Field.label, Spec.langOf, hL]

/-- The text of a language of a list. -/
def ofLang (L : Str) (l : List (Str × Str)) : List Str := (l.filter fun p => p.1 = L).map Prod.snd

theorem ofLang_once {L : Str} {l : List (Str × Str)} (h : (l.map Prod.fst).Nodup) :
    (∃ t, (L, t) ∈ l ∧ ofLang L l = [t]) ∨ ((∀ t, (L, t) ∉ l) ∧ ofLang L l = []) := by
  induction l with
  | nil => right; simp [ofLang]
  | cons p l ih =>
    obtain ⟨k, u⟩ := p
    rw [List.map_cons, List.nodup_cons] at h
    by_cases hk : k = L
    · subst hk
      left
      refine ⟨u, by simp, ?_⟩
      simp only [ofLang, List.filter_cons_of_pos (p := fun p : Str × Str => decide (p.1 = k)) (a := (k, u)) (by simp)]
      rw [List.filter_eq_nil_iff.2]
      · rfl
      · intro q hq
        simp only [decide_eq_true_eq]
        intro e
        exact h.1 (List.mem_map.2 ⟨q, hq, e⟩)
    · have hf : ofLang L ((k, u) :: l) = ofLang L l := by
        simp [ofLang, hk]
      rw [hf]
      rcases ih h.2 with ⟨t, h1, h2⟩ | ⟨h1, h2⟩
      · exact .inl ⟨t, by simp [h1], h2⟩
      · right
        refine ⟨fun t hm => ?_, h2⟩
        rcases List.mem_cons.1 hm with e | e
        · cases e; exact hk rfl
        · exact h1 t e

theorem toIlcd_paras (dflt : Option Str) (e : Ecs) (h : Good e) (L : Str) :
    paras dflt .sampling L (toIlcd e) =
      (if ofLang L e.sampling = [] then [] else [join c!"; " (ofLang L e.sampling)]) ++
      (if L = c!"en" then [c!"Modelling Constants: "] else []) ∧
    paras dflt .extrapolations L (toIlcd e) =
      (if L = c!"en" then [c!"Deviations from LCI Method Principles: "] else []) ++
      (ofLang L e.extrapolations).map (c!"Data Treatment and Extrapolations Principles: " ++ ·) := by
  have hm := res_method dflt e.model.2 h.model
  have he := res_energy dflt e.energy h.energy
  have hn : ∀ f : Field, f.skips = true → res dflt f (.tagged (some c!"en") (some c!"none")) = .ok none := by
    intro f hf
    simp [res, Field.left, hf, XText.body]
  have hvis1 : Visible c!"Deviations from LCI Method Principles: " := by decide
  have hvis2 : Visible c!"Modelling Constants: " := by decide
  have hex : ∀ p ∈ e.extrapolations, ∀ tgt, para dflt tgt L .treatment (.tagged (some p.1) (some p.2)) =
      if Target.extrapolations = tgt ∧ p.1 = L then some (c!"Data Treatment and Extrapolations Principles: " ++ p.2) else none := by
    intro p hp tgt
    obtain ⟨h2, _⟩ := h.extrapLang p hp
    have hv : Visible (c!"Data Treatment and Extrapolations Principles: " ++ p.2) := ⟨'D', by simp, by decide⟩
    simp only [para, res_other dflt (.inl rfl) h2]
    simp only [Field.target, Field.label, hv, and_true]
  have hsa : ∀ p ∈ e.sampling, ∀ tgt, para dflt tgt L .procedure (.tagged (some p.1) (some p.2)) =
      if Target.sampling = tgt ∧ p.1 = L then some p.2 else none := by
    intro p hp tgt
    obtain ⟨h2, hv⟩ := h.samplingLang p hp
    simp only [para, res_other dflt (.inr rfl) h2]
    simp only [Field.target, Field.label, List.nil_append, hv, and_true]
  have hmap : ∀ (l : List (Str × Str)) (g : Str × Str → Option Str) (k : Str → Str),
      (∀ p ∈ l, g p = if p.1 = L then some (k p.2) else none) → l.filterMap g = (ofLang L l).map k := by
    intro l g k hg
    induction l with
    | nil => rfl
    | cons p l ih =>
      rw [List.filterMap_cons, hg p (by simp), ih (fun q hq => hg q (by simp [hq]))]
      by_cases hp : p.1 = L <;> simp [ofLang, hp]
  have hnone : ∀ (l : List (Str × Str)) (g : Str × Str → Option Str), (∀ p ∈ l, g p = none) → l.filterMap g = [] := by
    intro l g hg
    exact List.filterMap_eq_nil_iff.2 hg
  have hen : ∀ tgt f x p, res dflt f x = .ok (some (c!"en", p)) → Visible p → para dflt tgt L f x =
      if f.target = tgt ∧ L = c!"en" then some p else none := by
    intro tgt f x p hr hv
    simp only [para, hr, hv, and_true, eq_comm]
  have hno : ∀ tgt f x, res dflt f x = .ok none → para dflt tgt L f x = none := by
    intro tgt f x hr
    simp only [para, hr]
  have o : ∀ tgt, own dflt tgt L (toIlcd e) = if tgt = .sampling then ofLang L e.sampling else [] := by
    intro tgt
    simp only [own, toIlcd, List.filterMap_append, List.filterMap_map, List.filterMap_cons, List.filterMap_nil,
      reduceCtorEq, if_false]
    rw [hnone e.extrapolations _ (by intro p hp; simp [Function.comp])]
    simp only [List.nil_append]
    cases tgt with
    | sampling =>
      rw [hmap e.sampling _ id (by intro p hp; simp [Function.comp, hsa p hp])]
      simp
    | extrapolations =>
      rw [hnone e.sampling _ (by intro p hp; simp [Function.comp, hsa p hp])]
      simp
  have r : ∀ tgt, rest dflt tgt L (toIlcd e) =
      if tgt = .sampling then (if L = c!"en" then [c!"Modelling Constants: "] else [])
      else (if L = c!"en" then [c!"Deviations from LCI Method Principles: "] else []) ++
        (ofLang L e.extrapolations).map (c!"Data Treatment and Extrapolations Principles: " ++ ·) := by
    intro tgt
    simp only [rest, toIlcd, List.filterMap_append, List.filterMap_map, List.filterMap_cons, List.filterMap_nil,
      reduceCtorEq, if_false, h.english]
    rw [hen tgt _ _ _ hm hvis1, hen tgt _ _ _ he hvis2, hno tgt _ _ (hn .devCutOff rfl), hno tgt _ _ (hn .devSelection rfl),
      hno tgt _ _ (hn .devTreatment rfl), hnone e.sampling _ (by intro p hp; simp [Function.comp])]
    cases tgt with
    | sampling =>
      rw [hnone e.extrapolations _ (by intro p hp; simp [Function.comp, hex p hp])]
      by_cases hL : L = c!"en" <;> simp [Field.target, hL]
    | extrapolations =>
      rw [hmap e.extrapolations _ (c!"Data Treatment and Extrapolations Principles: " ++ ·)
        (by intro p hp; simp [Function.comp, hex p hp])]
      by_cases hL : L = c!"en" <;> simp [Field.target, hL]
  constructor
  · simp only [paras, o, r, if_true]
  · simp only [paras, o, r]
    simp

/-- The texts after one conversion there and back, exactly. -/
theorem trip_texts {e e' : Ecs} (h : Good e) (ht : Trip e e') :
    (∀ L t, (L, t) ∈ e'.sampling ↔
      (∃ u, (L, u) ∈ e.sampling ∧ t = if L = c!"en" then u ++ c!"\nModelling Constants: " else u) ∨
      ((∀ u, (L, u) ∉ e.sampling) ∧ L = c!"en" ∧ t = c!"Modelling Constants: ")) ∧
    (∀ L t, (L, t) ∈ e'.extrapolations ↔
      (∃ u, (L, u) ∈ e.extrapolations ∧ t = (if L = c!"en" then c!"Deviations from LCI Method Principles: \n" else []) ++
        c!"Data Treatment and Extrapolations Principles: " ++ u) ∨
      ((∀ u, (L, u) ∉ e.extrapolations) ∧ L = c!"en" ∧ t = c!"Deviations from LCI Method Principles: ")) := by
  obtain ⟨dflt, evs, n, s, hn, hx, hrun, e1, e2, _⟩ := ht
  have hp : ∀ tgt L, paras dflt tgt L evs = paras dflt tgt L (toIlcd e) := by
    intro tgt L
    obtain ⟨a, b⟩ := own_texts dflt tgt L evs
    rw [paras, a, b, hx]; rfl
  have uniq : ∀ (l : List (Str × Str)), (l.map Prod.fst).Nodup → ∀ {L u v}, (L, u) ∈ l → (L, v) ∈ l → u = v := by
    intro l hl L u v hu hv
    rcases ofLang_once (L := L) hl with ⟨w, _, hw⟩ | ⟨hw, _⟩
    · have mem : ∀ {z}, (L, z) ∈ l → z = w := by
        intro z hz
        have : z ∈ ofLang L l := List.mem_map.2 ⟨(L, z), List.mem_filter.2 ⟨hz, by simp⟩, rfl⟩
        rw [hw] at this
        exact List.mem_singleton.1 this
      rw [mem hu, mem hv]
    · exact absurd hu (hw u)
  constructor
  · intro L t
    rw [e1, (run_shows hn hrun .sampling).2, hp, (toIlcd_paras dflt e h L).1]
    rcases ofLang_once (L := L) h.samplingOnce with ⟨w, hw1, hw2⟩ | ⟨hw1, hw2⟩
    · rw [hw2]
      have hj : join c!"; " [w] = w := by simp [join]
      simp only [List.cons_ne_self, reduceCtorEq, if_false, hj]
      constructor
      · rintro ⟨_, rfl⟩
        left
        refine ⟨w, hw1, ?_⟩
        by_cases hL : L = c!"en"
        · rw [if_pos hL, if_pos hL]; simp [join]
        · rw [if_neg hL, if_neg hL]; simp [join]
      · rintro (⟨u, hu, rfl⟩ | ⟨hu, _⟩)
        · rw [uniq _ h.samplingOnce hu hw1]
          refine ⟨by simp, ?_⟩
          by_cases hL : L = c!"en"
          · rw [if_pos hL, if_pos hL]; simp [join]
          · rw [if_neg hL, if_neg hL]; simp [join]
        · exact absurd hw1 (hu w)
    · rw [hw2]
      simp only [if_true, List.nil_append]
      by_cases hL : L = c!"en"
      · rw [if_pos hL]
        constructor
        · rintro ⟨_, rfl⟩
          exact .inr ⟨hw1, hL, by simp [join]⟩
        · rintro (⟨u, hu, _⟩ | ⟨_, _, rfl⟩)
          · exact absurd hu (hw1 u)
          · exact ⟨by simp, by simp [join]⟩
      · rw [if_neg hL]
        simp [hL, hw1]
  · intro L t
    rw [e2, (run_shows hn hrun .extrapolations).2, hp, (toIlcd_paras dflt e h L).2]
    rcases ofLang_once (L := L) h.extrapOnce with ⟨w, hw1, hw2⟩ | ⟨hw1, hw2⟩
    · rw [hw2]
      constructor
      · rintro ⟨_, rfl⟩
        left
        refine ⟨w, hw1, ?_⟩
        by_cases hL : L = c!"en"
        · rw [if_pos hL, if_pos hL]; simp [join]
        · rw [if_neg hL, if_neg hL]; simp [join]
      · rintro (⟨u, hu, rfl⟩ | ⟨hu, _⟩)
        · rw [uniq _ h.extrapOnce hu hw1]
          refine ⟨by simp, ?_⟩
          by_cases hL : L = c!"en"
          · rw [if_pos hL, if_pos hL]; simp [join]
          · rw [if_neg hL, if_neg hL]; simp [join]
        · exact absurd hw1 (hu w)
    · rw [hw2]
      simp only [List.map_nil, List.append_nil]
      by_cases hL : L = c!"en"
      · rw [if_pos hL]
        constructor
        · rintro ⟨_, rfl⟩
          exact .inr ⟨hw1, hL, by simp [join]⟩
        · rintro (⟨u, hu, _⟩ | ⟨_, _, rfl⟩)
          · exact absurd hu (hw1 u)
          · exact ⟨by simp, by simp [join]⟩
      · rw [if_neg hL]
        simp [hL, hw1]

theorem before_nodup {l : List Str} (h : l.Pairwise Before) : l.Nodup := by
  refine h.imp ?_
  rintro a b hb rfl
  exact LangText.not_before_self a hb

/-- The result can be converted again. -/
theorem trip_good {e e' : Ecs} (h : Good e) (ht : Trip e e') : Good e' := by
  obtain ⟨t1, t2⟩ := trip_texts h ht
  obtain ⟨dflt, evs, n, s, hn, hx, hrun, e1, e2, e3, e4, e5⟩ := ht
  refine ⟨?_, ?_, ?_, ?_, e3, e4, e5⟩
  · rintro ⟨L, t⟩ hp
    rcases (t1 L t).1 hp with ⟨u, hu, rfl⟩ | ⟨_, rfl, rfl⟩
    · obtain ⟨h2, c, hc, hv⟩ := h.samplingLang _ hu
      refine ⟨h2, c, ?_, hv⟩
      simp only
      split
      · exact List.mem_append_left _ hc
      · exact hc
    · exact ⟨rfl, by decide⟩
  · rw [e1]; exact before_nodup (run_shows hn hrun .sampling).1
  · rintro ⟨L, t⟩ hp
    rcases (t2 L t).1 hp with ⟨u, hu, rfl⟩ | ⟨_, rfl, rfl⟩
    · obtain ⟨h2, _⟩ := h.extrapLang _ hu
      refine ⟨h2, 'D', ?_, by decide⟩
      simp
    · exact ⟨rfl, by decide⟩
  · rw [e2]; exact before_nodup (run_shows hn hrun .extrapolations).1

/-- Such a conversion never fails for these texts, whatever stands between the elements. -/
theorem trip_exists (e : Ecs) (h : Good e) (dflt : Option Str) (evs : List Ev) (hx : texts evs = toIlcd e) (s : St) :
    ∃ s', run dflt s evs = .ok s' := by
  refine (run_ok_iff dflt evs s).2 fun f x hm => ?_
  have hm' : .text f x ∈ toIlcd e := by
    rw [← hx]; exact List.mem_filter.2 ⟨hm, rfl⟩
  simp only [toIlcd, h.english, List.cons_append, List.nil_append, List.mem_cons, List.mem_append, List.mem_map,
    Ev.text.injEq, List.not_mem_nil, or_false] at hm'
  rcases hm' with ⟨rfl, rfl⟩ | ⟨rfl, rfl⟩ | ⟨rfl, rfl⟩ | ⟨rfl, rfl⟩ | (⟨p, hp, rfl, rfl⟩ | ⟨rfl, rfl⟩) | ⟨p, hp, rfl, rfl⟩
  · exact ⟨_, res_method dflt _ h.model⟩
  · exact ⟨_, res_energy dflt _ h.energy⟩
  · exact ⟨_, rfl⟩
  · exact ⟨_, rfl⟩
  · exact ⟨_, res_other dflt (.inl rfl) (h.extrapLang p hp).1 _⟩
  · exact ⟨_, rfl⟩
  · exact ⟨_, res_other dflt (.inr rfl) (h.samplingLang p hp).1 _⟩

/-- Several conversions there and back. -/
inductive Trips : Nat → Ecs → Ecs → Prop
  | zero (e : Ecs) : Trips 0 e e
  | succ {n e e' e''} : Trips n e e' → Trip e' e'' → Trips (n + 1) e e''

theorem times_comm (n : Nat) (s : Str) : Spec.times n s ++ s = Spec.times (n + 1) s := by
  induction n with
  | zero => simp [Spec.times]
  | succ n ih => rw [Spec.times, List.append_assoc, ih]; rfl

/-- C102 is false for English texts: after `n` conversions there and back the sampling procedure has `n` empty
paragraphs on modelling constants and the extrapolations have `n` times two headings in front. -/
theorem english_grows {n : Nat} {e e' : Ecs} (h : Good e) (ht : Trips n e e') :
    Good e' ∧
    (∀ u, (c!"en", u) ∈ e.sampling → (c!"en", u ++ Spec.times n c!"\nModelling Constants: ") ∈ e'.sampling) ∧
    (∀ u, (c!"en", u) ∈ e.extrapolations → (c!"en", Spec.times n
      c!"Deviations from LCI Method Principles: \nData Treatment and Extrapolations Principles: " ++ u) ∈
        e'.extrapolations) := by
  induction ht with
  | zero e => exact ⟨h, fun u hu => by simpa [Spec.times] using hu, fun u hu => by simpa [Spec.times] using hu⟩
  | succ h1 h2 ih =>
    obtain ⟨g, i1, i2⟩ := ih h
    obtain ⟨t1, t2⟩ := trip_texts g h2
    refine ⟨trip_good g h2, fun u hu => ?_, fun u hu => ?_⟩
    · refine (t1 _ _).2 (.inl ⟨_, i1 u hu, ?_⟩)
      rw [if_pos rfl, List.append_assoc, times_comm]
    · refine (t2 _ _).2 (.inl ⟨_, i2 u hu, ?_⟩)
      rw [if_pos rfl, Spec.times]
      simp

/-- C102 for the other languages: the sampling procedure is unchanged after any number of conversions. -/
theorem other_language_kept_partial {n : Nat} {e e' : Ecs} (h : Good e) (ht : Trips n e e') (L t : Str)
    (hL : L ≠ c!"en") : (L, t) ∈ e'.sampling ↔ (L, t) ∈ e.sampling := by
  induction ht with
  | zero e => exact Iff.rfl
  | succ h1 h2 ih =>
    rw [← ih h, (trip_texts (english_grows h h1).1 h2).1]
    simp [hL]

/-- The extrapolations get one more heading each time in every language. -/
theorem other_language_heading {n : Nat} {e e' : Ecs} (h : Good e) (ht : Trips n e e') (L t : Str)
    (hL : L ≠ c!"en") : (L, t) ∈ e'.extrapolations ↔
      ∃ u, (L, u) ∈ e.extrapolations ∧ t = Spec.times n c!"Data Treatment and Extrapolations Principles: " ++ u := by
  induction ht generalizing t with
  | zero e => simp [Spec.times]
  | succ h1 h2 ih =>
    rw [(trip_texts (english_grows h h1).1 h2).2]
    simp only [hL, if_false, List.nil_append, false_and, and_false, or_false]
    constructor
    · rintro ⟨u, hu, rfl⟩
      obtain ⟨v, hv, rfl⟩ := (ih h u).1 hu
      exact ⟨v, hv, by rw [Spec.times, List.append_assoc]⟩
    · rintro ⟨v, hv, rfl⟩
      exact ⟨_, (ih h _).2 ⟨v, hv, rfl⟩, by rw [Spec.times, List.append_assoc]⟩

/-- A data set that said nothing about sampling or extrapolation says something empty after one conversion. -/
theorem silence_lost {e e' : Ecs} (h : Good e) (ht : Trip e e') (h1 : e.sampling = []) (h2 : e.extrapolations = []) :
    e'.sampling ≠ [] ∧ e'.extrapolations ≠ [] := by
  obtain ⟨t1, t2⟩ := trip_texts h ht
  constructor
  · intro hn
    have := (t1 c!"en" c!"Modelling Constants: ").2 (.inr ⟨by simp [h1], rfl, rfl⟩)
    rw [hn] at this; simp at this
  · intro hn
    have := (t2 c!"en" c!"Deviations from LCI Method Principles: ").2 (.inr ⟨by simp [h2], rfl, rfl⟩)
    rw [hn] at this; simp at this

def ecsSample : Ecs :=
  ⟨[(c!"de", c!"ein Betrieb"), (c!"en", c!"one site")], [(c!"en", c!"linear")], c!"1", (c!"en", c!"Undefined")⟩

theorem ecsSample_good : Good ecsSample :=
  ⟨by decide, by decide, by decide, by decide, by decide, by unfold Comments.Spec.OneLine; decide, rfl⟩

/-- The hypotheses are met by a data set converted twice. -/
example : ∃ e', Trips 2 ecsSample e' := by
  have go : ∀ e, Good e → ∃ e', Trip e e' := by
    intro e h
    obtain ⟨s, hs⟩ := trip_exists e h none (toIlcd e) (by
      unfold texts
      rw [List.filter_eq_self]
      intro v hv
      simp only [toIlcd, List.mem_append, List.mem_cons, List.mem_map, List.not_mem_nil, or_false] at hv
      rcases hv with ((((rfl | rfl | rfl | rfl)) | ⟨p, _, rfl⟩) | rfl) | ⟨p, _, rfl⟩ <;> rfl) ⟨1000, [], []⟩
    refine ⟨⟨byLang (s.get .sampling), byLang (s.get .extrapolations), e.energy, e.model⟩, none, toIlcd e, 1000, s,
      by decide, ?_, hs, rfl, rfl, h.energy, h.model, h.english⟩
    unfold texts
    rw [List.filter_eq_self]
    intro v hv
    simp only [toIlcd, List.mem_append, List.mem_cons, List.mem_map, List.not_mem_nil, or_false] at hv
    rcases hv with ((((rfl | rfl | rfl | rfl)) | ⟨p, _, rfl⟩) | rfl) | ⟨p, _, rfl⟩ <;> rfl
  obtain ⟨e1, h1⟩ := go _ ecsSample_good
  obtain ⟨e2, h2⟩ := go e1 (trip_good ecsSample_good h1)
  exact ⟨e2, .succ (.succ (.zero _) h1) h2⟩

end Verif.RepTexts
