/-
What one element does to the data set.
-/
import Verif.Spec.Naming
import Verif.Props.LangText
import Verif.Props.CommentsBack
import Verif.Lemmas.Assoc
import Mathlib.Data.List.Induction

namespace Verif.Naming
open Verif.LangText Spec
open Verif.LangText.Spec (Has Visible Given)

theorem bind_ok {α β : Type} {x : Py α} {f : α → Py β} {b : β} :
    (x >>= f) = .ok b ↔ ∃ a, x = .ok a ∧ f a = .ok b := by
  cases x with
  | error e => simp [bind, Except.bind]
  | ok a => simp [bind, Except.bind]

theorem pure_ok {α : Type} {a b : α} : (pure a : Py α) = .ok b ↔ b = a := by
  simp [pure, Except.pure, eq_comm]

/-! ### Texts -/

theorem aget_has {d : List (Str × PyVal)} {k : Str} {v : PyVal} : aget k d = some v ↔ Has d k v := by
  induction d with
  | nil => simp [aget, Has]
  | cons p d ih =>
    obtain ⟨k', v'⟩ := p
    by_cases h : k' = k
    · subst h
      simp only [aget, if_true, Option.some.injEq]
      constructor
      · rintro rfl; exact ⟨[], d, rfl, by simp⟩
      · rintro ⟨a, b, h1, h2⟩
        cases a with
        | nil => simp at h1; exact h1.1
        | cons q a =>
          simp at h1
          exact absurd (by rw [← h1.1]) (h2 q (by simp))
    · simp only [aget, if_neg h, ih]
      constructor
      · rintro ⟨a, b, rfl, h2⟩
        exact ⟨(k', v') :: a, b, rfl, by
          intro p hp
          rcases List.mem_cons.1 hp with rfl | hp
          · exact h
          · exact h2 p hp⟩
      · rintro ⟨a, b, h1, h2⟩
        cases a with
        | nil => simp at h1; exact absurd h1.1.1 h
        | cons q a =>
          simp at h1
          exact ⟨a, b, h1.2, fun p hp => h2 p (by simp [hp])⟩

theorem aget_absent {d : List (Str × PyVal)} {k : Str} : aget k d = none ↔ ∀ p ∈ d, p.1 ≠ k := by
  induction d with
  | nil => simp [aget]
  | cons p d ih =>
    obtain ⟨k', v'⟩ := p
    by_cases h : k' = k
    · simp [aget, h]
    · simp [aget, h, ih]

theorem textAt_iff {x : PyVal} {s : Str} : textAt x = .ok s ↔ ∃ d, x = .dict d ∧ Has d c!"#text" (.str s) := by
  constructor
  · intro h
    cases x with
    | dict d =>
      refine ⟨d, rfl, ?_⟩
      rw [← aget_has]
      simp only [textAt] at h
      split at h
      · cases h
      · rename_i heq; cases h; exact heq
      · cases h
    | _ => simp [textAt] at h
  · rintro ⟨d, rfl, h⟩
    rw [← aget_has] at h
    simp only [textAt, h]

/-- What a field with languages makes of an entry. -/
theorem validate_entry (langs : Option (List Str)) (i : Int) (v : PyVal) (s : Str) (e : Entry) :
    validateEntry langs (entryDict i v s) = .ok e ↔
      ∃ l, v = .str l ∧ l.length = 2 ∧ (∀ ls, langs = some ls → l ∈ ls) ∧ e = ⟨i, l, s⟩ := by
  have h : validateEntry langs (entryDict i v s) =
      match validateLang langs [(c!"@index", .int i), (c!"@lang", v), (c!"#text", .str s)] with
      | .error e => .error e
      | .ok l => .ok ⟨i, l, s⟩ := by
    simp [validateEntry, entryDict, validateText, dictGet, validateIndex, PyVal.toInt]
    rfl
  have hg : dictGet c!"@lang" [(c!"@index", .int i), (c!"@lang", v), (c!"#text", .str s)] = some v := by
    simp [dictGet]
  rw [h]
  simp only [validateLang, hg]
  cases v with
  | str l =>
    by_cases ho : langOk langs l = true
    · have := (langOk_iff langs l).1 ho
      simp only [ho, if_true, Except.ok.injEq, PyVal.str.injEq]
      constructor
      · rintro rfl; exact ⟨l, rfl, this.1, this.2, rfl⟩
      · rintro ⟨_, rfl, -, -, rfl⟩; rfl
    · have hn : ¬ (l.length = 2 ∧ ∀ ls, langs = some ls → l ∈ ls) := fun h => ho ((langOk_iff langs l).2 h)
      simp only [if_neg ho, PyVal.str.injEq, reduceCtorEq, false_iff]
      rintro ⟨l', rfl, h1, h2, _⟩
      exact hn ⟨h1, h2⟩
  | _ => simp

/-- The entries of a text: none if it does not show. -/
def shown (i : Int) (l s : Str) : List Entry := if Visible s then [⟨i, l, s⟩] else []

theorem retrieve_entry (langs : Option (List Str)) (i : Int) (v : PyVal) (s : Str) (es : List Entry) :
    retrieve (validateEntry langs) (entryDict i v s) = .ok es ↔
      ∃ l, v = .str l ∧ l.length = 2 ∧ (∀ ls, langs = some ls → l ∈ ls) ∧ es = shown i l s := by
  have ha : asList (entryDict i v s) = [entryDict i v s] := rfl
  simp only [retrieve, ha, validateAll]
  cases hv : validateEntry langs (entryDict i v s) with
  | error e =>
    simp only [reduceCtorEq, false_iff]
    rintro ⟨l, h1, h2, h3, -⟩
    rw [(validate_entry langs i v s ⟨i, l, s⟩).2 ⟨l, h1, h2, h3, rfl⟩] at hv
    cases hv
  | ok e =>
    obtain ⟨l, rfl, h2, h3, rfl⟩ := (validate_entry langs i v s e).1 hv
    have hf : List.filter (fun e => notBlank e.text) [(⟨i, l, s⟩ : Entry)] = shown i l s := by
      unfold shown
      by_cases hs : Visible s
      · simp [hs, (notBlank_iff s).2 hs]
      · have : notBlank s = false := by
          cases h : notBlank s
          · rfl
          · exact absurd ((notBlank_iff s).1 h) hs
        simp [hs, this]
    simp only [hf, Except.ok.injEq]
    constructor
    · rintro rfl; exact ⟨l, rfl, h2, h3, rfl⟩
    · rintro ⟨l', hl, _, _, rfl⟩
      injection hl with hl
      rw [hl]

/-- A text with a number, as it is taken by a field. -/
theorem addIndex_iff (x : PyVal) (i : Int) (o : PyVal) : addIndex x i = .ok o ↔
    ∃ s v, o = entryDict i v s ∧ ((x = .str s ∧ v = .str c!"en") ∨
      ∃ d, x = .dict d ∧ Has d c!"#text" (.str s) ∧
        (Has d c!"@lang" v ∨ ((∀ p ∈ d, p.1 ≠ c!"@lang") ∧ v = .str c!"en"))) := by
  cases x with
  | str s =>
    simp only [addIndex, Except.ok.injEq, PyVal.str.injEq, reduceCtorEq, false_and, exists_false, or_false]
    constructor
    · rintro rfl; exact ⟨s, _, rfl, rfl, rfl⟩
    · rintro ⟨_, _, rfl, rfl, rfl⟩; rfl
  | dict d =>
    simp only [addIndex, reduceCtorEq, false_and, PyVal.dict.injEq, false_or]
    cases ht : textAt (.dict d) with
    | error e =>
      simp only [reduceCtorEq, false_iff]
      rintro ⟨s, v, -, d', rfl, h, -⟩
      rw [textAt_iff.2 ⟨d, rfl, h⟩] at ht
      cases ht
    | ok s =>
      obtain ⟨d', hd, hs⟩ := textAt_iff.1 ht
      injection hd with hd
      subst hd
      simp only [Except.ok.injEq]
      constructor
      · rintro rfl
        refine ⟨s, _, rfl, d, rfl, hs, ?_⟩
        cases hg : aget c!"@lang" d with
        | none => right; exact ⟨aget_absent.1 hg, rfl⟩
        | some v => left; exact aget_has.1 hg
      · rintro ⟨s', v, rfl, d', rfl, h1, h2⟩
        rw [← aget_has] at h1 hs
        rw [h1] at hs
        injection hs with hs
        injection hs with hs
        subst hs
        rcases h2 with h2 | ⟨h2, rfl⟩
        · rw [aget_has.2 h2]; rfl
        · rw [aget_absent.2 h2]; rfl
  | _ => simp [addIndex]

theorem says_iff (x : PyVal) (i : Int) (l s : Str) :
    Says x l s ↔ addIndex x i = .ok (entryDict i (.str l) s) := by
  rw [addIndex_iff]
  constructor
  · intro h
    refine ⟨s, .str l, rfl, ?_⟩
    cases h with
    | bare => left; exact ⟨rfl, rfl⟩
    | tagged h1 h2 => right; exact ⟨_, rfl, h1, Or.inl h2⟩
    | untagged h1 h2 => right; exact ⟨_, rfl, h1, Or.inr ⟨h2, rfl⟩⟩
  · rintro ⟨s', v, he, h⟩
    simp only [entryDict, PyVal.dict.injEq, List.cons.injEq, Prod.mk.injEq, and_true, true_and,
      PyVal.str.injEq] at he
    obtain ⟨rfl, rfl⟩ := he
    rcases h with ⟨rfl, h⟩ | ⟨d, rfl, h1, h2 | ⟨h2, h⟩⟩
    · injection h with h; subst h; exact .bare s
    · exact .tagged h1 h2
    · injection h with h; subst h; exact .untagged h1 h2

theorem says_unique {x : PyVal} {l s l' s' : Str} (h : Says x l s) (h' : Says x l' s') : l = l' ∧ s = s' := by
  rw [says_iff x 0] at h h'
  rw [h] at h'
  injection h' with h'
  simp only [entryDict, PyVal.dict.injEq, List.cons.injEq, Prod.mk.injEq, and_true, true_and, PyVal.str.injEq] at h'
  exact h'

/-- A text added to a field of all languages. -/
theorem addIndex_addName (x : PyVal) (i : Int) (st r : List Entry) :
    (∃ o, addIndex x i = .ok o ∧ addName st o = .ok r) ↔
      ∃ l s, Says x l s ∧ l.length = 2 ∧ r = st ++ shown i l s := by
  constructor
  · rintro ⟨o, h1, h2⟩
    obtain ⟨s, v, rfl, h3⟩ := (addIndex_iff x i o).1 h1
    simp only [addName, addPlain] at h2
    cases hr : retrieve (validateEntry none) (entryDict i v s) with
    | error e => rw [hr] at h2; cases h2
    | ok es =>
      rw [hr] at h2
      obtain ⟨l, rfl, hl, -, rfl⟩ := (retrieve_entry none i v s es).1 hr
      injection h2 with h2
      exact ⟨l, s, (says_iff x i l s).2 h1, hl, h2.symm⟩
  · rintro ⟨l, s, h, hl, rfl⟩
    refine ⟨_, (says_iff x i l s).1 h, ?_⟩
    simp only [addName, addPlain, (retrieve_entry none i (.str l) s _).2 ⟨l, rfl, hl, by simp, rfl⟩]

theorem add_entry (t : TextCls) (langs : Option (List Str)) (st : List Entry) (i : Int) (v : PyVal) (s : Str)
    (r : List Entry) : add t (validateEntry langs) st (entryDict i v s) = .ok r ↔
      ∃ l, v = .str l ∧ l.length = 2 ∧ (∀ ls, langs = some ls → l ∈ ls) ∧ r = addMerged t st (shown i l s) := by
  simp only [add]
  constructor
  · intro h
    cases hr : retrieve (validateEntry langs) (entryDict i v s) with
    | error e => rw [hr] at h; cases h
    | ok es =>
      rw [hr] at h
      obtain ⟨l, rfl, hl, h3, rfl⟩ := (retrieve_entry langs i v s es).1 hr
      injection h with h
      exact ⟨l, rfl, hl, h3, h.symm⟩
  · rintro ⟨l, rfl, hl, h3, rfl⟩
    rw [(retrieve_entry langs i (.str l) s _).2 ⟨l, rfl, hl, h3, rfl⟩]

theorem setOnce_iff {ok : Str → Bool} {old : Option Str} {v : Str} {r : Option Str} :
    setOnce ok old v = .ok r ↔ old = none ∧ ok v = true ∧ r = some v := by
  unfold setOnce
  cases old with
  | some a => simp
  | none =>
    by_cases h : ok v = true <;> simp [h, eq_comm]

/-! ### What an element does -/

theorem step_uuid {env : Env} {st st' : State} {x : Str} : step env st (.uuid x) = .ok st' ↔
    ∃ u, env.conv x = .ok u ∧ uuidOk u = true ∧ st.id = none ∧ st.indexId = none ∧
      st' = { st with id := some u, indexId := some u } := by
  simp only [step, bind_ok, setOnce_iff, pure_ok]
  constructor
  · rintro ⟨u, h1, _, ⟨h2, h3, rfl⟩, _, ⟨h4, -, rfl⟩, rfl⟩
    exact ⟨u, h1, h3, h2, h4, rfl⟩
  · rintro ⟨u, h1, h3, h2, h4, rfl⟩
    exact ⟨u, h1, _, ⟨h2, h3, rfl⟩, _, ⟨h4, h3, rfl⟩, rfl⟩

/-- The part of a name added to the two names of the data set. -/
def withName (st : State) (l s : Str) : State :=
  { st with name := st.name ++ shown 1 l s, masterName := addMerged (base 120) st.masterName (shown 1 l s) }

theorem step_part {env : Env} {st st' : State} {x : PyVal} : step env st (.namePart x) = .ok st' ↔
    ∃ l s, Says x l s ∧ l.length = 2 ∧ st' = withName st l s := by
  simp only [step, bind_ok, pure_ok]
  constructor
  · rintro ⟨o, h1, n, h2, m, h3, rfl⟩
    obtain ⟨l, s, h, hl, rfl⟩ := (addIndex_addName x 1 st.name n).1 ⟨o, h1, h2⟩
    have ho := (says_iff x 1 l s).1 h
    rw [h1] at ho
    injection ho with ho
    subst ho
    obtain ⟨l', he, -, -, rfl⟩ := (add_entry _ _ _ _ _ _ _).1 h3
    injection he with he
    subst he
    exact ⟨l, s, h, hl, rfl⟩
  · rintro ⟨l, s, h, hl, rfl⟩
    obtain ⟨o, h1, h2⟩ := (addIndex_addName x 1 st.name _).2 ⟨l, s, h, hl, rfl⟩
    refine ⟨o, h1, _, h2, addMerged (base 120) st.masterName (shown 1 l s), ?_, rfl⟩
    have ho := (says_iff x 1 l s).1 h
    rw [h1] at ho
    injection ho with ho
    subst ho
    exact (add_entry _ _ _ _ _ _ _).2 ⟨l, rfl, hl, by simp, rfl⟩

theorem step_base {env : Env} {st st' : State} {x : PyVal} : step env st (.baseName x) = .ok st' ↔
    ∃ d l s, x = .dict d ∧ Says x l s ∧ l.length = 2 ∧
      st' = withName (setNameId st (some (env.hash s))) l s := by
  have hs : ∀ s, (textAt x = .ok s ∧ ∃ st'', step env st (.namePart x) = .ok st'' ∧
      st' = { setNameId st (some (env.hash s)) with name := st''.name, masterName := st''.masterName }) ↔
      ∃ d l, x = .dict d ∧ Says x l s ∧ l.length = 2 ∧ st' = withName (setNameId st (some (env.hash s))) l s := by
    intro s
    constructor
    · rintro ⟨h1, st'', h2, rfl⟩
      obtain ⟨l, s', h, hl, rfl⟩ := step_part.1 h2
      obtain ⟨d, rfl, hd⟩ := textAt_iff.1 h1
      have : s' = s := by
        cases h with
        | tagged h' _ => rw [← aget_has] at h' hd; rw [hd] at h'; injection h' with h'; injection h' with h'; exact h'.symm
        | untagged h' _ => rw [← aget_has] at h' hd; rw [hd] at h'; injection h' with h'; injection h' with h'; exact h'.symm
      subst this
      exact ⟨d, l, rfl, h, hl, rfl⟩
    · rintro ⟨d, l, rfl, h, hl, rfl⟩
      refine ⟨textAt_iff.2 ⟨d, rfl, ?_⟩, _, step_part.2 ⟨l, s, h, hl, rfl⟩, rfl⟩
      cases h with
      | tagged h _ => exact h
      | untagged h _ => exact h
  constructor
  · intro h
    simp only [step, bind_ok, pure_ok] at h
    obtain ⟨s, h1, o, h2, n, h3, m, h4, rfl⟩ := h
    obtain ⟨d, l, h⟩ := (hs s).1 ⟨h1, _, by
      simp only [step, bind_ok, pure_ok]; exact ⟨o, h2, n, h3, m, h4, rfl⟩, rfl⟩
    exact ⟨d, l, s, h⟩
  · rintro ⟨d, l, s, h⟩
    obtain ⟨h1, st'', h2, rfl⟩ := (hs s).2 ⟨d, l, h⟩
    simp only [step, bind_ok, pure_ok] at h2 ⊢
    obtain ⟨o, h2, n, h3, m, h4, rfl⟩ := h2
    exact ⟨s, h1, o, h2, n, h3, m, h4, rfl⟩

theorem step_comment {env : Env} {st st' : State} {x : PyVal} : step env st (.comment x) = .ok st' ↔
    ∃ l s g r p, Says x l s ∧ l.length = 2 ∧ Comments.generalComment s = .ok (g, r) ∧
      ((g.parent = none ∧ p = st.parent) ∨
        ∃ q, g.parent = some q ∧ st.parent = none ∧ uuidOk q = true ∧ p = some q) ∧
      st' = { setSpecial (setNameId st g.nameId) g.subtype with parent := p } := by
  simp only [step, bind_ok, pure_ok]
  have ht : ∀ (v : PyVal) (s : Str), textAt (entryDict 0 v s) = .ok s := by
    intro v s
    exact textAt_iff.2 ⟨_, rfl, [(c!"@index", .int 0), (c!"@lang", v)], [], rfl, by simp⟩
  constructor
  · rintro ⟨o, h1, s, h2, ⟨g, r⟩, h3, p, h4, e, h5, rfl⟩
    obtain ⟨s', v, rfl, -⟩ := (addIndex_iff x 0 o).1 h1
    rw [ht] at h2
    injection h2 with h2
    subst h2
    obtain ⟨l, rfl, hl, -, -⟩ := (validate_entry none 0 v s' e).1 h5
    refine ⟨l, s', g, r, p, (says_iff x 0 l s').2 h1, hl, h3, ?_, rfl⟩
    cases hp : g.parent with
    | none => left; simp only [hp, setParent, Except.ok.injEq] at h4; exact ⟨rfl, h4.symm⟩
    | some q =>
      right
      simp only [hp, setParent, setOnce_iff] at h4
      exact ⟨q, rfl, h4.1, h4.2.1, h4.2.2⟩
  · rintro ⟨l, s, g, r, p, h1, hl, h3, h4, rfl⟩
    refine ⟨_, (says_iff x 0 l s).1 h1, s, ht _ s, (g, r), h3, p, ?_, ⟨0, l, s⟩,
      (validate_entry none 0 _ s _).2 ⟨l, rfl, hl, by simp, rfl⟩, rfl⟩
    rcases h4 with ⟨h4, rfl⟩ | ⟨q, h4, h5, h6, rfl⟩
    · simp [h4, setParent]
    · simp only [h4, setParent, setOnce_iff]; exact ⟨h5, h6, trivial⟩

theorem step_year {env : Env} {st st' : State} {x : Str} : step env st (.year x) = .ok st' ↔
    env.dateOk (x ++ c!"-01-01") = true ∧ st.start = none ∧ st.indexStart = none ∧
      st' = { st with start := some (x ++ c!"-01-01"), indexStart := some (x ++ c!"-01-01") } := by
  simp only [step, bind_ok, setOnce_iff, pure_ok]
  constructor
  · rintro ⟨_, ⟨h2, h3, rfl⟩, _, ⟨h4, -, rfl⟩, rfl⟩
    exact ⟨h3, h2, h4, rfl⟩
  · rintro ⟨h3, h2, h4, rfl⟩
    exact ⟨_, ⟨h2, h3, rfl⟩, _, ⟨h4, h3, rfl⟩, rfl⟩

theorem step_until {env : Env} {st st' : State} {x : Str} : step env st (.validUntil x) = .ok st' ↔
    env.dateOk (x ++ c!"-12-31") = true ∧ st.stop = none ∧ st.indexStop = none ∧
      st' = { st with stop := some (x ++ c!"-12-31"), indexStop := some (x ++ c!"-12-31") } := by
  simp only [step, bind_ok, setOnce_iff, pure_ok]
  constructor
  · rintro ⟨_, ⟨h2, h3, rfl⟩, _, ⟨h4, -, rfl⟩, rfl⟩
    exact ⟨h3, h2, h4, rfl⟩
  · rintro ⟨h3, h2, h4, rfl⟩
    exact ⟨_, ⟨h2, h3, rfl⟩, _, ⟨h4, h3, rfl⟩, rfl⟩

theorem aget_listed {x g : Str} : aget x geographies = some g ↔ Listed x g := by
  unfold Listed
  generalize geographies = d
  induction d with
  | nil => simp [aget]
  | cons p d ih =>
    obtain ⟨k', v'⟩ := p
    by_cases h : k' = x
    · subst h
      simp only [aget, if_true, Option.some.injEq]
      constructor
      · rintro rfl; exact ⟨[], d, rfl, by simp⟩
      · rintro ⟨a, b, h1, h2⟩
        cases a with
        | nil => simp at h1; exact h1.1
        | cons q a =>
          simp at h1
          exact absurd (by rw [← h1.1]) (h2 q (by simp))
    · simp only [aget, if_neg h, ih]
      constructor
      · rintro ⟨a, b, rfl, h2⟩
        exact ⟨(k', v') :: a, b, rfl, by
          intro p hp
          rcases List.mem_cons.1 hp with rfl | hp
          · exact h
          · exact h2 p hp⟩
      · rintro ⟨a, b, h1, h2⟩
        cases a with
        | nil => simp at h1; exact absurd h1.1.1 h
        | cons q a =>
          simp at h1
          exact ⟨a, b, h1.2, fun p hp => h2 p (by simp [hp])⟩

theorem aget_unlisted {x : Str} : aget x geographies = none ↔ Unlisted x := by
  unfold Unlisted
  generalize geographies = d
  induction d with
  | nil => simp [aget]
  | cons p d ih =>
    obtain ⟨k', v'⟩ := p
    by_cases h : k' = x
    · simp [aget, h]
    · simp [aget, h, ih]

/-- The entry of the master data made for a location that is not listed. -/
def geoEntry (hash : Str → Str) (x : Str) : GeoEntry := ⟨hash x, shown 1 c!"en" x, shown 1 c!"en" x⟩

theorem addMerged_nil_shown (t : TextCls) (i : Int) (l s : Str) : addMerged t [] (shown i l s) = shown i l s := by
  unfold shown
  split <;> rfl

theorem step_location {env : Env} {st st' : State} {x : Str} : step env st (.location x) = .ok st' ↔
    ∃ g, PlaceId env.hash x g ∧ uuidOk g = true ∧ st.geoId = none ∧ st.indexGeoId = none ∧
      st' = { st with
        shortname := addMerged (base 40) st.shortname (shown 1 c!"en" x)
        geoId := some g
        indexGeoId := some g
        geos := st.geos ++ (if aget x geographies = none then [geoEntry env.hash x] else []) } := by
  have he : ∀ n (y r : List Entry), addText n y (entryDict 1 (.str c!"en") x) = .ok r ↔
      r = addMerged (base n) y (shown 1 c!"en" x) := by
    intro n y r
    rw [addText, add_entry]
    constructor
    · rintro ⟨l, hl, -, -, rfl⟩; injection hl with hl; subst hl; rfl
    · rintro rfl; exact ⟨_, rfl, rfl, by simp, rfl⟩
  simp only [step, bind_ok, he, setOnce_iff, newGeography]
  cases hg : aget x geographies with
  | none =>
    simp only [Option.getD_none, bind_ok, he, setOnce_iff, pure_ok, addMerged_nil_shown, if_true]
    constructor
    · rintro ⟨_, rfl, _, ⟨h1, h2, rfl⟩, _, rfl, _, rfl, _, ⟨h3, -, rfl⟩, rfl⟩
      exact ⟨_, Or.inr ⟨aget_unlisted.1 hg, rfl⟩, h2, h1, h3, rfl⟩
    · rintro ⟨g, h0, h2, h1, h3, rfl⟩
      rcases h0 with h0 | ⟨-, rfl⟩
      · rw [aget_listed.2 h0] at hg; cases hg
      · exact ⟨_, rfl, _, ⟨h1, h2, rfl⟩, _, rfl, _, rfl, _, ⟨h3, h2, rfl⟩, rfl⟩
  | some g0 =>
    simp only [Option.getD_some, bind_ok, setOnce_iff, pure_ok, reduceCtorEq, if_false, List.append_nil]
    constructor
    · rintro ⟨_, rfl, _, ⟨h1, h2, rfl⟩, _, ⟨h3, -, rfl⟩, rfl⟩
      exact ⟨_, Or.inl (aget_listed.1 hg), h2, h1, h3, rfl⟩
    · rintro ⟨g, h0, h2, h1, h3, rfl⟩
      rcases h0 with h0 | ⟨h0, -⟩
      · rw [aget_listed.2 h0] at hg
        injection hg with hg
        subst hg
        exact ⟨_, rfl, _, ⟨h1, h2, rfl⟩, _, ⟨h3, h2, rfl⟩, rfl⟩
      · rw [aget_unlisted.2 h0] at hg; cases hg

theorem run_cons {env : Env} {st st' : State} {i : Item} {l : List Item} :
    run env st (i :: l) = .ok st' ↔ ∃ s, step env st i = .ok s ∧ run env s l = .ok st' := by
  have h : run env st (i :: l) = (step env st i >>= fun st => run env st l) := rfl
  rw [h, bind_ok]

theorem run_append {env : Env} {l m : List Item} {st st' : State} :
    run env st (l ++ m) = .ok st' ↔ ∃ s, run env st l = .ok s ∧ run env s m = .ok st' := by
  induction l generalizing st with
  | nil => simp [run]
  | cons i l ih =>
    rw [List.cons_append, run_cons]
    constructor
    · rintro ⟨s, h1, h2⟩
      obtain ⟨s', h3, h4⟩ := ih.1 h2
      exact ⟨s', run_cons.2 ⟨s, h1, h3⟩, h4⟩
    · rintro ⟨s', h3, h4⟩
      obtain ⟨s, h1, h2⟩ := run_cons.1 h3
      exact ⟨s, h1, ih.2 ⟨s', h2, h4⟩⟩

/-- A property kept by every element is kept by the conversion. -/
theorem run_induct {env : Env} {P : State → Prop} (hs : ∀ st st' i, P st → step env st i = .ok st' → P st')
    {l : List Item} {st st' : State} (h : run env st l = .ok st') (h0 : P st) : P st' := by
  induction l generalizing st with
  | nil => simp [run] at h; exact h ▸ h0
  | cons i l ih =>
    obtain ⟨s, h1, h2⟩ := run_cons.1 h
    exact ih h2 (hs st s i h0 h1)

theorem convert_iff {env : Env} {items : List Item} {original : Option Str} {approaches : List Str} {st : State} :
    convert env items original approaches = .ok st ↔ ∃ s m, run env {} items = .ok s ∧
      Comments.systemModelBack original approaches = .ok m ∧ uuidOk m.1 = true ∧ s.systemId = none ∧
      s.indexSystemId = none ∧ st = { s with systemId := some m.1, indexSystemId := some m.1 } := by
  simp only [convert, finish, bind_ok, setOnce_iff, pure_ok]
  constructor
  · rintro ⟨s, h1, m, h2, _, ⟨h3, h4, rfl⟩, _, ⟨h5, -, rfl⟩, rfl⟩
    exact ⟨s, m, h1, h2, h4, h3, h5, rfl⟩
  · rintro ⟨s, m, h1, h2, h4, h3, h5, rfl⟩
    exact ⟨s, h1, m, h2, _, ⟨h3, h4, rfl⟩, _, ⟨h5, h4, rfl⟩, rfl⟩

end Verif.Naming
