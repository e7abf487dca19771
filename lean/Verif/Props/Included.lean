/-
C153: the start and the end of the included activities come back in their languages.
-/
import Verif.Model.Included
import Verif.Spec.Included
import Verif.Props.CommentsBack
import Verif.Props.LangText

namespace Verif.Included
open Verif.Comments Verif.Comments.Spec Verif.Included.Spec
open Verif.LangText (Entry)

/-! ### One description -/

/-- The paragraphs before the marked lines. -/
def pre (others : List Str) : Str := join c!"\n" (others ++ [[]])

theorem pre_nil : pre [] = [] := rfl

theorem pre_eq {others : List Str} (h : others ≠ []) : pre others = join c!"\n" others ++ '\n' :: [] := by
  rw [pre, join_append_singleton _ _ _ h]
  simp

theorem join_pre (others : List Str) (l : Str) (ls : List Str) :
    join c!"\n" (others ++ l :: ls) = pre others ++ join c!"\n" (l :: ls) := by
  induction others with
  | nil => rfl
  | cons o os ih =>
    have hp : pre (o :: os) = o ++ '\n' :: pre os := by rw [pre, List.cons_append, join_cons (by simp), ← pre]
    rw [List.cons_append, join_cons (by simp), ih, hp]
    simp

section
variable {q : Str} {m : Matcher} {others : List Str}

theorem search_pre (hm : Marks q m) (h : ∀ x ∈ others, ¬ q <:+: x) (r : Str) : search m (pre others ++ r) = search m r := by
  by_cases ho : others = []
  · rw [ho, pre_nil]; rfl
  · rw [pre_eq ho, List.append_assoc]
    exact search_skip hm (not_infix_join hm.one hm.ne h)

theorem remove_pre (hm : Marks q m) (h : ∀ x ∈ others, ¬ q <:+: x) (r : Str) :
    remove m 0 (pre others ++ r) = pre others ++ remove m 0 r := by
  by_cases ho : others = []
  · rw [ho, pre_nil]; rfl
  · rw [pre_eq ho, List.append_assoc]
    have := remove_skip hm (r := r) (not_infix_join hm.one hm.ne h)
    simpa using this

theorem pre_clear (hq : '\n' ∉ q) (hne : q ≠ []) (h : ∀ x ∈ others, ¬ q <:+: x) : ¬ q <:+: pre others := by
  rw [pre]
  apply not_infix_join hq hne
  intro l hl
  rcases List.mem_append.1 hl with hl | hl
  · exact h l hl
  · simp only [List.mem_singleton] at hl
    subst hl
    simp [hne]
end

theorem marked_text (p : Part) : join c!"\n" p.lines =
    pre p.others ++ ((c!"Activity Start:" ++ c!" ") ++ (p.started ++ '\n' :: ((c!"Activity End:" ++ c!" ") ++ p.ended))) := by
  rw [Part.lines, join_pre]
  simp [join]

/-- One description: start and end are taken out, the paragraphs stay. -/
theorem part_read {p : Part} (h : p.Good) :
    techComment (join c!"\n" p.lines) = .ok (⟨some p.started, some p.ended, none⟩, pre p.others) := by
  have hs := fun x hx => h.others x hx c!"Activity Start: " (by decide)
  have he := fun x hx => h.others x hx c!"Activity End: " (by decide)
  have hl := fun x hx => h.others x hx c!"Technology Level: " (by decide)
  have hse : ¬ c!"Activity Start: " <:+: (c!"Activity End:" ++ c!" ") ++ p.ended := by
    simpa [List.infix_cons_iff, List.cons_prefix_cons] using h.clear
  rw [marked_text]
  have a1 : search startMatch (pre p.others ++ ((c!"Activity Start:" ++ c!" ") ++ (p.started ++ '\n' ::
      ((c!"Activity End:" ++ c!" ") ++ p.ended)))) = some p.started := by
    rw [search_pre marks_start hs]
    refine search_hit (k := 16 + p.started.length + 15) (by simp) ?_
    unfold startMatch
    rw [if_pos (startsWith_prefix.2 ⟨p.started ++ '\n' :: ((c!"Activity End:" ++ c!" ") ++ p.ended), by simp⟩)]
    have : List.drop 16 ((c!"Activity Start:" ++ c!" ") ++ (p.started ++ '\n' :: ((c!"Activity End:" ++ c!" ") ++ p.ended))) =
        p.started ++ '\n' :: ((c!"Activity End:" ++ c!" ") ++ p.ended) := drop_mark c!"Activity Start:" _
    rw [this]
    simp only [lineRest_line h.started, List.drop_left]
    rw [if_pos (startsWith_prefix.2 ⟨p.ended, by simp⟩)]
  have a2 : remove (listMatch c!"Activity Start:") 0 (pre p.others ++ ((c!"Activity Start:" ++ c!" ") ++ (p.started ++ '\n' ::
      ((c!"Activity End:" ++ c!" ") ++ p.ended)))) = pre p.others ++ ((c!"Activity End:" ++ c!" ") ++ p.ended) := by
    rw [remove_pre (marks_list (p := c!"Activity Start:") (by decide)) hs, removeList_line h.started,
      remove_none (marks_list (p := c!"Activity Start:") (by decide)) hse]
  have b1 : search (strMatch c!"Activity End:") (pre p.others ++ ((c!"Activity End:" ++ c!" ") ++ p.ended)) = some p.ended := by
    rw [search_pre (marks_str (p := c!"Activity End:") (by decide)) he, search_end h.ended]
  have b2 : remove (strMatch c!"Activity End:") 0 (pre p.others ++ ((c!"Activity End:" ++ c!" ") ++ p.ended)) = pre p.others := by
    rw [remove_pre (marks_str (p := c!"Activity End:") (by decide)) he, remove_end h.ended, List.append_nil]
  have l1 := unmarked_kept .typeError (Tables.inverse Tables.tech) (p := c!"Technology Level:") (text := pre p.others)
    (by decide) (pre_clear (by decide) (by decide) hl)
  unfold techComment
  simp only [a1, Option.isSome_some, if_true, a2, b1, b2, l1]

/-! ### All descriptions -/

/-- Texts of one index in English, joined. -/
def field (index : Int) (texts : List Str) : List Entry :=
  if texts = [] then [] else [⟨index, c!"en", join c!"; " texts⟩]

theorem setText_field (index : Int) (texts : List Str) (s : Str) (hs : ∃ c ∈ s, pySpace c = false) :
    setText index (field index texts) (some s) = .ok (field index (texts ++ [s])) := by
  have hb : LangText.notBlank s = true := (LangText.notBlank_iff s).2 hs
  have hv : LangText.validateEntry none (Naming.entryDict index (.str c!"en") s) = .ok ⟨index, c!"en", s⟩ := by
    simp [LangText.validateEntry, LangText.validateText, Naming.entryDict, LangText.dictGet, LangText.validateIndex,
      PyVal.toInt, LangText.validateLang, LangText.langOk]
  have ha : LangText.asList (Naming.entryDict index (.str c!"en") s) = [Naming.entryDict index (.str c!"en") s] := rfl
  simp only [setText, LangText.add, LangText.retrieve, ha, LangText.validateAll, hv, List.filter, hb]
  simp only [LangText.addMerged, List.foldl_cons, List.foldl_nil, Except.ok.injEq]
  by_cases ht : texts = []
  · subst ht; simp [field, LangText.mergeOne, join]
  · rw [field, if_neg ht, field, if_neg (by simp), LangText.mergeOne, if_pos ⟨rfl, rfl⟩, join_append_singleton _ _ _ ht]
    rfl

theorem back_all : ∀ (ps qs : List Part), (∀ p ∈ ps, p.Good) → ∀ lv cm,
    techBack ⟨field 1 (qs.map Part.started), field 2 (qs.map Part.ended), lv, cm⟩
      (ps.map fun p => (p.lang, join c!"\n" p.lines)) =
    .ok ⟨field 1 ((qs ++ ps).map Part.started), field 2 ((qs ++ ps).map Part.ended), lv,
      cm ++ ps.map fun p => (p.lang, pre p.others)⟩
  | [], qs, _, lv, cm => by simp [techBack]
  | p :: ps, qs, h, lv, cm => by
    have hp := h p (by simp)
    have h1 := setText_field 1 (qs.map Part.started) p.started hp.visible.1
    have h2 := setText_field 2 (qs.map Part.ended) p.ended hp.visible.2
    have ih := back_all ps (qs ++ [p]) (fun p hp => h p (by simp [hp])) lv (cm ++ [(p.lang, pre p.others)])
    simp only [List.map_append, List.map_cons, List.map_nil] at ih ⊢
    simp only [techBack, techStep, part_read hp, h1, h2]
    rw [ih]
    simp

theorem field_shown (index : Int) (texts : List Str) :
    LangText.byLang (field index texts) = if texts = [] then [] else [(c!"en", join c!"; " texts)] := by
  unfold field
  split
  · rfl
  · simp [LangText.byLang, sortBy, insertBy, LangText.concatLang]

/-- Whatever the languages, start and end are written in English, all languages joined by semicolons; the rest of
each description keeps its language. -/
theorem languages_joined (ps : List Part) (h : ∀ p ∈ ps, p.Good) :
    ∃ f, techBack .empty (ps.map fun p => (p.lang, join c!"\n" p.lines)) = .ok f ∧
      LangText.byLang f.started = (if ps = [] then [] else [(c!"en", join c!"; " (ps.map Part.started))]) ∧
      LangText.byLang f.ended = (if ps = [] then [] else [(c!"en", join c!"; " (ps.map Part.ended))]) ∧
      f.comment = ps.map fun p => (p.lang, join c!"\n" (p.others ++ [[]])) := by
  have := back_all ps [] h none []
  refine ⟨_, this, ?_, ?_, ?_⟩
  · simp only [List.nil_append, field_shown]; simp
  · simp only [List.nil_append, field_shown]; simp
  · simp [pre]

/-- Start and end come back in their languages exactly for data sets in English alone. -/
theorem kept_iff (ps : List Part) (h : ∀ p ∈ ps, p.Good) (f : Fields)
    (hf : techBack .empty (ps.map fun p => (p.lang, join c!"\n" p.lines)) = .ok f) :
    (LangText.byLang f.started = (ps.map fun p => (p.lang, p.started)) ∧
      LangText.byLang f.ended = ps.map fun p => (p.lang, p.ended)) ↔ ps = [] ∨ ∃ p, ps = [p] ∧ p.lang = c!"en" := by
  obtain ⟨f', h', hs, he, _⟩ := languages_joined ps h
  rw [hf] at h'
  cases h'
  rw [hs, he]
  match ps with
  | [] => simp
  | [p] => simp [join, eq_comm]
  | p :: q :: r => simp

/-- With one language other than English the text is kept and its language is lost. -/
theorem language_lost (p : Part) (h : p.Good) (hl : p.lang ≠ c!"en") : ∃ f,
    techBack .empty [(p.lang, join c!"\n" p.lines)] = .ok f ∧ LangText.byLang f.started = [(c!"en", p.started)] ∧
      LangText.byLang f.started ≠ [(p.lang, p.started)] := by
  obtain ⟨f, h', hs, _⟩ := languages_joined [p] (by simpa using h)
  refine ⟨f, h', by simpa [join] using hs, ?_⟩
  rw [hs]
  simp [Ne.symm hl]

/-! ### Several lines -/

/-- A start of several lines is not recognised: it stays in the comment, and the end is taken out of it. -/
theorem several_lines (first rest ended : Str) (h1 : OneLine first) (h2 : OneLine ended)
    (hr : ¬ c!"Activity Start: " <:+: rest ∧ ¬ c!"Activity End: " <:+: rest ∧ ¬ c!"Technology Level: " <:+: rest)
    (hf : ¬ c!"Activity Start: " <:+: first ∧ ¬ c!"Activity End: " <:+: first ∧ ¬ c!"Technology Level: " <:+: first)
    (he : ¬ c!"Activity Start: " <:+: ended) :
    techComment (join c!"\n" [c!"Activity Start: " ++ first, rest, c!"Activity End: " ++ ended]) =
      .ok (⟨none, some ended, none⟩, c!"Activity Start: " ++ first ++ c!"\n" ++ rest ++ c!"\n") := by
  have hse : ¬ c!"Activity Start: " <:+: (c!"Activity End:" ++ c!" ") ++ ended := by
    simpa [List.infix_cons_iff, List.cons_prefix_cons] using he
  have hT : join c!"\n" [c!"Activity Start: " ++ first, rest, c!"Activity End: " ++ ended] =
      c!"Activity Start: " ++ (first ++ '\n' :: (rest ++ '\n' :: ((c!"Activity End:" ++ c!" ") ++ ended))) := by
    simp [join]
  have hmis : ∀ s : Str, ¬ c!"Activity End: " <:+: rest → startMatch (c!"Activity Start: " ++ (first ++ '\n' :: (rest ++ '\n' :: s))) = none := by
    intro s hre
    unfold startMatch
    rw [if_pos (startsWith_prefix.2 ⟨first ++ '\n' :: (rest ++ '\n' :: s), rfl⟩)]
    have : List.drop 16 (c!"Activity Start: " ++ (first ++ '\n' :: (rest ++ '\n' :: s))) =
        first ++ '\n' :: (rest ++ '\n' :: s) := drop_mark c!"Activity Start:" _
    rw [this]
    simp only [lineRest_line h1, List.drop_left]
    rw [if_neg]
    intro hc
    rw [startsWith_prefix] at hc
    have hc' : c!"Activity End: " <+: rest ++ '\n' :: s := by
      simpa [List.cons_prefix_cons] using hc
    exact hre (prefix_line (by decide) hc').isInfix
  -- inside the first line the mark of the start does not begin again
  have htail : ¬ c!"Activity Start: " <:+: (c!"Activity Start: ").tail ++ first := by
    simpa [List.infix_cons_iff, List.cons_prefix_cons] using hf.1
  have a1 : search startMatch (join c!"\n" [c!"Activity Start: " ++ first, rest, c!"Activity End: " ++ ended]) = none := by
    rw [hT]
    have hstep : search startMatch (c!"Activity Start: " ++ (first ++ '\n' :: (rest ++ '\n' ::
        ((c!"Activity End:" ++ c!" ") ++ ended)))) =
        search startMatch (((c!"Activity Start: ").tail ++ first) ++ '\n' :: (rest ++ '\n' ::
          ((c!"Activity End:" ++ c!" ") ++ ended))) := by
      have hm := hmis ((c!"Activity End:" ++ c!" ") ++ ended) hr.2.1
      have : c!"Activity Start: " ++ (first ++ '\n' :: (rest ++ '\n' :: ((c!"Activity End:" ++ c!" ") ++ ended))) =
        'A' :: (((c!"Activity Start: ").tail ++ first) ++ '\n' :: (rest ++ '\n' ::
          ((c!"Activity End:" ++ c!" ") ++ ended))) := by simp
      rw [this] at hm ⊢
      rw [search, hm]
    rw [hstep, search_skip marks_start htail, search_skip marks_start hr.1, search_none marks_start hse]
  have hPend : ¬ c!"Activity End: " <:+: c!"Activity Start: " ++ first := by
    simpa [List.infix_cons_iff, List.cons_prefix_cons] using hf.2.1
  have hT2 : join c!"\n" [c!"Activity Start: " ++ first, rest, c!"Activity End: " ++ ended] =
      (c!"Activity Start: " ++ first) ++ '\n' :: (rest ++ '\n' :: ((c!"Activity End:" ++ c!" ") ++ ended)) := by
    simp [join]
  have b1 : search (strMatch c!"Activity End:") (join c!"\n" [c!"Activity Start: " ++ first, rest, c!"Activity End: " ++ ended]) =
      some ended := by
    rw [hT2, search_skip (marks_str (p := c!"Activity End:") (by decide)) hPend,
      search_skip (marks_str (p := c!"Activity End:") (by decide)) hr.2.1, search_end h2]
  have b2 : remove (strMatch c!"Activity End:") 0 (join c!"\n" [c!"Activity Start: " ++ first, rest, c!"Activity End: " ++ ended]) =
      c!"Activity Start: " ++ first ++ c!"\n" ++ rest ++ c!"\n" := by
    rw [hT2, remove_skip (marks_str (p := c!"Activity End:") (by decide)) hPend,
      remove_skip (marks_str (p := c!"Activity End:") (by decide)) hr.2.1, remove_end h2]
    simp
  have hl : ¬ c!"Technology Level: " <:+: c!"Activity Start: " ++ first ++ c!"\n" ++ rest ++ c!"\n" := by
    have e : c!"Activity Start: " ++ first ++ c!"\n" ++ rest ++ c!"\n" =
        join c!"\n" [c!"Activity Start: " ++ first, rest, []] := by simp [join]
    rw [e]
    apply not_infix_join (by decide) (by decide)
    intro l hl
    simp only [List.mem_cons, List.not_mem_nil, or_false] at hl
    rcases hl with rfl | rfl | rfl
    · simpa [List.infix_cons_iff, List.cons_prefix_cons] using hf.2.2
    · exact hr.2.2
    · decide
  have l1 := unmarked_kept .typeError (Tables.inverse Tables.tech) (p := c!"Technology Level:") (by decide) hl
  unfold techComment
  simp only [a1, Option.isSome_none, Bool.false_eq_true, if_false, b1, Option.isSome_some, if_true, b2, l1]

/-- Of an end of several lines the first is taken, the others stay in the comment. -/
theorem end_lines (started first rest : Str) (h1 : OneLine started) (h2 : OneLine first)
    (hf : ¬ c!"Activity Start: " <:+: first)
    (hr : ¬ c!"Activity Start: " <:+: rest ∧ ¬ c!"Activity End: " <:+: rest ∧ ¬ c!"Technology Level: " <:+: rest) :
    techComment (join c!"\n" [c!"Activity Start: " ++ started, c!"Activity End: " ++ first, rest]) =
      .ok (⟨some started, some first, none⟩, rest) := by
  have hT : join c!"\n" [c!"Activity Start: " ++ started, c!"Activity End: " ++ first, rest] =
      (c!"Activity Start:" ++ c!" ") ++ (started ++ '\n' :: ((c!"Activity End:" ++ c!" ") ++ (first ++ '\n' :: rest))) := by
    simp [join]
  have hse : ¬ c!"Activity Start: " <:+: (c!"Activity End:" ++ c!" ") ++ (first ++ '\n' :: rest) := by
    have e : (c!"Activity End:" ++ c!" ") ++ (first ++ '\n' :: rest) =
        join c!"\n" [c!"Activity End: " ++ first, rest] := by simp [join]
    rw [e]
    apply not_infix_join (by decide) (by decide)
    intro l hl
    simp only [List.mem_cons, List.not_mem_nil, or_false] at hl
    rcases hl with rfl | rfl
    · simpa [List.infix_cons_iff, List.cons_prefix_cons] using hf
    · exact hr.1
  have a1 : search startMatch ((c!"Activity Start:" ++ c!" ") ++ (started ++ '\n' :: ((c!"Activity End:" ++ c!" ") ++
      (first ++ '\n' :: rest)))) = some started := by
    refine search_hit (k := 16 + started.length + 15) (by simp) ?_
    unfold startMatch
    rw [if_pos (startsWith_prefix.2 ⟨started ++ '\n' :: ((c!"Activity End:" ++ c!" ") ++ (first ++ '\n' :: rest)), by simp⟩)]
    have : List.drop 16 ((c!"Activity Start:" ++ c!" ") ++ (started ++ '\n' :: ((c!"Activity End:" ++ c!" ") ++
        (first ++ '\n' :: rest)))) = started ++ '\n' :: ((c!"Activity End:" ++ c!" ") ++ (first ++ '\n' :: rest)) :=
      drop_mark c!"Activity Start:" _
    rw [this]
    simp only [lineRest_line h1, List.drop_left]
    rw [if_pos (startsWith_prefix.2 ⟨first ++ '\n' :: rest, by simp⟩)]
  have a2 : remove (listMatch c!"Activity Start:") 0 ((c!"Activity Start:" ++ c!" ") ++ (started ++ '\n' ::
      ((c!"Activity End:" ++ c!" ") ++ (first ++ '\n' :: rest)))) = (c!"Activity End:" ++ c!" ") ++ (first ++ '\n' :: rest) := by
    rw [removeList_line h1, remove_none (marks_list (p := c!"Activity Start:") (by decide)) hse]
  have b1 : search (strMatch c!"Activity End:") ((c!"Activity End:" ++ c!" ") ++ (first ++ '\n' :: rest)) = some first :=
    search_line h2
  have b2 : remove (strMatch c!"Activity End:") 0 ((c!"Activity End:" ++ c!" ") ++ (first ++ '\n' :: rest)) = rest := by
    rw [remove_line h2, remove_none (marks_str (p := c!"Activity End:") (by decide)) hr.2.1]
  have l1 := unmarked_kept .typeError (Tables.inverse Tables.tech) (p := c!"Technology Level:") (by decide) hr.2.2
  unfold techComment
  simp only [hT, a1, Option.isSome_some, if_true, a2, b1, b2, l1]

/-- A description without an end is left as it is. -/
theorem no_end (text : Str) (he : ¬ c!"Activity End: " <:+: text) (hl : ¬ c!"Technology Level: " <:+: text) :
    techComment text = .ok (⟨none, none, none⟩, text) := by
  have a1 : ∀ t : Str, ¬ c!"Activity End: " <:+: t → search startMatch t = none := by
    intro t
    induction t with
    | nil => intro _; rfl
    | cons c t ih =>
      intro h
      have hm : startMatch (c :: t) = none := by
        unfold startMatch
        split
        · dsimp only
          rw [if_neg]
          intro hc
          rw [startsWith_prefix] at hc
          apply h
          have h3 : c!"\nActivity End: " <:+: c :: t :=
            hc.isInfix.trans ((List.drop_suffix _ _).isInfix.trans (List.drop_suffix _ _).isInfix)
          exact List.IsInfix.trans ⟨c!"\n", [], rfl⟩ h3
        · rfl
      rw [search, hm]
      exact ih (not_infix_tail h)
  have b1 := (search_eq_none (p := c!"Activity End:") (by decide) text).2 he
  have l1 := unmarked_kept .typeError (Tables.inverse Tables.tech) (p := c!"Technology Level:") (by decide) hl
  unfold techComment
  simp only [a1 text he, Option.isSome_none, Bool.false_eq_true, if_false, b1, l1]

/-- Start and end are written whole where the texts of all languages together have at most 32000 characters. -/
theorem written_whole (ps : List Part) (h : ∀ p ∈ ps, p.Good) (hne : ps ≠ []) (ignore : Bool) (sent : Str → List Str)
    (hs : (join c!"; " (ps.map Part.started)).length ≤ 32000) (he : (join c!"; " (ps.map Part.ended)).length ≤ 32000) :
    ∃ f, techBack .empty (ps.map fun p => (p.lang, join c!"\n" p.lines)) = .ok f ∧
      LangText.endMulti textCls ignore sent f.started = .ok [(c!"en", join c!"; " (ps.map Part.started))] ∧
      LangText.endMulti textCls ignore sent f.ended = .ok [(c!"en", join c!"; " (ps.map Part.ended))] := by
  obtain ⟨f, h1, h2, h3, -⟩ := languages_joined ps h
  rw [if_neg hne] at h2 h3
  have key : ∀ s : Str, s.length ≤ 32000 →
      LangText.endValidate textCls ignore sent [(c!"en", s)] = .ok [(c!"en", s)] := by
    intro s hl
    have h5 : ¬ s.length > 32000 := by omega
    simp [LangText.endValidate, LangText.pieces, textCls, LangText.base, LangText.upper, h5, Validators.limEnd, Validators.Limit.holds, hl]
  exact ⟨f, h1, by rw [LangText.endMulti, h2, key _ hs], by rw [LangText.endMulti, h3, key _ he]⟩

/-- A description without an end and without a level changes neither the start nor the end nor the level that were read
before it; it is added to the comment as it is. -/
theorem plain_kept (f : Fields) (lang text : Str) (he : ¬ c!"Activity End: " <:+: text)
    (hl : ¬ c!"Technology Level: " <:+: text) :
    techStep f lang text = .ok { f with comment := f.comment ++ [(lang, text)] } := by
  simp only [techStep, no_end text he hl, setText]

/-- The descriptions are read if and only if each of them is, on what the ones before it left; the first that is not
stops the conversion with its exception. -/
theorem back_iff (f : Fields) (l : List (Str × Str)) :
    (∀ g, techBack f l = .ok g ↔ l.foldlM (fun f d => techStep f d.1 d.2) f = .ok g) ∧
      ∀ pre lang text post g e, l = pre ++ (lang, text) :: post → techBack f pre = .ok g →
        techStep g lang text = .error e → techBack f l = .error e := by
  constructor
  · intro g
    induction l generalizing f with
    | nil => exact Iff.rfl
    | cons d l ih =>
      obtain ⟨lang, text⟩ := d
      rw [List.foldlM_cons, techBack]
      cases h : techStep f lang text with
      | error e =>
        constructor <;> intro h <;> cases h
      | ok f' => exact ih f'
  · intro pre lang text post g e hl
    subst hl
    induction pre generalizing f with
    | nil =>
      intro h1 h2
      cases h1
      simp only [List.nil_append, techBack, h2]
    | cons d pre ih =>
      intro h1 h2
      obtain ⟨la, te⟩ := d
      rw [List.cons_append, techBack]
      rw [techBack] at h1
      cases h : techStep f la te with
      | error e => rw [h] at h1; cases h1
      | ok f' =>
        rw [h] at h1
        exact ih f' h1 h2

/-- German and English descriptions. -/
def german : Part := ⟨c!"de", [c!"Stand der Technik."], c!"Ab Wiege.", c!"Bis Tor."⟩
def english : Part := ⟨c!"en", [], c!"From cradle.", c!"To gate."⟩

theorem german_good : german.Good :=
  ⟨by decide, by decide, ⟨⟨'A', by decide, by decide⟩, 'B', by decide, by decide⟩, by decide, by decide⟩

theorem english_good : english.Good :=
  ⟨by decide, by decide, ⟨⟨'F', by decide, by decide⟩, 'T', by decide, by decide⟩, by decide, by decide⟩

example : ∃ f, techBack .empty [(c!"de", c!"Stand der Technik.\nActivity Start: Ab Wiege.\nActivity End: Bis Tor."),
      (c!"en", c!"Activity Start: From cradle.\nActivity End: To gate.")] = .ok f ∧
    LangText.byLang f.started = [(c!"en", c!"Ab Wiege.; From cradle.")] ∧
    LangText.byLang f.ended = [(c!"en", c!"Bis Tor.; To gate.")] := by
  obtain ⟨f, h1, h2, h3, _⟩ := languages_joined [german, english]
    (by intro p hp; simp at hp; rcases hp with rfl | rfl; exacts [german_good, english_good])
  exact ⟨f, h1, h2, h3⟩

example : techComment c!"Activity Start: From cradle,\nincluding transport.\nActivity End: To gate." =
    .ok (⟨none, some c!"To gate.", none⟩, c!"Activity Start: From cradle,\nincluding transport.\n") :=
  several_lines c!"From cradle," c!"including transport." c!"To gate." (by decide) (by decide) (by decide) (by decide)
    (by decide)

example : techComment c!"Activity Start: From cradle.\nActivity End: To gate,\nwithout packaging." =
    .ok (⟨some c!"From cradle.", some c!"To gate,", none⟩, c!"without packaging.") :=
  end_lines c!"From cradle." c!"To gate," c!"without packaging." (by decide) (by decide) (by decide) (by decide)

example : techComment c!"Activity Start: From cradle." = .ok (⟨none, none, none⟩, c!"Activity Start: From cradle.") :=
  no_end _ (by decide) (by decide)

example : ∃ f, techBack .empty [(c!"en", c!"Activity Start: From cradle.\nActivity End: To gate.")] = .ok f ∧
    LangText.endMulti textCls false (fun s => [s]) f.started = .ok [(c!"en", c!"From cradle.")] := by
  obtain ⟨f, h1, h2, _⟩ := written_whole [english] (by intro p hp; simp at hp; subst hp; exact english_good) (by simp)
    false (fun s => [s]) (by decide) (by decide)
  exact ⟨f, h1, h2⟩

example : techStep ⟨[⟨1, c!"en", c!"Mine"⟩], [], none, []⟩ c!"de" c!"Text" =
    .ok ⟨[⟨1, c!"en", c!"Mine"⟩], [], none, [(c!"de", c!"Text")]⟩ := plain_kept _ _ _ (by decide) (by decide)

/-- A level that is none of the list stops the conversion. -/
example : techBack .empty [(c!"en", c!"Text"), (c!"en", c!"Technology Level: Ancient\n"), (c!"de", c!"Text")] =
    .error .typeError :=
  (back_iff .empty _).2 [(c!"en", c!"Text")] c!"en" c!"Technology Level: Ancient\n" [(c!"de", c!"Text")] _ _ rfl
    (by rw [techBack, plain_kept _ _ _ (by decide) (by decide)]; rfl) (by
      have : techComment c!"Technology Level: Ancient\n" = .error .typeError := by decide +kernel
      simp only [techStep, this])

end Verif.Included
