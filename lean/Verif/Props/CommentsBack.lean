/-
The codes written into comments are read back (C68), tags (C70) and the system model (C71).
-/
import Verif.Props.Comments

namespace Verif.Comments
open Verif.IlcdVars (startsWith_iff)
open Verif.Comments.Spec

/-! ### Infixes of composed texts -/

theorem infix_split {q : Str} {c : Char} (hc : c ∉ q) {r : Str} : ∀ {l : Str}, q <:+: l ++ c :: r → q <:+: l ∨ q <:+: r
  | [], h => by
    rcases List.infix_cons_iff.1 (by simpa using h : q <:+: c :: r) with h | h
    · left
      cases q with
      | nil => exact List.nil_infix
      | cons d q =>
        rw [List.cons_prefix_cons] at h
        exact absurd (by rw [h.1]; simp) hc
    · exact .inr h
  | d :: l, h => by
    rcases List.infix_cons_iff.1 (by simpa using h : q <:+: d :: (l ++ c :: r)) with h | h
    · left
      exact (prefix_sep hc (l := d :: l) h).isInfix
    · rcases infix_split hc h with h | h
      · exact .inl (h.trans (List.suffix_cons d l).isInfix)
      · exact .inr h
where
  prefix_sep {q l r : Str} {c : Char} (hc : c ∉ q) (h : q <+: l ++ c :: r) : q <+: l := by
    rcases List.prefix_or_prefix_of_prefix h (List.prefix_append l (c :: r)) with h1 | ⟨t, ht⟩
    · exact h1
    · cases t with
      | nil => simp at ht; exact ht ▸ List.prefix_rfl
      | cons d t =>
        rw [← ht] at h
        have := (List.prefix_append_right_inj l).1 h
        rw [List.cons_prefix_cons] at this
        exact absurd (by rw [← ht, ← this.1]; simp) hc

theorem not_infix_line {q l r : Str} (hq : '\n' ∉ q) (h1 : ¬ q <:+: l) (h2 : ¬ q <:+: r) : ¬ q <:+: l ++ '\n' :: r :=
  fun h => (infix_split hq h).elim h1 h2

theorem join_cons {l : Str} {ls : List Str} (h : ls ≠ []) : join c!"\n" (l :: ls) = l ++ '\n' :: join c!"\n" ls := by
  cases ls with
  | nil => exact absurd rfl h
  | cons l' ls => simp [join]

theorem not_infix_join {q : Str} (hq : '\n' ∉ q) (hne : q ≠ []) : ∀ {ls : List Str}, (∀ l ∈ ls, ¬ q <:+: l) →
    ¬ q <:+: join c!"\n" ls
  | [], _ => by simp [join, hne]
  | [l], h => by simpa [join] using h l (by simp)
  | l :: l' :: ls, h => by
    rw [join_cons (by simp)]
    exact not_infix_line hq (h l (by simp)) (not_infix_join hq hne fun x hx => h x (List.mem_cons_of_mem _ hx))

/-- A mark ending in a blank is not completed by a text without blanks. -/
theorem infix_before {q' lit u : Str} (hu : ' ' ∉ u) (h : (q' ++ c!" ") <:+: lit ++ u) : (q' ++ c!" ") <:+: lit := by
  obtain ⟨a, b, hab⟩ := h
  have hp : (a ++ (q' ++ c!" ")) <+: lit ++ u := ⟨b, hab⟩
  rcases List.prefix_or_prefix_of_prefix hp (List.prefix_append lit u) with h1 | ⟨t, ht⟩
  · exact (List.suffix_append a _).isInfix.trans h1.isInfix
  · rcases List.eq_nil_or_concat t with rfl | ⟨t', c, rfl⟩
    · rw [List.append_nil] at ht
      rw [ht]; exact (List.suffix_append a _).isInfix
    · exfalso
      rw [← ht] at hp
      have h2 := (List.prefix_append_right_inj lit).1 hp
      have hc : c = ' ' := by
        have := congrArg List.getLast? ht
        simpa [← List.append_assoc] using this
      apply hu
      apply h2.subset
      simp [hc]

/-! ### The steps -/

theorem uuid_noSpace {u : Str} (h : Validators.Spec.UuidText u) : ' ' ∉ u ∧ OneLine u := by
  have hx : ∀ c ∈ u, c ∈ c!"0123456789abcdef-" := by
    simp only [Validators.Spec.UuidText, Validators.Spec.followed, Validators.Spec.single,
      Validators.Spec.repeated] at h
    obtain ⟨a1, b1, rfl, h1, a2, b2, rfl, ⟨_, rfl, rfl⟩, a3, b3, rfl, h3, a4, b4, rfl, ⟨_, rfl, rfl⟩, a5, b5,
      rfl, h5, a6, b6, rfl, ⟨_, rfl, rfl⟩, a7, b7, rfl, h7, a8, b8, rfl, ⟨_, rfl, rfl⟩, a9, b9, rfl, h9,
      rfl⟩ := h
    have up : ∀ c, Validators.Spec.isHex c → c ∈ c!"0123456789abcdef-" := by
      intro c hc
      have : c!"0123456789abcdef-" = c!"0123456789abcdef" ++ c!"-" := rfl
      rw [this]; exact List.mem_append_left _ hc
    intro c hc
    simp only [List.mem_append, List.mem_singleton, List.not_mem_nil, or_false] at hc
    rcases hc with hc | rfl | hc | rfl | hc | rfl | hc | rfl | hc
    · exact up c (h1.2.2 c hc)
    · decide
    · exact up c (h3.2.2 c hc)
    · decide
    · exact up c (h5.2.2 c hc)
    · decide
    · exact up c (h7.2.2 c hc)
    · decide
    · exact up c (h9.2.2 c hc)
  constructor
  · intro h1; exact absurd (hx _ h1) (by decide)
  · intro h1; exact absurd (hx _ h1) (by decide)

theorem uuidMatch_line {p u r : Str} (h : Validators.Spec.UuidText u) :
    uuidMatch p ((p ++ c!" ") ++ (u ++ '\n' :: r)) = some (u, ((p ++ c!" ") ++ (u ++ c!"\n")).length) := by
  have hl := Validators.uuidText_length h
  unfold uuidMatch
  rw [if_pos (starts_mark p _), drop_mark]
  have h1 : Validators.uuidRe.isMatch (u ++ '\n' :: r) = true :=
    (Validators.Re.isMatch_iff _ _).2 ⟨u, '\n' :: r, rfl, (Validators.uuidRe_lang u).2 h⟩
  have h2 : (u ++ '\n' :: r).drop 36 = '\n' :: r := by rw [← hl, List.drop_left]
  have h3 : (u ++ '\n' :: r).take 36 = u := by rw [← hl, List.take_left]
  simp only [h1, h2, h3, true_and]
  rw [if_pos (by simp [startsWith])]
  simp [hl]

theorem getUuid_first {p u r : Str} (hp : '\n' ∉ p) (h : Validators.Spec.UuidText u) (hr : ¬ (p ++ c!" ") <:+: r) :
    getUuid p ((p ++ c!" ") ++ (u ++ '\n' :: r)) = (some u, r) := by
  unfold getUuid
  rw [search_hit (by simp) (uuidMatch_line h)]
  have := remove_hit (m := uuidMatch p) (t := (p ++ c!" ") ++ (u ++ c!"\n")) (s := r) (g := u) (by simp)
    (by have := uuidMatch_line (p := p) (r := r) h; simpa using this)
  have e : ((p ++ c!" ") ++ (u ++ c!"\n")) ++ r = (p ++ c!" ") ++ (u ++ '\n' :: r) := by simp
  rw [e] at this
  simp only [this, remove_none (marks_uuid hp) hr]

theorem getUuid_none {p r : Str} (hp : '\n' ∉ p) (hr : ¬ (p ++ c!" ") <:+: r) : getUuid p r = (none, r) := by
  unfold getUuid
  rw [search_none (marks_uuid hp) hr]

theorem getStr_first {err : PyErr} {keys : List (Str × Str)} {p g r code : Str} (hp : '\n' ∉ p) (hg : OneLine g)
    (hk : aget g keys = some code) (hr : ¬ (p ++ c!" ") <:+: r) :
    getStr err keys p ((p ++ c!" ") ++ (g ++ '\n' :: r)) = .ok (some code, r) := by
  unfold getStr
  rw [search_line hg]
  simp only [hk, remove_line hg, remove_none (marks_str hp) hr]

theorem getStr_last {err : PyErr} {keys : List (Str × Str)} {p g code : Str} (hg : OneLine g)
    (hk : aget g keys = some code) : getStr err keys p ((p ++ c!" ") ++ g) = .ok (some code, []) := by
  unfold getStr
  rw [search_end hg]
  simp only [hk, remove_end hg]

/-! ### Tags -/

theorem splitSemi_plain : ∀ {t : Str}, ¬ c!"; " <:+: t → splitSemi false t = [t]
  | [], _ => rfl
  | c :: t, h => by
    have h1 : startsWith c!"; " (c :: t) = false := by
      rw [Bool.eq_false_iff, ne_eq, startsWith_prefix]; exact fun h2 => h h2.isInfix
    rw [splitSemi.eq_def]
    simp only [h1, Bool.false_eq_true, if_false, splitSemi_plain (not_infix_tail h)]

theorem splitSemi_end : ∀ {t : Str}, ¬ c!"; " <:+: t → splitSemi false (t ++ c!"; ") = [t, []]
  | [], _ => by decide
  | c :: t, h => by
    have h1 : startsWith c!"; " (c :: (t ++ c!"; ")) = false := by
      rw [Bool.eq_false_iff, ne_eq, startsWith_prefix]
      intro h2
      cases t with
      | nil => simp [List.cons_prefix_cons] at h2
      | cons d t =>
        apply h
        simp [List.cons_prefix_cons] at h2
        rw [← h2.1, ← h2.2]
        exact ⟨[], t, rfl⟩
    rw [List.cons_append, splitSemi.eq_def]
    simp only [h1, Bool.false_eq_true, if_false, splitSemi_end (not_infix_tail h)]

/-- The tag paragraph and what follows. -/
def tagText (tags : List Str) (r : Str) : Str := join c!"; " (tags.map fun t => c!"\nTag: " ++ t) ++ '\n' :: r

theorem tagText_one (t r : Str) : tagText [t] r = '\n' :: (c!"Tag:" ++ c!" " ++ (t ++ '\n' :: r)) := by
  simp [tagText, join]

theorem tagText_more (t t' : Str) (ts : List Str) (r : Str) :
    tagText (t :: t' :: ts) r = '\n' :: (c!"Tag:" ++ c!" " ++ ((t ++ c!"; ") ++ tagText (t' :: ts) r)) := by
  simp [tagText, join]

theorem oneLine_semi {t : Str} (h : OneLine t) : OneLine (t ++ c!"; ") := by
  unfold OneLine at *; simp [h]

theorem tagText_starts (tags : List Str) (h : tags ≠ []) (r : Str) : ∃ s, tagText tags r = '\n' :: s := by
  match tags, h with
  | [t], _ => exact ⟨_, tagText_one t r⟩
  | t :: t' :: ts, _ => exact ⟨_, tagText_more t t' ts r⟩

theorem remove_tags {r : Str} (hr : ¬ c!"Tag: " <:+: r) : ∀ {tags : List Str}, tags ≠ [] → (∀ t ∈ tags, OneLine t) →
    ∀ s, tagText tags r = '\n' :: s → remove (listMatch c!"Tag:") 0 s = r
  | [], h, _ => absurd rfl h
  | [t], _, ho => by
    intro s hs
    rw [tagText_one] at hs
    cases hs
    rw [removeList_line (ho t (by simp))]
    exact remove_none (marks_list (by decide)) hr
  | t :: t' :: ts, _, ho => by
    intro s hs
    rw [tagText_more] at hs
    cases hs
    obtain ⟨s', hs'⟩ := tagText_starts (t' :: ts) (by simp) r
    rw [hs', removeList_line (oneLine_semi (ho t (by simp)))]
    exact remove_tags hr (by simp) (fun x hx => ho x (List.mem_cons_of_mem _ hx)) s' hs'

/-- What comes back of a list of tags: all but the first are lost. -/
def tagsBack : List Str → List Str
  | [] => []
  | [t] => [t]
  | t :: _ :: _ => [t, []]

theorem getList_tags {r : Str} (hr : ¬ c!"Tag: " <:+: r) {tags : List Str} (hne : tags ≠ [])
    (ho : ∀ t ∈ tags, OneLine t ∧ ¬ c!"; " <:+: t) : getList c!"Tag:" (tagText tags r) = (tagsBack tags, '\n' :: r) := by
  obtain ⟨s, hs⟩ := tagText_starts tags hne r
  have hm : listMatch c!"Tag:" ('\n' :: s) = none := (marks_list (p := c!"Tag:") (by decide)).only _ (by
    simp [List.cons_prefix_cons])
  have hm' : listMatch c!"Tag:" ('\n' :: r) = none := (marks_list (p := c!"Tag:") (by decide)).only _ (by
    simp [List.cons_prefix_cons])
  have hrem := remove_tags hr hne (fun t ht => (ho t ht).1) s hs
  have h1 : remove (listMatch c!"Tag:") 0 (tagText tags r) = '\n' :: r := by
    rw [hs]; simp only [remove, hm, hrem]
  have h2 : remove (listMatch c!"Tag:") 0 ('\n' :: r) = '\n' :: r := by
    simp only [remove, hm', remove_none (marks_list (p := c!"Tag:") (by decide)) hr]
  match tags, hne with
  | [t], _ =>
    have hse : search (listMatch c!"Tag:") (tagText [t] r) = some t := by
      rw [hs]; simp only [search, hm]
      rw [tagText_one] at hs
      cases hs
      exact search_hit (by simp) (listMatch_line (ho t (by simp)).1)
    unfold getList
    rw [hse]
    simp only [splitSemi_plain (ho t (by simp)).2, List.length_singleton, removeTimes, h1, tagsBack]
  | t :: t' :: ts, _ =>
    have hse : search (listMatch c!"Tag:") (tagText (t :: t' :: ts) r) = some (t ++ c!"; ") := by
      rw [hs]; simp only [search, hm]
      rw [tagText_more] at hs
      obtain ⟨s', hs'⟩ := tagText_starts (t' :: ts) (by simp) r
      rw [hs'] at hs
      cases hs
      exact search_hit (by simp) (listMatch_line (oneLine_semi (ho t (by simp)).1))
    unfold getList
    rw [hse]
    simp only [splitSemi_end (ho t (by simp)).2, List.length_cons, List.length_nil, removeTimes, h1, h2, tagsBack]

theorem getList_none {p r : Str} (hp : '\n' ∉ p) (hr : ¬ (p ++ c!" ") <:+: r) : getList p r = ([], r) := by
  unfold getList
  rw [search_none (marks_list hp) hr]

/-! ### The general comment -/

theorem not_infix_tags {q : Str} {c : Char} (hh : q.head? = some c) (hc : c ∉ c!"\nTag: ") (hs : ';' ∉ q) (hb : c ≠ ' ') :
    ∀ {tags : List Str}, (∀ t ∈ tags, ¬ q <:+: t) → ¬ q <:+: join c!"; " (tags.map fun t => c!"\nTag: " ++ t)
  | [], _ => by
    cases q with
    | nil => simp at hh
    | cons d q => simp [join]
  | [t], h => by
    simp only [List.map_cons, List.map_nil, join]
    exact fun h1 => h t (by simp) (infix_after hh hc h1)
  | t :: t' :: ts, h => by
    have ih := not_infix_tags hh hc hs hb (tags := t' :: ts) fun x hx => h x (List.mem_cons_of_mem _ hx)
    have e : join c!"; " ((t :: t' :: ts).map fun t => c!"\nTag: " ++ t) =
        (c!"\nTag: " ++ t) ++ ';' :: (c!" " ++ join c!"; " ((t' :: ts).map fun t => c!"\nTag: " ++ t)) := by
      simp [join]
    rw [e]
    intro h1
    rcases infix_split hs h1 with h1 | h1
    · exact h t (by simp) (infix_after hh hc h1)
    · exact ih (infix_after hh (by simpa using hb) h1)

/-- A marked line, if there is one, in front of a text. -/
def withPart (mark : Str) (o : Option Str) (t : Str) : Str :=
  match o with
  | some x => (mark ++ c!" ") ++ (x ++ '\n' :: t)
  | none => t

theorem paragraphs_eq (nameId kind : Str) (inheritance parent : Option Str) (tags others : List Str) (hne : others ≠ []) :
    join c!"\n" (paragraphs nameId kind inheritance parent tags others) =
    (c!"Activity Linkable Id:" ++ c!" ") ++ (nameId ++ '\n' :: ((c!"Activity Subtype:" ++ c!" ") ++ (kind ++ '\n' ::
      withPart c!"Inheritance:" inheritance (withPart c!"Parent Id:" parent
        (if tags = [] then join c!"\n" others else tagText tags (join c!"\n" others)))))) := by
  cases others with
  | nil => exact absurd rfl hne
  | cons o os =>
    unfold paragraphs
    by_cases ht : tags = []
    · cases inheritance <;> cases parent <;> simp [join, ht, withPart]
    · cases inheritance <;> cases parent <;> simp [join, ht, tagText, withPart]

/-- The codes of the activity are read back from its general comment (C68), whatever else the comment says as
long as it does not use the marks: the identifier of the name, the kind of activity, the parent and at most one
tag are restored. The kind of inheritance is restored only without a parent; with one it becomes -1. Of several
tags only the first comes back. Everything else stays in the comment. -/
theorem general_restored_partial (nameId subtype kind depth : Str) (inheritance parent : Option Str)
    (tags others : List Str) (hid : Validators.Spec.UuidText nameId)
    (hs : (subtype, kind) ∈ Tables.specialActivity) (hd : (depth, inheritance) ∈ Tables.childType)
    (hp : ∀ p, parent = some p → Validators.Spec.UuidText p) (ht : ∀ t ∈ tags, GoodTag t)
    (hne : others ≠ []) (ho : ∀ x ∈ others, ∀ q ∈ marks, ¬ q <:+: x) :
    generalComment (join c!"\n" (paragraphs nameId kind inheritance parent tags others)) =
      .ok (⟨some nameId, some subtype, if parent.isSome then some c!"-1" else inheritance.map fun _ => depth,
          parent, tagsBack tags⟩,
        (if tags = [] then [] else c!"\n") ++ join c!"\n" others) := by
  rw [paragraphs_eq _ _ _ _ _ _ hne]
  -- the tables
  have hks : aget kind (Tables.inverse Tables.specialActivity) = some subtype ∧ OneLine kind ∧
      ¬ c!"Activity Linkable Id: " <:+: c!"Activity Subtype: " ++ kind := by
    have : ∀ p ∈ Tables.specialActivity, aget p.2 (Tables.inverse Tables.specialActivity) = some p.1 ∧ OneLine p.2 ∧
      ¬ c!"Activity Linkable Id: " <:+: c!"Activity Subtype: " ++ p.2 := by decide +kernel
    exact this _ hs
  have hki : ∀ t, inheritance = some t → aget t childTypeBack = some depth ∧ OneLine t ∧
      ¬ c!"Activity Linkable Id: " <:+: c!"Inheritance: " ++ t ∧ ¬ c!"Activity Subtype: " <:+: c!"Inheritance: " ++ t := by
    have : ∀ p ∈ Tables.childType, ∀ t, p.2 = some t → aget t childTypeBack = some p.1 ∧ OneLine t ∧
      ¬ c!"Activity Linkable Id: " <:+: c!"Inheritance: " ++ t ∧ ¬ c!"Activity Subtype: " <:+: c!"Inheritance: " ++ t := by
      intro p hp t h
      have : ∀ p ∈ Tables.childType, ∀ t ∈ p.2.toList, aget t childTypeBack = some p.1 ∧ OneLine t ∧
        ¬ c!"Activity Linkable Id: " <:+: c!"Inheritance: " ++ t ∧
        ¬ c!"Activity Subtype: " <:+: c!"Inheritance: " ++ t := by decide +kernel
      exact this p hp t (by simp [h])
    exact fun t h => this _ hd t h
  -- no mark further down
  have n5 : ∀ q ∈ marks, ¬ q <:+: join c!"\n" others := by
    intro q hq
    have : '\n' ∉ q ∧ q ≠ [] := by revert q; decide
    exact not_infix_join this.1 this.2 fun x hx => ho x hx q hq
  have hgoods : ∀ t ∈ tags, OneLine t ∧ ¬ c!"; " <:+: t := fun t h => ⟨(ht t h).1, (ht t h).2.1⟩
  have n4 : ∀ q ∈ [c!"Activity Linkable Id: ", c!"Activity Subtype: ", c!"Inheritance: ", c!"Parent Id: "],
      ¬ q <:+: (if tags = [] then join c!"\n" others else tagText tags (join c!"\n" others)) := by
    intro q hq
    have hqm : q ∈ marks := by revert q; decide
    split
    · exact n5 q hqm
    · have hx : ∃ c, q.head? = some c ∧ c ∉ c!"\nTag: " ∧ ';' ∉ q ∧ c ≠ ' ' ∧ '\n' ∉ q := by
        simp only [List.mem_cons, List.not_mem_nil, or_false] at hq
        rcases hq with rfl | rfl | rfl | rfl
        · exact ⟨'A', by decide⟩
        · exact ⟨'A', by decide⟩
        · exact ⟨'I', by decide⟩
        · exact ⟨'P', by decide⟩
      obtain ⟨c, h1, h2, h3, h4, h5⟩ := hx
      exact not_infix_line h5 (not_infix_tags h1 h2 h3 h4 fun t h => (ht t h).2.2 q hqm) (n5 q hqm)
  have npar : ∀ p, parent = some p → ∀ q ∈ [c!"Activity Linkable Id:", c!"Activity Subtype:", c!"Inheritance:"],
      ¬ (q ++ c!" ") <:+: c!"Parent Id: " ++ p := by
    intro p hpp q hq h
    have h' := infix_before (uuid_noSpace (hp p hpp)).1 h
    clear h
    revert h'
    revert q; decide
  generalize hT4 : (if tags = [] then join c!"\n" others else tagText tags (join c!"\n" others)) = T4 at *
  have n3 : ∀ q ∈ [c!"Activity Linkable Id:", c!"Activity Subtype:", c!"Inheritance:"], ¬ (q ++ c!" ") <:+:
      (withPart c!"Parent Id:" parent T4) := by
    intro q hq
    have h5 : '\n' ∉ q ++ c!" " := by revert q; decide
    have h4 : ¬ (q ++ c!" ") <:+: T4 := n4 _ (by clear h5; revert q; decide)
    cases parent with
    | none => exact h4
    | some p =>
      have := not_infix_line h5 (npar p rfl q hq) h4
      simpa [withPart] using this
  have s5 : getList c!"Tag:" T4 = (tagsBack tags, (if tags = [] then [] else c!"\n") ++ join c!"\n" others) := by
    rw [← hT4]
    by_cases h : tags = []
    · simp only [h, if_true, tagsBack, List.nil_append]
      exact getList_none (by decide) (n5 c!"Tag: " (by decide))
    · rw [if_neg h, if_neg h, getList_tags (n5 c!"Tag: " (by decide)) h hgoods]
      rfl
  have s4 : getUuid c!"Parent Id:" (withPart c!"Parent Id:" parent T4) =
      (parent, T4) := by
    cases parent with
    | none => exact getUuid_none (by decide) (n4 _ (by decide))
    | some p => exact getUuid_first (by decide) (hp p rfl) (n4 _ (by decide))
  generalize hT3 : (withPart c!"Parent Id:" parent T4) = T3 at *
  have s3 : getStr .typeError childTypeBack c!"Inheritance:"
      (withPart c!"Inheritance:" inheritance T3) =
      .ok (inheritance.map fun _ => depth, T3) := by
    cases inheritance with
    | none => exact unmarked_kept _ _ (by decide) (n3 c!"Inheritance:" (by decide))
    | some t => exact getStr_first (by decide) (hki t rfl).2.1 (hki t rfl).1 (n3 c!"Inheritance:" (by decide))
  have n2 : ∀ q ∈ [c!"Activity Linkable Id:", c!"Activity Subtype:"], ¬ (q ++ c!" ") <:+:
      (withPart c!"Inheritance:" inheritance T3) := by
    intro q hq
    have h5 : '\n' ∉ q ++ c!" " := by revert q; decide
    have h3 : ¬ (q ++ c!" ") <:+: T3 := n3 q (by clear h5; revert q; decide)
    cases inheritance with
    | none => exact h3
    | some t =>
      have h6 : ¬ (q ++ c!" ") <:+: c!"Inheritance: " ++ t := by
        simp only [List.mem_cons, List.not_mem_nil, or_false] at hq
        rcases hq with rfl | rfl
        · exact (hki t rfl).2.2.1
        · exact (hki t rfl).2.2.2
      have := not_infix_line h5 h6 h3
      simpa [withPart] using this
  generalize hT2 : (withPart c!"Inheritance:" inheritance T3) = T2 at *
  have s2 : getStr .typeError (Tables.inverse Tables.specialActivity) c!"Activity Subtype:"
      ((c!"Activity Subtype:" ++ c!" ") ++ (kind ++ '\n' :: T2)) = .ok (some subtype, T2) :=
    getStr_first (by decide) hks.2.1 hks.1 (n2 c!"Activity Subtype:" (by decide))
  have s1 : getUuid c!"Activity Linkable Id:" ((c!"Activity Linkable Id:" ++ c!" ") ++ (nameId ++ '\n' ::
      ((c!"Activity Subtype:" ++ c!" ") ++ (kind ++ '\n' :: T2)))) =
      (some nameId, (c!"Activity Subtype:" ++ c!" ") ++ (kind ++ '\n' :: T2)) := by
    apply getUuid_first (by decide) hid
    have := not_infix_line (q := c!"Activity Linkable Id: ") (by decide) hks.2.2 (n2 c!"Activity Linkable Id:" (by decide))
    simpa using this
  unfold generalComment
  simp only [s1, s2, s3, s4, s5]

theorem uuidText_of {s : Str} (h : Validators.patternValidate Validators.uuidRe (.str s) = .ok s) (hl : s.length = 36) :
    Validators.Spec.UuidText s := by
  have := (Validators.uuid_accepts_iff_partial s).1.1 h
  rwa [← hl, List.take_length] at this

/-- A concrete data set: a market, child of another, with a tag. -/
example : generalComment (join c!"\n" (paragraphs c!"01234567-89ab-cdef-0123-456789abcdef" c!"market activity"
    (some c!"geography child from: ") (some c!"11111111-89ab-cdef-0123-456789abcdef") [c!"energy"]
    [c!"Macroeconomic Scenario: BAU", c!"A remark."])) =
    .ok (⟨some c!"01234567-89ab-cdef-0123-456789abcdef", some c!"1", some c!"-1",
      some c!"11111111-89ab-cdef-0123-456789abcdef", [c!"energy"]⟩,
      c!"\nMacroeconomic Scenario: BAU\nA remark.") := by
  refine general_restored_partial _ c!"1" _ c!"1" _ _ _ _
    (uuidText_of (by decide) rfl) (by decide) (by decide) (fun p hp => ?_) (by decide) (by decide) (by decide)
  cases hp; exact uuidText_of (by decide) rfl

/-- With a parent, the kind of inheritance of every data set comes back as -1: a geography child (1) and a
technological child (2) can no longer be told apart. -/
theorem inheritance_lost (nameId subtype kind depth depth' : Str) (inh inh' : Option Str) (parent : Str)
    (others : List Str) (hid : Validators.Spec.UuidText nameId) (hp : Validators.Spec.UuidText parent)
    (hs : (subtype, kind) ∈ Tables.specialActivity) (hd : (depth, inh) ∈ Tables.childType)
    (hd' : (depth', inh') ∈ Tables.childType) (hne : others ≠ []) (ho : ∀ x ∈ others, ∀ q ∈ marks, ¬ q <:+: x) :
    generalComment (join c!"\n" (paragraphs nameId kind inh (some parent) [] others)) =
    generalComment (join c!"\n" (paragraphs nameId kind inh' (some parent) [] others)) := by
  rw [general_restored_partial nameId subtype kind depth inh (some parent) [] others hid hs hd
      (fun p h => by cases h; exact hp) (by simp) hne ho,
    general_restored_partial nameId subtype kind depth' inh' (some parent) [] others hid hs hd'
      (fun p h => by cases h; exact hp) (by simp) hne ho]
  rfl

/-- All tags but the first are lost (C70): data sets that differ in the others give the same result. -/
theorem tags_lost (nameId subtype kind depth : Str) (inh parent : Option Str) (t t1 t2 : Str) (ts1 ts2 others : List Str)
    (hid : Validators.Spec.UuidText nameId) (hp : ∀ p, parent = some p → Validators.Spec.UuidText p)
    (hs : (subtype, kind) ∈ Tables.specialActivity) (hd : (depth, inh) ∈ Tables.childType)
    (ht : GoodTag t) (ht1 : ∀ x ∈ t1 :: ts1, GoodTag x) (ht2 : ∀ x ∈ t2 :: ts2, GoodTag x)
    (hne : others ≠ []) (ho : ∀ x ∈ others, ∀ q ∈ marks, ¬ q <:+: x) :
    generalComment (join c!"\n" (paragraphs nameId kind inh parent (t :: t1 :: ts1) others)) =
    generalComment (join c!"\n" (paragraphs nameId kind inh parent (t :: t2 :: ts2) others)) := by
  rw [general_restored_partial nameId subtype kind depth inh parent _ others hid hs hd hp
      (fun x hx => (List.mem_cons.1 hx).elim (fun h => h ▸ ht) (ht1 x)) hne ho,
    general_restored_partial nameId subtype kind depth inh parent _ others hid hs hd hp
      (fun x hx => (List.mem_cons.1 hx).elim (fun h => h ▸ ht) (ht2 x)) hne ho]
  simp [tagsBack]

example : generalComment (join c!"\n" (paragraphs c!"01234567-89ab-cdef-0123-456789abcdef" c!"ordinary transforming activity"
      none none [c!"energy", c!"heat"] [c!"A remark."])) =
    generalComment (join c!"\n" (paragraphs c!"01234567-89ab-cdef-0123-456789abcdef" c!"ordinary transforming activity"
      none none [c!"energy", c!"wood", c!"paper"] [c!"A remark."])) :=
  tags_lost _ c!"0" _ c!"0" none none c!"energy" c!"heat" c!"wood" [] [c!"paper"] [c!"A remark."]
    (uuidText_of (by decide) rfl) (by simp) (by decide) (by decide) (by decide) (by decide) (by decide) (by decide)
    (by decide)

/-! ### What is written -/

theorem sorted_ext : ∀ {a b : List Int}, a.Pairwise (· < ·) → b.Pairwise (· < ·) → (∀ x, x ∈ a ↔ x ∈ b) → a = b
  | [], [], _, _, _ => rfl
  | [], y :: b, _, _, h => absurd ((h y).2 List.mem_cons_self) (by simp)
  | x :: a, [], _, _, h => absurd ((h x).1 List.mem_cons_self) (by simp)
  | x :: a, y :: b, ha, hb, h => by
    rw [List.pairwise_cons] at ha hb
    have hxy : x = y := by
      rcases List.mem_cons.1 ((h x).1 List.mem_cons_self) with e | e
      · exact e
      · rcases List.mem_cons.1 ((h y).2 List.mem_cons_self) with e' | e'
        · exact e'.symm
        · have := hb.1 _ e; have := ha.1 _ e'; omega
    subst hxy
    congr 1
    refine sorted_ext ha.2 hb.2 fun z => ⟨fun hz => ?_, fun hz => ?_⟩
    · rcases List.mem_cons.1 ((h z).1 (List.mem_cons_of_mem _ hz)) with e | e
      · have := ha.1 _ hz; omega
      · exact e
    · rcases List.mem_cons.1 ((h z).2 (List.mem_cons_of_mem _ hz)) with e | e
      · have := hb.1 _ hz; omega
      · exact e

theorem sorted_split : ∀ {l : List Int} (k : Int), l.Pairwise (· < ·) →
    l = l.filter (fun i => decide (i < k)) ++ l.filter (fun i => decide (k ≤ i))
  | [], _, _ => rfl
  | x :: l, k, h => by
    rw [List.pairwise_cons] at h
    by_cases hx : x < k
    · have : ¬ k ≤ x := by omega
      simp only [List.filter_cons, hx, this, decide_true, decide_false, if_true, List.cons_append]
      rw [if_neg (by simp), ← sorted_split k h.2]
    · have hk : k ≤ x := by omega
      have h1 : (x :: l).filter (fun i => decide (i < k)) = [] := by
        rw [List.filter_eq_nil_iff]
        intro z hz
        rcases List.mem_cons.1 hz with rfl | hz
        · simpa using hk
        · have := h.1 _ hz; simp; omega
      have h2 : (x :: l).filter (fun i => decide (k ≤ i)) = x :: l := by
        rw [List.filter_eq_self]
        intro z hz
        rcases List.mem_cons.1 hz with rfl | hz
        · simpa using hk
        · have := h.1 _ hz; simp; omega
      rw [h1, h2]; rfl

/-- The comment written for an activity has the form read back above: when the fields below the index -5 hold what
the activity puts there, the text of the comment is the paragraphs of the activity followed by the paragraphs of
the other fields. -/
theorem written_paragraphs (a : Activity) (es : List LangText.Spec.Given) (t : Str)
    (h : ∀ i < -5, LangText.Spec.textsOf es i c!"en" = ((generalEntries a).filter fun e => e.1 = i).map (·.2))
    (ht : LangText.Spec.IsText (some c!"; ") es c!"en" t) :
    ∃ idx : List Int, idx.Pairwise (· < ·) ∧
      (∀ i, i ∈ idx ↔ -5 ≤ i ∧ ∃ e ∈ es, e.lang = c!"en" ∧ e.index = i) ∧
      t = join c!"\n" (paragraphs a.nameId (textOf Tables.specialActivity a.subtype) (aget a.depth Tables.childType).join
        a.parent (a.tags.filter fun t => !t.isEmpty)
        (idx.map fun i => join c!"; " (LangText.Spec.textsOf es i c!"en"))) := by
  obtain ⟨idx, hs, hm, rfl⟩ := ht
  refine ⟨idx.filter (fun i => decide (-5 ≤ i)), hs.filter _, fun i => by simp [hm, and_comm], ?_⟩
  have hmem : ∀ i, (∃ e ∈ es, e.lang = c!"en" ∧ e.index = i) ↔ LangText.Spec.textsOf es i c!"en" ≠ [] := by
    intro i
    unfold LangText.Spec.textsOf
    simp only [ne_eq, List.map_eq_nil_iff, List.filter_eq_nil_iff, decide_eq_true_eq, not_forall, not_not]
    exact ⟨fun ⟨e, he, h1, h2⟩ => ⟨e, he, h2, h1⟩, fun ⟨e, he, h2, h1⟩ => ⟨e, he, h1, h2⟩⟩
  have hlow : ∀ i, i ∈ idx.filter (fun i => decide (i < -5)) ↔ i < -5 ∧ ∃ e ∈ generalEntries a, e.1 = i := by
    intro i
    simp only [List.mem_filter, decide_eq_true_eq]
    rw [hm, hmem, and_comm]
    refine and_congr_right fun hi => ?_
    rw [h i hi]
    simp [List.filter_eq_nil_iff]
  rw [show idx.map (fun i => LangText.Spec.combine (some c!"; ") (LangText.Spec.textsOf es i c!"en")) =
      (idx.filter (fun i => decide (i < -5))).map (fun i => join c!"; " (LangText.Spec.textsOf es i c!"en")) ++
      (idx.filter (fun i => decide (-5 ≤ i))).map (fun i => join c!"; " (LangText.Spec.textsOf es i c!"en")) by
    rw [← List.map_append, ← sorted_split _ hs]; rfl]
  generalize (idx.filter (fun i => decide (-5 ≤ i))).map _ = O
  have hsl := hs.filter (fun i => decide (i < -5))
  generalize idx.filter (fun i => decide (i < -5)) = low at *
  congr 1
  have key : low.map (fun i => join c!"; " (LangText.Spec.textsOf es i c!"en")) =
      low.map (fun i => join c!"; " (((generalEntries a).filter fun e => e.1 = i).map (·.2))) := by
    refine List.map_congr_left fun i hi => ?_
    rw [h i ((hlow i).1 hi).1]
  rw [key]
  clear key hm hs h hmem
  rcases a with ⟨nameId, subtype, depth, parent, tags⟩
  simp only at *
  generalize hT : tags.filter (fun t => !t.isEmpty) = T at *
  unfold paragraphs
  unfold generalEntries at *
  simp only [hT] at *
  generalize (aget depth Tables.childType).join = inh at *
  have hL : low = [-10, -9] ++ (if inh.isSome then [-8] else []) ++ (if parent.isSome then [-7] else []) ++
      (if T = [] then [] else [-6]) := by
    refine sorted_ext hsl ?_ fun i => ?_
    · cases inh <;> cases parent <;> cases T <;> simp
    · rw [hlow]
      clear hlow hsl hT
      cases inh <;> cases parent <;> cases T <;> simp <;> omega
  subst hL
  have f0 : ∀ i : Int, i ≠ -6 → (T.map fun t => ((-6 : Int), c!"\nTag: " ++ t)).filter (fun e => e.1 = i) = [] := by
    intro i hi
    rw [List.filter_eq_nil_iff]
    intro e he
    obtain ⟨t, _, rfl⟩ := List.mem_map.1 he
    simpa using fun h => hi h.symm
  have f6 : (T.map fun t => ((-6 : Int), c!"\nTag: " ++ t)).filter (fun e => e.1 = -6) =
      T.map fun t => ((-6 : Int), c!"\nTag: " ++ t) := by
    rw [List.filter_eq_self]
    intro e he
    obtain ⟨t, _, rfl⟩ := List.mem_map.1 he
    rfl
  have f10 := f0 (-10) (by decide)
  have f9 := f0 (-9) (by decide)
  have f8 := f0 (-8) (by decide)
  have f7 := f0 (-7) (by decide)
  congr 1
  by_cases hTn : T = []
  · subst hTn
    cases inh <;> cases parent <;> simp [join]
  · have g6 : (T.map fun t => ((-6 : Int), c!"\nTag: " ++ t)).map (·.2) = T.map fun t => c!"\nTag: " ++ t := by
      simp [Function.comp_def]
    rw [if_neg hTn, if_neg hTn, ← g6]
    generalize (T.map fun t => ((-6 : Int), c!"\nTag: " ++ t)) = M at *
    cases inh <;> cases parent <;> simp [List.filter_cons, f10, f9, f8, f7, f6, join]

example : ∃ idx : List Int, idx.Pairwise (· < ·) ∧
    (∀ i, i ∈ idx ↔ -5 ≤ i ∧ ∃ e ∈ [(⟨2, c!"en", c!"A remark."⟩ : LangText.Spec.Given),
      ⟨-9, c!"en", c!"Activity Subtype: market activity"⟩, ⟨-10, c!"en", c!"Activity Linkable Id: u"⟩],
      e.lang = c!"en" ∧ e.index = i) ∧ c!"Activity Linkable Id: u\nActivity Subtype: market activity\nA remark." =
    join c!"\n" (paragraphs c!"u" c!"market activity" none none [] (idx.map fun i => join c!"; "
      (LangText.Spec.textsOf [(⟨2, c!"en", c!"A remark."⟩ : LangText.Spec.Given),
      ⟨-9, c!"en", c!"Activity Subtype: market activity"⟩, ⟨-10, c!"en", c!"Activity Linkable Id: u"⟩] i c!"en"))) := by
  refine written_paragraphs ⟨c!"u", c!"1", c!"0", none, []⟩ _ _ (fun i hi => ?_) ⟨[-10, -9, 2], by decide, fun i => ?_, by rfl⟩
  · by_cases h1 : i = -10
    · subst h1; rfl
    · by_cases h2 : i = -9
      · subst h2; rfl
      · have h1' : ¬ (-10 : Int) = i := fun h => h1 h.symm
        have h2' : ¬ (-9 : Int) = i := fun h => h2 h.symm
        have h3 : ¬ (2 : Int) = i := by omega
        have hd : (aget c!"0" Tables.childType).join = none := by decide
        simp [LangText.Spec.textsOf, generalEntries, hd, h1', h2', h3]
  · simp only [List.mem_cons, List.not_mem_nil, or_false]
    constructor
    · rintro (rfl | rfl | rfl) <;> simp
    · rintro ⟨e, rfl | rfl | rfl, _, rfl⟩ <;> simp

/-! ### The other comments -/

/-- The level of technology and the activities included are read back from the description of the
technology. -/
theorem tech_restored (code level started ended : Str) (others : List Str)
    (hc : (code, level) ∈ Tables.tech) (h1 : OneLine started) (h2 : OneLine ended)
    (he : ¬ c!"Activity Start: " <:+: ended)
    (ho : ∀ x ∈ others, ∀ q ∈ [c!"Activity Start: ", c!"Activity End: ", c!"Technology Level: "], ¬ q <:+: x) :
    techComment (join c!"\n" ([techLine code] ++ others ++
        [c!"Activity Start: " ++ started, c!"Activity End: " ++ ended])) =
      .ok (⟨some started, some ended, some code⟩, join c!"\n" (others ++ [[]])) := by
  have ht : textOf Tables.tech code = level ∧ OneLine level ∧ aget level (Tables.inverse Tables.tech) = some code ∧
      ∀ q ∈ [c!"Activity Start: ", c!"Activity End: "], ¬ q <:+: c!"Technology Level: " ++ level := by
    have : ∀ p ∈ Tables.tech, textOf Tables.tech p.1 = p.2 ∧ OneLine p.2 ∧
      aget p.2 (Tables.inverse Tables.tech) = some p.1 ∧
      ∀ q ∈ [c!"Activity Start: ", c!"Activity End: "], ¬ q <:+: c!"Technology Level: " ++ p.2 := by decide +kernel
    exact this _ hc
  have hP : ∀ q ∈ [c!"Activity Start: ", c!"Activity End: "], ¬ q <:+: join c!"\n" (techLine code :: others) := by
    intro q hq
    have hqq : '\n' ∉ q ∧ q ≠ [] := by revert q; decide
    apply not_infix_join hqq.1 hqq.2
    intro l hl
    rcases List.mem_cons.1 hl with rfl | hl
    · unfold techLine; rw [ht.1]; exact ht.2.2.2 q hq
    · exact ho l hl q (by clear hqq; revert q; decide)
  have hT : join c!"\n" ([techLine code] ++ others ++
        [c!"Activity Start: " ++ started, c!"Activity End: " ++ ended]) =
      join c!"\n" (techLine code :: others) ++ '\n' :: ((c!"Activity Start:" ++ c!" ") ++ (started ++ '\n' ::
        ((c!"Activity End:" ++ c!" ") ++ ended))) := by
    have h3 : ([techLine code] ++ others ++ [c!"Activity Start: " ++ started, c!"Activity End: " ++ ended]) =
      ((techLine code :: others) ++ [c!"Activity Start: " ++ started]) ++ [c!"Activity End: " ++ ended] := by simp
    rw [h3, join_append_singleton _ _ _ (by simp), join_append_singleton _ _ _ (by simp)]
    simp
  have hL : join c!"\n" (techLine code :: others) ++ '\n' :: [] =
      (c!"Technology Level:" ++ c!" ") ++ (level ++ '\n' :: join c!"\n" (others ++ [[]])) := by
    have h3 := join_append_singleton c!"\n" (techLine code :: others) [] (by simp)
    rw [List.append_nil] at h3
    rw [← h3, List.cons_append, join_cons (by simp)]
    unfold techLine; rw [ht.1]; simp
  generalize join c!"\n" (techLine code :: others) = P at *
  have hse : ¬ c!"Activity Start: " <:+: (c!"Activity End:" ++ c!" ") ++ ended := by
    simpa [List.infix_cons_iff, List.cons_prefix_cons] using he
  have a1 : search startMatch (join c!"\n" ([techLine code] ++ others ++
        [c!"Activity Start: " ++ started, c!"Activity End: " ++ ended])) = some started := by
    rw [hT, search_skip marks_start (hP _ (by decide))]
    refine search_hit (k := 16 + started.length + 15) (by simp) ?_
    unfold startMatch
    rw [if_pos (startsWith_prefix.2 ⟨started ++ '\n' :: ((c!"Activity End:" ++ c!" ") ++ ended), by simp⟩)]
    have : List.drop 16 ((c!"Activity Start:" ++ c!" ") ++ (started ++ '\n' :: ((c!"Activity End:" ++ c!" ") ++ ended))) =
        started ++ '\n' :: ((c!"Activity End:" ++ c!" ") ++ ended) := drop_mark c!"Activity Start:" _
    rw [this]
    simp only [lineRest_line h1, List.drop_left]
    rw [if_pos (startsWith_prefix.2 ⟨ended, by simp⟩)]
  have a2 : remove (listMatch c!"Activity Start:") 0 (join c!"\n" ([techLine code] ++ others ++
        [c!"Activity Start: " ++ started, c!"Activity End: " ++ ended])) =
      P ++ '\n' :: ((c!"Activity End:" ++ c!" ") ++ ended) := by
    rw [hT, remove_skip (marks_list (p := c!"Activity Start:") (by decide)) (hP c!"Activity Start: " (by decide)),
      removeList_line h1, remove_none (marks_list (p := c!"Activity Start:") (by decide)) hse]
  have b1 : search (strMatch c!"Activity End:") (P ++ '\n' :: ((c!"Activity End:" ++ c!" ") ++ ended)) = some ended := by
    rw [search_skip (marks_str (p := c!"Activity End:") (by decide)) (hP c!"Activity End: " (by decide)), search_end h2]
  have b2 : remove (strMatch c!"Activity End:") 0 (P ++ '\n' :: ((c!"Activity End:" ++ c!" ") ++ ended)) = P ++ '\n' :: [] := by
    rw [remove_skip (marks_str (p := c!"Activity End:") (by decide)) (hP c!"Activity End: " (by decide)), remove_end h2]
  have l1 : getStr .typeError (Tables.inverse Tables.tech) c!"Technology Level:" (P ++ '\n' :: []) =
      .ok (some code, join c!"\n" (others ++ [[]])) := by
    rw [hL]
    refine getStr_first (by decide) ht.2.1 ht.2.2.1 (not_infix_join (by decide) (by decide) ?_)
    intro l hl
    rcases List.mem_append.1 hl with hl | hl
    · exact ho l hl c!"Technology Level: " (by decide)
    · simp at hl; subst hl; decide
  unfold techComment
  simp only [a1, Option.isSome_some, if_true, a2, b1, b2, l1]

example : techComment c!"Technology Level: Modern\nBest practice.\nActivity Start: From cradle.\nActivity End: At the gate." =
    .ok (⟨some c!"From cradle.", some c!"At the gate.", some c!"2"⟩, c!"Best practice.\n") :=
  tech_restored c!"2" c!"Modern" c!"From cradle." c!"At the gate." [c!"Best practice."] (by decide) (by decide)
    (by decide) (by decide) (by decide)

/-- A description of the start without one of the end is not recognised: it stays in the comment. -/
theorem start_alone : techComment c!"Technology Level: Modern\nActivity Start: From cradle." =
    .ok (⟨none, none, some c!"2"⟩, c!"Activity Start: From cradle.") := by decide +kernel

/-- The validity is read back from the description of the time. -/
theorem validity_restored (code text : Str) (others : List Str) (hc : (code, text) ∈ Tables.timePeriod)
    (ho : ∀ x ∈ others, ¬ c!"Validity: " <:+: x) :
    timeComment (join c!"\n" (validityLine code :: others)) = .ok (some code, join c!"\n" others) := by
  have ht : textOf Tables.timePeriod code = text ∧ OneLine text ∧
      aget text (Tables.inverse Tables.timePeriod) = some code := by
    have : ∀ p ∈ Tables.timePeriod, textOf Tables.timePeriod p.1 = p.2 ∧ OneLine p.2 ∧
      aget p.2 (Tables.inverse Tables.timePeriod) = some p.1 := by decide +kernel
    exact this _ hc
  unfold timeComment validityLine
  rw [ht.1]
  cases others with
  | nil =>
    have := getStr_last (err := .valueError) (p := c!"Validity:") ht.2.1 ht.2.2
    simpa [join] using this
  | cons o os =>
    rw [join_cons (by simp)]
    have := getStr_first (err := .valueError) (p := c!"Validity:") (by decide) ht.2.1 ht.2.2
      (not_infix_join (q := c!"Validity: ") (by decide) (by decide) ho)
    simpa using this

example : timeComment c!"Validity: Data is not valid for the entire period.\nMeasured in 2010." =
    .ok (some c!"false", c!"Measured in 2010.") :=
  validity_restored c!"false" c!"Data is not valid for the entire period." [c!"Measured in 2010."] (by decide) (by decide)

/-- The kind of energy values is read back, if it is defined. -/
theorem energy_restored (code text : Str) (kinds : List Bool) (hc : (code, text) ∈ Tables.energy)
    (h0 : text ≠ c!"undefined") :
    ∃ set left, modellingConstants (energyLine code) = .ok (set, left) ∧ energyBack set kinds = code := by
  have : ∀ p ∈ Tables.energy, p.2 ≠ c!"undefined" →
      modellingConstants (energyLine p.1) = .ok (some p.1, c!"Modelling Constants: ") ∧ p.1 ≠ c!"0" := by
    decide +kernel
  obtain ⟨h1, h2⟩ := this _ hc h0
  refine ⟨some code, _, h1, ?_⟩
  have h2 : code ≠ c!"0" := h2
  simp [energyBack, h2]

example : ∃ set left, modellingConstants (energyLine c!"2") = .ok (set, left) ∧ energyBack set [true] = c!"2" :=
  energy_restored c!"2" c!"gross calorific value" [true] (by decide) (by decide)

/-- Undefined energy values do not stay undefined: without heating values in the data set they become net
calorific values, and so does a data set that says nothing about them. -/
theorem energy_undefined : ∃ set left, modellingConstants (energyLine c!"0") = .ok (set, left) ∧
    set = some c!"0" ∧ ∀ kinds, energyBack set kinds = energyBack none kinds := by
  refine ⟨_, _, (by decide : modellingConstants (energyLine c!"0") = .ok (some c!"0", c!"Modelling Constants: ")), rfl, ?_⟩
  intro kinds; rfl

/-- The choice among net, gross and undefined values. -/
theorem energy_chosen_iff (kinds : List Bool) :
    (energyBack none kinds = c!"1" ↔ 3 * kinds.count false ≤ kinds.count true) ∧
    (energyBack none kinds = c!"2" ↔ kinds.count true < 3 * kinds.count false ∧
      3 * kinds.count true ≤ kinds.count false) ∧
    (energyBack none kinds = c!"0" ↔ kinds.count true < 3 * kinds.count false ∧
      kinds.count false < 3 * kinds.count true) := by
  simp only [energyBack, energyBack.chosen]
  split
  · rename_i h; simp; omega
  · rename_i h
    split
    · rename_i h'; simp; omega
    · rename_i h'; simp; omega

/-! ### The system model (C71) -/

/-- A system model known to the converter comes back with its name, from the comment; the identifier is the
one of the table. -/
theorem system_model_restored (name pr dev ap : Str) (h : systemModel name = .ok (pr, dev, ap)) (approaches : List Str) :
    ∃ i, aget name Tables.systemModelId = some i ∧
      systemModelBack (deviationComment dev).1 approaches = .ok (i, name) := by
  have hn : ∃ x, (name, x) ∈ Tables.systemModel ∧ dev = c!"Original ecoinvent System Model: " ++ name := by
    unfold systemModel at h
    split at h
    · cases h
    · rename_i x hx
      split at h
      · cases h
      · cases h; exact ⟨_, aget_mem hx, rfl⟩
  obtain ⟨x, hx, rfl⟩ := hn
  have : ∀ p ∈ Tables.systemModel, (deviationComment (c!"Original ecoinvent System Model: " ++ p.1)).1 = some p.1 ∧
      (aget p.1 Tables.systemModelId).isSome := by decide +kernel
  obtain ⟨h1, h2⟩ := this _ hx
  obtain ⟨i, hi⟩ := Option.isSome_iff_exists.1 h2
  refine ⟨i, hi, ?_⟩
  simp only at h1
  rw [h1]
  simp only [systemModelBack, hi]

example : ∃ i, aget c!"Allocation, cut-off by classification" Tables.systemModelId = some i ∧
    systemModelBack (deviationComment c!"Original ecoinvent System Model: Allocation, cut-off by classification").1 [] =
      .ok (i, c!"Allocation, cut-off by classification") :=
  system_model_restored _ c!"Attributional" _ c!"Allocation - 100% to main function" (by decide) []

/-- A data set is converted exactly if its system model is one of the eleven of the table; any other name stops
the conversion. -/
theorem system_model_known_iff (name : Str) :
    (∃ r, systemModel name = .ok r) ↔ name ∈ Tables.systemModel.map Prod.fst := by
  have hk : Tables.systemModel.map Prod.fst = Tables.systemModel2.map Prod.fst := by decide +kernel
  unfold systemModel
  constructor
  · rintro ⟨r, h⟩
    by_contra hc
    rw [(aget_none _ _).2 hc] at h
    cases h
  · intro h
    have h' := h
    rw [hk] at h'
    rw [← aget_isSome] at h h'
    obtain ⟨a, ha⟩ := Option.isSome_iff_exists.1 h
    obtain ⟨b, hb⟩ := Option.isSome_iff_exists.1 h'
    refine ⟨(a, c!"Original ecoinvent System Model: " ++ name, b), ?_⟩
    rw [ha]; simp only [hb]

/-- Different system models share an identifier, so the identifier does not tell the model. -/
theorem system_model_id_shared : aget c!"Allocation, ecoinvent default" Tables.systemModelId =
    aget c!"Allocation at the point of substitution" Tables.systemModelId := by decide

/-- C68, exactly what counts as an identifier after a mark: the text of an identifier with a line feed after it, and
nothing else; the line is removed with its line feed. -/
theorem uuidMatch_iff (p s g : Str) (k : Nat) : uuidMatch p s = some (g, k) ↔
    Validators.Spec.UuidText g ∧ (∃ r, s = p ++ c!" " ++ g ++ '\n' :: r) ∧ k = (p ++ c!" " ++ g ++ c!"\n").length := by
  constructor
  · intro h
    unfold uuidMatch at h
    split at h
    · rename_i hp
      obtain ⟨r0, rfl⟩ := startsWith_iff.1 hp
      have hd : (p ++ c!" " ++ r0).drop (p.length + 1) = r0 := by
        have : p.length + 1 = (p ++ c!" ").length := by simp
        rw [this, List.drop_left]
      simp only [hd] at h
      split at h
      · rename_i hc
        obtain ⟨h1, h2⟩ := hc
        obtain ⟨rfl, rfl⟩ := Prod.mk.inj (Option.some.inj h)
        obtain ⟨x, y, rfl, hx⟩ := (Validators.Re.isMatch_iff _ _).1 h1
        have hu := (Validators.uuidRe_lang x).1 hx
        have hl := Validators.uuidText_length hu
        have e1 : (x ++ y).take 36 = x := by rw [← hl, List.take_left]
        have e2 : (x ++ y).drop 36 = y := by rw [← hl, List.drop_left]
        rw [e2] at h2
        obtain ⟨r, rfl⟩ := startsWith_iff.1 h2
        rw [e1]
        exact ⟨hu, ⟨r, by simp⟩, by simp [hl]⟩
      · cases h
    · cases h
  · rintro ⟨hu, ⟨r, rfl⟩, rfl⟩
    have := uuidMatch_line (p := p) (r := r) hu
    simpa using this

/-- C71, exactly what counts as a system model: the mark with a line after it that is the last one of the text. -/
theorem modelMatch_iff (s g : Str) (k : Nat) : modelMatch s = some (g, k) ↔
    OneLine g ∧ (s = c!"Original ecoinvent System Model: " ++ g ∨ s = c!"Original ecoinvent System Model: " ++ g ++ c!"\n") ∧
      k = (c!"Original ecoinvent System Model: " ++ g).length := by
  constructor
  · intro h
    unfold modelMatch at h
    split at h
    · rename_i hp
      obtain ⟨r, rfl⟩ := startsWith_iff.1 hp
      have hd : (c!"Original ecoinvent System Model: " ++ r).drop 33 = r := List.drop_left' rfl
      simp only [hd] at h
      split at h
      · rename_i hc
        obtain ⟨rfl, rfl⟩ := Prod.mk.inj (Option.some.inj h)
        have e : r = lineRest r ++ r.drop (lineRest r).length := by
          have : lineRest r <+: r := List.takeWhile_prefix _
          exact (List.prefix_iff_eq_append.1 this).symm
        refine ⟨lineRest_oneLine r, ?_, by simp; omega⟩
        rcases hc with hc | hc
        · rw [hc, List.append_nil] at e
          exact .inl (by rw [← e])
        · rw [hc] at e
          right
          rw [List.append_assoc, ← e]
      · cases h
    · cases h
  · rintro ⟨hg, hs, rfl⟩
    have hd : ∀ r, (c!"Original ecoinvent System Model: " ++ r).drop 33 = r := fun r => List.drop_left' rfl
    have hst : ∀ r, startsWith c!"Original ecoinvent System Model: " (c!"Original ecoinvent System Model: " ++ r) = true :=
      fun r => startsWith_iff.2 ⟨r, rfl⟩
    have hlen : (c!"Original ecoinvent System Model: " ++ g).length = 33 + g.length := by simp; omega
    rw [hlen]
    rcases hs with rfl | rfl
    · unfold modelMatch
      rw [if_pos (hst _)]
      simp only [hd, lineRest_end hg, List.drop_length, true_or, if_true]
    · rw [List.append_assoc]
      unfold modelMatch
      rw [if_pos (hst _)]
      simp only [hd]
      have : lineRest (g ++ c!"\n") = g := lineRest_line hg
      rw [this]
      simp

/-- C71: the note of the system model is taken out of the comment, and only the heading is left; a text without such a
note is left as it is. -/
theorem deviation_text (t : Str) :
    (OneLine t → deviationComment (c!"Original ecoinvent System Model: " ++ t) =
      (some t, c!"Deviations from LCI Method Principles: ")) ∧
    (¬ c!"Original ecoinvent System Model: " <:+: c!"Deviations from LCI Method Principles: " ++ t →
      deviationComment t = (none, c!"Deviations from LCI Method Principles: " ++ t)) := by
  constructor
  · intro ht
    have hm := (modelMatch_iff (c!"Original ecoinvent System Model: " ++ t) t _).2 ⟨ht, .inl rfl, rfl⟩
    have hs := search_hit (m := modelMatch) (by simp) hm
    have hr : remove modelMatch 0 (c!"Original ecoinvent System Model: " ++ t) = [] := by
      have := remove_hit (m := modelMatch) (t := c!"Original ecoinvent System Model: " ++ t) (s := []) (g := t) (by simp)
        (by rw [List.append_nil]; exact hm)
      rw [List.append_nil] at this
      rw [this]; rfl
    have step : ∀ (c : Char) (l : Str), c ≠ 'O' → modelMatch (c :: l) = none := by
      intro c l hc
      apply marks_model.only
      rintro ⟨r, hr⟩
      simp only [List.cons_append, List.cons.injEq] at hr
      exact hc hr.1.symm
    unfold deviationComment
    generalize c!"Original ecoinvent System Model: " ++ t = u at hs hr ⊢
    have h1 : search modelMatch (c!"Deviations from LCI Method Principles: " ++ u) = some t := by
      simp [search, step, hs]
    have h2 : remove modelMatch 0 (c!"Deviations from LCI Method Principles: " ++ u) =
        c!"Deviations from LCI Method Principles: " := by
      simp [remove, step, hr]
    simp only [h1, h2, Option.isSome_some, if_true]
  · intro h
    unfold deviationComment
    simp only [search_none marks_model h, Option.isSome_none, Bool.false_eq_true, if_false]

example : deviationComment c!"Original ecoinvent System Model: Undefined" =
    (some c!"Undefined", c!"Deviations from LCI Method Principles: ") := (deviation_text _).1 (by decide)

/-- A code that is in no table is written as the word `None`, which cannot be read back: the conversion of the result
ends with an error. -/
theorem unknown_codes (code : Str) :
    (code ∉ Tables.tech.map Prod.fst → techLine code = c!"Technology Level: None" ∧
      techComment (techLine code) = .error .typeError) ∧
    (code ∉ Tables.timePeriod.map Prod.fst → validityLine code = c!"Validity: None" ∧
      timeComment (validityLine code) = .error .valueError) ∧
    (code ∉ Tables.energy.map Prod.fst → energyLine code = c!"Energy: None" ∧
      ∃ e, modellingConstants (energyLine code) = .error e) := by
  refine ⟨fun h => ?_, fun h => ?_, fun h => ?_⟩
  · have e : techLine code = c!"Technology Level: None" := by
      unfold techLine textOf; rw [(aget_none _ _).2 h]; rfl
    exact ⟨e, by rw [e]; decide +kernel⟩
  · have e : validityLine code = c!"Validity: None" := by
      unfold validityLine textOf; rw [(aget_none _ _).2 h]; rfl
    exact ⟨e, by rw [e]; decide +kernel⟩
  · have e : energyLine code = c!"Energy: None" := by
      unfold energyLine textOf; rw [(aget_none _ _).2 h]; rfl
    exact ⟨e, .typeError, by rw [e]; decide +kernel⟩

example : c!"9" ∉ Tables.tech.map Prod.fst ∧ c!"yes" ∉ Tables.timePeriod.map Prod.fst ∧
    c!"9" ∉ Tables.energy.map Prod.fst := by decide

end Verif.Comments
