/-
Comments of exchanges: C180 (tags are named), C181 (the comment says what the exchange says), C182 (comments of ILCD
exchanges, and of exchanges on their way back), C183 (comments of summed exchanges).
-/
import Verif.Lemmas.ExchComments
import Verif.Props.Products

namespace Verif.ExchComments

open Verif.Xml Verif.Shapes
open Verif.Xml.Spec (WellNamed Name)
open Verif.Shapes.Spec (Text)
open Products.Spec (attr kids Texts)
open Products (dict_of texts_children)
open Spec (Tags tagLine Paragraphs inLang infoLines Says)
open LangText (Entry notBlank addMerged)
open UncText (commentEntries commentEntries_sorted commentEntries_ge)
open Naming (entryDict)

/-! ### C180: the tags -/

/-- The text has content. -/
abbrev Content (s : Str) : Prop := (Text.mk none (some s)).content ≠ []

theorem content_eq {s : Str} (h : Content s) : (Text.mk none (some s)).content = s := by
  unfold Content at h
  unfold Text.content at h ⊢
  simp only at h ⊢
  split at h
  · exact absurd rfl h
  · rename_i hs
    rw [if_neg hs]

theorem aget_tags {e : Elem} (he : WellNamed e) (ha : e.attrs ≠ []) {d : List (Str × PyVal)} (hd : elem2dict e = .dict d)
    {l : List Str} (hl : Tags e l) : ∃ tag, aget c!"tag" d = children (l.map fun s => elem tag ⟨none, some s⟩) := by
  obtain ⟨d', hd', _, hc⟩ := dict_of e he ha
  rw [hd'] at hd
  cases hd
  obtain ⟨tag, hk⟩ := texts_children hl
  exact ⟨tag, by rw [hc _ (by decide), hk, List.map_map]; rfl⟩

theorem strs_map : ∀ l : List Str, Products.strs (l.map .str) = .ok l
  | [] => rfl
  | s :: l => by simp only [List.map_cons, Products.strs, strs_map l, bind, Except.bind]

theorem tag_value (tag s : Str) : elem2dict (elem tag ⟨none, some s⟩) =
    if Content s then .str s else .dict [] := by
  rw [leaf_value]
  by_cases h : Content s
  · have := content_eq h
    have h' := h
    unfold Content at h'
    simp only [this] at h' ⊢
    rw [if_pos h, if_neg h']
  · have h' : (Text.mk none (some s)).content = [] := by simpa [Content] using h
    rw [if_neg h]
    simp only [h', if_true]

/-- **C180** Two or more tags are named in the comment, all of them and in order. -/
theorem tags_named_partial {e : Elem} (he : WellNamed e) (ha : e.attrs ≠ []) {d : List (Str × PyVal)}
    (hd : elem2dict e = .dict d) {l : List Str} (hl : Tags e l) (h2 : 2 ≤ l.length) (hc : ∀ s ∈ l, Content s) :
    tagText d = .ok (some (tagLine l)) := by
  obtain ⟨tag, h⟩ := aget_tags he ha hd hl
  match l, h2 with
  | s :: s' :: l, _ =>
    have hv : (s :: s' :: l).map (fun s => elem2dict (elem tag ⟨none, some s⟩)) = (s :: s' :: l).map .str :=
      List.map_congr_left fun x hx => by rw [tag_value, if_pos (hc x hx)]
    have hcl : children ((s :: s' :: l).map fun s => elem tag ⟨none, some s⟩) = some (.list ((s :: s' :: l).map .str)) := by
      rw [← hv]
      simp [children, Function.comp_def]
    rw [hcl] at h
    unfold tagText
    rw [h]
    simp only [truthy, List.map_cons, List.isEmpty_cons, Bool.not_false, if_true, iterate, bind, Except.bind]
    have := strs_map (s :: s' :: l)
    simp only [List.map_cons] at this
    rw [this]
    rfl

/-- **C180** A single tag is named letter by letter. -/
theorem tag_spelled {e : Elem} (he : WellNamed e) (ha : e.attrs ≠ []) {d : List (Str × PyVal)}
    (hd : elem2dict e = .dict d) {s : Str} (hl : Tags e [s]) (hc : Content s) :
    tagText d = .ok (some (tagLine (s.map fun c => [c]))) := by
  obtain ⟨tag, h⟩ := aget_tags he ha hd hl
  have hne : s ≠ [] := fun h => by
    rw [h] at hc
    exact hc rfl
  have hv : aget c!"tag" d = some (.str s) := by
    rw [h]
    simp [children, tag_value, hc]
  unfold tagText
  rw [hv]
  have he : s.isEmpty = false := by cases s <;> simp_all
  have hs : (s.map fun c => PyVal.str [c]) = (s.map fun c => [c]).map .str := by simp
  simp only [truthy, he, Bool.not_false, if_true, iterate, bind, Except.bind, hs, strs_map]
  rfl

theorem join_chars_length : ∀ s : Str, s ≠ [] → (join c!"; " (s.map fun c => [c])).length + 2 = 3 * s.length
  | [], h => absurd rfl h
  | [c], _ => rfl
  | c :: c' :: s, _ => by
    have ih := join_chars_length (c' :: s) (by simp)
    simp only [List.map_cons, join, List.length_append, List.length_cons, List.length_nil] at ih ⊢
    omega

/-- **C180** The tags of an exchange are named in its comment just if there are several, or one of a single letter. -/
theorem tags_named_iff {e : Elem} (he : WellNamed e) (ha : e.attrs ≠ []) {d : List (Str × PyVal)}
    (hd : elem2dict e = .dict d) {l : List Str} (hl : Tags e l) (hne : l ≠ []) (hc : ∀ s ∈ l, Content s) :
    tagText d = .ok (some (tagLine l)) ↔ 2 ≤ l.length ∨ ∃ s, l = [s] ∧ s.length ≤ 1 := by
  match l, hne with
  | [s], _ =>
    rw [tag_spelled he ha hd hl (hc s (by simp))]
    have hsne : s ≠ [] := fun h => by
      have := hc s (by simp)
      rw [h] at this
      exact this rfl
    simp only [Except.ok.injEq, Option.some.injEq, tagLine, List.append_cancel_left_eq, List.length_cons, List.length_nil,
      Nat.reduceLeDiff, List.cons.injEq, and_true, exists_eq_left', false_or]
    constructor
    · intro h
      have h1 := congrArg List.length h
      have h2 := join_chars_length s hsne
      have h3 : join c!"; " [s] = s := rfl
      rw [h3] at h1
      have := List.length_pos_iff.2 hsne
      omega
    · intro h
      match s, hsne with
      | [c], _ => rfl
      | c :: c' :: s, _ => simp at h
  | s :: s' :: l, _ =>
    exact ⟨fun _ => .inl (by simp), fun _ => tags_named_partial he ha hd hl (by simp) hc⟩

/-- **C180** An exchange without tags, or with one that is blank, has no such line. -/
theorem no_tags {e : Elem} (he : WellNamed e) (ha : e.attrs ≠ []) {d : List (Str × PyVal)}
    (hd : elem2dict e = .dict d) {l : List Str} (hl : Tags e l) (h : l = [] ∨ ∃ s, l = [s] ∧ ¬ Content s) :
    tagText d = .ok none := by
  obtain ⟨tag, hg⟩ := aget_tags he ha hd hl
  unfold tagText
  rw [hg]
  rcases h with rfl | ⟨s, rfl, hs⟩
  · rfl
  · simp only [List.map_cons, List.map_nil, children, tag_value, if_neg hs, truthy, List.isEmpty_nil]
    rfl

/-- **C180** A blank tag among several stops the conversion. -/
theorem blank_tag_stops {e : Elem} (he : WellNamed e) (ha : e.attrs ≠ []) {d : List (Str × PyVal)}
    (hd : elem2dict e = .dict d) {l : List Str} (hl : Tags e l) (h2 : 2 ≤ l.length) {s : Str} (hs : s ∈ l)
    (hb : ¬ Content s) : tagText d = .error .typeError := by
  obtain ⟨tag, hg⟩ := aget_tags he ha hd hl
  have key : ∀ l : List Str, s ∈ l →
      Products.strs (l.map fun s => elem2dict (elem tag ⟨none, some s⟩)) = .error .typeError := by
    intro l
    induction l with
    | nil => intro h; simp at h
    | cons a l ih =>
      intro h
      by_cases hca : Content a
      · have : s ∈ l := by
          rcases List.mem_cons.1 h with rfl | h
          · exact absurd hca hb
          · exact h
        simp only [List.map_cons, tag_value, if_pos hca, Products.strs, bind, Except.bind]
        have := ih this
        simp only [tag_value] at this
        rw [this]
      · simp only [List.map_cons, tag_value, if_neg hca, Products.strs]
  match l, h2 with
  | a :: b :: l, _ =>
    have := key _ hs
    unfold tagText
    rw [hg]
    simp only [List.map_cons, children] at this ⊢
    simp only [truthy, List.isEmpty_cons, Bool.not_false, if_true, iterate, bind, Except.bind]
    rw [List.map_map]
    simp only [Function.comp_def]
    rw [this]

/-! ### C181: the comment of an exchange -/

/-- Language and text of a text. -/
def pair (pre : Str) (t : Text) : Str × Str := (t.language, pre ++ t.content)

theorem counted_entries (n : Int) : ∀ l : List (Str × Str),
    counted n (l.map fun p => (.str p.1, p.2)) = (commentEntries n l).map valueOf := by
  intro l
  induction l generalizing n with
  | nil => rfl
  | cons p l ih =>
    obtain ⟨a, b⟩ := p
    simp only [List.map_cons, counted, commentEntries, ih]
    rfl

/-- The texts of a language among numbered ones. -/
theorem numbered_texts (L : Str) : ∀ (n : Int) (l : List (Str × Str)),
    ((((commentEntries n l).filter fun e => notBlank e.text).map Entry.given).filter fun g => decide (g.lang = L)).map
      (·.text) = (l.filter fun p => decide (p.1 = L) && notBlank p.2).map (·.2)
  | _, [] => rfl
  | n, (a, b) :: l => by
    have ih := numbered_texts L (n + 1) l
    rw [commentEntries, List.filter_cons, List.filter_cons]
    by_cases hb : notBlank b = true
    · by_cases hl : a = L
      · simp [hb, hl, Entry.given, ← ih]
      · simp [hb, hl, Entry.given, ← ih]
    · simp only [hb, Bool.and_false]
      simpa using ih

theorem numbered_paragraphs (sep : Option Str) (L : Str) (n : Int) (l : List (Str × Str)) :
    Paragraphs sep (((commentEntries n l).filter fun e => notBlank e.text).map Entry.given) L
      ((l.filter fun p => decide (p.1 = L) && notBlank p.2).map (·.2)) := by
  rw [← numbered_texts L n l]
  refine paragraphs_sorted sep L ?_
  rw [List.pairwise_map]
  exact (commentEntries_sorted l n).filter _

theorem notBlank_content {t : Text} : notBlank t.content = decide (t.content ≠ []) := by
  unfold notBlank
  by_cases h : t.content = []
  · simp [h]
  · have : isSpaceStr t.content = false := by
      unfold Text.content at h ⊢
      cases ht : t.text with
      | none => simp [ht] at h
      | some s =>
        simp only [ht] at h ⊢
        split at h
        · exact absurd rfl h
        · rename_i hs
          simp [hs]
    simp [h, this]

theorem notBlank_prefix {a b : Str} (h : LangText.Spec.Visible a) : notBlank (a ++ b) = true := by
  rw [LangText.notBlank_iff]
  obtain ⟨c, hc, hs⟩ := h
  exact ⟨c, by simp [hc], hs⟩

theorem inLang_pairs (L : Str) (l : List Text) :
    (((full l).map (pair [])).filter fun p => decide (p.1 = L) && notBlank p.2).map (·.2) = inLang L l := by
  unfold inLang full
  induction l with
  | nil => rfl
  | cons t l ih =>
    by_cases hc : t.content = []
    · simpa [hc] using ih
    · by_cases hl : t.language = L
      · simp only [List.filter_cons, hc, hl, ne_eq, not_false_eq_true, decide_true, Bool.and_self, if_true, List.map_cons]
        have : notBlank (pair [] t).2 = true := by
          show notBlank ([] ++ t.content) = true
          rw [List.nil_append, notBlank_content]
          simpa using hc
        have h1 : (pair [] t).1 = L := hl
        simp only [h1, this, decide_true, Bool.and_self, if_true, List.map_cons]
        rw [ih]
        rfl
      · simp only [List.filter_cons, hc, hl, ne_eq, not_false_eq_true, decide_true, decide_false, Bool.false_and, if_true,
          List.map_cons]
        have h1 : (pair [] t).1 ≠ L := hl
        simp only [h1, decide_false, Bool.false_and]
        simpa using ih

/-- The lines of the production volume in a language. -/
def volumeLines (L : Str) (l : List Text) : List Str :=
  (l.filter fun t => decide (t.language = L)).map fun t => c!"Production Volume Comment: " ++ t.content

theorem volume_pairs (L : Str) (l : List Text) :
    ((l.map (pair c!"Production Volume Comment: ")).filter fun p => decide (p.1 = L) && notBlank p.2).map (·.2) =
      volumeLines L l := by
  unfold volumeLines
  induction l with
  | nil => rfl
  | cons t l ih =>
    have hv : notBlank (pair c!"Production Volume Comment: " t).2 = true :=
      notBlank_prefix (a := c!"Production Volume Comment: ") (by decide)
    by_cases hl : t.language = L
    · have h1 : (pair c!"Production Volume Comment: " t).1 = L := hl
      simp only [List.map_cons, List.filter_cons, h1, hv, hl, decide_true, Bool.and_self, if_true, ih]
      rfl
    · have h1 : (pair c!"Production Volume Comment: " t).1 ≠ L := hl
      simp only [List.map_cons, List.filter_cons, h1, hl, decide_false, Bool.false_and]
      simpa using ih

/-- The paragraphs of the comment of an exchange: the line of the tags, the texts of the uncertainty, the comments and
those of the production volume. -/
def lines (tag : Option Str) (ups : Str → List Str) (cs vs : List Text) (L : Str) : List Str :=
  (if L = c!"en" then tag.toList else []) ++ ups L ++ inLang L cs ++ volumeLines L vs

/-- The entries of the comment of an exchange. -/
def entries (n m : Int) (tag : Option Str) (unc : List Entry) (cs vs : List Text) : List Entry :=
  commentEntries n ((full cs).map (pair [])) ++ tag.toList.map (fun t => ⟨-1, c!"en", t⟩) ++ unc ++
    commentEntries m (vs.map (pair c!"Production Volume Comment: "))

/-- An exchange of EcoSpold2 that can be read: its element, the texts of comment and production volume, and the line of its
tags. -/
structure Source (e : Elem) (d : List (Str × PyVal)) (tag : Option Str) (cs vs : List Text) : Prop where
  wellNamed : WellNamed e
  attrs : e.attrs ≠ []
  dict : elem2dict e = .dict d
  comments : Texts e c!"comment" cs
  tags : tagText d = .ok tag
  volume : (vs = [] ∧ (attr e c!"productionVolumeAmount" = none ∨ attr e c!"productionVolumeAmount" = some [])) ∨
    (Texts e c!"productionVolumeComment" vs ∧ (∃ a, attr e c!"productionVolumeAmount" = some a ∧ a ≠ []) ∧
      ∀ t ∈ vs, t.lang ≠ none ∨ t.content ≠ [])

theorem each_texts (dflt : PyVal) {e : Elem} (he : WellNamed e) (ha : e.attrs ≠ []) {d : List (Str × PyVal)}
    (hd : elem2dict e = .dict d) {k : Str} (hk : Name k) {l : List Text} (hl : Texts e k l) :
    Shapes.each dflt ((aget k d).getD (.dict [])) = .ok ((full l).map fun t => (.str t.language, t.content)) := by
  obtain ⟨d', hd', _, hc⟩ := dict_of e he ha
  rw [hd'] at hd
  cases hd
  obtain ⟨tag, h⟩ := texts_children hl
  rw [hc _ hk, h]
  exact comments_read dflt tag l

theorem volumeTexts_of (dflt : PyVal) {e : Elem} {d : List (Str × PyVal)} {tag : Option Str} {cs vs : List Text}
    (h : Source e d tag cs vs) :
    volumeTexts dflt d = .ok (vs.map fun t => (.str t.language, c!"Production Volume Comment: " ++ t.content)) := by
  obtain ⟨d', hd', hat, _⟩ := dict_of e h.wellNamed h.attrs
  have hd := h.dict
  rw [hd'] at hd
  cases hd
  have hA := hat c!"productionVolumeAmount" (by decide)
  unfold volumeTexts
  rcases h.volume with ⟨rfl, h' | h'⟩ | ⟨hv, ⟨a, h', hne⟩, hg⟩
  · rw [hA, h']
    rfl
  · rw [hA, h']
    rfl
  · have he : a.isEmpty = false := by cases a <;> simp_all
    rw [hA, h']
    simp only [Option.map_some, Option.any_some, truthy, he, Bool.not_false, if_true]
    exact Products.volume_comments_kept dflt e h.wellNamed h.attrs hd' vs hv hg

theorem given_values (dflt : PyVal) (n m : Int) (unc : List Entry) {e : Elem} {d : List (Str × PyVal)} {tag : Option Str}
    {cs vs : List Text} (h : Source e d tag cs vs) :
    given dflt n m unc d = .ok ((entries n m tag unc cs vs).map valueOf) := by
  unfold given
  rw [each_texts dflt h.wellNamed h.attrs h.dict (by decide) h.comments, h.tags, volumeTexts_of dflt h]
  simp only [bind, Except.bind, entries, List.map_append]
  have h1 := counted_entries n ((full cs).map (pair []))
  have h2 := counted_entries m (vs.map (pair c!"Production Volume Comment: "))
  rw [List.map_map] at h1 h2
  have e1 : ((fun p : Str × Str => (PyVal.str p.1, p.2)) ∘ pair []) = fun t => (.str t.language, t.content) := rfl
  rw [e1] at h1
  have e2 : ((fun p : Str × Str => (PyVal.str p.1, p.2)) ∘ pair c!"Production Volume Comment: ") =
      fun t => (.str t.language, c!"Production Volume Comment: " ++ t.content) := rfl
  rw [e2] at h2
  rw [h1, h2, List.map_map]
  rfl

/-- The languages used are allowed. -/
def LangsOk (langs : Option (List Str)) (unc : List Entry) (cs vs : List Text) : Prop :=
  LangText.langOk langs c!"en" = true ∧ (∀ e ∈ unc, LangText.langOk langs e.lang = true) ∧
    (∀ t ∈ full cs, LangText.langOk langs t.language = true) ∧ ∀ t ∈ vs, LangText.langOk langs t.language = true

theorem mem_commentEntries {n : Int} {l : List (Str × Str)} {e : Entry} (h : e ∈ commentEntries n l) :
    (e.lang, e.text) ∈ l := by
  induction l generalizing n with
  | nil => simp [commentEntries] at h
  | cons p l ih =>
    obtain ⟨a, b⟩ := p
    rw [commentEntries] at h
    rcases List.mem_cons.1 h with rfl | h
    · simp
    · exact List.mem_cons_of_mem _ (ih h)

theorem entries_langs {langs : Option (List Str)} {n m : Int} {tag : Option Str} {unc : List Entry} {cs vs : List Text}
    (h : LangsOk langs unc cs vs) : ∀ e ∈ entries n m tag unc cs vs, LangText.langOk langs e.lang = true := by
  intro e he
  simp only [entries, List.mem_append] at he
  rcases he with ((he | he) | he) | he
  · obtain ⟨t, ht, hp⟩ := List.mem_map.1 (mem_commentEntries he)
    have : t.language = e.lang := congrArg Prod.fst hp
    rw [← this]
    exact h.2.2.1 t ht
  · obtain ⟨t, _, rfl⟩ := List.mem_map.1 he
    exact h.1
  · exact h.2.1 e he
  · obtain ⟨t, ht, hp⟩ := List.mem_map.1 (mem_commentEntries he)
    have : t.language = e.lang := congrArg Prod.fst hp
    rw [← this]
    exact h.2.2.2 t ht

/-- The field holds the entries that are not blank. -/
theorem exchange_entries (langs : Option (List Str)) (dflt : PyVal) (n m : Int) (unc : List Entry) {e : Elem}
    {d : List (Str × PyVal)} {tag : Option Str} {cs vs : List Text} (h : Source e d tag cs vs)
    (hl : LangsOk langs unc cs vs) :
    exchange langs dflt n m unc d =
      .ok (addMerged LangText.ilcdString [] ((entries n m tag unc cs vs).filter fun e => notBlank e.text)) := by
  unfold exchange
  rw [given_values dflt n m unc h]
  simp only [bind, Except.bind]
  exact putAll_values _ _ _ _ (entries_langs hl)

theorem tag_visible {d : List (Str × PyVal)} {t : Str} (h : tagText d = .ok (some t)) : notBlank t = true := by
  unfold tagText at h
  split at h
  · cases h
  · rename_i v _
    split at h
    · cases hi : iterate v with
      | error e => rw [hi] at h; cases h
      | ok l =>
        rw [hi] at h
        cases hs : Products.strs l with
        | error e => simp [hs, bind, Except.bind] at h
        | ok s =>
          simp only [hs, bind, Except.bind, Except.ok.injEq, Option.some.injEq] at h
          rw [← h]
          exact notBlank_prefix (a := c!"Tag ") (by decide)
    · cases h

/-- The paragraphs of the entries of an exchange. -/
theorem entries_paragraphs {n m : Int} {tag : Option Str} {unc : List Entry} {cs vs : List Text} {ups : Str → List Str}
    (htag : ∀ t ∈ tag.toList, notBlank t = true) (hn : 1000 ≤ n) (hm : n + (full cs).length ≤ m)
    (hu : ∀ e ∈ unc, 0 ≤ e.index ∧ e.index < 1000)
    (hups : ∀ L, Paragraphs (some c!"; ") ((unc.filter fun e => notBlank e.text).map Entry.given) L (ups L)) (L : Str) :
    Paragraphs (some c!"; ") (((entries n m tag unc cs vs).filter fun e => notBlank e.text).map Entry.given) L
      (lines tag ups cs vs L) := by
  have hC := numbered_paragraphs (some c!"; ") L n ((full cs).map (pair []))
  rw [inLang_pairs] at hC
  have hV := numbered_paragraphs (some c!"; ") L m (vs.map (pair c!"Production Volume Comment: "))
  rw [volume_pairs] at hV
  have hT : Paragraphs (some c!"; ") (((tag.toList.map fun t => (⟨-1, c!"en", t⟩ : Entry)).filter
      fun e => notBlank e.text).map Entry.given) L (if L = c!"en" then tag.toList else []) := by
    cases tag with
    | none => simpa using paragraphs_empty (some c!"; ") L
    | some t =>
      have hb := htag t (by simp)
      have := paragraphs_one (some c!"; ") ⟨-1, c!"en", t⟩ L
      simpa [hb, Entry.given, eq_comm] using this
  have iC : ∀ g ∈ ((commentEntries n ((full cs).map (pair []))).filter fun e => notBlank e.text).map Entry.given,
      n ≤ g.index ∧ g.index < n + (full cs).length := by
    intro g hg
    obtain ⟨e, he, rfl⟩ := List.mem_map.1 hg
    have := commentEntries_ge _ _ e (List.mem_filter.1 he).1
    simpa [Entry.given] using this
  have iV : ∀ g ∈ ((commentEntries m (vs.map (pair c!"Production Volume Comment: "))).filter
      fun e => notBlank e.text).map Entry.given, m ≤ g.index := by
    intro g hg
    obtain ⟨e, he, rfl⟩ := List.mem_map.1 hg
    exact (commentEntries_ge _ _ e (List.mem_filter.1 he).1).1
  have iT : ∀ g ∈ ((tag.toList.map fun t => (⟨-1, c!"en", t⟩ : Entry)).filter
      fun e => notBlank e.text).map Entry.given, g.index = -1 := by
    intro g hg
    obtain ⟨e, he, rfl⟩ := List.mem_map.1 hg
    obtain ⟨t, _, rfl⟩ := List.mem_map.1 (List.mem_filter.1 he).1
    rfl
  have iU : ∀ g ∈ (unc.filter fun e => notBlank e.text).map Entry.given, 0 ≤ g.index ∧ g.index < 1000 := by
    intro g hg
    obtain ⟨e, he, rfl⟩ := List.mem_map.1 hg
    exact hu e (List.mem_filter.1 he).1
  have hU := hups L
  unfold entries
  simp only [List.filter_append, List.map_append]
  generalize ((commentEntries n ((full cs).map (pair []))).filter fun e => notBlank e.text).map Entry.given = C at *
  generalize ((commentEntries m (vs.map (pair c!"Production Volume Comment: "))).filter
      fun e => notBlank e.text).map Entry.given = V at *
  generalize ((tag.toList.map fun t => (⟨-1, c!"en", t⟩ : Entry)).filter
      fun e => notBlank e.text).map Entry.given = T at *
  generalize (unc.filter fun e => notBlank e.text).map Entry.given = U at *
  refine paragraphs_congr (es := T ++ U ++ C ++ V) (fun i => ?_) ?_
  · simp only [textsOf_append]
    by_cases hi : 1000 ≤ i
    · have h1 : LangText.Spec.textsOf T i L = [] := textsOf_none fun g hg => by have := iT g hg; omega
      have h2 : LangText.Spec.textsOf U i L = [] := textsOf_none fun g hg => by have := iU g hg; omega
      simp [h1, h2]
    · have h1 : LangText.Spec.textsOf C i L = [] := textsOf_none fun g hg => by have := iC g hg; omega
      simp [h1]
  · unfold lines
    refine paragraphs_append ?_ (paragraphs_append ?_ (paragraphs_append ?_ hT hU) hC) hV
    · intro x hx y hy
      have hy := iV y hy
      simp only [List.mem_append] at hx
      rcases hx with (hx | hx) | hx
      · have := iT x hx; omega
      · have := iU x hx; omega
      · have := iC x hx; omega
    · intro x hx y hy
      have hy := iC y hy
      simp only [List.mem_append] at hx
      rcases hx with hx | hx
      · have := iT x hx; omega
      · have := iU x hx; omega
    · intro x hx y hy
      have hy := iU y hy
      have := iT x hx
      omega

theorem ilcd_limit : ∀ k, 1 ≤ k → k ≤ 500 → (Validators.Limit.range 1 500).holds k = true := by
  intro k h1 h2
  simp [Validators.Limit.holds, h1, h2]

/-- **C181** The comment of an exchange says, in each language, the line of the tags (in English), the texts of the
uncertainty, every comment and every comment of the production volume, each as a paragraph of its own and in this order,
provided the limit of 500 characters is ignored or kept by each text. -/
theorem exchange_says (langs : Option (List Str)) (dflt : PyVal) {n m : Int} {unc : List Entry} {e : Elem}
    {d : List (Str × PyVal)} {tag : Option Str} {cs vs : List Text} (h : Source e d tag cs vs)
    (hl : LangsOk langs unc cs vs) (hn : 1000 ≤ n) (hm : n + (full cs).length ≤ m)
    (hu : ∀ e ∈ unc, 0 ≤ e.index ∧ e.index < 1000) {ups : Str → List Str}
    (hups : ∀ L, Paragraphs (some c!"; ") ((unc.filter fun e => notBlank e.text).map Entry.given) L (ups L))
    (ignore : Bool) (sent : Str → List Str)
    (hfit : ignore = true ∨ ∀ L, (join c!"\n" (lines tag ups cs vs L)).length ≤ 500) :
    ∃ x out, exchange langs dflt n m unc d = .ok x ∧ written ignore sent x = .ok out ∧
      Says out (lines tag ups cs vs) := by
  have htag : ∀ t ∈ tag.toList, notBlank t = true := by
    intro t ht
    have h' := h.tags
    cases tag with
    | none => simp at ht
    | some t' =>
      simp only [Option.toList, List.mem_singleton] at ht
      rw [ht]
      exact tag_visible h'
  obtain ⟨out, ho, hs⟩ := says_of (t := LangText.ilcdString) rfl rfl ilcd_limit ignore sent
    ((entries n m tag unc cs vs).filter fun e => notBlank e.text) (fun e he => (List.mem_filter.1 he).2)
    (entries_paragraphs htag hn hm hu hups) hfit
  exact ⟨_, out, exchange_entries langs dflt n m unc h hl, ho, hs⟩

/-- **C181** The comment is refused just if a language in it is not allowed. -/
theorem exchange_ok_iff (langs : Option (List Str)) (dflt : PyVal) (n m : Int) (unc : List Entry) {e : Elem}
    {d : List (Str × PyVal)} {tag : Option Str} {cs vs : List Text} (h : Source e d tag cs vs) :
    (∃ x, exchange langs dflt n m unc d = .ok x) ↔
      ∀ e ∈ entries n m tag unc cs vs, LangText.langOk langs e.lang = true := by
  unfold exchange
  rw [given_values dflt n m unc h]
  simp only [bind, Except.bind]
  constructor
  · rintro ⟨x, hx⟩ e he
    cases hl : LangText.langOk langs e.lang with
    | true => rfl
    | false =>
      obtain ⟨err, hr⟩ := putAll_refused LangText.ilcdString langs (entries n m tag unc cs vs) [] ⟨e, he, hl⟩
      rw [hr] at hx
      cases hx
  · exact fun hl => ⟨_, putAll_values _ _ _ _ hl⟩

/-- The texts of an uncertainty with fewer than 200 comments come before the comments of the exchange. -/
theorem unc_range {int : Str → Option Int} {num : Str → Option Str} {u : UncText.Unc} {es : List Entry}
    (h : UncText.uncEntries int num u = .ok es) (hu : u.comments.length < 200) :
    ∀ e ∈ es, 0 ≤ e.index ∧ e.index < 1000 := by
  unfold UncText.uncEntries at h
  split at h
  · cases h
  · split at h
    · cases h
    · rename_i o _
      have key : ∀ e ∈ UncText.pedigreeEntries u ++ commentEntries 801 u.comments ++ UncText.otherEntries o,
          0 ≤ e.index ∧ e.index < 1000 := by
        intro e he
        simp only [List.mem_append] at he
        rcases he with (he | he) | he
        · unfold UncText.pedigreeEntries at he
          split at he
          · simp at he
          · split at he <;> simp only [List.mem_cons, List.not_mem_nil, or_false] at he
            · rcases he with rfl | rfl <;> exact ⟨by simp, by simp⟩
            · rw [he]; exact ⟨by simp, by simp⟩
        · have := commentEntries_ge _ _ e he
          omega
        · cases o with
          | none => simp [UncText.otherEntries] at he
          | some p =>
            obtain ⟨a, b⟩ := p
            simp only [UncText.otherEntries, List.mem_singleton] at he
            rw [he]
            exact ⟨by simp, by simp⟩
      cases h
      generalize UncText.pedigreeEntries u ++ commentEntries 801 u.comments ++ UncText.otherEntries o = l at key
      cases l with
      | nil => simp [UncText.headed]
      | cons a l =>
        intro e he
        rcases List.mem_cons.1 he with rfl | he
        · exact ⟨by simp, by simp⟩
        · exact key e he

/-! ### C182: the comment of an exchange of ILCD -/

/-- An exchange of ILCD: its comments, and location, function, source and derivation where they are given. -/
structure Input (e : Elem) (d : List (Str × PyVal)) (cs : List Text) (info : Str → Option Str) : Prop where
  wellNamed : WellNamed e
  attrs : e.attrs ≠ []
  dict : elem2dict e = .dict d
  comments : Texts e c!"generalComment" cs
  infos : ∀ n ∈ infoNames, Texts e n ((info n).toList.map fun s => ⟨none, some s⟩)

theorem infoNames_name : ∀ n ∈ infoNames, Name n := by decide

theorem infoText_of (dflt : PyVal) {e : Elem} {d : List (Str × PyVal)} {cs : List Text} {info : Str → Option Str}
    (h : Input e d cs info) {n : Str} (hn : n ∈ infoNames) :
    infoText dflt d n = match info n with
      | none => .ok []
      | some s => if Content s then .ok [(.str c!"en", n ++ c!": " ++ s)] else .error .keyError := by
  obtain ⟨d', hd', _, hc⟩ := dict_of e h.wellNamed h.attrs
  have hd := h.dict
  rw [hd'] at hd
  cases hd
  obtain ⟨tag, hk⟩ := texts_children (h.infos n hn)
  have hg := hc n (infoNames_name n hn)
  rw [hk] at hg
  unfold infoText
  rw [hg]
  cases hi : info n with
  | none => rfl
  | some s =>
    simp only [Option.toList, List.map_cons, List.map_nil, children, tag_value]
    by_cases hs : Content s
    · simp only [if_pos hs]
      cases s with
      | nil => exact absurd rfl hs
      | cons c s => simp [addIndex, bind, Except.bind]
    · simp only [if_neg hs]
      rfl

theorem infoTexts_ok (dflt : PyVal) {e : Elem} {d : List (Str × PyVal)} {cs : List Text} {info : Str → Option Str}
    (h : Input e d cs info) : ∀ l : List Str, (∀ n ∈ l, n ∈ infoNames) → (∀ n ∈ l, ∀ s, info n = some s → Content s) →
      infoTexts dflt d l = .ok ((l.filterMap fun n => (info n).map fun s => n ++ c!": " ++ s).map fun t => (.str c!"en", t))
  | [], _, _ => rfl
  | n :: l, hm, hs => by
    have ih := infoTexts_ok dflt h l (fun x hx => hm x (by simp [hx])) fun x hx => hs x (by simp [hx])
    rw [infoTexts, infoText_of dflt h (hm n (by simp)), ih]
    cases hi : info n with
    | none => simp [hi, bind, Except.bind]
    | some s => simp [hi, bind, Except.bind, hs n (by simp) s hi]

theorem infoTexts_stops (dflt : PyVal) {e : Elem} {d : List (Str × PyVal)} {cs : List Text} {info : Str → Option Str}
    (h : Input e d cs info) : ∀ l : List Str, (∀ n ∈ l, n ∈ infoNames) → (∃ n ∈ l, ∃ s, info n = some s ∧ ¬ Content s) →
      infoTexts dflt d l = .error .keyError
  | [], _, hs => by obtain ⟨n, hn, _⟩ := hs; simp at hn
  | n :: l, hm, hs => by
    have ih := infoTexts_stops dflt h l (fun x hx => hm x (by simp [hx]))
    rw [infoTexts, infoText_of dflt h (hm n (by simp))]
    obtain ⟨n', hn', s', hi', hs'⟩ := hs
    cases hi : info n with
    | none =>
      have hl : n' ∈ l := by
        rcases List.mem_cons.1 hn' with rfl | h'
        · rw [hi] at hi'; cases hi'
        · exact h'
      simp [bind, Except.bind, ih ⟨n', hl, s', hi', hs'⟩]
    | some s =>
      by_cases hc : Content s
      · have hl : n' ∈ l := by
          rcases List.mem_cons.1 hn' with rfl | h'
          · rw [hi] at hi'; cases hi'; exact absurd hc hs'
          · exact h'
        simp [bind, Except.bind, ih ⟨n', hl, s', hi', hs'⟩, hc]
      · simp [bind, Except.bind, hc]

/-- **C182** An empty element for location, function, source or derivation stops the conversion. -/
theorem empty_info_stops (dflt : PyVal) (n : Int) {e : Elem} {d : List (Str × PyVal)} {cs : List Text}
    {info : Str → Option Str} (h : Input e d cs info) (hs : ∃ n ∈ infoNames, ∃ s, info n = some s ∧ ¬ Content s) :
    ilcdExchange dflt n d = .error .keyError := by
  unfold ilcdExchange ilcdTexts
  rw [each_texts dflt h.wellNamed h.attrs h.dict (by decide) h.comments,
    infoTexts_stops dflt h infoNames (fun _ h => h) hs]
  rfl

/-- The texts with the languages that are given to the field. -/
def inputPairs (cs : List Text) (info : Str → Option Str) : List (Str × Str) :=
  (full cs).map (pair []) ++ (infoLines info).map fun t => (c!"en", t)

theorem ilcd_entries (dflt : PyVal) (n : Int) {e : Elem} {d : List (Str × PyVal)} {cs : List Text}
    {info : Str → Option Str} (h : Input e d cs info) (hs : ∀ n ∈ infoNames, ∀ s, info n = some s → Content s)
    (hl : ∀ t ∈ full cs, t.language.length = 2) :
    ilcdExchange dflt n d = .ok (addMerged (LangText.base 32000) []
      ((commentEntries n (inputPairs cs info)).filter fun e => notBlank e.text)) := by
  have h1 := counted_entries n (inputPairs cs info)
  have h2 : ((inputPairs cs info).map fun p => (PyVal.str p.1, p.2)) =
      ((full cs).map fun t => (PyVal.str t.language, t.content)) ++ (infoLines info).map fun t => (.str c!"en", t) := by
    simp [inputPairs, pair, Function.comp_def]
  rw [h2] at h1
  unfold ilcdExchange ilcdTexts
  rw [each_texts dflt h.wellNamed h.attrs h.dict (by decide) h.comments,
    infoTexts_ok dflt h infoNames (fun _ h => h) hs]
  simp only [bind, Except.bind]
  have h3 : (infoNames.filterMap fun n => (info n).map fun s => n ++ c!": " ++ s) = infoLines info := rfl
  rw [h3, h1]
  refine putAll_values _ _ _ _ fun e he => ?_
  have hm := mem_commentEntries he
  simp only [inputPairs, List.mem_append, List.mem_map] at hm
  rcases hm with ⟨t, ht, hp⟩ | ⟨t, _, hp⟩
  · have : t.language = e.lang := congrArg Prod.fst hp
    rw [← this]
    simp [LangText.langOk, hl t ht]
  · have : c!"en" = e.lang := congrArg Prod.fst hp
    rw [← this]
    rfl

/-- The conversion of the comment goes through just if none of these elements is empty. -/
theorem ilcd_ok_iff (dflt : PyVal) (n : Int) {e : Elem} {d : List (Str × PyVal)} {cs : List Text}
    {info : Str → Option Str} (h : Input e d cs info) (hl : ∀ t ∈ full cs, t.language.length = 2) :
    (∃ x, ilcdExchange dflt n d = .ok x) ↔ ∀ n ∈ infoNames, ∀ s, info n = some s → Content s := by
  constructor
  · rintro ⟨x, hx⟩ k hk s hs
    by_cases hc : Content s
    · exact hc
    · rw [empty_info_stops dflt n h ⟨k, hk, s, hs, hc⟩] at hx
      cases hx
  · exact fun hs => ⟨_, ilcd_entries dflt n h hs hl⟩

theorem infoLines_visible (info : Str → Option Str) : ∀ t ∈ infoLines info, notBlank t = true := by
  intro t ht
  obtain ⟨n, hn, h⟩ := List.mem_filterMap.1 ht
  cases hi : info n with
  | none => simp [hi] at h
  | some s =>
    simp only [hi, Option.map_some, Option.some.injEq] at h
    rw [← h, List.append_assoc]
    have : ∀ n ∈ infoNames, LangText.Spec.Visible n := by decide
    exact notBlank_prefix (this n hn)

/-- The paragraphs of the comment in EcoSpold2. -/
def inputLines (cs : List Text) (info : Str → Option Str) (L : Str) : List Str :=
  inLang L cs ++ if L = c!"en" then infoLines info else []

theorem input_paragraphs (n : Int) (cs : List Text) (info : Str → Option Str) (L : Str) :
    Paragraphs (some c!"; ") (((commentEntries n (inputPairs cs info)).filter fun e => notBlank e.text).map Entry.given) L
      (inputLines cs info L) := by
  have := numbered_paragraphs (some c!"; ") L n (inputPairs cs info)
  rw [inputPairs, List.filter_append, List.map_append, inLang_pairs] at this
  have hi : (((infoLines info).map fun t => (c!"en", t)).filter fun p => decide (p.1 = L) && notBlank p.2).map (·.2) =
      if L = c!"en" then infoLines info else [] := by
    have hv := infoLines_visible info
    generalize infoLines info = l at hv
    induction l with
    | nil => simp
    | cons t l ih =>
      have ih := ih fun x hx => hv x (by simp [hx])
      by_cases hL : L = c!"en"
      · subst hL
        simp only [if_true] at ih ⊢
        simp only [List.map_cons, List.filter_cons, hv t (by simp), decide_true, Bool.and_self, if_true, List.map_cons, ih]
      · have hL' : c!"en" ≠ L := fun h => hL h.symm
        simp only [if_neg hL] at ih ⊢
        simp only [List.map_cons, List.filter_cons, hL', decide_false, Bool.false_and, Bool.false_eq_true, if_false, ih]
  rw [hi] at this
  exact this

theorem base_limit : ∀ k, 1 ≤ k → k ≤ 32000 → (Validators.Limit.upper 32000).holds k = true := by
  intro k _ h2
  simpa [Validators.Limit.holds] using h2

/-- **C182** The comment of the exchange in EcoSpold2 says, in each language, every comment, and in English the lines of
location, function, source and derivation, each as a paragraph of its own and in this order, provided none of these is
empty and the limit of 32000 characters is ignored or kept. -/
theorem ilcd_says_partial (dflt : PyVal) (n : Int) {e : Elem} {d : List (Str × PyVal)} {cs : List Text}
    {info : Str → Option Str} (h : Input e d cs info) (hs : ∀ n ∈ infoNames, ∀ s, info n = some s → Content s)
    (hl : ∀ t ∈ full cs, t.language.length = 2) (ignore : Bool) (sent : Str → List Str)
    (hfit : ignore = true ∨ ∀ L, (join c!"\n" (inputLines cs info L)).length ≤ 32000) :
    ∃ x out, ilcdExchange dflt n d = .ok x ∧ ilcdWritten ignore sent x = .ok out ∧ Says out (inputLines cs info) := by
  obtain ⟨out, ho, hy⟩ := says_of (t := LangText.base 32000) rfl rfl base_limit ignore sent
    ((commentEntries n (inputPairs cs info)).filter fun e => notBlank e.text) (fun e he => (List.mem_filter.1 he).2)
    (input_paragraphs n cs info) hfit
  exact ⟨_, out, ilcd_entries dflt n h hs hl, ho, hy⟩

/-- Comments of one text for each language are the same after the conversion. -/
theorem inLang_single {out : List (Str × Str)} (hn : (out.map Prod.fst).Nodup)
    (hc : ∀ p ∈ out, Content p.2) (L : Str) :
    inLang L (out.map fun p => ⟨some p.1, some p.2⟩) = ((out.filter fun p => decide (p.1 = L)).map (·.2)) ∧
      ((out.filter fun p => decide (p.1 = L)).map (·.2)).length ≤ 1 := by
  constructor
  · unfold inLang
    clear hn
    induction out with
    | nil => rfl
    | cons p out ih =>
      have ih := ih fun x hx => hc x (by simp [hx])
      have hp := hc p (by simp)
      have e1 : (Text.mk (some p.1) (some p.2)).content = p.2 := content_eq hp
      have e2 : p.2 ≠ [] := fun h => by rw [Content, h] at hp; exact hp rfl
      have e3 : (Text.mk (some p.1) (some p.2)).language = p.1 := rfl
      by_cases hL : p.1 = L
      · subst hL
        rw [List.map_cons, List.filter_cons_of_pos (by simp [e1, e2, e3]), List.filter_cons_of_pos (by simp), List.map_cons,
          List.map_cons, ih, e1]
      · simp only [List.map_cons, List.filter_cons, e3, hL, decide_false, Bool.false_and, Bool.false_eq_true, if_false, ih]
  · clear hc
    induction out with
    | nil => simp
    | cons p out ih =>
      rw [List.map_cons, List.nodup_cons] at hn
      have ih := ih hn.2
      by_cases hL : p.1 = L
      · have : (out.filter fun q => decide (q.1 = L)) = [] := by
          rw [List.filter_eq_nil_iff]
          intro q hq hqL
          exact hn.1 (List.mem_map.2 ⟨q, hq, by simpa [hL] using hqL⟩)
        simp [hL, this]
      · simpa [hL] using ih

/-- **C182** A comment of one text for each language comes out as it went in. -/
theorem comment_kept (dflt : PyVal) (n : Int) {e : Elem} {d : List (Str × PyVal)} {out : List (Str × Str)}
    (h : Input e d (out.map fun p => ⟨some p.1, some p.2⟩) fun _ => none) (hn : (out.map Prod.fst).Nodup)
    (hc : ∀ p ∈ out, Content p.2 ∧ p.1.length = 2) (ignore : Bool) (sent : Str → List Str)
    (hfit : ignore = true ∨ ∀ p ∈ out, p.2.length ≤ 32000) :
    ∃ x out', ilcdExchange dflt n d = .ok x ∧ ilcdWritten ignore sent x = .ok out' ∧
      (out'.map Prod.fst).Nodup ∧ ∀ p, p ∈ out' ↔ p ∈ out := by
  have hin := inLang_single hn fun p hp => (hc p hp).1
  have hlines : ∀ L, inputLines (out.map fun p => ⟨some p.1, some p.2⟩) (fun _ => none) L =
      (out.filter fun p => decide (p.1 = L)).map (·.2) := by
    intro L
    unfold inputLines
    rw [(hin L).1]
    by_cases hL : L = c!"en" <;> simp [hL, infoLines]
  have hjoin : ∀ L, ∃ l : List Str, (out.filter fun p => decide (p.1 = L)).map (·.2) = l ∧ (l = [] ∨ ∃ t, l = [t] ∧ (L, t) ∈ out) := by
    intro L
    refine ⟨_, rfl, ?_⟩
    have h1 := (hin L).2
    have h2 : ∀ t ∈ (out.filter fun p => decide (p.1 = L)).map (·.2), (L, t) ∈ out := by
      intro t ht
      obtain ⟨q, hq, rfl⟩ := List.mem_map.1 ht
      obtain ⟨hq, hqL⟩ := List.mem_filter.1 hq
      rw [← of_decide_eq_true hqL]
      exact hq
    generalize (out.filter fun p => decide (p.1 = L)).map (·.2) = l at h1 h2
    match l, h1 with
    | [], _ => exact .inl rfl
    | [t], _ => exact .inr ⟨t, rfl, h2 t (by simp)⟩
    | _ :: _ :: _, h1 => simp at h1
  obtain ⟨x, out', hx, ho, hnd, hsay⟩ := ilcd_says_partial dflt n h (by simp) (by
    intro t ht
    obtain ⟨p, hp, rfl⟩ := List.mem_map.1 (List.mem_filter.1 ht).1
    exact (hc p hp).2) ignore sent (hfit.imp id fun hf L => by
      rw [hlines]
      obtain ⟨l, hl, h' | ⟨t, h', ht⟩⟩ := hjoin L
      · rw [hl, h']; simp [join]
      · rw [hl, h']; exact hf _ ht)
  refine ⟨x, out', hx, ho, hnd, ?_⟩
  rintro ⟨L, t⟩
  rw [hsay, hlines]
  obtain ⟨l, hl, h' | ⟨t', h', ht⟩⟩ := hjoin L
  · rw [hl, h']
    constructor
    · rintro ⟨h, _⟩
      exact absurd rfl h
    · intro hm
      have : t ∈ (out.filter fun p => decide (p.1 = L)).map (·.2) :=
        List.mem_map.2 ⟨(L, t), List.mem_filter.2 ⟨hm, by simp⟩, rfl⟩
      rw [hl, h'] at this
      simp at this
  · rw [hl, h']
    constructor
    · rintro ⟨_, rfl⟩
      exact ht
    · intro hm
      have : t ∈ (out.filter fun p => decide (p.1 = L)).map (·.2) :=
        List.mem_map.2 ⟨(L, t), List.mem_filter.2 ⟨hm, by simp⟩, rfl⟩
      rw [hl, h', List.mem_singleton] at this
      exact ⟨by simp, this⟩

theorem join_visible (sep : Str) : ∀ {l : List Str} {x : Str}, x ∈ l → LangText.Spec.Visible x →
    LangText.Spec.Visible (join sep l)
  | [a], x, hx, hv => by
    rw [List.mem_singleton] at hx
    rw [← hx]
    exact hv
  | a :: b :: l, x, hx, hv => by
    rcases List.mem_cons.1 hx with rfl | hx
    · obtain ⟨c, hc, hs⟩ := hv
      exact ⟨c, by simp [join, hc], hs⟩
    · obtain ⟨c, hc, hs⟩ := join_visible sep hx hv
      exact ⟨c, by simp [join, hc], hs⟩

theorem content_of_visible {s : Str} (h : notBlank s = true) : Content s := by
  obtain ⟨hne, h'⟩ : ¬ s = [] ∧ isSpaceStr s = false := by simpa [notBlank] using h
  unfold Content Text.content
  simp [h', hne]

/-- Paragraphs of texts that are not blank are not blank. -/
theorem paragraphs_visible {sep : Str} {es : List LangText.Spec.Given} {L : Str} {ps : List Str}
    (h : Paragraphs (some sep) es L ps) (hv : ∀ e ∈ es, LangText.Spec.Visible e.text) : ∀ p ∈ ps, LangText.Spec.Visible p := by
  obtain ⟨idx, _, hm, rfl⟩ := h
  intro p hp
  obtain ⟨i, hi, rfl⟩ := List.mem_map.1 hp
  obtain ⟨e, he, hl, hx⟩ := (hm i).1 hi
  have : e.text ∈ LangText.Spec.textsOf es i L := List.mem_map.2 ⟨e, List.mem_filter.2 ⟨he, by simp [hl, hx]⟩, rfl⟩
  exact join_visible sep this (hv e he)

theorem says_visible {out : List (Str × Str)} {ps : Str → List Str} (h : Says out ps)
    (hv : ∀ L, ∀ p ∈ ps L, LangText.Spec.Visible p) : ∀ p ∈ out, notBlank p.2 = true := by
  rintro ⟨L, t⟩ hp
  obtain ⟨h1, h2⟩ := (h.2 L t).1 hp
  obtain ⟨x, hx⟩ := List.exists_mem_of_ne_nil _ h1
  rw [LangText.notBlank_iff]
  simp only [h2]
  exact join_visible _ hx (hv L x hx)

/-- **C182** The comment of an exchange of EcoSpold2 comes back from ILCD as it was written there. -/
theorem comment_back (langs : Option (List Str)) (dflt : PyVal) {n m k : Int} {unc : List Entry} {e : Elem}
    {d : List (Str × PyVal)} {tag : Option Str} {cs vs : List Text} (h : Source e d tag cs vs)
    (hl : LangsOk langs unc cs vs) (hn : 1000 ≤ n) (hm : n + (full cs).length ≤ m)
    (hu : ∀ e ∈ unc, 0 ≤ e.index ∧ e.index < 1000) {ups : Str → List Str}
    (hups : ∀ L, Paragraphs (some c!"; ") ((unc.filter fun e => notBlank e.text).map Entry.given) L (ups L))
    (ignore : Bool) (sent : Str → List Str)
    (hfit : ∀ L, (join c!"\n" (lines tag ups cs vs L)).length ≤ 500) :
    ∃ x out, exchange langs dflt n m unc d = .ok x ∧ written ignore sent x = .ok out ∧
      Says out (lines tag ups cs vs) ∧
      ∀ {e' d'}, Input e' d' (out.map fun p => ⟨some p.1, some p.2⟩) (fun _ => none) →
        (∀ p ∈ out, p.1.length = 2) →
        ∃ x' out', ilcdExchange dflt k d' = .ok x' ∧ ilcdWritten ignore sent x' = .ok out' ∧
          Says out' (lines tag ups cs vs) := by
  obtain ⟨x, out, hx, ho, hs⟩ := exchange_says langs dflt h hl hn hm hu hups ignore sent (.inr hfit)
  refine ⟨x, out, hx, ho, hs, fun {e' d'} hi h2 => ?_⟩
  have htag : ∀ t ∈ tag.toList, notBlank t = true := by
    intro t ht
    have h' := h.tags
    cases tag with
    | none => simp at ht
    | some t' =>
      simp only [Option.toList, List.mem_singleton] at ht
      rw [ht]
      exact tag_visible h'
  have hv : ∀ L, ∀ p ∈ lines tag ups cs vs L, LangText.Spec.Visible p := fun L =>
    paragraphs_visible (entries_paragraphs htag hn hm hu hups L) (by
      intro g hg
      obtain ⟨e, he, rfl⟩ := List.mem_map.1 hg
      exact (LangText.notBlank_iff _).1 (List.mem_filter.1 he).2)
  obtain ⟨x', out', hx', ho', hn', hp⟩ := comment_kept dflt k hi hs.1
    (fun p hp => ⟨content_of_visible (says_visible hs hv p hp), h2 p hp⟩) ignore sent (.inr fun p hp => by
      obtain ⟨L, t⟩ := p
      have := ((hs.2 L t).1 hp).2
      have hf := hfit L
      rw [← this] at hf
      simp only
      omega)
  exact ⟨x', out', hx', ho', hn', fun L t => (hp (L, t)).trans (hs.2 L t)⟩

/-! ### C183: the comments of exchanges that are summed -/

/-- The texts of the other exchanges with what they add to the first: each text of theirs in English, and the texts of the
uncertainty of the sum. -/
def added (outs : List (List (Str × Str) × List Entry)) : List Entry :=
  outs.flatMap fun o => o.1.map (fun t => ⟨100, c!"en", t.2⟩) ++ o.2

/-- The other exchanges are written as `outs`. -/
def Written (ignore : Bool) (sent : Str → List Str) (others : List (List Entry × List Entry))
    (outs : List (List (Str × Str) × List Entry)) : Prop :=
  List.Forall₂ (fun o w => written ignore sent o.1 = .ok w.1 ∧ o.2 = w.2) others outs

theorem merge_entries (langs : Option (List Str)) (ignore : Bool) (sent : Str → List Str)
    (hen : LangText.langOk langs c!"en" = true) : ∀ {others : List (List Entry × List Entry)}
      {outs : List (List (Str × Str) × List Entry)}, Written ignore sent others outs →
      (∀ o ∈ outs, ∀ e ∈ o.2, LangText.langOk langs e.lang = true) → ∀ x,
      merge langs ignore sent x others =
        .ok (addMerged LangText.ilcdString x ((added outs).filter fun e => notBlank e.text))
  | _, _, .nil, _, x => rfl
  | _, _, .cons (a := o) (b := w) h hs, hl, x => by
    have ih := merge_entries langs ignore sent hen hs fun o ho => hl o (by simp [ho])
    rw [merge, mergeOne, h.1]
    have hv : (w.1.map fun t => entryDict 100 (.str c!"en") t.2) ++ o.2.map valueOf =
        (w.1.map (fun t => (⟨100, c!"en", t.2⟩ : Entry)) ++ w.2).map valueOf := by
      rw [h.2, List.map_append, List.map_map]
      rfl
    simp only [bind, Except.bind]
    rw [hv, putAll_values _ _ _ _ (by
      intro e he
      rcases List.mem_append.1 he with he | he
      · obtain ⟨t, _, rfl⟩ := List.mem_map.1 he
        exact hen
      · exact hl w (by simp) e he)]
    simp only
    have hc : ∀ r, added (w :: r) = (w.1.map (fun t => (⟨100, c!"en", t.2⟩ : Entry)) ++ w.2) ++ added r :=
      fun r => List.flatMap_cons
    rw [ih, hc, List.filter_append (_ ++ _), addMerged_append]

/-- The comment of the sum: the entries of the first exchange and what the others add. -/
theorem merged_says (langs : Option (List Str)) (ignore : Bool) (sent : Str → List Str)
    (hen : LangText.langOk langs c!"en" = true) {others : List (List Entry × List Entry)}
    {outs : List (List (Str × Str) × List Entry)} (hw : Written ignore sent others outs)
    (hl : ∀ o ∈ outs, ∀ e ∈ o.2, LangText.langOk langs e.lang = true) (es : List Entry)
    (hv : ∀ e ∈ es, notBlank e.text = true) {ps : Str → List Str}
    (hps : ∀ L, Paragraphs (some c!"; ")
      ((es ++ (added outs).filter fun e => notBlank e.text).map Entry.given) L (ps L))
    (hfit : ignore = true ∨ ∀ L, (join c!"\n" (ps L)).length ≤ 500) :
    ∃ x out, merge langs ignore sent (addMerged LangText.ilcdString [] es) others = .ok x ∧
      written ignore sent x = .ok out ∧ Says out ps := by
  obtain ⟨out, ho, hs⟩ := says_of (t := LangText.ilcdString) rfl rfl ilcd_limit ignore sent
    (es ++ (added outs).filter fun e => notBlank e.text) (fun e he => (List.mem_append.1 he).elim (hv e) fun he => (List.mem_filter.1 he).2)
    hps hfit
  refine ⟨_, out, merge_entries langs ignore sent hen hw hl _, ?_, hs⟩
  rw [← addMerged_append]
  exact ho

/-- The texts of the other exchanges, of whatever language. -/
def allTexts (outs : List (List (Str × Str) × List Entry)) : List Str := outs.flatMap fun o => o.1.map (·.2)

theorem added_plain {outs : List (List (Str × Str) × List Entry)} (h : ∀ o ∈ outs, o.2 = []) :
    added outs = (allTexts outs).map fun t => ⟨100, c!"en", t⟩ := by
  unfold added allTexts
  induction outs with
  | nil => rfl
  | cons o outs ih =>
    rw [List.flatMap_cons, List.flatMap_cons, ih fun x hx => h x (by simp [hx]), h o (by simp), List.map_append]
    simp

/-- The paragraph of the other exchanges. -/
def otherLines (outs : List (List (Str × Str) × List Entry)) : List Str :=
  if allTexts outs = [] then [] else [join c!"; " (allTexts outs)]

/-- **C183** The comment of summed exchanges, if the sum has no uncertainty: in English the paragraphs of the first with an
index below 100, then one with all the texts of the others in all the languages, then the rest; in the other languages what
the first says. -/
theorem merged_texts (langs : Option (List Str)) (ignore : Bool) (sent : Str → List Str)
    (hen : LangText.langOk langs c!"en" = true) {others : List (List Entry × List Entry)}
    {outs : List (List (Str × Str) × List Entry)} (hw : Written ignore sent others outs)
    (hu : ∀ o ∈ outs, o.2 = []) (ht : ∀ t ∈ allTexts outs, notBlank t = true) (low high : List Entry)
    (hlow : ∀ e ∈ low, notBlank e.text = true ∧ e.index < 100) (hhigh : ∀ e ∈ high, notBlank e.text = true ∧ 100 < e.index)
    {lo hi : Str → List Str} (hlo : ∀ L, Paragraphs (some c!"; ") (low.map Entry.given) L (lo L))
    (hhi : ∀ L, Paragraphs (some c!"; ") (high.map Entry.given) L (hi L)) {es : List Entry}
    (hes : ∀ i L, LangText.Spec.textsOf (es.map Entry.given) i L = LangText.Spec.textsOf ((low ++ high).map Entry.given) i L)
    (hv : ∀ e ∈ es, notBlank e.text = true)
    (hfit : ignore = true ∨
      ∀ L, (join c!"\n" (lo L ++ (if L = c!"en" then otherLines outs else []) ++ hi L)).length ≤ 500) :
    ∃ x out, merge langs ignore sent (addMerged LangText.ilcdString [] es) others = .ok x ∧
      written ignore sent x = .ok out ∧
      Says out fun L => lo L ++ (if L = c!"en" then otherLines outs else []) ++ hi L := by
  refine merged_says langs ignore sent hen hw (fun o ho e he => by rw [hu o ho] at he; simp at he) es hv (fun L => ?_) hfit
  have hA : ((added outs).filter fun e => notBlank e.text) = (allTexts outs).map fun t => ⟨100, c!"en", t⟩ := by
    rw [added_plain hu, List.filter_eq_self]
    intro e he
    obtain ⟨t, h, rfl⟩ := List.mem_map.1 he
    exact ht t h
  rw [hA]
  have hM : Paragraphs (some c!"; ") (((allTexts outs).map fun t => (⟨100, c!"en", t⟩ : Entry)).map Entry.given) L
      (if L = c!"en" then otherLines outs else []) := by
    have := paragraphs_same (some c!"; ") L (es := ((allTexts outs).map fun t => (⟨100, c!"en", t⟩ : Entry)).map Entry.given)
      (i := 100) (by
        intro g hg
        obtain ⟨e, he, rfl⟩ := List.mem_map.1 hg
        obtain ⟨t, _, rfl⟩ := List.mem_map.1 he
        rfl)
    have hf : (((((allTexts outs).map fun t => (⟨100, c!"en", t⟩ : Entry)).map Entry.given).filter
        fun e => decide (e.lang = L)).map (·.text)) = if L = c!"en" then allTexts outs else [] := by
      generalize allTexts outs = l
      by_cases hL : L = c!"en"
      · subst hL
        simp only [if_true]
        induction l with
        | nil => rfl
        | cons t l ih =>
          rw [List.map_cons, List.map_cons, List.filter_cons_of_pos (by simp [Entry.given]), List.map_cons, ih]
          rfl
      · simp only [if_neg hL]
        rw [List.map_eq_nil_iff, List.filter_eq_nil_iff]
        intro g hg
        obtain ⟨e, he, rfl⟩ := List.mem_map.1 hg
        obtain ⟨t, _, rfl⟩ := List.mem_map.1 he
        simpa [Entry.given, eq_comm] using hL
    rw [hf] at this
    by_cases hL : L = c!"en"
    · simp only [if_pos hL] at this ⊢
      exact this
    · simp only [if_neg hL, if_true] at this ⊢
      exact this
  have iM : ∀ g ∈ ((allTexts outs).map fun t => (⟨100, c!"en", t⟩ : Entry)).map Entry.given, g.index = 100 := by
    intro g hg
    obtain ⟨e, he, rfl⟩ := List.mem_map.1 hg
    obtain ⟨t, _, rfl⟩ := List.mem_map.1 he
    rfl
  have iL : ∀ g ∈ low.map Entry.given, g.index < 100 := by
    intro g hg
    obtain ⟨e, he, rfl⟩ := List.mem_map.1 hg
    exact (hlow e he).2
  have iH : ∀ g ∈ high.map Entry.given, 100 < g.index := by
    intro g hg
    obtain ⟨e, he, rfl⟩ := List.mem_map.1 hg
    exact (hhigh e he).2
  have hlo := hlo L
  have hhi := hhi L
  have hes' := fun i => hes i L
  rw [List.map_append]
  simp only [List.map_append] at hes'
  generalize ((allTexts outs).map fun t => (⟨100, c!"en", t⟩ : Entry)).map Entry.given = M at *
  generalize low.map Entry.given = A at *
  generalize high.map Entry.given = B at *
  refine paragraphs_congr (es := A ++ M ++ B) (fun i => ?_) ?_
  · rw [textsOf_append, textsOf_append, textsOf_append, hes', textsOf_append]
    by_cases hi : 100 < i
    · have h1 : LangText.Spec.textsOf A i L = [] := textsOf_none fun g hg => by have := iL g hg; omega
      have h2 : LangText.Spec.textsOf M i L = [] := textsOf_none fun g hg => by have := iM g hg; omega
      simp [h1, h2]
    · have h1 : LangText.Spec.textsOf B i L = [] := textsOf_none fun g hg => by have := iH g hg; omega
      simp [h1]
  · refine paragraphs_append ?_ (paragraphs_append ?_ hlo hM) hhi
    · intro x hx y hy
      have hy := iH y hy
      rcases List.mem_append.1 hx with hx | hx
      · have := iL x hx; omega
      · have := iM x hx; omega
    · intro x hx y hy
      have := iL x hx
      have := iM y hy
      omega

/-- **C183** The texts of the uncertainty of the first exchange are said once more for each exchange that is added, as long
as the sum has an uncertainty. -/
theorem uncertainty_repeated (es unc : List Entry) (outs : List (List (Str × Str) × List Entry))
    (hu : ∀ o ∈ outs, o.2 = unc) {i : Int} (hi : i ≠ 100) (L : Str) :
    LangText.Spec.textsOf ((es ++ added outs).map Entry.given) i L = LangText.Spec.textsOf (es.map Entry.given) i L ++
      (List.replicate outs.length (LangText.Spec.textsOf (unc.map Entry.given) i L)).flatten := by
  rw [List.map_append, textsOf_append]
  congr 1
  induction outs with
  | nil => rfl
  | cons o outs ih =>
    have ih := ih fun x hx => hu x (by simp [hx])
    have hc : added (o :: outs) = (o.1.map (fun t => (⟨100, c!"en", t.2⟩ : Entry)) ++ o.2) ++ added outs := List.flatMap_cons
    have hn : LangText.Spec.textsOf ((o.1.map fun t => (⟨100, c!"en", t.2⟩ : Entry)).map Entry.given) i L = [] :=
      textsOf_none fun g hg => by
        obtain ⟨e, he, rfl⟩ := List.mem_map.1 hg
        obtain ⟨t, _, rfl⟩ := List.mem_map.1 he
        exact fun h => hi h.symm
    rw [hc, List.map_append, textsOf_append, List.map_append, textsOf_append, hn, hu o (by simp), ih]
    simp [List.replicate_succ]

/-! ### The hypotheses are met -/

/-- An exchange with comments in two languages, two tags and a production volume with a comment. -/
def sample : Elem :=
  .mk c!"{e}intermediateExchange" [(c!"id", c!"1"), (c!"productionVolumeAmount", c!"5")] none
    [elem c!"{e}comment" ⟨some c!"en", some c!"first"⟩, elem c!"{e}comment" ⟨some c!"de", some c!"erstens"⟩,
     elem c!"{e}comment" ⟨some c!"en", some c!"second"⟩,
     elem c!"{e}tag" ⟨none, some c!"steel"⟩, elem c!"{e}tag" ⟨none, some c!"scrap"⟩,
     elem c!"{e}productionVolumeComment" ⟨some c!"en", some c!"a guess"⟩] none

theorem sample_wellNamed : WellNamed sample := by
  refine .mk _ _ _ _ _ (by decide) (by decide) (by decide) ?_
  intro e he
  simp only [List.mem_cons, List.not_mem_nil, or_false] at he
  rcases he with rfl | rfl | rfl | rfl | rfl | rfl <;> exact Products.elem_wellNamed _ _ (by decide)

def sampleDict : List (Str × PyVal) :=
  match elem2dict sample with
  | .dict d => d
  | _ => []

theorem sample_dict : elem2dict sample = .dict sampleDict := rfl

theorem sample_attrs : sample.attrs ≠ [] := by simp [sample, Elem.attrs]

theorem sample_tags : Tags sample [c!"steel", c!"scrap"] := ⟨c!"{e}tag", rfl⟩

example : tagText sampleDict = .ok (some c!"Tag steel; scrap") :=
  tags_named_partial sample_wellNamed sample_attrs sample_dict sample_tags (by decide) (by decide)

def sampleComments : List Text := [⟨some c!"en", some c!"first"⟩, ⟨some c!"de", some c!"erstens"⟩, ⟨some c!"en", some c!"second"⟩]

theorem sample_source : Source sample sampleDict (some c!"Tag steel; scrap") sampleComments
    [⟨some c!"en", some c!"a guess"⟩] where
  wellNamed := sample_wellNamed
  attrs := sample_attrs
  dict := sample_dict
  comments := ⟨c!"{e}comment", rfl⟩
  tags := tags_named_partial sample_wellNamed sample_attrs sample_dict sample_tags (by decide) (by decide)
  volume := .inr ⟨⟨c!"{e}productionVolumeComment", rfl⟩, ⟨c!"5", by decide, by decide⟩, by decide⟩

/-- A text of an uncertainty. -/
def sampleUnc : List Entry := [⟨0, c!"en", c!"Uncertainty Comment:"⟩]

theorem sampleUnc_paragraphs (L : Str) : Paragraphs (some c!"; ") ((sampleUnc.filter fun e => notBlank e.text).map Entry.given) L
    (if c!"en" = L then [c!"Uncertainty Comment:"] else []) := paragraphs_one _ _ L

/-- In English this comment is `Tag steel; scrap`, `Uncertainty Comment:`, `first`, `second` and
`Production Volume Comment: a guess`. -/
example : ∃ x out, exchange none .none 1000 2000 sampleUnc sampleDict = .ok x ∧ written true (fun s => [s]) x = .ok out ∧
    Says out (lines (some c!"Tag steel; scrap") (fun L => if c!"en" = L then [c!"Uncertainty Comment:"] else [])
      sampleComments [⟨some c!"en", some c!"a guess"⟩]) :=
  exchange_says none .none sample_source (by unfold LangsOk; decide) (by decide) (by decide) (by decide) sampleUnc_paragraphs
    true _ (.inl rfl)

/-- An exchange with a single tag. -/
def single : Elem :=
  .mk c!"{e}intermediateExchange" [(c!"id", c!"1")] none [elem c!"{e}tag" ⟨none, some c!"Tin"⟩] none

theorem single_wellNamed : WellNamed single := by
  refine .mk _ _ _ _ _ (by decide) (by decide) (by decide) ?_
  intro e he
  simp only [List.mem_cons, List.not_mem_nil, or_false] at he
  subst he
  exact Products.elem_wellNamed _ _ (by decide)

/-- **C180** A single tag of several letters is not named. -/
theorem tag_not_named : ∃ e d, WellNamed e ∧ elem2dict e = .dict d ∧ Tags e [c!"Tin"] ∧
    tagText d = .ok (some c!"Tag T; i; n") ∧ tagLine [c!"Tin"] = c!"Tag Tin" :=
  ⟨single, _, single_wellNamed, rfl, ⟨c!"{e}tag", rfl⟩,
    tag_spelled (s := c!"Tin") single_wellNamed (by simp [single, Elem.attrs]) rfl ⟨c!"{e}tag", rfl⟩ (by decide), rfl⟩

/-- An exchange of ILCD with a comment and a location. -/
def exch (loc : Str) : Elem :=
  .mk c!"{i}exchange" [(c!"dataSetInternalID", c!"1")] none
    [elem c!"{i}location" ⟨none, some loc⟩, elem c!"{i}generalComment" ⟨some c!"de", some c!"Hinweis"⟩] none

def exchDict (loc : Str) : List (Str × PyVal) :=
  match elem2dict (exch loc) with
  | .dict d => d
  | _ => []

def onlyLocation (loc : Str) (n : Str) : Option Str := if n = c!"location" then some loc else none

theorem exch_input (loc : Str) (h : elem2dict (exch loc) = .dict (exchDict loc)) :
    Input (exch loc) (exchDict loc) [⟨some c!"de", some c!"Hinweis"⟩] (onlyLocation loc) where
  wellNamed := by
    refine .mk _ _ _ _ _ (by decide) (by decide) (by decide) ?_
    intro e he
    simp only [List.mem_cons, List.not_mem_nil, or_false] at he
    rcases he with rfl | rfl <;> exact Products.elem_wellNamed _ _ (by decide)
  attrs := by simp [exch, Elem.attrs]
  dict := h
  comments := ⟨c!"{i}generalComment", rfl⟩
  infos := by
    intro n hn
    simp only [infoNames, List.mem_cons, List.not_mem_nil, or_false] at hn
    rcases hn with rfl | rfl | rfl | rfl
    · exact ⟨c!"{i}location", rfl⟩
    all_goals exact ⟨[], rfl⟩

example : ∃ x out, ilcdExchange .none 1000 (exchDict c!"DE") = .ok x ∧ ilcdWritten false (fun s => [s]) x = .ok out ∧
    Says out (inputLines [⟨some c!"de", some c!"Hinweis"⟩] (onlyLocation c!"DE")) :=
  ilcd_says_partial .none 1000 (exch_input c!"DE" rfl) (by
    intro n _ s hs
    unfold onlyLocation at hs
    split at hs
    · cases hs; decide
    · cases hs) (by decide) false _ (.inr fun L => by
      by_cases hE : L = c!"en"
      · subst hE; decide
      · by_cases hD : L = c!"de"
        · subst hD; decide
        · have h' : ¬ c!"de" = L := fun h => hD h.symm
          have : inLang L [⟨some c!"de", some c!"Hinweis"⟩] = [] := by simp [inLang, Text.language, h']
          simp [inputLines, hE, this, join])

/-- **C182** An exchange with an empty location stops the conversion. -/
theorem empty_location_stops : ilcdExchange .none 1000 (exchDict c!"") = .error .keyError :=
  empty_info_stops .none 1000 (exch_input c!"" rfl) ⟨c!"location", by decide, c!"", rfl, by decide⟩

/-- **C183** The German comment of an exchange that is added to another is said in English. -/
theorem merged_language_lost : ∃ x, merge none false (fun s => [s]) [⟨1000, c!"en", c!"one"⟩]
      [([⟨1001, c!"de", c!"zwei"⟩], [])] = .ok x ∧
    written false (fun s => [s]) [⟨1001, c!"de", c!"zwei"⟩] = .ok [(c!"de", c!"zwei")] ∧
    written false (fun s => [s]) x = .ok [(c!"en", c!"zwei\none")] :=
  ⟨[⟨1000, c!"en", c!"one"⟩, ⟨100, c!"en", c!"zwei"⟩], by decide +kernel, by decide +kernel, by decide +kernel⟩

/-- **C183** The heading of the uncertainty is said twice. -/
theorem merged_heading_twice : ∃ x, merge none false (fun s => [s]) sampleUnc [([], sampleUnc)] = .ok x ∧
    written false (fun s => [s]) x = .ok [(c!"en", c!"Uncertainty Comment:; Uncertainty Comment:")] :=
  ⟨[⟨0, c!"en", c!"Uncertainty Comment:; Uncertainty Comment:"⟩], by decide +kernel, by decide +kernel⟩

example : ∃ x out, merge none true (fun s => [s]) (addMerged LangText.ilcdString [] [⟨1000, c!"en", c!"one"⟩])
      [([⟨1001, c!"de", c!"zwei"⟩], [])] = .ok x ∧ written true (fun s => [s]) x = .ok out ∧
    Says out fun L => [] ++ (if L = c!"en" then otherLines [([(c!"de", c!"zwei")], [])] else []) ++
      if c!"en" = L then [c!"one"] else [] :=
  merged_texts none true _ (by decide) (outs := [([(c!"de", c!"zwei")], [])])
    (.cons ⟨by decide +kernel, rfl⟩ .nil) (by decide) (by decide) [] [⟨1000, c!"en", c!"one"⟩] (by decide) (by decide)
    (fun L => paragraphs_empty _ L) (fun L => paragraphs_one _ _ L) (fun _ _ => rfl) (by decide) (.inl rfl)

end Verif.ExchComments
