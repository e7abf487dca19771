/-
Which forms of a text the conversion from ILCD can read (C127), and texts in several languages (C128).
-/
import Verif.Model.Shapes
import Verif.Spec.Shapes
import Verif.Lemmas.Assoc
import Verif.Props.XmlStream

namespace Verif.Shapes

open Verif.Xml
open Verif.Xml.Spec (WellNamed Name)
open Verif.Shapes.Spec (Text)

/-- The element of a text. -/
def elem (tag : Str) (t : Text) : Elem := leaf tag t.lang t.text

/-- What the stream makes of a text: a dictionary if it has a language; else a `str`, or an empty dictionary. -/
theorem leaf_value (tag : Str) (t : Text) : elem2dict (elem tag t) =
    match t.lang with
    | some l => .dict [(c!"@lang", .str l), (c!"#text", .str t.content)]
    | none => if t.content = [] then .dict [] else .str t.content := by
  obtain ⟨lang, text⟩ := t
  have hl : localName xmlLang = c!"lang" := by decide
  have hte : textEntry text = if (Text.mk lang text).content = [] then none else some (Text.mk lang text).content := by
    cases text with
    | none => rfl
    | some s =>
      unfold textEntry Text.content
      by_cases hs : isSpaceStr s = true
      · simp [hs]
      · cases s with
        | nil => simp
        | cons c s => simp [hs]
  generalize (Text.mk lang text).content = c at *
  cases lang with
  | none =>
    by_cases hc : c = []
    · simp [elem, leaf, elem2dict, childEntries, startDict, attrEntries, hte, hc, aget, collapse]
    · simp [elem, leaf, elem2dict, childEntries, startDict, attrEntries, hte, hc, aset, collapse]
  | some l =>
    by_cases hc : c = []
    · simp [elem, leaf, elem2dict, childEntries, startDict, attrEntries, hte, hc, aget, aset, collapse, hl]
    · simp [elem, leaf, elem2dict, childEntries, startDict, attrEntries, hte, hc, aset, collapse, hl]

/-- **C127** An entry of the mapping can read a text iff the text has a language, or has content and the entry does
not ask for it directly; what it reads is then the text and its language (`_partial`: not for all entries, see
`needs_language`). -/
theorem entry_reads_partial (dflt : PyVal) (u : Use) (tag : Str) (t : Text) :
    (t.lang ≠ none ∨ (u ≠ .direct ∧ t.content ≠ []) →
      readText dflt u (elem2dict (elem tag t)) = .ok (some (.str t.language), t.content)) ∧
    (t.lang = none → u = .direct ∨ t.content = [] →
      readText dflt u (elem2dict (elem tag t)) = .error (if t.content = [] then .keyError else .typeError)) := by
  rw [leaf_value]
  obtain ⟨lang, text⟩ := t
  simp only [Text.language]
  generalize (Text.mk lang text).content = c
  cases lang with
  | some l => cases u <;> simp [readText, direct, addIndex, ensureDict, aget, bind, Except.bind]
  | none =>
    by_cases hc : c = []
    · cases u <;> simp [readText, direct, addIndex, ensureDict, aget, bind, Except.bind, hc]
    · cases u <;> simp [readText, direct, addIndex, ensureDict, english, aget, bind, Except.bind, hc]

/-- A prefix comes before the text, in the same language, whatever the form of the text. -/
theorem prefix_kept (dflt : PyVal) (pre : Str) (v l : PyVal) (t : Str) :
    addIndex dflt pre v = .ok (l, t) ↔ ∃ t', addIndex dflt [] v = .ok (l, t') ∧ t = pre ++ t' := by
  unfold addIndex
  cases v with
  | str s =>
    simp only [Except.ok.injEq, Prod.mk.injEq, List.nil_append]
    constructor
    · rintro ⟨h, rfl⟩
      exact ⟨s, ⟨h, rfl⟩, rfl⟩
    · rintro ⟨_, ⟨h, rfl⟩, rfl⟩
      exact ⟨h, rfl⟩
  | dict d =>
    simp only
    cases aget c!"#text" d with
    | none => simp
    | some w =>
      cases w <;> simp only [reduceCtorEq, false_and, exists_false, Except.ok.injEq, Prod.mk.injEq, List.nil_append]
      rename_i s
      constructor
      · rintro ⟨h, rfl⟩
        exact ⟨s, ⟨h, rfl⟩, rfl⟩
      · rintro ⟨_, ⟨h, rfl⟩, rfl⟩
        exact ⟨h, rfl⟩
  | _ => simp

example : ∃ t', addIndex (.str c!"de") [] (.str c!"x") = .ok (.str c!"en", t') ∧ c!"Note: x" = c!"Note: " ++ t' :=
  (prefix_kept _ _ _ _ _).mp rfl

/-- The entries that ask directly: a text without a language stops the conversion. -/
theorem needs_language : (entries.filter fun e => decide (e.2 = .direct)).map Prod.fst =
    [c!"name/baseName", c!"dataSetInformation/synonyms", c!"LCIMethodAndAllocation/deviationsFromLCIMethodPrinciple",
     c!"dataSourcesTreatmentAndRepresentativeness/deviationsFromCutOffAndCompletenessPrinciples",
     c!"dataSourcesTreatmentAndRepresentativeness/deviationsFromSelectionAndCombinationPrinciples",
     c!"dataSourcesTreatmentAndRepresentativeness/deviationsFromTreatmentAndExtrapolationPrinciples",
     c!"publicationAndOwnership/registrationNumber", c!"publicationAndOwnership/accessRestrictions"] := by
  decide

/-- The registration number is no text with a language in ILCD: its entry fails for every number. -/
theorem registration_number (dflt : PyVal) {n : Str} (hn : n ≠ []) (hs : isSpaceStr n = false) :
    (c!"publicationAndOwnership/registrationNumber", Use.direct) ∈ entries ∧
      readText dflt .direct (elem2dict (elem c!"registrationNumber" ⟨none, some n⟩)) = .error .typeError := by
  refine ⟨by decide, ?_⟩
  have hc : (Text.mk none (some n)).content = n := by simp [Text.content, hs]
  have := (entry_reads_partial dflt .direct c!"registrationNumber" ⟨none, some n⟩).2 rfl (.inl rfl)
  rw [hc, if_neg hn] at this
  exact this

/-- All other entries read every text with content. -/
theorem others_read (dflt : PyVal) {e : Str × Use} (he : e.2 ≠ .direct) (tag : Str) {t : Text}
    (hc : t.content ≠ []) :
    readText dflt e.2 (elem2dict (elem tag t)) = .ok (some (.str t.language), t.content) :=
  (entry_reads_partial dflt e.2 tag t).1 (.inr ⟨he, hc⟩)

/-! ### Texts in several languages inside another element -/

/-- The texts with content. -/
def full (l : List Text) : List Text := l.filter fun t => decide (t.content ≠ [])

/-- A text as a dictionary. -/
def asDict (t : Text) : PyVal := .dict [(c!"@lang", .str t.language), (c!"#text", .str t.content)]

theorem member_value (tag : Str) (t : Text) : ∃ v, member (elem2dict (elem tag t)) =
    .dict [(c!"@lang", .str t.language), (c!"#text", v)] ∧ truthy v = decide (t.content ≠ []) ∧
      (t.content ≠ [] → v = .str t.content) := by
  rw [leaf_value]
  obtain ⟨lang, text⟩ := t
  simp only [Text.language]
  generalize (Text.mk lang text).content = c
  cases lang with
  | some l =>
    exact ⟨.str c, rfl, by cases c <;> simp [truthy], fun _ => rfl⟩
  | none =>
    by_cases hc : c = []
    · exact ⟨.dict [], by simp [hc, member, english], by simp [hc, truthy], fun h => absurd hc h⟩
    · exact ⟨.str c, by simp [hc, member, english], by simp [hc, truthy], fun _ => rfl⟩

theorem withText_members (tag : Str) (l : List Text) :
    withText ((l.map fun t => elem2dict (elem tag t)).map member) = .ok ((full l).map asDict) := by
  induction l with
  | nil => rfl
  | cons t l ih =>
    obtain ⟨v, h1, h2, h3⟩ := member_value tag t
    simp only [List.map_cons, withText, h1, direct, aget, bind, Except.bind, ih]
    by_cases hc : t.content = []
    · simp [h2, hc, full]
    · rw [h3 hc] at h2 ⊢
      simp [h2, hc, full, asDict]

/-- `ensure_list` gives the texts with content, whatever their number and whether they have a language or not. -/
theorem ensureList_children (tag : Str) (l : List Text) :
    ensureList ((children (l.map (elem tag))).getD (.dict [])) = .ok ((full l).map asDict) := by
  match l with
  | [] => rfl
  | [t] =>
    simp only [List.map_cons, List.map_nil, children, Option.getD_some]
    rw [leaf_value]
    cases hl : t.lang with
    | some x =>
      by_cases hc : t.content = []
      · simp [ensureList, aget, truthy, full, hc]
      · simp [ensureList, aget, truthy, full, asDict, Text.language, hl, hc]
    | none =>
      by_cases hc : t.content = []
      · simp [ensureList, aget, full, hc]
      · simp [ensureList, english, full, asDict, Text.language, hl, hc]
  | t :: t' :: l =>
    have := withText_members tag (t :: t' :: l)
    simp only [List.map_map] at this
    simpa [children, ensureList, Function.comp_def] using this

/-- **C128** Comments of exchanges, variables and reviews: every text with content is read, in order and with its
language. -/
theorem comments_read (dflt : PyVal) (tag : Str) (l : List Text) :
    comments dflt (l.map (elem tag)) = .ok ((full l).map fun t => (.str t.language, t.content)) := by
  unfold comments each
  rw [ensureList_children]
  simp only [bind, Except.bind]
  have : ∀ m : List Text, indexAll dflt (m.map asDict) = .ok (m.map fun t => (.str t.language, t.content)) := by
    intro m
    induction m with
    | nil => rfl
    | cons t m ih =>
      have h : addIndex dflt [] (asDict t) = .ok (.str t.language, t.content) := by simp [asDict, addIndex, aget]
      simp only [List.map_cons, indexAll, h, bind, Except.bind, ih]
  exact this _

/-- The name of a flow or reviewer is the first text with content; if there is none, the conversion stops. -/
theorem flow_name (tag : Str) (l : List Text) :
    flowDescription (l.map (elem tag)) =
      match l, full l with
      | [], _ => .error .keyError
      | _, [] => .error .indexError
      | _, t :: _ => .ok (.str t.content) := by
  unfold flowDescription
  cases l with
  | nil => rfl
  | cons t l =>
    have h := ensureList_children tag (t :: l)
    have hs : ∃ v, children ((t :: l).map (elem tag)) = some v := by
      cases l with
      | nil => exact ⟨_, rfl⟩
      | cons => exact ⟨_, rfl⟩
    obtain ⟨v, hv⟩ := hs
    rw [hv] at h ⊢
    simp only [Option.getD_some] at h
    simp only [first, h, bind, Except.bind]
    cases hf : full (t :: l) with
    | nil => rfl
    | cons t' m => simp [asDict, direct, aget]

/-- **C128** A description read directly — of a flow property or of a source — is read iff there is exactly one and it
has a language (`_partial`: with none the source has the empty description). -/
theorem property_name_partial (tag : Str) (l : List Text) :
    (∃ v, propertyDescription (l.map (elem tag)) = .ok v) ↔ ∃ t, l = [t] ∧ t.lang ≠ none := by
  unfold propertyDescription
  match l with
  | [] => simp [children]
  | [t] =>
    simp only [List.map_cons, List.map_nil, children]
    rw [leaf_value]
    obtain ⟨lang, text⟩ := t
    cases lang with
    | some x => simp [direct, aget]
    | none =>
      by_cases hc : (Text.mk none text).content = [] <;> simp [direct, aget, hc]
  | t :: t' :: l => simp [children, direct]

/-- Then it is the content. -/
theorem property_name_value (tag : Str) {t : Text} (h : t.lang ≠ none) :
    propertyDescription [elem tag t] = .ok (.str t.content) := by
  unfold propertyDescription
  simp only [children]
  rw [leaf_value]
  obtain ⟨lang, text⟩ := t
  cases lang with
  | some x => simp [direct, aget]
  | none => simp at h

/-- The same for the source. -/
theorem source_name_partial (tag : Str) (l : List Text) :
    (∃ v, sourceDescription (l.map (elem tag)) = .ok v) ↔ l = [] ∨ ∃ t, l = [t] ∧ t.lang ≠ none := by
  match l with
  | [] => simp [children, sourceDescription, direct, aget]
  | t :: l =>
    have := property_name_partial tag (t :: l)
    unfold propertyDescription at this
    have hs : ∃ v, children ((t :: l).map (elem tag)) = some v := by
      cases l with
      | nil => exact ⟨_, rfl⟩
      | cons => exact ⟨_, rfl⟩
    obtain ⟨v, hv⟩ := hs
    rw [hv] at this
    unfold sourceDescription
    rw [hv]
    simpa using this

/-- A second language stops the conversion with a `TypeError`, in both cases. -/
theorem second_language_stops (tag : Str) (t t' : Text) (l : List Text) :
    propertyDescription ((t :: t' :: l).map (elem tag)) = .error .typeError ∧
      sourceDescription ((t :: t' :: l).map (elem tag)) = .error .typeError := ⟨rfl, rfl⟩

/-- The values are those the stream gives to the reader of the element around. -/
theorem children_value (e : Elem) (he : WellNamed e) (n : Str) (hn : Name n)
    (hc : ∃ c ∈ e.children, localName c.tag = n) :
    ∃ d, elem2dict e = .dict d ∧ aget n d = children (e.children.filter fun c => localName c.tag = n) := by
  obtain ⟨d, hd, h⟩ := children_kept e he n hn hc
  refine ⟨d, hd, ?_⟩
  rcases h with ⟨c, h1, h2⟩ | ⟨h1, h2⟩
  · rw [h1, h2]
    rfl
  · rw [h2]
    match hf : e.children.filter fun c => localName c.tag = n with
    | [] => rw [hf] at h1; simp at h1
    | [x] => rw [hf] at h1; simp at h1
    | x :: y :: l =>
      rw [hf]
      rfl

/- The hypotheses are met. -/

example : readText .none .direct (elem2dict (elem c!"baseName" ⟨some c!"en", some c!"steel"⟩)) =
    .ok (some (.str c!"en"), c!"steel") :=
  (entry_reads_partial _ _ _ _).1 (.inl (by simp))

example : readText .none .direct (elem2dict (elem c!"baseName" ⟨none, some c!"steel"⟩)) = .error .typeError :=
  (entry_reads_partial _ _ _ _).2 rfl (.inl rfl)

example : readText .none .index (elem2dict (elem c!"generalComment" ⟨none, some c!"steel"⟩)) =
    .ok (some (.str c!"en"), c!"steel") :=
  others_read (e := (c!"", .index)) _ (by decide) _ (by decide)

example : comments .none ([⟨some c!"de", some c!"Stahl"⟩, ⟨none, some c!"steel"⟩, ⟨some c!"fr", none⟩].map
    (elem c!"generalComment")) = .ok [(.str c!"de", c!"Stahl"), (.str c!"en", c!"steel")] := by
  rw [comments_read]
  rfl

example : ∃ v, propertyDescription ([⟨some c!"en", some c!"Mass"⟩].map (elem c!"shortDescription")) = .ok v :=
  (property_name_partial _ _).mpr ⟨_, rfl, by simp⟩

example : ¬∃ v, propertyDescription ([⟨none, some c!"Mass"⟩].map (elem c!"shortDescription")) = .ok v := by
  rw [property_name_partial]
  rintro ⟨t, h, ht⟩
  injection h with h
  subst h
  exact ht rfl

end Verif.Shapes
