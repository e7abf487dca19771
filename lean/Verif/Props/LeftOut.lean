/-
Data of an ILCD process without a place in EcoSpold2 (C189).
-/
import Verif.Lemmas.LeftOut

namespace Verif.LeftOut

open Verif.Xml (Elem elem2dict localName)
open Verif.Xml.Spec (select pathText Name WellNamed Visible Represents)
open Verif.Mapping (MKey keyText)
open Spec (Plain Labelled texts number lists location name StandFor)

theorem keyText_none (ns : List Str) : keyText (ns, none) = pathText ns := by
  unfold keyText
  simp only [List.append_nil]
  induction ns with
  | nil => rfl
  | cons n ns ih =>
    simp only [List.flatMap_cons, ih]
    rfl

theorem keyText_some (ns : List Str) (a : Str) : keyText (ns, some a) = pathText ns ++ c!"/@" ++ a := by
  have := keyText_none ns
  unfold keyText at *
  simp only [List.append_nil] at this
  simp only [this, List.append_assoc]

/-- The values of an entry: those of the elements, or the attributes, its path leads to. -/
def values (doc : Elem) (k : MKey) : List PyVal :=
  match k.2 with
  | none => (select k.1 [doc]).map elem2dict
  | some a => (select k.1 [doc]).flatMap fun e => (e.attrs.filter fun p => p.1 = a).map fun p => .str p.2

theorem names_ok : ∀ e ∈ entries, e.key.1 ≠ [] ∧ ∀ n ∈ e.key.1, Name n := by decide +kernel

theorem keys_known : ∀ e ∈ entries, e.key ∈ Mapping.ilcdKeys := by decide +kernel

/-- What the stream delivers on the path of an entry. -/
theorem on_read {doc : Elem} (hdoc : WellNamed doc) {e : Entry} (he : e ∈ entries) :
    on e (Xml.read (Mapping.ilcdKeys.map keyText) doc) = values doc e.key := by
  obtain ⟨h1, h2⟩ := names_ok e he
  have h3 : keyText e.key ∈ Mapping.ilcdKeys.map keyText := List.mem_map.mpr ⟨e.key, keys_known e he, rfl⟩
  unfold on values
  obtain ⟨⟨ns, a⟩, d, f⟩ := e
  cases a with
  | none =>
    simp only [keyText_none] at h3 ⊢
    rw [Xml.elements_delivered _ doc hdoc ns h1 h2, if_pos h3]
  | some a =>
    simp only [keyText_some] at h3 ⊢
    rw [Xml.attributes_delivered _ doc hdoc ns h1 h2, if_pos h3]

theorem select_ok {doc : Elem} (hdoc : WellNamed doc) (ns : List Str) : ∀ e ∈ select ns [doc], WellNamed e :=
  select_wellNamed ns [doc] (by simpa using hdoc)

theorem good_read {doc : Elem} (hdoc : WellNamed doc) :
    ∀ e ∈ entries, ∀ v ∈ on e (Xml.read (Mapping.ilcdKeys.map keyText) doc), Good v := by
  intro e he v hv
  rw [on_read hdoc he] at hv
  unfold values at hv
  split at hv
  · obtain ⟨x, hx, rfl⟩ := List.mem_map.mp hv
    exact good_elem (select_ok hdoc _ x hx)
  · obtain ⟨x, -, hv⟩ := List.mem_flatMap.mp hv
    obtain ⟨a, -, rfl⟩ := List.mem_map.mp hv
    trivial

/-- The entries in terms of the data: which entry belongs to which path. -/
theorem entry_of_text : ∀ ns ∈ texts, ∃ e ∈ entries, e.key = (ns, none) ∧ e.direct = false ∧ e.field = name ns ∧
    aget e.field fields = some .text := by decide +kernel

theorem entry_of_list : ∀ ns ∈ lists, ∃ e ∈ entries, e.key = (ns, none) ∧ e.direct = false ∧ e.field = name ns ∧
    aget e.field fields = some .list := by decide +kernel

theorem entry_of_number : ∃ e ∈ entries, e.key = (number, none) ∧ e.direct = true ∧ e.field = name number ∧
    aget e.field fields = some .text := by decide +kernel

theorem entry_cases : ∀ e ∈ entries,
    (∃ ns ∈ texts, e.key = (ns, none) ∧ e.direct = false ∧ e.field = name ns ∧ aget e.field fields = some .text) ∨
    (∃ ns ∈ lists, e.key = (ns, none) ∧ e.direct = false ∧ e.field = name ns ∧ aget e.field fields = some .list) ∨
    (e.key = (number, none) ∧ e.direct = true ∧ e.field = name number ∧ aget e.field fields = some .text) ∨
    (e.key = (location, some c!"latituteAndLongitude") ∧ e.direct = false ∧ e.field = c!"latitudeAndLongitude" ∧
      aget e.field fields = some .text) := by decide +kernel

/-- **C189** The data without a place in EcoSpold2 let the conversion go on iff those that are texts are nothing but
texts, and the registration number is not (`_partial`: a registration number of the format stops it, see
`registration_number_stops`). -/
theorem goes_on_partial {doc : Elem} (hdoc : WellNamed doc) (r : Rec) :
    (∃ r', convert doc r = .ok r') ↔
      (∀ ns ∈ texts, ∀ e ∈ select ns [doc], ∃ s, Plain e s) ∧ ∀ e ∈ select number [doc], ∃ s, Labelled e s := by
  unfold convert
  rw [run_ok (good_read hdoc)]
  constructor
  · intro h
    constructor
    · intro ns hns x hx
      obtain ⟨e, he, h1, h2, h3, h4⟩ := entry_of_text ns hns
      have := h e he (elem2dict x) (by
        rw [on_read hdoc he, h1]
        exact List.mem_map.mpr ⟨x, hx, rfl⟩)
      unfold Fit at this
      rw [if_pos h4, if_neg (by rw [h2]; simp)] at this
      obtain ⟨s, hs⟩ := this
      exact ⟨s, (str_iff (select_ok hdoc _ x hx) s).mp hs⟩
    · intro x hx
      obtain ⟨e, he, h1, h2, h3, h4⟩ := entry_of_number
      have := h e he (elem2dict x) (by
        rw [on_read hdoc he, h1]
        exact List.mem_map.mpr ⟨x, hx, rfl⟩)
      unfold Fit at this
      rw [if_pos h4, if_pos h2] at this
      obtain ⟨s, hs⟩ := this
      exact ⟨s, (direct_iff (select_ok hdoc _ x hx) s).mp hs⟩
  · rintro ⟨ht, hn⟩ e he v hv
    rw [on_read hdoc he] at hv
    unfold Fit
    rcases entry_cases e he with ⟨ns, hns, h1, h2, -, h4⟩ | ⟨ns, -, -, -, -, h4⟩ | ⟨h1, h2, -, h4⟩ | ⟨h1, h2, -, h4⟩
    · rw [if_pos h4, if_neg (by rw [h2]; simp)]
      rw [h1] at hv
      obtain ⟨x, hx, rfl⟩ := List.mem_map.mp hv
      obtain ⟨s, hs⟩ := ht ns hns x hx
      exact ⟨s, (str_iff (select_ok hdoc _ x hx) s).mpr hs⟩
    · rw [if_neg (by rw [h4]; simp)]
      trivial
    · rw [if_pos h4, if_pos h2]
      rw [h1] at hv
      obtain ⟨x, hx, rfl⟩ := List.mem_map.mp hv
      obtain ⟨s, hs⟩ := hn x hx
      exact ⟨s, (direct_iff (select_ok hdoc _ x hx) s).mpr hs⟩
    · rw [if_pos h4, if_neg (by rw [h2]; simp)]
      rw [h1] at hv
      obtain ⟨x, -, hv⟩ := List.mem_flatMap.mp hv
      obtain ⟨a, -, rfl⟩ := List.mem_map.mp hv
      exact ⟨a.2, rfl⟩

/-- A registration number as the format has it, a text without attributes, stops the conversion. -/
theorem registration_number_stops {doc : Elem} (hdoc : WellNamed doc) (r : Rec) {e : Elem}
    (he : e ∈ select number [doc]) {s : Str} (hs : Plain e s) : ∃ x, convert doc r = .error x := by
  cases h : convert doc r with
  | error x => exact ⟨x, rfl⟩
  | ok r' =>
    exfalso
    obtain ⟨t, ht⟩ := ((goes_on_partial hdoc r).mp ⟨r', h⟩).2 e he
    obtain ⟨h1, h2, h3, h4⟩ := hs
    rcases ht with ⟨h | h, -⟩ | ⟨-, -, -, a, ha, -⟩
    · exact h h1
    · exact h h2
    · rw [h1] at ha
      simp at ha

/-- Data of any form are all kept, in the order of the document, behind those of the files before. -/
theorem lists_kept {doc : Elem} (hdoc : WellNamed doc) {r r' : Rec} (h : convert doc r = .ok r') {ns : List Str}
    (hns : ns ∈ lists) : ∃ vs, StandFor (select ns [doc]) vs ∧
      (aget (name ns) r').getD [] = (aget (name ns) r).getD [] ++ vs := by
  obtain ⟨e, he, h1, -, h3, h4⟩ := entry_of_list ns hns
  obtain ⟨-, h5, -⟩ := run_get (good_read hdoc) h
  refine ⟨(select ns [doc]).map elem2dict, ?_, ?_⟩
  · have := select_ok hdoc ns
    generalize select ns [doc] = l at this
    induction l with
    | nil => exact .nil
    | cons x l ih =>
      exact .cons _ _ _ _ (Xml.element_represented x (this x (List.mem_cons_self ..)))
        (ih fun e he => this e (List.mem_cons_of_mem _ he))
  · have := h5 e he h4
    rw [on_read hdoc he, h1, h3] at this
    exact this

/-- Of the data that are texts the last one is kept; if there is none, what was there before stays, which comes
from another file. -/
theorem texts_kept {doc : Elem} (hdoc : WellNamed doc) {r r' : Rec} (h : convert doc r = .ok r') {ns : List Str}
    (hns : ns ∈ texts) :
    (∀ e s, (select ns [doc]).getLast? = some e → Plain e s → aget (name ns) r' = some [.str s]) ∧
      (select ns [doc] = [] → aget (name ns) r' = aget (name ns) r) := by
  obtain ⟨e, he, h1, h2, h3, h4⟩ := entry_of_text ns hns
  obtain ⟨h5, -, h6⟩ := run_get (good_read hdoc) h
  have hon := on_read hdoc he
  rw [h1] at hon
  change _ = (select ns [doc]).map elem2dict at hon
  constructor
  · intro x s hx hs
    have hmem : x ∈ select ns [doc] := List.mem_of_getLast? hx
    have := h6 e he h4 (elem2dict x) (by rw [hon, List.getLast?_map, hx]; rfl) s (by
      rw [if_neg (by rw [h2]; simp)]
      exact (str_iff (select_ok hdoc _ x hmem) s).mpr hs)
    rw [h3] at this
    exact this
  · intro hn
    refine h5 (name ns) fun e' he' hf => ?_
    have : e' = e := eq_of_map fields_nodup he' he (by rw [hf, h3])
    rw [this, hon, hn]
    rfl

/-- The same for the registration number. -/
theorem number_kept {doc : Elem} (hdoc : WellNamed doc) {r r' : Rec} (h : convert doc r = .ok r') {e : Elem} {s : Str}
    (hl : (select number [doc]).getLast? = some e) (hs : Labelled e s) : aget (name number) r' = some [.str s] := by
  obtain ⟨e', he, h1, h2, h3, h4⟩ := entry_of_number
  obtain ⟨-, -, h6⟩ := run_get (good_read hdoc) h
  have hon := on_read hdoc he
  rw [h1] at hon
  change _ = (select number [doc]).map elem2dict at hon
  have hmem : e ∈ select number [doc] := List.mem_of_getLast? hl
  have := h6 e' he h4 (elem2dict e) (by rw [hon, List.getLast?_map, hl]; rfl) s (by
    rw [if_pos h2]
    exact (direct_iff (select_ok hdoc _ e hmem) s).mpr hs)
  rw [h3] at this
  exact this

/-- The fields for the commissioner and the access restrictions are never filled, that for the coordinates only by
an attribute that the format does not have. -/
theorem never_kept {doc : Elem} (hdoc : WellNamed doc) {r r' : Rec} (h : convert doc r = .ok r') :
    aget c!"commissionerAndGoal" r' = aget c!"commissionerAndGoal" r ∧
      aget c!"accessRestrictions" r' = aget c!"accessRestrictions" r ∧
      ((∀ e ∈ select location [doc], ∀ a ∈ e.attrs, a.1 ≠ c!"latituteAndLongitude") →
        aget c!"latitudeAndLongitude" r' = aget c!"latitudeAndLongitude" r) := by
  obtain ⟨h5, -, -⟩ := run_get (good_read hdoc) h
  have hno : ∀ e ∈ entries, e.field ≠ c!"commissionerAndGoal" ∧ e.field ≠ c!"accessRestrictions" := by decide +kernel
  have hll : ∀ e ∈ entries, e.field = c!"latitudeAndLongitude" →
      e.key = (location, some c!"latituteAndLongitude") := by decide +kernel
  refine ⟨h5 _ fun e he hf => absurd hf (hno e he).1, h5 _ fun e he hf => absurd hf (hno e he).2, fun ha => ?_⟩
  refine h5 _ fun e he hf => ?_
  rw [on_read hdoc he, hll e he hf]
  simp only [values, List.flatMap_eq_nil_iff, List.map_eq_nil_iff, List.filter_eq_nil_iff, decide_eq_true_eq]
  exact fun e he a hae => ha e he a hae

/-! ### Examples -/

/-- A process with a registration number. -/
def process (num : Elem) : Elem :=
  .mk c!"{p}processDataSet" [] none
    [.mk c!"modellingAndValidation" [] none
       [.mk c!"LCIMethodAndAllocation" [] none
         [.mk c!"LCIMethodPrinciple" [] (some c!"Attributional") [] none] none,
        .mk c!"completeness" [] none [] none] none,
     .mk c!"administrativeInformation" [] none
       [.mk c!"publicationAndOwnership" [] none [num] none] none] none

theorem process_ok {num : Elem} (h : WellNamed num) : WellNamed (process num) := by
  refine .mk _ _ _ _ _ (by decide) (by simp) (by simp) ?_
  simp only [List.mem_cons, List.not_mem_nil, or_false, forall_eq_or_imp, forall_eq]
  refine ⟨.mk _ _ _ _ _ (by decide) (by simp) (by simp) ?_, .mk _ _ _ _ _ (by decide) (by simp) (by simp) ?_⟩
  · simp only [List.mem_cons, List.not_mem_nil, or_false, forall_eq_or_imp, forall_eq]
    refine ⟨.mk _ _ _ _ _ (by decide) (by simp) (by simp) ?_, .mk _ _ _ _ _ (by decide) (by simp) (by simp) (by simp)⟩
    simp only [List.mem_cons, List.not_mem_nil, or_false, forall_eq]
    exact .mk _ _ _ _ _ (by decide) (by simp) (by simp) (by simp)
  · simp only [List.mem_cons, List.not_mem_nil, or_false, forall_eq]
    refine .mk _ _ _ _ _ (by decide) (by simp) (by simp) ?_
    simpa using h

def plainNumber : Elem := .mk c!"{c}registrationNumber" [] (some c!"00012") [] none
def labelledNumber : Elem := .mk c!"{c}registrationNumber" [(c!"{x}lang", c!"en")] (some c!"00012") [] none

theorem plainNumber_ok : WellNamed plainNumber := .mk _ _ _ _ _ (by decide) (by simp) (by simp) (by simp)
theorem labelledNumber_ok : WellNamed labelledNumber :=
  .mk _ _ _ _ _ (by decide) (by decide) (by decide) (by simp)

theorem select_number {num : Elem} (h : localName num.tag = c!"registrationNumber") :
    select number [process num] = [num] := by
  have h1 : localName c!"{p}processDataSet" = c!"processDataSet" := by decide
  have h2 : localName c!"modellingAndValidation" = c!"modellingAndValidation" := by decide
  have h3 : localName c!"administrativeInformation" = c!"administrativeInformation" := by decide
  have h4 : localName c!"publicationAndOwnership" = c!"publicationAndOwnership" := by decide
  simp [number, Spec.admin, select, process, Elem.tag, Elem.children, h1, h2, h3, h4]
  exact decide_eq_true h

example : ∃ x, convert (process plainNumber) [] = .error x :=
  registration_number_stops (process_ok plainNumber_ok) [] (e := plainNumber) (s := c!"00012")
    (by rw [select_number (by decide)]; exact List.mem_cons_self ..)
    ⟨rfl, rfl, rfl, '0', by decide, by decide⟩

/-- A process that is converted, and its record. -/
theorem process_record : convert (process labelledNumber) [] =
    .ok [(c!"LCIMethodPrinciple", [.str c!"Attributional"]), (c!"completeness", [.dict []]),
      (c!"registrationNumber", [.str c!"00012"])] := by rfl

example : (∀ ns ∈ texts, ∀ e ∈ select ns [process labelledNumber], ∃ s, Plain e s) ∧
    ∀ e ∈ select number [process labelledNumber], ∃ s, Labelled e s :=
  (goes_on_partial (process_ok labelledNumber_ok) []).mp ⟨_, process_record⟩

example : ∃ vs, StandFor (select (Spec.modelling [c!"completeness"]) [process labelledNumber]) vs ∧
    [PyVal.dict []] = [] ++ vs :=
  lists_kept (process_ok labelledNumber_ok) process_record (by decide)

example : aget c!"registrationNumber" [(c!"LCIMethodPrinciple", [PyVal.str c!"Attributional"]),
    (c!"completeness", [.dict []]), (c!"registrationNumber", [.str c!"00012"])] = some [.str c!"00012"] :=
  number_kept (process_ok labelledNumber_ok) process_record (e := labelledNumber)
    (by rw [select_number (by decide)]; rfl) (.inl ⟨.inl (by simp [labelledNumber, Elem.attrs]), rfl, '0', by decide, by decide⟩)

example := texts_kept (process_ok labelledNumber_ok) process_record
  (ns := Spec.modelling [c!"LCIMethodAndAllocation", c!"LCIMethodPrinciple"]) (by decide)

example := never_kept (process_ok labelledNumber_ok) process_record

/-- A second file without such data keeps the data of the first in the record. -/
theorem earlier_file_stays {d₁ d₂ : Elem} (h1 : WellNamed d₁) (h2 : WellNamed d₂) {r₁ r₂ : Rec}
    (hr₁ : convert d₁ [] = .ok r₁) (hr₂ : convert d₂ r₁ = .ok r₂) {ns : List Str} (hns : ns ∈ lists) :
    ∃ vs ws, StandFor (select ns [d₁]) vs ∧ StandFor (select ns [d₂]) ws ∧ (aget (name ns) r₂).getD [] = vs ++ ws := by
  obtain ⟨vs, hv, h⟩ := lists_kept h1 hr₁ hns
  obtain ⟨ws, hw, h'⟩ := lists_kept h2 hr₂ hns
  refine ⟨vs, ws, hv, hw, ?_⟩
  rw [h', h]
  rfl

example := earlier_file_stays (process_ok labelledNumber_ok) (process_ok labelledNumber_ok) process_record
  (r₂ := [(c!"LCIMethodPrinciple", [.str c!"Attributional"]), (c!"completeness", [.dict [], .dict []]),
    (c!"registrationNumber", [.str c!"00012"])]) rfl (ns := Spec.modelling [c!"completeness"]) (by decide)

/-! ### Lists given at once -/

/-- A list given to a field of any form adds all of its members, in their order. -/
theorem list_given (k : Str) (hk : aget k fields = some .list) (vs : List PyVal) (hv : ∀ v ∈ vs, ∀ l, v ≠ .list l) (r : Rec) :
    ∃ r', put k (.list vs) r = .ok r' ∧ (aget k r').getD [] = (aget k r).getD [] ++ vs := by
  have gen : ∀ (vs : List PyVal), (∀ v ∈ vs, ∀ l, v ≠ .list l) → ∀ r : Rec,
      ∃ r', putMany k vs r = .ok r' ∧ (aget k r').getD [] = (aget k r).getD [] ++ vs := by
    intro vs
    induction vs with
    | nil => intro _ r; exact ⟨r, rfl, by simp⟩
    | cons v vs ih =>
      intro hv r
      have hm : members v = [v] := by
        cases v with
        | list l => exact absurd rfl (hv _ (by simp) l)
        | _ => rfl
      have h1 : putOne k v r = .ok (aset k ((aget k r).getD [] ++ [v]) r) := by
        unfold putOne
        simp only [hk, hm]
      obtain ⟨r', h2, h3⟩ := ih (fun v h => hv v (by simp [h])) (aset k ((aget k r).getD [] ++ [v]) r)
      refine ⟨r', by rw [putMany, h1]; exact h2, ?_⟩
      rw [h3, aget_aset, if_pos rfl]
      simp
  exact gen vs hv r

example : ∃ r', put c!"completeness" (.list [.str c!"a", .str c!"b", .str c!"c"]) [] = .ok r' ∧
    (aget c!"completeness" r').getD [] = [] ++ [.str c!"a", .str c!"b", .str c!"c"] :=
  list_given _ (by decide +kernel) _ (by simp) []

end Verif.LeftOut
