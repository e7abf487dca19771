/-
Properties of the paths of the field mappings: C55 (every mapped path exists in the source format) and
C56 (no field of the source format is ignored).
-/
import Verif.Lemmas.Mapping

namespace Verif.Mapping
open Verif.DotDict Verif.Schema Verif.Xml Spec
open Verif.Xml.Spec (select pathText Name WellNamed)

/-- The mapping of `k` is called when reading some document of the format. -/
def Occurs (S : Schema Str) (keys : List MKey) (k : MKey) : Prop :=
  ∃ doc, Legal S c!"/" doc ∧ WellNamed doc ∧ ∃ v, (keyText k, v) ∈ read (keys.map keyText) doc

/-! ### C55 -/

set_option maxRecDepth 100000 in
theorem ecs2_good : (ecs2Keys.all fun k => goodKey k && resolves ecs2Doc c!"/" k.1 k.2) = true := by
  decide +kernel

set_option maxRecDepth 100000 in
theorem ilcdSelf_good :
    (ilcdSelfKeys.all fun k => goodKey k && resolves ilcdDoc c!"/" k.1 k.2) = true := by
  decide +kernel

/-- The mapped paths of ILCD that are not paths of ILCD. -/
def misspelt : List MKey := [
  ([c!"processDataSet", c!"processInformation", c!"quantitativeReference", c!"type"], none),
  ([c!"processDataSet", c!"processInformation", c!"geography", c!"locationOfOperationSupplyOrProduction"],
    some c!"latituteAndLongitude"),
  ([c!"processDataSet", c!"processInformation", c!"technology", c!"technologyApplicability"], none),
  ([c!"processDataSet", c!"administrativeInformation", c!"publicationAndOwnership",
    c!"workflowAndPublication"], none)]

set_option maxRecDepth 100000 in
theorem ilcd_good : (ilcdKeys.all fun k => goodKey k &&
    (resolves ilcdDoc c!"/" k.1 k.2 == !decide (k ∈ misspelt))) = true := by
  decide +kernel

/-- Every path the conversion of EcoSpold2 waits for occurs in some EcoSpold2 document. -/
theorem ecs2_paths_occur : ∀ k ∈ ecs2Keys, Occurs ecs2Doc ecs2Keys k := by
  intro k hk
  have h := List.all_eq_true.1 ecs2_good k hk
  rw [Bool.and_eq_true] at h
  exact (delivered_iff ecs2Doc c!"/" ecs2Keys k hk h.1).2 h.2

/-- Every path the conversion from ILCD to ILCD waits for occurs in some ILCD document. -/
theorem ilcdSelf_paths_occur : ∀ k ∈ ilcdSelfKeys, Occurs ilcdDoc ilcdSelfKeys k := by
  intro k hk
  have h := List.all_eq_true.1 ilcdSelf_good k hk
  rw [Bool.and_eq_true] at h
  exact (delivered_iff ilcdDoc c!"/" ilcdSelfKeys k hk h.1).2 h.2

/-- From ILCD to EcoSpold2: a mapping is called for some ILCD document, unless its path is one of the
four misspelt ones, whose mappings are called for no document at all. -/
theorem ilcd_paths_occur_partial : ∀ k ∈ ilcdKeys, Occurs ilcdDoc ilcdKeys k ↔ k ∉ misspelt := by
  intro k hk
  have h := List.all_eq_true.1 ilcd_good k hk
  rw [Bool.and_eq_true, beq_iff_eq] at h
  rw [Occurs, delivered_iff ilcdDoc c!"/" ilcdKeys k hk h.1, h.2]
  simp

set_option maxRecDepth 100000 in
/-- The misspelt paths are mapped. -/
theorem misspelt_mapped : ∀ k ∈ misspelt, k ∈ ilcdKeys ∧ ¬ Occurs ilcdDoc ilcdKeys k := by
  intro k hk
  have h : k ∈ ilcdKeys := by
    have : ∀ k ∈ misspelt, k ∈ ilcdKeys := by decide +kernel
    exact this k hk
  exact ⟨h, fun ho => (ilcd_paths_occur_partial k h).1 ho hk⟩

/-- The keys are the texts of the source: two of them spelt out. -/
example : keyText ([c!"ecoSpold", c!"activityDataset", c!"activityDescription", c!"activity"],
      some c!"id") = c!"/ecoSpold/activityDataset/activityDescription/activity/@id" ∧
    keyText ([c!"processDataSet", c!"exchanges", c!"exchange"], none) =
      c!"/processDataSet/exchanges/exchange" := by decide

/-! ### C56 -/

/-- Fields of ILCD that the conversion to EcoSpold2 never sees (the third is a group). -/
def ilcdUnseen : List MKey := [
  ([c!"processDataSet", c!"processInformation", c!"quantitativeReference"], some c!"type"),
  ([c!"processDataSet", c!"processInformation", c!"geography", c!"locationOfOperationSupplyOrProduction"],
    some c!"latitudeAndLongitude"),
  ([c!"processDataSet", c!"processInformation", c!"technology", c!"technologicalApplicability"], none),
  ([c!"processDataSet", c!"administrativeInformation", c!"commissionerAndGoal",
    c!"referenceToCommissioner"], none),
  ([c!"processDataSet", c!"administrativeInformation", c!"publicationAndOwnership",
    c!"workflowAndPublicationStatus"], none)]

/-- The same for EcoSpold2. -/
def ecs2Unseen : List MKey := [
  ([c!"ecoSpold", c!"activityDataset", c!"flowData", c!"impactIndicator"], none),
  ([c!"ecoSpold", c!"childActivityDataset", c!"flowData", c!"impactIndicator"], none)]

/-- On or below one of the paths. -/
def belowAny (l : List MKey) (k : MKey) : Bool :=
  l.any fun p => p == k || (p.2 == none && p.1.isPrefixOf k.1)

set_option maxRecDepth 100000 in
theorem ecs2_gaps : bounded ecs2Doc 12 c!"/" = true ∧
    (gaps ecs2Doc ecs2Keys 13 c!"/" []).all (belowAny ecs2Unseen) = true := by decide +kernel

set_option maxRecDepth 100000 in
theorem ilcd_gaps : bounded ilcdDoc 12 c!"/" = true ∧
    (gaps ilcdDoc ilcdKeys 13 c!"/" []).all (belowAny ilcdUnseen) = true := by decide +kernel

set_option maxRecDepth 100000 in
theorem ilcdSelf_gaps : gaps ilcdDoc ilcdSelfKeys 13 c!"/" [] = [] := by decide +kernel

/-- Every field of EcoSpold2, at any depth, is handed to a mapping, except the impact indicators. -/
theorem ecs2_fields_covered_partial (k : MKey) (hk : IsField ecs2Doc c!"/" k) :
    Covered ecs2Keys k ∨ belowAny ecs2Unseen k = true := by
  have hl := bounded_length 12 _ k ecs2_gaps.1 hk
  rcases gaps_complete ecs2Doc ecs2Keys 13 _ [] k hk (by omega) with h | h
  · exact .inl h
  · exact .inr (List.all_eq_true.1 ecs2_gaps.2 _ h)

/-- Every field of ILCD is handed to a mapping of the conversion to EcoSpold2, except five. -/
theorem ilcd_fields_covered_partial (k : MKey) (hk : IsField ilcdDoc c!"/" k) :
    Covered ilcdKeys k ∨ belowAny ilcdUnseen k = true := by
  have hl := bounded_length 12 _ k ilcd_gaps.1 hk
  rcases gaps_complete ilcdDoc ilcdKeys 13 _ [] k hk (by omega) with h | h
  · exact .inl h
  · exact .inr (List.all_eq_true.1 ilcd_gaps.2 _ h)

/-- Every field of ILCD is handed to a mapping of the conversion to ILCD. -/
theorem ilcdSelf_fields_covered (k : MKey) (hk : IsField ilcdDoc c!"/" k) : Covered ilcdSelfKeys k := by
  have hl := bounded_length 12 _ k ilcd_gaps.1 hk
  rcases gaps_complete ilcdDoc ilcdSelfKeys 13 _ [] k hk (by omega) with h | h
  · exact h
  · rw [ilcdSelf_gaps] at h; simp at h

set_option maxRecDepth 100000 in
/-- The excepted fields are fields, and reading a document gives the same with and without them: what
they say cannot reach the result. -/
theorem ecs2_unseen (k : MKey) (hk : k ∈ ecs2Unseen) (doc : Elem) (hdoc : WellNamed doc)
    (hroot : localName doc.tag = c!"ecoSpold") :
    read (ecs2Keys.map keyText) (without k doc) = read (ecs2Keys.map keyText) doc := by
  have hu : ecs2Unseen.all (unseen (ecs2Keys.map keyText)) = true := by decide +kernel
  have h := List.all_eq_true.1 hu k hk
  have hf : ∃ m ns, k.1 = c!"ecoSpold" :: m :: ns := by
    simp only [ecs2Unseen, List.mem_cons, List.not_mem_nil, or_false] at hk
    rcases hk with rfl | rfl <;> exact ⟨_, _, rfl⟩
  obtain ⟨m, ns, he⟩ := hf
  obtain ⟨l, a⟩ := k
  simp only at he
  subst he
  exact read_without _ _ m ns a h doc hdoc hroot

set_option maxRecDepth 100000 in
theorem ilcd_unseen (k : MKey) (hk : k ∈ ilcdUnseen) (doc : Elem) (hdoc : WellNamed doc)
    (hroot : localName doc.tag = c!"processDataSet") :
    read (ilcdKeys.map keyText) (without k doc) = read (ilcdKeys.map keyText) doc := by
  have hu : ilcdUnseen.all (unseen (ilcdKeys.map keyText)) = true := by decide +kernel
  have h := List.all_eq_true.1 hu k hk
  have hf : ∃ m ns, k.1 = c!"processDataSet" :: m :: ns := by
    simp only [ilcdUnseen, List.mem_cons, List.not_mem_nil, or_false] at hk
    rcases hk with rfl | rfl | rfl | rfl | rfl <;> exact ⟨_, _, rfl⟩
  obtain ⟨m, ns, he⟩ := hf
  obtain ⟨l, a⟩ := k
  simp only at he
  subst he
  exact read_without _ _ m ns a h doc hdoc hroot

set_option maxRecDepth 100000 in
/-- The excepted paths are paths of the formats. -/
theorem unseen_occur : (∀ k ∈ ecs2Unseen, ∃ doc, Legal ecs2Doc c!"/" doc ∧ select k.1 [doc] ≠ []) ∧
    (∀ k ∈ ilcdUnseen, ∃ doc, Legal ilcdDoc c!"/" doc ∧ select k.1 [doc] ≠ [] ∧
      ∀ a, k.2 = some a → ∃ e ∈ select k.1 [doc], ∃ v, (a, v) ∈ e.attrs) := by
  have he : (ecs2Unseen.all fun k => goodKey k && resolves ecs2Doc c!"/" k.1 k.2) = true := by
    decide +kernel
  have hi : (ilcdUnseen.all fun k => goodKey k && resolves ilcdDoc c!"/" k.1 k.2) = true := by
    decide +kernel
  constructor
  · intro k hk
    have h := List.all_eq_true.1 he k hk
    rw [Bool.and_eq_true] at h
    obtain ⟨n, ns, hn, hp, ha⟩ := goodKey_cons h.1
    obtain ⟨t, ht⟩ := chain_select ns n k.2 hp
    refine ⟨chain n ns k.2, chain_legal ns n _ k.2 hp ha (by rw [← hn]; exact h.2), ?_⟩
    rw [hn, ht]; simp
  · intro k hk
    have h := List.all_eq_true.1 hi k hk
    rw [Bool.and_eq_true] at h
    obtain ⟨n, ns, hn, hp, ha⟩ := goodKey_cons h.1
    obtain ⟨t, ht⟩ := chain_select ns n k.2 hp
    refine ⟨chain n ns k.2, chain_legal ns n _ k.2 hp ha (by rw [← hn]; exact h.2), ?_, ?_⟩
    · rw [hn, ht]; simp
    · intro a hk2
      rw [hn, ht]
      exact ⟨_, List.mem_singleton_self _, c!"x", by rw [hk2]; simp [chain, Elem.attrs]⟩

/-- A field deep in the structure, to which the covering theorem applies. -/
example : IsField ilcdDoc c!"/"
    ([c!"processDataSet", c!"processInformation", c!"time", c!"referenceYear"], none) := by
  refine .group _ _ (grp c!"/processDataSet") _ _ _ (by decide) (by decide) rfl ?_
  refine .group _ _ (grp c!"/processInformation") _ _ _ (by decide) (by decide) rfl ?_
  refine .group _ _ (grp c!"Time") _ _ _ (by decide) (by decide) rfl ?_
  refine .leaf _ _ _ _ (List.mem_cons_self ..) (by decide) rfl

end Verif.Mapping
