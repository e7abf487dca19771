/-
The documents of the output formats stand for elements.
-/
import Verif.Lemmas.XmlSchema

namespace Verif.XmlWrite
open Verif.XmlParse
open Verif.DotDict
open Verif.Schema
open Spec (IsName localPart prefixPart Qualified attrKeys declared plainKeys kidKeys textFit isList fits kidsFit rowFits)

theorem attrKeys_congr {d e : List (Str × PyVal)} (h : d.map Prod.fst = e.map Prod.fst) : attrKeys d = attrKeys e := by
  induction d generalizing e with
  | nil =>
    cases e with
    | nil => rfl
    | cons => cases h
  | cons x d ih =>
    cases e with
    | nil => cases h
    | cons y e =>
      obtain ⟨k, v⟩ := x
      obtain ⟨k', v'⟩ := y
      simp only [List.map_cons, List.cons.injEq] at h
      obtain ⟨rfl, h⟩ := h
      rw [attrKeys_cons, attrKeys_cons, ih h]

/-- Whether a dictionary stands for an element depends on its keys and on the values of its children. -/
theorem fits_keys {ps : List Str} {N D : List (Str × PyVal)} (hN : fits ps (.dict N) = true)
    (hk : D.map Prod.fst = N.map Prod.fst) (ht : textFit (aget c!"#text" D) = true)
    (hv : ∀ x ∈ D, isKid x.1 = true → fits (declared N ++ ps) x.2 = true) : fits ps (.dict D) = true := by
  rw [fits] at hN ⊢
  simp only [Bool.and_eq_true, decide_eq_true_eq] at hN ⊢
  have ha := attrKeys_congr hk
  have hd : declared D = declared N := by rw [declared, ha, declared]
  have hp : plainKeys D = plainKeys N := by rw [plainKeys, ha, plainKeys]
  have hkk : kidKeys D = kidKeys N := by rw [kidKeys, hk, kidKeys]
  rw [hk, ha, hd, hp, hkk]
  obtain ⟨⟨⟨⟨⟨⟨h1, h2⟩, h3⟩, h4⟩, h5⟩, h6⟩, h7⟩ := hN
  refine ⟨⟨⟨⟨⟨⟨h1, h2⟩, h3⟩, h4⟩, h5⟩, ht⟩, ?_⟩
  apply kidsFit_of
  intro x hx hkid
  refine ⟨kidsFit_names h7 x.1 ?_, hv x hx hkid⟩
  rw [kidKeys, List.mem_filter, ← hk]
  exact ⟨List.mem_map.2 ⟨x, hx, rfl⟩, hkid⟩

variable {V R : Type}

theorem part_ok {S : Schema Str} {vs : Validators Str V R PyVal} {n : Node V} {v : PyVal} (h : part S vs n = .ok v) :
    ∃ o, getDict S vs n = .ok o ∧ v = outVal o := by
  unfold part at h
  split at h
  · cases h
  · rename_i o ho
    cases h
    exact ⟨o, ho, rfl⟩

/-- Entries without values. -/
def keysOnly (l : List Str) : List (Str × PyVal) := l.map fun k => (k, .none)

theorem bind_ok {α β : Type} {x : Py α} {f : α → Py β} {b : β} (h : (x >>= f) = .ok b) : ∃ a, x = .ok a ∧ f a = .ok b := by
  cases x with
  | error e => cases h
  | ok a => exact ⟨a, rfl, h⟩

theorem ilcdDoc_parts {vs : Validators Str V R PyVal} {olca : Bool} {p : Key → Node V} {doc : List (Str × PyVal)}
    (h : ilcdDoc vs olca p = .ok doc) : ∃ dsi ref time geo tech math mod adm exch,
    part ilcd vs (p c!"dataSetInformation") = .ok dsi ∧ part ilcd vs (p c!"quantitativeReference") = .ok ref ∧
    part ilcd vs (p c!"time") = .ok time ∧ part ilcd vs (p c!"geography") = .ok geo ∧
    part ilcd vs (p c!"technology") = .ok tech ∧ part ilcd vs (p c!"mathematicalRelations") = .ok math ∧
    part ilcd vs (p c!"modellingAndValidation") = .ok mod ∧ part ilcd vs (p c!"administrativeInformation") = .ok adm ∧
    part ilcd vs (p c!"exchanges") = .ok exch ∧
    doc = [(c!"processDataSet", .dict ([
      (c!"@xmlns", .str c!"http://lca.jrc.it/ILCD/Process"),
      (c!"@xmlns:common", .str c!"http://lca.jrc.it/ILCD/Common"),
      (c!"@version", .str c!"1.1"),
      (c!"@locations", .str c!"../ILCDLocations.xml"),
      (c!"@metaDataOnly", .str c!"false"),
      (c!"processInformation", .dict [
        (c!"dataSetInformation", dsi),
        (c!"quantitativeReference", ref),
        (c!"time", time),
        (c!"geography", geo),
        (c!"technology", tech),
        (c!"mathematicalRelations", math)]),
      (c!"modellingAndValidation", mod),
      (c!"administrativeInformation", adm),
      (c!"exchanges", exch)] ++
      (if olca then [(c!"@xmlns:olca", .str c!"http://openlca.org/ilcd-extensions")] else [])))] := by
  unfold ilcdDoc at h
  obtain ⟨a1, h1, h⟩ := bind_ok h
  obtain ⟨a2, h2, h⟩ := bind_ok h
  obtain ⟨a3, h3, h⟩ := bind_ok h
  obtain ⟨a4, h4, h⟩ := bind_ok h
  obtain ⟨a5, h5, h⟩ := bind_ok h
  obtain ⟨a6, h6, h⟩ := bind_ok h
  obtain ⟨a7, h7, h⟩ := bind_ok h
  obtain ⟨a8, h8, h⟩ := bind_ok h
  obtain ⟨a9, h9, h⟩ := bind_ok h
  cases h
  exact ⟨a1, a2, a3, a4, a5, a6, a7, a8, a9, h1, h2, h3, h4, h5, h6, h7, h8, h9, rfl⟩

/-- The prefixes within a document of ILCD. -/
def ilcdPrefixes (olca : Bool) : List Str :=
  if olca then [c!"", c!"common", c!"olca", c!"xml"] else [c!"", c!"common", c!"xml"]

theorem ilcd_doc_fits {vs : Validators Str V R PyVal} {olca : Bool} {p : Key → Node V} {doc : List (Str × PyVal)}
    (hg : ∀ k v, part ilcd vs (p k) = .ok v → fits (ilcdPrefixes olca) v = true) (h : ilcdDoc vs olca p = .ok doc) :
    ∃ v, doc = [(c!"processDataSet", v)] ∧ isList v = false ∧ fits [c!"xml"] v = true := by
  obtain ⟨a1, a2, a3, a4, a5, a6, a7, a8, a9, h1, h2, h3, h4, h5, h6, h7, h8, h9, rfl⟩ := ilcdDoc_parts h
  refine ⟨_, rfl, rfl, ?_⟩
  have info : ∀ ps, ps = ilcdPrefixes olca → fits ps (.dict [
        (c!"dataSetInformation", a1),
        (c!"quantitativeReference", a2),
        (c!"time", a3),
        (c!"geography", a4),
        (c!"technology", a5),
        (c!"mathematicalRelations", a6)]) = true := by
    intro ps hps
    apply fits_keys (N := keysOnly [c!"dataSetInformation", c!"quantitativeReference", c!"time", c!"geography",
      c!"technology", c!"mathematicalRelations"])
    · subst hps; cases olca <;> decide +kernel
    · rfl
    · rfl
    · have : declared (keysOnly [c!"dataSetInformation", c!"quantitativeReference", c!"time", c!"geography",
        c!"technology", c!"mathematicalRelations"]) = [] := by decide +kernel
      rw [this, List.nil_append, hps]
      intro x hx _
      simp only [List.mem_cons, List.not_mem_nil, or_false] at hx
      rcases hx with rfl | rfl | rfl | rfl | rfl | rfl
      · exact hg _ _ h1
      · exact hg _ _ h2
      · exact hg _ _ h3
      · exact hg _ _ h4
      · exact hg _ _ h5
      · exact hg _ _ h6
  cases olca with
  | false =>
    apply fits_keys (N := keysOnly [c!"@xmlns", c!"@xmlns:common", c!"@version", c!"@locations", c!"@metaDataOnly",
      c!"processInformation", c!"modellingAndValidation", c!"administrativeInformation", c!"exchanges"])
    · decide +kernel
    · rfl
    · rfl
    · have : declared (keysOnly [c!"@xmlns", c!"@xmlns:common", c!"@version", c!"@locations", c!"@metaDataOnly",
        c!"processInformation", c!"modellingAndValidation", c!"administrativeInformation", c!"exchanges"]) ++ [c!"xml"] =
        ilcdPrefixes false := by decide +kernel
      rw [this]
      intro x hx hk
      simp only [List.mem_append, List.mem_cons, List.not_mem_nil, or_false, Bool.false_eq_true, if_false] at hx
      rcases hx with rfl | rfl | rfl | rfl | rfl | rfl | rfl | rfl | rfl
      · rfl
      · rfl
      · rfl
      · rfl
      · rfl
      · exact info _ rfl
      · exact hg _ _ h7
      · exact hg _ _ h8
      · exact hg _ _ h9
  | true =>
    apply fits_keys (N := keysOnly [c!"@xmlns", c!"@xmlns:common", c!"@version", c!"@locations", c!"@metaDataOnly",
      c!"processInformation", c!"modellingAndValidation", c!"administrativeInformation", c!"exchanges", c!"@xmlns:olca"])
    · decide +kernel
    · rfl
    · rfl
    · have : declared (keysOnly [c!"@xmlns", c!"@xmlns:common", c!"@version", c!"@locations", c!"@metaDataOnly",
        c!"processInformation", c!"modellingAndValidation", c!"administrativeInformation", c!"exchanges", c!"@xmlns:olca"]) ++
        [c!"xml"] = ilcdPrefixes true := by decide +kernel
      rw [this]
      intro x hx hk
      simp only [List.mem_append, List.mem_cons, List.not_mem_nil, or_false, if_true] at hx
      rcases hx with (rfl | rfl | rfl | rfl | rfl | rfl | rfl | rfl | rfl) | rfl
      · rfl
      · rfl
      · rfl
      · rfl
      · rfl
      · exact info _ rfl
      · exact hg _ _ h7
      · exact hg _ _ h8
      · exact hg _ _ h9
      · rfl

/-! ### EcoSpold2 -/

theorem fits_xmlns {ps : List Str} {d : List (Str × PyVal)} (s : PyVal) (h : fits ps (.dict d) = true)
    (hx : c!"@xmlns" ∉ d.map Prod.fst) : fits ps (.dict ((c!"@xmlns", s) :: d)) = true := by
  rw [fits] at h ⊢
  simp only [Bool.and_eq_true, decide_eq_true_eq] at h ⊢
  obtain ⟨⟨⟨⟨⟨⟨h1, h2⟩, h3⟩, h4⟩, h5⟩, h6⟩, h7⟩ := h
  have ha : attrKeys ((c!"@xmlns", s) :: d) = c!"xmlns" :: attrKeys d := rfl
  have hd : declared ((c!"@xmlns", s) :: d) = [] :: declared d := by rw [declared, ha]; rfl
  have hp : plainKeys ((c!"@xmlns", s) :: d) = plainKeys d := by rw [plainKeys, ha]; rfl
  have hk : kidKeys ((c!"@xmlns", s) :: d) = kidKeys d := rfl
  have hm : ∀ q ∈ declared d ++ ps, q ∈ ([] :: declared d) ++ ps := fun q hq => by
    rw [List.cons_append]; exact List.mem_cons_of_mem _ hq
  rw [ha, hd, hp, hk]
  refine ⟨⟨⟨⟨⟨⟨?_, ?_⟩, fun k hk => qualified_sub hm (h3 k hk)⟩, h4⟩, h5⟩, ?_⟩, ?_⟩
  · rw [List.map_cons, List.nodup_cons]
    exact ⟨hx, h1⟩
  · intro k hk
    rcases List.mem_cons.1 hk with rfl | hk
    · decide
    · exact h2 k hk
  · have : aget c!"#text" ((c!"@xmlns", s) :: d) = aget c!"#text" d := rfl
    rw [this]; exact h6
  · have := kidsFit_mono d _ _ hm h7
    rw [kidsFit, this]
    rfl

theorem ecs2Doc_parts {vs : Validators Str V R PyVal} {user : Bool} {p : Key → Node V} {doc : List (Str × PyVal)}
    (h : ecs2Doc vs user p = .ok doc) : ∃ act flow mod adm master,
    part ecs2 vs (p c!"activityDescription") = .ok act ∧ part ecs2 vs (p c!"flowData") = .ok flow ∧
    part ecs2 vs (p c!"modellingAndValidation") = .ok mod ∧ part ecs2 vs (p c!"administrativeInformation") = .ok adm ∧
    (user = false ∧ master = [] ∨ user = true ∧ ∃ m, part ecs2 vs (p c!"userMaster") = .ok m ∧
      master = [(c!"usedUserMasterData", .dict ((c!"@xmlns", .str c!"http://www.EcoInvent.org/UsedUserMasterData") ::
        entriesIn m))]) ∧
    doc = [(c!"ecoSpold", .dict ([
      (c!"@xmlns", .str c!"http://www.EcoInvent.org/EcoSpold02"),
      (c!"activityDataset", .dict [
        (c!"activityDescription", act),
        (c!"flowData", flow),
        (c!"modellingAndValidation", mod),
        (c!"administrativeInformation", adm)])] ++ master))] := by
  unfold ecs2Doc at h
  obtain ⟨a1, h1, h⟩ := bind_ok h
  obtain ⟨a2, h2, h⟩ := bind_ok h
  obtain ⟨a3, h3, h⟩ := bind_ok h
  obtain ⟨a4, h4, h⟩ := bind_ok h
  obtain ⟨a5, h5, h⟩ := bind_ok h
  cases h
  refine ⟨a1, a2, a3, a4, a5, h1, h2, h3, h4, ?_, rfl⟩
  cases user with
  | false => cases h5; exact .inl ⟨rfl, rfl⟩
  | true =>
    refine .inr ⟨rfl, ?_⟩
    simp only [masterPart, if_true] at h5
    split at h5
    · cases h5
    · rename_i m hm
      cases h5
      exact ⟨m, hm, rfl⟩

def ecs2Prefixes : List Str := [c!"", c!"xml"]

theorem ecs2_doc_fits {vs : Validators Str V R PyVal} {user : Bool} {p : Key → Node V} {doc : List (Str × PyVal)}
    (hg : ∀ k v, part ecs2 vs (p k) = .ok v → ∃ d, v = .dict d ∧ fits ecs2Prefixes v = true ∧ declared d = [])
    (h : ecs2Doc vs user p = .ok doc) :
    ∃ v, doc = [(c!"ecoSpold", v)] ∧ isList v = false ∧ fits [c!"xml"] v = true := by
  obtain ⟨a1, a2, a3, a4, a5, h1, h2, h3, h4, h5, rfl⟩ := ecs2Doc_parts h
  refine ⟨_, rfl, rfl, ?_⟩
  have hg' : ∀ k v, part ecs2 vs (p k) = .ok v → fits ecs2Prefixes v = true := fun k v hv => by
    obtain ⟨d, _, h, _⟩ := hg k v hv; exact h
  have act : fits ecs2Prefixes (.dict [
        (c!"activityDescription", a1),
        (c!"flowData", a2),
        (c!"modellingAndValidation", a3),
        (c!"administrativeInformation", a4)]) = true := by
    apply fits_keys (N := keysOnly [c!"activityDescription", c!"flowData", c!"modellingAndValidation",
      c!"administrativeInformation"])
    · decide +kernel
    · rfl
    · rfl
    · have : declared (keysOnly [c!"activityDescription", c!"flowData", c!"modellingAndValidation",
        c!"administrativeInformation"]) = [] := by decide +kernel
      rw [this, List.nil_append]
      intro x hx _
      simp only [List.mem_cons, List.not_mem_nil, or_false] at hx
      rcases hx with rfl | rfl | rfl | rfl
      · exact hg' _ _ h1
      · exact hg' _ _ h2
      · exact hg' _ _ h3
      · exact hg' _ _ h4
  rcases h5 with ⟨_, rfl⟩ | ⟨_, m, hm, rfl⟩
  · apply fits_keys (N := keysOnly [c!"@xmlns", c!"activityDataset"])
    · decide +kernel
    · rfl
    · rfl
    · have : declared (keysOnly [c!"@xmlns", c!"activityDataset"]) ++ [c!"xml"] = ecs2Prefixes := by decide +kernel
      rw [this]
      intro x hx _
      simp only [List.mem_append, List.mem_cons, List.not_mem_nil, or_false] at hx
      rcases hx with rfl | rfl
      · rfl
      · exact act
  · apply fits_keys (N := keysOnly [c!"@xmlns", c!"activityDataset", c!"usedUserMasterData"])
    · decide +kernel
    · rfl
    · rfl
    · have : declared (keysOnly [c!"@xmlns", c!"activityDataset", c!"usedUserMasterData"]) ++ [c!"xml"] = ecs2Prefixes := by
        decide +kernel
      rw [this]
      intro x hx _
      simp only [List.mem_append, List.mem_cons, List.not_mem_nil, or_false] at hx
      rcases hx with (rfl | rfl) | rfl
      · rfl
      · exact act
      · obtain ⟨d, rfl, hd1, hd2⟩ := hg _ _ hm
        refine fits_xmlns _ hd1 ?_
        intro hx
        have hk := (attrKeys_mem d c!"xmlns").2 hx
        rw [declared, List.filterMap_eq_nil_iff] at hd2
        cases hd2 _ hk

/-- The groups of EcoSpold2 declare nothing. -/
theorem ecs2_declares_nothing (vs : Validators Str V R PyVal) (n : Node V) (hw : WF ecs2 n) (o : Out PyVal)
    (ho : getDict ecs2 vs n = .ok o) (d : List (Str × PyVal)) (hd : outVal o = .dict d) : declared d = [] := by
  cases hw with
  | @mk c items known nodup deep =>
    obtain ⟨items', es, rfl, hperm, -, hent⟩ := written_in_order ecs2 vs c items o nodup (ecs2_names_distinct c) ho
    rw [outVal] at hd
    cases hd
    have hf := of_table (P := fun _ fs => namesFit [c!"", c!"xml"] fs = true) ecs2_names (fun _ => namesFit_nil _) c
    rw [namesFit] at hf
    simp only [Bool.and_eq_true, decide_eq_true_eq] at hf
    have hb := hf.1.2
    rw [declared, List.filterMap_eq_nil_iff] at hb ⊢
    intro k hk
    apply hb
    rw [attrKeys_mem] at hk ⊢
    rw [outItems_keys] at hk
    obtain ⟨w, hw, hwk⟩ := List.mem_map.1 hk
    obtain ⟨e, he, f, hf', hx, _⟩ := forall₂_right hent hw
    rw [blank, List.map_map]
    exact List.mem_map.2 ⟨(e.1, f), mem_of_lookup hf', (xmlName_getName hx).trans hwk⟩

/-! ### The values of the fields -/

theorem entry_fits {d : List (Str × PyVal)} (h : Spec.TextEntry d) {ps : List Str} (hp : c!"xml" ∈ ps) :
    fits ps (.dict d) = true := by
  apply fits_mono _ [c!"xml"] ps (fun p hp' => by rw [List.mem_singleton] at hp'; rwa [hp'])
  apply fits_sub (N := keysOnly [c!"@xml:lang", c!"@index", c!"@name", c!"#text"])
  · decide +kernel
  · decide +kernel
  · exact h.1
  · exact h.2.1
  · cases hg : aget c!"#text" d with
    | none => rfl
    | some v =>
      obtain ⟨s, rfl⟩ := h.2.2 v hg
      rfl
  · intro x hx hk
    have := h.2.1 x.1 (List.mem_map.2 ⟨x, hx, rfl⟩)
    exfalso
    revert hk
    generalize x.1 = k at this
    simp only [List.mem_cons, List.not_mem_nil, or_false] at this
    rcases this with rfl | rfl | rfl | rfl <;> decide

theorem scalar_fits {v : PyVal} (h : Spec.isScalar v = true) (ps : List Str) : isList v = false ∧ fits ps v = true := by
  cases v <;> first | exact ⟨rfl, rfl⟩ | cases h

theorem fieldValue_fits {v : PyVal} (h : Spec.FieldValue v) {ps : List Str} (hp : c!"xml" ∈ ps) : fits ps v = true := by
  cases h with
  | scalar v h => exact (scalar_fits h ps).2
  | entry d h => exact entry_fits h hp
  | list l h =>
    rw [fits]
    apply rowFits_of
    intro v hv
    rcases h v hv with h | ⟨d, rfl, h⟩
    · exact scalar_fits h ps
    · exact ⟨rfl, entry_fits h hp⟩

end Verif.XmlWrite
