/-
Properties of the field tables of the formats (C21), and the consequences of C20 for them.
-/
import Verif.Model.Schema
import Verif.Props.DotDict

namespace Verif.Schema

open Verif.DotDict

/-! ### Checks of one class, as computations -/

/-- The field has one of the kinds of XML names of the formats. -/
def hasName (f : Field Str) : Bool :=
  (f.xmlType == none) || (f.xmlType == some c!"attribute") ||
  (f.xmlType == some c!"nms:common" && f.xmlNms == none) ||
  (f.xmlType == some c!"text" && f.xmlNms == none)

def isAttr (f : Field Str) : Bool := f.xmlType == some c!"attribute"

/-- Keys, names and element orders of a class. -/
def classOk (fields : List (Key × Field Str)) : Bool :=
  fields.all (fun e => hasName e.2) &&
  decide ((fields.map Prod.fst).Nodup) &&
  decide ((fields.map fun e => getName e.1 e.2).Nodup) &&
  decide (((fields.filter fun e => !isAttr e.2).map fun e => e.2.order).Nodup) &&
  fields.all (fun e => ((getName e.1 e.2).head? == some '@') == isAttr e.2)

/-- Every nested class of a class is a class of the table. -/
def closedIn (table : List (Cls × List (Key × Field Str))) (fields : List (Key × Field Str)) : Bool :=
  fields.all fun e => match e.2.type with
    | .leaf _ => true
    | .sub c => (lookup c table).isSome

theorem hasName_exists {k : Key} {f : Field Str} (h : hasName f = true) :
    ∃ name, XmlName k f name := by
  simp only [hasName, Bool.or_eq_true, Bool.and_eq_true, beq_iff_eq] at h
  rcases h with ((h | h) | ⟨h, h'⟩) | ⟨h, h'⟩
  · cases hn : f.xmlNms with
    | none => exact ⟨_, .plain h hn⟩
    | some n => exact ⟨_, .nms h hn⟩
  · cases hn : f.xmlNms with
    | none => exact ⟨_, .attr h hn⟩
    | some n => exact ⟨_, .attrNms h hn⟩
  · exact ⟨_, .common h h'⟩
  · exact ⟨_, .text h h'⟩

theorem inj_of_nodup {α β : Type} {g : α → β} :
    ∀ {l : List α}, (l.map g).Nodup → ∀ a ∈ l, ∀ b ∈ l, g a = g b → a = b
  | [], _, a, ha, _, _, _ => by simp at ha
  | x :: l, h, a, ha, b, hb, hab => by
    simp only [List.map_cons, List.nodup_cons] at h
    rcases List.mem_cons.1 ha with ha' | ha' <;> rcases List.mem_cons.1 hb with hb' | hb'
    · rw [ha', hb']
    · subst ha'; exact (h.1 (List.mem_map.2 ⟨b, hb', hab.symm⟩)).elim
    · subst hb'; exact (h.1 (List.mem_map.2 ⟨a, ha', hab⟩)).elim
    · exact inj_of_nodup h.2 a ha' b hb' hab

theorem classOk_good {fields : List (Key × Field Str)} (h : classOk fields = true) :
    GoodNames fields ∧ GoodOrder fields := by
  simp only [classOk, Bool.and_eq_true, decide_eq_true_eq, List.all_eq_true] at h
  obtain ⟨⟨⟨⟨h1, _⟩, h3⟩, h4⟩, h5⟩ := h
  refine ⟨⟨?_, ?_⟩, ?_, ?_⟩
  · intro k f hf
    exact hasName_exists (h1 _ (mem_of_lookup hf))
  · intro k f k' f' name hf hf' hx hx'
    have := inj_of_nodup h3 _ (mem_of_lookup hf) _ (mem_of_lookup hf')
      (by rw [xmlName_getName hx, xmlName_getName hx'])
    exact congrArg Prod.fst this
  · intro k f k' f' hf hf' ha ha' ho
    have := inj_of_nodup h4 (k, f)
      (List.mem_filter.2 ⟨mem_of_lookup hf, by simpa [isAttr] using ha⟩) (k', f')
      (List.mem_filter.2 ⟨mem_of_lookup hf', by simpa [isAttr] using ha'⟩) ho
    exact congrArg Prod.fst this
  · intro k f name hf hx
    have := h5 _ (mem_of_lookup hf)
    rw [xmlName_getName hx, beq_iff_eq] at this
    constructor
    · intro hh
      rw [hh] at this
      simpa [isAttr] using this.symm
    · intro hh
      have hat : isAttr f = true := by simp [isAttr, hh]
      rw [hat] at this
      simpa using this

set_option maxRecDepth 100000 in
theorem ecs2_classes_ok : ∀ e ∈ ecs2Table, classOk e.2 = true := by decide +kernel

set_option maxRecDepth 100000 in
theorem ilcd_classes_ok : ∀ e ∈ ilcdTable, classOk e.2 = true := by decide +kernel

set_option maxRecDepth 100000 in
theorem ecs2_closed : ∀ e ∈ ecs2Table, closedIn ecs2Table e.2 = true := by decide +kernel

set_option maxRecDepth 100000 in
theorem ilcd_closed : ∀ e ∈ ilcdTable, closedIn ilcdTable e.2 = true := by decide +kernel

theorem good_of_table {table : List (Cls × List (Key × Field Str))}
    (h : ∀ e ∈ table, classOk e.2 = true) (c : Cls) :
    GoodNames ((lookup c table).getD []) ∧ GoodOrder ((lookup c table).getD []) := by
  cases hc : lookup c table with
  | none =>
    simp only [Option.getD_none]
    exact classOk_good (by rfl)
  | some fields => exact classOk_good (h _ (mem_of_lookup hc))

/-! ### C21 -/

/-- **C21.** In every class of the EcoSpold 2 structure every field has an XML name, and different
fields have different names. -/
theorem ecs2_names_distinct (c : Cls) : GoodNames (ecs2 c) := (good_of_table ecs2_classes_ok c).1

/-- **C21.** In every class of the ILCD structure every field has an XML name, and different fields
have different names. -/
theorem ilcd_names_distinct (c : Cls) : GoodNames (ilcd c) := (good_of_table ilcd_classes_ok c).1

/-- **C20/C21.** In every class of both formats the elements have distinct order numbers, and the
names beginning with `@` are those of the attributes. -/
theorem formats_good_order (c : Cls) : GoodOrder (ecs2 c) ∧ GoodOrder (ilcd c) :=
  ⟨(good_of_table ecs2_classes_ok c).2, (good_of_table ilcd_classes_ok c).2⟩

/-- **C21.** Every nested group of both formats has a field table. -/
theorem formats_closed (c c' : Cls) (k : Key) (f : Field Str) :
    ((k, f) ∈ ecs2 c → f.type = .sub c' → ∃ t, (c', t) ∈ ecs2Table) ∧
    ((k, f) ∈ ilcd c → f.type = .sub c' → ∃ t, (c', t) ∈ ilcdTable) := by
  have key : ∀ table : List (Cls × List (Key × Field Str)),
      (∀ e ∈ table, closedIn table e.2 = true) → (k, f) ∈ (lookup c table).getD [] →
      f.type = .sub c' → ∃ t, (c', t) ∈ table := by
    intro table h hm ht
    cases hc : lookup c table with
    | none => rw [hc] at hm; simp at hm
    | some fields =>
      rw [hc] at hm
      have := h _ (mem_of_lookup hc)
      simp only [closedIn, List.all_eq_true] at this
      have := this _ hm
      simp only [ht] at this
      exact lookup_isSome_iff.1 this
  exact ⟨key _ ecs2_closed, key _ ilcd_closed⟩

example : XmlName c!"meanValue" (fld (.leaf c!"Real") true 0 true xAttr none) c!"@meanValue" :=
  .attr rfl rfl

example : ∃ f, lookup c!"shortDescription" (ilcd c!"ILCD1Reference") = some f ∧
    XmlName c!"shortDescription" f c!"common:shortDescription" := by
  refine ⟨_, rfl, .common rfl rfl⟩

/-! ### C20 for the two formats -/

variable {V R O : Type}

/-- **C20 for EcoSpold 2.** What is written for a group of the EcoSpold 2 structure does not depend
on the order of the assignments (except for the order of XML attributes). -/
theorem ecs2_order_independent (vs : Validators Str V R O) (c : Cls) (items items' : List (Key × Val V))
    (hp : items.Perm items') (hw : WF ecs2 (.mk c items)) (o o' : Out O)
    (h : getDict ecs2 vs (.mk c items) = .ok o) (h' : getDict ecs2 vs (.mk c items') = .ok o') :
    ∃ es es', o = .dict es ∧ o' = .dict es' ∧ es.Perm es' ∧
      es.filter isElement = es'.filter isElement := by
  cases hw with
  | mk known nodup deep =>
    exact order_independent_of_assignment ecs2 vs c items items' hp nodup (ecs2_names_distinct c)
      (formats_good_order c).1 o o' h h'

/-- **C20 for ILCD.** -/
theorem ilcd_order_independent (vs : Validators Str V R O) (c : Cls) (items items' : List (Key × Val V))
    (hp : items.Perm items') (hw : WF ilcd (.mk c items)) (o o' : Out O)
    (h : getDict ilcd vs (.mk c items) = .ok o) (h' : getDict ilcd vs (.mk c items') = .ok o') :
    ∃ es es', o = .dict es ∧ o' = .dict es' ∧ es.Perm es' ∧
      es.filter isElement = es'.filter isElement := by
  cases hw with
  | mk known nodup deep =>
    exact order_independent_of_assignment ilcd vs c items items' hp nodup (ilcd_names_distinct c)
      (formats_good_order c).2 o o' h h'

/-- A validator that keeps the last text, for the examples. -/
def exVs : Validators Str Str Str Str where
  init _ := []
  add _ _ r := .ok r
  fin v := .ok v
  str o := o

example : ∃ o, getDict ilcd exVs
    (.mk c!"ILCD1Reference" [(c!"shortDescription", .leaf c!"x"), (c!"type", .leaf c!"source data set"),
      (c!"subReference", .leaf c!"y")]) = .ok o ∧
    o = .dict [(c!"@type", .leaf c!"source data set"), (c!"common:subReference", .leaf c!"y"),
      (c!"common:shortDescription", .leaf c!"x")] := by
  refine ⟨_, ?_, rfl⟩
  rfl

end Verif.Schema
