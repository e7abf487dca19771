/-
The conversion tables of src/Lavoisier/conversions/data.py and units.py as a whole.
-/
import Verif.Model.DataTables
import Verif.Model.UnitTables
import Verif.Lemmas.Assoc
import Mathlib.Data.List.Induction

namespace Verif.Tables

variable {κ α : Type} [DecidableEq κ] [DecidableEq α]

omit [DecidableEq κ] in
theorem inverse_fold (v : α) : ∀ (d : List (κ × α)) (acc : List (α × κ)),
    aget v (d.foldl (fun acc p => aset p.2 p.1 acc) acc) =
      match (d.filter fun p => p.2 = v).getLast? with
      | some p => some p.1
      | none => aget v acc
  | [], acc => rfl
  | p :: d, acc => by
    rw [List.foldl_cons, inverse_fold v d]
    by_cases h : p.2 = v
    · rw [List.filter_cons_of_pos (by simpa using h)]
      cases hl : (d.filter fun p => p.2 = v).getLast? with
      | none =>
        rw [List.getLast?_eq_none_iff] at hl
        simp [hl, h]
      | some q =>
        rw [List.getLast?_cons, hl]
        rfl
    · rw [List.filter_cons_of_neg (by simpa using h)]
      cases hl : (d.filter fun p => p.2 = v).getLast? with
      | none => simp [aget_aset, Ne.symm h]
      | some q => rfl

omit [DecidableEq κ] in
/-- A table that is turned round leads from a value to the last key that has it. -/
theorem inverse_last (d : List (κ × α)) (v : α) (k : κ) :
    aget v (inverse d) = some k ↔ ∃ a b, d = a ++ (k, v) :: b ∧ ∀ p ∈ b, p.2 ≠ v := by
  unfold inverse
  rw [inverse_fold]
  induction d using List.reverseRecOn with
  | nil => simp [aget]
  | append_singleton d p ih =>
    rw [List.filter_append]
    by_cases h : p.2 = v
    · have : (List.filter (fun p => decide (p.2 = v)) [p]) = [p] := by simp [h]
      rw [this]
      simp only [List.getLast?_append, List.getLast?_singleton, Option.some_or, Option.some.injEq]
      constructor
      · rintro rfl
        refine ⟨d, [], ?_, by simp⟩
        rw [← h]
      · rintro ⟨a, b, h1, h2⟩
        rcases List.eq_nil_or_concat b with rfl | ⟨b', q, rfl⟩
        · have := (List.append_inj' h1 rfl).2
          simp at this
          rw [this]
        · exfalso
          have : d ++ [p] = (a ++ (k, v) :: b') ++ [q] := by rw [h1]; simp
          have := (List.append_inj' this rfl).2
          simp at this
          exact h2 q (by simp) (by rw [← this]; exact h)
    · have : (List.filter (fun p => decide (p.2 = v)) [p]) = [] := by simp [h]
      rw [this, List.append_nil, ih]
      constructor
      · rintro ⟨a, b, rfl, h2⟩
        refine ⟨a, b ++ [p], by simp, ?_⟩
        intro q hq
        rcases List.mem_append.1 hq with hq | hq
        · exact h2 q hq
        · simp at hq; rw [hq]; exact h
      · rintro ⟨a, b, h1, h2⟩
        rcases List.eq_nil_or_concat b with rfl | ⟨b', q, rfl⟩
        · have := (List.append_inj' h1 rfl).2
          simp at this
          rw [this] at h
          exact absurd rfl h
        · have : d ++ [p] = (a ++ (k, v) :: b') ++ [q] := by rw [h1]; simp
          refine ⟨a, b', (List.append_inj' this rfl).1, fun r hr => h2 r (by simp [hr])⟩

/-- If no two keys have the same value, the table and the table turned round say the same. -/
theorem inverse_exact (d : List (κ × α)) (hk : (d.map Prod.fst).Nodup) (hv : (d.map Prod.snd).Nodup) (k : κ) (v : α) :
    aget v (inverse d) = some k ↔ aget k d = some v := by
  rw [inverse_last]
  constructor
  · rintro ⟨a, b, rfl, -⟩
    exact aget_eq_of_mem hk (by simp)
  · intro h
    obtain ⟨a, b, rfl⟩ := List.append_of_mem (aget_mem h)
    refine ⟨a, b, rfl, ?_⟩
    rintro p hp rfl
    rw [List.map_append, List.map_cons, List.nodup_append] at hv
    exact (List.nodup_cons.1 hv.2.1).1 (List.mem_map.2 ⟨p, hp, rfl⟩)

/-- The codes that are written as texts and read back with the table turned round. -/
theorem codes_exact : (∀ c t, aget t (inverse specialActivity) = some c ↔ aget c specialActivity = some t) ∧
    (∀ c t, aget t (inverse energy) = some c ↔ aget c energy = some t) ∧
    (∀ c t, aget t (inverse tech) = some c ↔ aget c tech = some t) ∧
    (∀ c t, aget t (inverse timePeriod) = some c ↔ aget c timePeriod = some t) ∧
    (∀ c t, aget t (inverse access) = some c ↔ aget c access = some t) ∧
    (∀ c t, aget t (inverse childType) = some c ↔ aget c childType = some t) := by
  refine ⟨inverse_exact _ ?_ ?_, inverse_exact _ ?_ ?_, inverse_exact _ ?_ ?_, inverse_exact _ ?_ ?_,
    inverse_exact _ ?_ ?_, inverse_exact _ ?_ ?_⟩ <;> decide +kernel

/-- Compartments of different names stay different. -/
theorem compartments_exact (c t : Str) :
    aget t (inverse compartmentConversion) = some c ↔ aget c compartmentConversion = some t :=
  inverse_exact _ (by decide +kernel) (by decide +kernel) c t

/-- The system models of EcoSpold2 that come back from the method of ILCD. -/
def keptModels : List Str := [c!"Undefined", c!"Allocation, manually linked", c!"Allocation by dry mass",
  c!"Allocation at the point of substitution", c!"Allocation by revenue", c!"Allocation, cut-off by classification",
  c!"Substitution, constrained by-products"]

theorem models_kept_iff (m a : Str) (h : aget m systemModel2 = some a) :
    aget a systemModel2Back = some m ↔ m ∈ keptModels := by
  have : ∀ p ∈ systemModel2, aget p.2 systemModel2Back = some p.1 ↔ p.1 ∈ keptModels := by decide +kernel
  exact this _ (aget_mem h)

/-- Every model that comes back has an identifier, and only one pair of models shares it. -/
theorem models_identified (m : Str) (hm : m ∈ systemModel2Back.map Prod.snd) : (aget m systemModelId).isSome = true := by
  revert m
  decide +kernel

theorem model_ids (m m' i : Str) (h : aget m systemModelId = some i) (h' : aget m' systemModelId = some i) :
    m = m' ∨ (∀ x ∈ [m, m'], x = c!"Allocation, ecoinvent default" ∨ x = c!"Allocation at the point of substitution") := by
  have : ∀ p ∈ systemModelId, ∀ q ∈ systemModelId, p.2 = q.2 → p.1 = q.1 ∨ ∀ x ∈ [p.1, q.1],
      x = c!"Allocation, ecoinvent default" ∨ x = c!"Allocation at the point of substitution" := by decide +kernel
  exact this _ (aget_mem h) _ (aget_mem h') rfl

/-- The kinds of license: from a code to the license and back only 0 and 1 are kept. -/
theorem licenses_kept_iff (c l : Str) (h : aget c restrictions = some l) :
    aget l restrictionsBack = some c ↔ c = c!"0" ∨ c = c!"1" := by
  have : ∀ p ∈ restrictions, aget p.2 restrictionsBack = some p.1 ↔ p.1 = c!"0" ∨ p.1 = c!"1" := by decide +kernel
  exact this _ (aget_mem h)

/-- So a table need not be without loss. -/
example : aget c!"2" restrictions = some c!"Other" ∧ aget c!"Other" restrictionsBack = some c!"1" := by decide +kernel

/-! ## Units and flow properties -/

open Units

/-- A dimension with a unit of ILCD has a flow property with the group of this unit, except items and years, amounts of
substance, and volumes and lengths. -/
theorem unit_has_flow_property (h u n p : Str) (hd : aget h pintToIlcdDef = some (u, n, p)) :
    (∃ f, aget h pintToIlcdFp = some f ∧ f.group = u) ↔ n ≠ c!"Items*a" ∧ n ≠ c!"mol" ∧ n ≠ c!"m3*km" := by
  have : ∀ e ∈ pintToIlcdDef, ((aget e.1 pintToIlcdFp).map (·.group) = some e.2.1 ↔
      e.2.2.1 ≠ c!"Items*a" ∧ e.2.2.1 ≠ c!"mol" ∧ e.2.2.1 ≠ c!"m3*km") := by decide +kernel
  have := this _ (aget_mem hd)
  rw [← this]
  cases aget h pintToIlcdFp <;> simp

/-- Without a flow property the lookup has nothing. -/
theorem unit_without_flow_property (h u n p : Str) (hd : aget h pintToIlcdDef = some (u, n, p))
    (hn : n = c!"Items*a" ∨ n = c!"mol" ∨ n = c!"m3*km") : aget h pintToIlcdFp = none := by
  have : ∀ e ∈ pintToIlcdDef, (e.2.2.1 = c!"Items*a" ∨ e.2.2.1 = c!"mol" ∨ e.2.2.1 = c!"m3*km") →
      aget e.1 pintToIlcdFp = none := by decide +kernel
  exact this _ (aget_mem hd) hn

/-- The group of a flow property always belongs to a unit. -/
theorem flow_property_has_unit (h : Str) (f : Ilcd) (hf : aget h pintToIlcdFp = some f) :
    ∃ e ∈ pintToIlcdDef, e.2.1 = f.group := by
  have : ∀ e ∈ pintToIlcdFp, ∃ d ∈ pintToIlcdDef, d.2.1 = e.2.group := by decide +kernel
  exact this _ (aget_mem hf)

/-- The two tables for elementary flows name the same group for the same unit. -/
theorem groups_agree (u f g n f' g' n' : Str) (h : aget u ilcdUnitToFp = some (f, g, n))
    (h' : aget u olcaUnitToFp = some (f', g', n')) : g = g' ∧ n = n' := by
  have : ∀ e ∈ ilcdUnitToFp, ∀ e' ∈ olcaUnitToFp, e.1 = e'.1 → e.2.2 = e'.2.2 := by decide +kernel
  have := this _ (aget_mem h) _ (aget_mem h') rfl
  simpa using this

/-- But not the same flow property: it differs for energy, currency, person transport and mass and years. -/
theorem flow_properties_agree_iff (u f g n f' g' n' : Str) (h : aget u ilcdUnitToFp = some (f, g, n))
    (h' : aget u olcaUnitToFp = some (f', g', n')) :
    f = f' ↔ u ≠ c!"EUR" ∧ u ≠ c!"Items*km" ∧ u ≠ c!"mj" ∧ u ≠ c!"kg*a" := by
  have : ∀ e ∈ ilcdUnitToFp, ∀ e' ∈ olcaUnitToFp, e.1 = e'.1 → (e.2.1 = e'.2.1 ↔
      e.1 ≠ c!"EUR" ∧ e.1 ≠ c!"Items*km" ∧ e.1 ≠ c!"mj" ∧ e.1 ≠ c!"kg*a") := by decide +kernel
  exact this _ (aget_mem h) _ (aget_mem h') rfl

/-- Every flow property of an elementary flow is one of the flow properties of a dimension, with the same group, except
those of moles and of money. -/
theorem elementary_flow_property (u f g n : Str) (h : aget u ilcdUnitToFp = some (f, g, n)) :
    (∃ e ∈ pintToIlcdFp, e.2.fp = f ∧ e.2.group = g) ↔ u ≠ c!"mol" ∧ u ≠ c!"EUR" := by
  have : ∀ e ∈ ilcdUnitToFp, ((∃ d ∈ pintToIlcdFp, d.2.fp = e.2.1 ∧ d.2.group = e.2.2.1) ↔ e.1 ≠ c!"mol" ∧ e.1 ≠ c!"EUR") := by
    decide +kernel
  exact this _ (aget_mem h)

end Verif.Tables
