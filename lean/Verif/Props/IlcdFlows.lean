/-
The exchanges of an ILCD data set in EcoSpold2: what becomes of each, their groups and identifiers.
-/
import Verif.Lemmas.IlcdFlows

namespace Verif.IlcdFlows
open Spec

section
variable {K D : Type} [Field K] [DecidableEq K] [DecidableEq D]

omit [Field K] [DecidableEq K] [DecidableEq D] in
theorem toWrite_not_toReport {env : Env K D} {x : Exch K} (h : ToWrite env x) : ¬ ToReport env x := by
  rintro (h' | ⟨f', h1, h2⟩)
  · rcases h with ⟨f, r, ⟨hf, -⟩, -⟩ | ⟨f, i, n, ⟨hf, -⟩, -⟩ <;> rw [h'] at hf <;> cases hf
  · rcases h with ⟨f, r, -, hr⟩ | ⟨f, i, n, ⟨hf, ht⟩, -⟩
    · exact h2 r hr
    · rw [h1.1] at hf
      obtain rfl := Option.some.inj hf
      exact ht h1.2

omit [Field K] [DecidableEq K] [DecidableEq D] in
theorem toWrite_not_unitless {env : Env K D} {x : Exch K} (h : ToWrite env x) : ¬ Unitless env x := by
  rintro ⟨f', h1, h2⟩
  rcases h with ⟨f, r, ⟨hf, ht⟩, hr⟩ | ⟨f, i, n, ⟨hf, ht⟩, hu⟩
  · rw [h1.1] at hf
    obtain rfl := Option.some.inj hf
    exact h1.2 ht
  · rw [h1.1] at hf
    obtain rfl := Option.some.inj hf
    exact h2 i n hu

omit [Field K] [DecidableEq K] [DecidableEq D] in
theorem toReport_not_unitless {env : Env K D} {x : Exch K} (h : ToReport env x) : ¬ Unitless env x := by
  rintro ⟨f', h1, h2⟩
  rcases h with h | ⟨f, ⟨hf, ht⟩, hr⟩
  · rw [h1.1] at h; cases h
  · rw [h1.1] at hf
    obtain rfl := Option.some.inj hf
    exact h1.2 ht

open Classical in
omit [DecidableEq K] in
/-- C36, from ILCD to EcoSpold2. If a data set is converted, the exchanges written are exactly those with a counterpart
(elementary exchanges in the table, products with a unit), in the order of the source; those reported to the user are
exactly the ones without a data set of the flow and the elementary ones without counterpart. -/
theorem exchanges_accounted {env : Env K D} {xs : List (Exch K)} {s : St K} (h : convertAll env .empty xs = .ok s) :
    s.flows.map (·.src) = xs.filter (fun x => ToWrite env x) ∧
    s.reported = xs.filter (fun x => ToReport env x) ∧
    s.logged = xs.filter (fun x => Unitless env x) ∧
    ∀ x ∈ xs, ToWrite env x ∨ ToReport env x ∨ Unitless env x := by
  refine convert_induction (P := fun xs s => s.flows.map (·.src) = xs.filter (fun x => ToWrite env x) ∧
    s.reported = xs.filter (fun x => ToReport env x) ∧ s.logged = xs.filter (fun x => Unitless env x) ∧
    ∀ x ∈ xs, ToWrite env x ∨ ToReport env x ∨ Unitless env x) (by simp [St.empty]) ?_ h
  rintro l x s s' - ⟨h1, h2, h3, h4⟩ hx
  have hmem : (ToWrite env x ∨ ToReport env x ∨ Unitless env x) →
      ∀ y ∈ l ++ [x], ToWrite env y ∨ ToReport env y ∨ Unitless env y := by
    intro hh y hy
    rcases List.mem_append.1 hy with hy | hy
    · exact h4 y hy
    · rw [List.mem_singleton.1 hy]; exact hh
  rcases convertOne_ok hx with ⟨hr, rfl⟩ | ⟨hu, rfl⟩ | ⟨hw, fl, ha⟩
  · have n1 : ¬ ToWrite env x := fun e => toWrite_not_toReport e hr
    have n2 : ¬ Unitless env x := toReport_not_unitless hr
    refine ⟨?_, ?_, ?_, hmem (.inr (.inl hr))⟩
    · simpa [List.filter_append, n1] using h1
    · simp [List.filter_append, hr, h2]
    · simpa [List.filter_append, n2] using h3
  · have n1 : ¬ ToWrite env x := fun e => toWrite_not_unitless e hu
    have n2 : ¬ ToReport env x := fun e => toReport_not_unitless e hu
    refine ⟨?_, ?_, ?_, hmem (.inr (.inr hu))⟩
    · simpa [List.filter_append, n1] using h1
    · simpa [List.filter_append, n2] using h2
    · simp [List.filter_append, hu, h3]
  · have n1 : ¬ ToReport env x := toWrite_not_toReport hw
    have n2 : ¬ Unitless env x := toWrite_not_unitless hw
    refine ⟨?_, ?_, ?_, hmem (.inl hw)⟩
    · rw [ha.state]
      simp [List.filter_append, hw, h1, ha.src]
    · rw [ha.state]
      simpa [List.filter_append, n1] using h2
    · rw [ha.state]
      simpa [List.filter_append, n2] using h3

/-- What holds of the flows of a data set at the end of its conversion, before equal flows are summed. -/
structure Converted (env : Env K D) (fl : Flow K) : Prop where
  groups : groups fl.elem (decide (fl.src.internalId ∈ env.refs)) fl.src.dir fl.typ =
    .ok (fl.field.inputGroup, fl.field.outputGroup)
  amount : fl.field.amount = fl.m
  comments : fl.field.comments = fl.src.comments
  var : fl.var = fl.src.var
  variableName : fl.field.variableName = fl.src.var.map Prod.fst
  relation : fl.field.relation = (fl.src.var.bind Prod.snd).filter fun f => f ≠ []
  kind : AsElementary env fl ∨ AsProduct env fl

/-- The state during the conversion. -/
structure Inv (env : Env K D) (s : St K) : Prop where
  nums : (s.flows.map (·.num)).Pairwise (· < ·)
  next : ∀ f ∈ s.flows, f.num < s.next
  ids : ∀ f ∈ s.flows, f.field.id ∈ s.ids
  nodup : (s.flows.map (·.field.id)).Nodup
  master : s.master = s.flows.map fun f => (f.num, f.elem, f.field.target)
  flows : ∀ f ∈ s.flows, Converted env f

omit [DecidableEq K] in
theorem convertAll_inv {env : Env K D} {xs : List (Exch K)} {s : St K} (h : convertAll env .empty xs = .ok s) :
    Inv env s := by
  refine convert_induction (P := fun _ s => Inv env s) ?_ ?_ h
  · exact ⟨by simp [St.empty], by simp [St.empty], by simp [St.empty], by simp [St.empty], by simp [St.empty],
      by simp [St.empty]⟩
  · rintro l x s s' - ih hx
    rcases convertOne_ok hx with ⟨-, rfl⟩ | ⟨-, rfl⟩ | ⟨-, fl, ha⟩
    · exact ⟨ih.nums, ih.next, ih.ids, ih.nodup, ih.master, ih.flows⟩
    · exact ⟨ih.nums, ih.next, ih.ids, ih.nodup, ih.master, ih.flows⟩
    · have hs := ha.state
      subst hs
      refine ⟨?_, ?_, ?_, ?_, ?_, ?_⟩
      · rw [List.map_append, List.pairwise_append]
        refine ⟨ih.nums, by simp, ?_⟩
        intro a ha' b hb
        obtain ⟨f, hf, rfl⟩ := List.mem_map.1 ha'
        simp only [List.map_cons, List.map_nil, List.mem_singleton] at hb
        rw [hb, ha.num]
        exact ih.next f hf
      · intro f hf
        rcases List.mem_append.1 hf with hf | hf
        · have := ih.next f hf; simp only; omega
        · rw [List.mem_singleton.1 hf, ha.num]; simp
      · intro f hf
        rcases List.mem_append.1 hf with hf | hf
        · exact List.mem_append_left _ (ih.ids f hf)
        · rw [List.mem_singleton.1 hf]; simp
      · rw [List.map_append, List.nodup_append]
        refine ⟨ih.nodup, by simp, ?_⟩
        intro a ha' b hb e
        obtain ⟨f, hf, rfl⟩ := List.mem_map.1 ha'
        simp only [List.map_cons, List.map_nil, List.mem_singleton] at hb
        exact ha.fresh (by rw [← hb, ← e]; exact ih.ids f hf)
      · simp only [ih.master, List.map_append, List.map_cons, List.map_nil]
      · intro f hf
        rcases List.mem_append.1 hf with hf | hf
        · exact ih.flows f hf
        · rw [List.mem_singleton.1 hf]
          have e := ha.src
          subst e
          exact ⟨ha.groups, ha.amount, ha.comments, ha.var, ha.variableName, ha.relation, ha.kind⟩

omit [DecidableEq K] in
/-- C36, from ILCD to EcoSpold2: the amounts. Every exchange written is either an elementary exchange with the target,
the unit and the factor of the table, or a product with the value of the source; its amount is exactly the value times
the factor. Its comments, its variable and its formula are those of the source. -/
theorem exchange_amounts {env : Env K D} {xs : List (Exch K)} {s : St K} (h : convertAll env .empty xs = .ok s) :
    ∀ fl ∈ s.flows,
      ((∃ f r a cf, IsElementary env fl.src f ∧ Mapped env fl.src.fid r ∧ Value env fl.src a ∧ Factor env r cf ∧
          fl.elem = true ∧ fl.field.target = r.target ∧ fl.field.name = r.name ∧ fl.field.unitName = r.unit ∧
          fl.field.amount = a * cf ∧ fl.field.unc = (fl.src.unc.map fun u => u.write (a * cf) cf)) ∨
       (∃ f a i n, IsProduct env fl.src f ∧ HasUnit env f i n ∧ Value env fl.src a ∧ fl.elem = false ∧
          env.convId fl.src.fid = .ok fl.field.target ∧ fl.field.unitName = n ∧ fl.field.unitId = i ∧
          fl.field.amount = a ∧ fl.field.unc = (fl.src.unc.map fun u => u.write a 1))) ∧
      fl.field.comments = fl.src.comments ∧ fl.field.variableName = fl.src.var.map Prod.fst ∧
      fl.field.relation = (fl.src.var.bind Prod.snd).filter fun f => f ≠ [] := by
  intro fl hfl
  have c := (convertAll_inv h).flows fl hfl
  refine ⟨?_, c.comments, c.variableName, c.relation⟩
  rcases c.kind with ⟨f, r, a, cf, d, _, _, p, n, h1, h2, h3, h4, h5, -, -, h6, h7, h8, h9, h10, -⟩ |
    ⟨f, a, i, n, h1, h2, h3, h4, -, h5, h6, h7, h8, h9, -⟩
  · exact .inl ⟨f, r, a, cf, h1, h2, h3, h4, h5, h6, h7, h8, by rw [c.amount, h9], h10⟩
  · exact .inr ⟨f, a, i, n, h1, h2, h3, h4, h5, h6, h7, by rw [c.amount, h8], h9⟩

/-! ### Groups -/

omit [Field K] [DecidableEq K] [DecidableEq D] in
theorem valid_of_groups {isRef : Bool} {dir typ : Str} {fl : Flow K}
    (h : groups fl.elem isRef dir typ = .ok (fl.field.inputGroup, fl.field.outputGroup)) : ValidGroups fl.elem fl.field := by
  rcases groups_valid h with ⟨n, hg, hn, -⟩ | ⟨n, hg, hn, -⟩
  · obtain ⟨h1, h2⟩ := Prod.mk.inj hg
    refine .inl ⟨n, h1, h2, ?_⟩
    unfold inputCodes at hn
    cases he : fl.elem <;> simpa [he] using hn
  · obtain ⟨h1, h2⟩ := Prod.mk.inj hg
    refine .inr ⟨n, h1, h2, ?_⟩
    unfold outputCodes at hn
    cases he : fl.elem <;> simpa [he] using hn

omit [DecidableEq K] in
/-- C40. Every exchange written has exactly one group, and its code is one EcoSpold2 accepts for the kind of
exchange. -/
theorem groups_always_valid {env : Env K D} {xs : List (Exch K)} {s : St K} (h : convertAll env .empty xs = .ok s) :
    ∀ fl ∈ s.flows, ValidGroups fl.elem fl.field := by
  intro fl hfl
  exact valid_of_groups ((convertAll_inv h).flows fl hfl).groups

/-- C40, exactly: an exchange gets a group if and only if it is a reference flow that is no elementary flow, or no
reference flow and of one of the four types of ILCD. So an elementary reference flow stops the conversion. -/
theorem group_exists_iff (isRef : Bool) (dir typ : Str) :
    (∃ g, groups (decide (typ = c!"Elementary flow")) isRef dir typ = .ok g) ↔
      (isRef = true ∧ typ ≠ c!"Elementary flow") ∨
      (isRef = false ∧ typ ∈ [c!"Elementary flow", c!"Product flow", c!"Waste flow", c!"Other flow"]) := by
  by_cases h1 : typ = c!"Elementary flow"
  · subst h1
    cases isRef
    · by_cases hd : dir = c!"Input" <;>
        simp [groups, hd, accept, inputCode, outputCode, inputCodes, outputCodes, Except.map]
    · simp [groups, accept, outputCodes, Except.map]
  · cases isRef
    · by_cases h2 : typ = c!"Product flow"
      · subst h2
        by_cases hd : dir = c!"Input" <;>
          simp [groups, hd, accept, inputCode, outputCode, inputCodes, outputCodes, Except.map]
      · by_cases h3 : typ = c!"Waste flow"
        · subst h3
          by_cases hd : dir = c!"Input" <;>
            simp [groups, hd, accept, inputCode, outputCode, inputCodes, outputCodes, Except.map]
        · by_cases h4 : typ = c!"Other flow"
          · subst h4
            by_cases hd : dir = c!"Input" <;>
              simp [groups, hd, accept, inputCode, outputCode, inputCodes, outputCodes, Except.map]
          · by_cases hd : dir = c!"Input" <;>
              simp [groups, hd, accept, inputCode, outputCode, Except.map, h1, h2, h3, h4]
    · simp [groups, accept, outputCodes, Except.map, h1]

omit [DecidableEq K] in
/-- C40 fails: a data set with an elementary reference flow is never converted. -/
theorem elementary_reference_stops {env : Env K D} {xs : List (Exch K)} {x : Exch K} (hx : x ∈ xs) {f : FlowFile} {r : Row}
    (hf : IsElementary env x f) (hr : Mapped env x.fid r) (hi : x.internalId ∈ env.refs) (s : St K) :
    convertAll env .empty xs ≠ .ok s := by
  intro h
  classical
  have hw : x ∈ s.flows.map (·.src) := by
    rw [(exchanges_accounted h).1]
    simpa using ⟨hx, .inl ⟨f, r, hf, hr⟩⟩
  obtain ⟨fl, hfl, rfl⟩ := List.mem_map.1 hw
  have c := (convertAll_inv h).flows fl hfl
  rcases c.kind with ⟨f', r', a, cf, d, _, _, p, n, h1, h2, h3, h4, h5, -⟩ | ⟨f', a, i, n, h1, -⟩
  · have := c.groups
    simp [h5, hi, groups, accept, outputCodes, Except.map] at this
  · have := h1.1
    rw [hf.1] at this
    obtain rfl := Option.some.inj this
    exact h1.2 hf.2

omit [DecidableEq K] in
/-- C72, what holds: the direction of an exchange that is no reference flow is kept. -/
theorem direction_kept_partial {env : Env K D} {xs : List (Exch K)} {s : St K} (h : convertAll env .empty xs = .ok s) :
    ∀ fl ∈ s.flows, fl.src.internalId ∉ env.refs →
      (fl.field.inputGroup.isSome ↔ fl.src.dir = c!"Input") ∧ (fl.field.outputGroup.isSome ↔ fl.src.dir ≠ c!"Input") := by
  intro fl hfl hn
  rcases groups_valid ((convertAll_inv h).flows fl hfl).groups with ⟨n, hg, -, -, hd, -⟩ | ⟨n, hg, -, h1⟩
  · obtain ⟨h1, h2⟩ := Prod.mk.inj hg
    rw [h1, h2]
    simp [hd]
  · obtain ⟨h2, h3⟩ := Prod.mk.inj hg
    rw [h2, h3]
    rcases h1 with ⟨h1, -⟩ | ⟨-, h1, -⟩
    · simp [hn] at h1
    · simp [h1]

omit [DecidableEq K] in
/-- C72 fails: every reference flow is written as an output with the group 0 and the amount of the source, also if it is
an input of the source, as in the treatment of waste. -/
theorem reference_becomes_output {env : Env K D} {xs : List (Exch K)} {s : St K} (h : convertAll env .empty xs = .ok s) :
    ∀ fl ∈ s.flows, fl.src.internalId ∈ env.refs →
      fl.field.inputGroup = none ∧ fl.field.outputGroup = some 0 ∧ Value env fl.src fl.field.amount := by
  intro fl hfl hn
  have c := (convertAll_inv h).flows fl hfl
  rcases groups_valid c.groups with ⟨n, hg, -, h1, -⟩ | ⟨n, hg, hc, h1⟩
  · simp [hn] at h1
  · obtain ⟨h2, h3⟩ := Prod.mk.inj hg
    rcases h1 with ⟨-, rfl⟩ | ⟨h1, -⟩
    · refine ⟨h2, h3, ?_⟩
      rcases c.kind with ⟨f, r, a, cf, d, _, _, p, n, h1, h2, h3, h4, h5, -⟩ | ⟨f, a, i, n, h1, h2, h3, h4, -, h5, h6, h7, h8, h9⟩
      · rw [h5] at hc
        simp [outputCodes] at hc
      · rw [c.amount, h8]; exact h3
    · simp [hn] at h1

/-! ### Identifiers -/

omit [DecidableEq K] in
/-- C41. No two exchanges of a data set have the same identifier; each is the hash of a text that begins with the
identifier of the process. -/
theorem ids_distinct {env : Env K D} {xs : List (Exch K)} {s : St K} (h : convertAll env .empty xs = .ok s) :
    (s.flows.map (·.field.id)).Nodup := (convertAll_inv h).nodup

omit [Field K] [DecidableEq K] [DecidableEq D] in
/-- C41: the search for an identifier ends, if the hash has no collisions, whatever identifiers are taken. -/
theorem id_search_ends {env : Env K D} (hi : Function.Injective env.hash) (s : St K) (fl : Flow K) :
    finish env s fl ≠ .error (.other 0) := by
  intro h
  unfold finish at h
  split at h
  · rename_i hn
    obtain ⟨i, hs⟩ := freshId_some hi s.ids (env.process ++ fl.base)
    rw [hs] at hn
    cases hn
  · split at h
    · rename_i e he
      obtain rfl := Except.error.inj h
      have acc : ∀ {codes : List Nat} {o : Option Nat}, accept codes o ≠ .error (.other 0) := by
        intro codes o h
        cases o with
        | none => cases h
        | some m =>
          rw [accept] at h
          split at h <;> cases h
      unfold groups at he
      have mp : ∀ {codes : List Nat} {o : Option Nat} {f : Nat → Option Nat × Option Nat},
          (accept codes o).map f ≠ .error (.other 0) := by
        intro codes o f h
        cases ha : accept codes o with
        | error e => rw [ha] at h; exact acc (ha.trans (by simpa [Except.map] using h))
        | ok n => rw [ha] at h; cases h
      split at he
      · exact mp he
      · split at he <;> exact mp he
    · cases h

omit [Field K] [DecidableEq K] [DecidableEq D] in
/-- C41 fails to end: with a hash that gives one value only, the second exchange is searched for without end. -/
theorem id_search_may_not_end {env : Env K D} {i : Str} (hh : ∀ t, env.hash t = i) (s : St K) (hi : i ∈ s.ids) (fl : Flow K) :
    finish env s fl = .error (.other 0) := by
  have hs : ∀ fuel k, searchId env.hash s.ids (env.process ++ fl.base) fuel k = none := by
    intro fuel
    induction fuel with
    | zero => intro k; rfl
    | succ n ih => intro k; rw [searchId, if_pos (by rw [hh]; exact hi)]; exact ih _
  unfold finish freshId
  rw [if_pos (by rw [hh]; exact hi), hs]

/-! ### Units -/

omit [DecidableEq K] in
/-- C73, what holds: the identifier of the unit of an elementary exchange belongs to a unit of the same dimension as the
unit whose name is written. -/
theorem unit_dimension_partial {env : Env K D} {xs : List (Exch K)} {s : St K} (h : convertAll env .empty xs = .ok s) :
    ∀ fl ∈ s.flows, fl.elem = true → ∃ d c c' p n, env.unit fl.field.unitName = .ok (d, c) ∧
      (p, (fl.field.unitId, n)) ∈ env.units ∧ env.unit (underscore n) = .ok (d, c') := by
  intro fl hfl he
  rcases ((convertAll_inv h).flows fl hfl).kind with
    ⟨f, r, a, cf, d, c, c', p, n, -, -, -, -, -, -, -, -, -, h8, -, -, h1, h2, h3⟩ | ⟨f, a, i, n, h1, h2, h3, h4, -⟩
  · exact ⟨d, c, c', p, n, by rw [h8]; exact h1, h2, h3⟩
  · rw [he] at h4; cases h4

end

end Verif.IlcdFlows
