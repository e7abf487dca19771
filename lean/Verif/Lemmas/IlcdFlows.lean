/-
Lemmas on the exchanges of an ILCD data set on their way to EcoSpold2.
-/
import Verif.Spec.IlcdFlows
import Verif.Lemmas.Assoc
import Verif.Lemmas.Num
import Mathlib.Data.List.Induction
import Mathlib.Data.List.Nodup
import Mathlib.Data.List.Perm.Subperm

namespace Verif.IlcdFlows
open Spec

section
variable {K D : Type} [Field K] [DecidableEq K] [DecidableEq D]

/-! ### Identifiers -/

theorem searchId_fresh {hash : Str → Str} {ids : List Str} {base i : Str} : ∀ {fuel k : Nat},
    searchId hash ids base fuel k = some i → i ∉ ids ∧ ∃ j, k ≤ j ∧ i = hash (base ++ natStr j)
  | 0, k, h => by cases h
  | fuel + 1, k, h => by
    rw [searchId] at h
    split at h
    · obtain ⟨h1, j, hj, h2⟩ := searchId_fresh h
      exact ⟨h1, j, by omega, h2⟩
    · rename_i hn
      obtain rfl := Option.some.inj h
      exact ⟨hn, k, Nat.le_refl _, rfl⟩

theorem freshId_fresh {hash : Str → Str} {ids : List Str} {base i : Str} (h : freshId hash ids base = some i) :
    i ∉ ids ∧ (i = hash base ∨ ∃ j, i = hash (base ++ natStr j)) := by
  unfold freshId at h
  split at h
  · obtain ⟨h1, j, -, h2⟩ := searchId_fresh h
    exact ⟨h1, .inr ⟨j, h2⟩⟩
  · rename_i hn
    obtain rfl := Option.some.inj h
    exact ⟨hn, .inl rfl⟩

theorem searchId_none {hash : Str → Str} {ids : List Str} {base : Str} : ∀ {fuel k : Nat},
    searchId hash ids base fuel k = none → ∀ j, k ≤ j → j < k + fuel → hash (base ++ natStr j) ∈ ids
  | 0, k, _, j, h1, h2 => by omega
  | fuel + 1, k, h, j, h1, h2 => by
    rw [searchId] at h
    split at h
    · rename_i hm
      by_cases e : j = k
      · rw [e]; exact hm
      · exact searchId_none h j (by omega) (by omega)
    · cases h

/-- The search for an identifier ends if the hash has no collisions. -/
theorem freshId_some {hash : Str → Str} (hi : Function.Injective hash) (ids : List Str) (base : Str) :
    ∃ i, freshId hash ids base = some i := by
  unfold freshId
  split
  · cases h : searchId hash ids base (ids.length + 1) 1 with
    | some i => exact ⟨i, rfl⟩
    | none =>
      exfalso
      have hm := searchId_none h
      have hnd : ((List.range' 1 (ids.length + 1)).map fun j => hash (base ++ natStr j)).Nodup := by
        refine List.Nodup.map ?_ List.nodup_range'
        intro a b hab
        have := congrArg parseNat (List.append_cancel_left (hi hab))
        simpa [parseNat_natStr] using this
      have hsub : ((List.range' 1 (ids.length + 1)).map fun j => hash (base ++ natStr j)) ⊆ ids := by
        intro x hx
        obtain ⟨j, hj, rfl⟩ := List.mem_map.1 hx
        rw [List.mem_range'_1] at hj
        exact hm j hj.1 (by omega)
      have := (List.subperm_of_subset hnd hsub).length_le
      simp only [List.length_map, List.length_range'] at this
      omega
  · exact ⟨_, rfl⟩

/-! ### Groups -/

theorem groups_valid {elem isRef : Bool} {dir typ : Str} {g : Option Nat × Option Nat}
    (h : groups elem isRef dir typ = .ok g) :
    (∃ n, g = (some n, none) ∧ n ∈ inputCodes elem ∧ isRef = false ∧ dir = c!"Input" ∧ inputCode typ = some n) ∨
    (∃ n, g = (none, some n) ∧ n ∈ outputCodes elem ∧ ((isRef = true ∧ n = 0) ∨ (isRef = false ∧ dir ≠ c!"Input" ∧ outputCode typ = some n))) := by
  have acc : ∀ {codes : List Nat} {o : Option Nat} {n : Nat}, accept codes o = .ok n → o = some n ∧ n ∈ codes := by
    intro codes o n h
    cases o with
    | none => cases h
    | some m =>
      rw [accept] at h
      split at h
      · obtain rfl := Except.ok.inj h; exact ⟨rfl, by assumption⟩
      · cases h
  unfold groups at h
  split at h
  · rename_i hr
    cases ha : accept (outputCodes elem) (some 0) with
    | error e => rw [ha] at h; cases h
    | ok n =>
      rw [ha] at h
      obtain ⟨h1, h2⟩ := acc ha
      exact .inr ⟨n, (Except.ok.inj h).symm, h2, .inl ⟨hr, (Option.some.inj h1).symm⟩⟩
  · rename_i hr
    split at h
    · rename_i hd
      cases ha : accept (inputCodes elem) (inputCode typ) with
      | error e => rw [ha] at h; cases h
      | ok n =>
        rw [ha] at h
        obtain ⟨h1, h2⟩ := acc ha
        exact .inl ⟨n, (Except.ok.inj h).symm, h2, by simpa using hr, hd, h1⟩
    · rename_i hd
      cases ha : accept (outputCodes elem) (outputCode typ) with
      | error e => rw [ha] at h; cases h
      | ok n =>
        rw [ha] at h
        obtain ⟨h1, h2⟩ := acc ha
        exact .inr ⟨n, (Except.ok.inj h).symm, h2, .inr ⟨by simpa using hr, hd, h1⟩⟩

omit [Field K] [DecidableEq K] [DecidableEq D] in
theorem finish_ok {env : Env K D} {s s' : St K} {fl fl' : Flow K} (h : finish env s fl = .ok (s', fl')) :
    ∃ i g, freshId env.hash s.ids (env.process ++ fl.base) = some i ∧
      groups fl.elem (decide (fl.src.internalId ∈ env.refs)) fl.src.dir fl.typ = .ok g ∧
      s' = { s with ids := s.ids ++ [i] } ∧
      fl' = { fl with field := { fl.field with
            id := i
            comments := fl.field.comments ++ fl.src.comments
            amount := fl.m
            inputGroup := g.1
            outputGroup := g.2
            variableName := variableNameOf fl
            relation := relationOf fl } } := by
  unfold finish at h
  split at h
  · cases h
  · rename_i i hi
    split at h
    · cases h
    · rename_i g hg
      obtain ⟨rfl, rfl⟩ := Prod.mk.inj (Except.ok.inj h)
      exact ⟨i, g, hi, hg, rfl, rfl⟩

/-! ### Conversion of an exchange -/

omit [Field K] [DecidableEq K] [DecidableEq D] in
theorem rowOf_some {env : Env K D} {fid : Str} {r : Row} : rowOf env fid = some r ↔ Mapped env fid r := by
  unfold rowOf Mapped
  cases h : env.row fid with
  | none => simp
  | some r' =>
    simp only [noMatch, List.mem_cons, List.not_mem_nil, or_false, Option.some.injEq]
    constructor
    · intro h
      split at h
      · cases h
      · rename_i hn
        obtain rfl := Option.some.inj h
        simp only [not_or] at hn
        exact ⟨rfl, hn⟩
    · rintro ⟨rfl, hn⟩
      rw [if_neg (by simpa only [not_or] using hn)]

omit [Field K] [DecidableEq K] [DecidableEq D] in
theorem rowOf_none {env : Env K D} {fid : Str} (h : rowOf env fid = none) (r : Row) : ¬ Mapped env fid r := by
  intro hr
  rw [← rowOf_some, h] at hr
  cases hr

omit [Field K] [DecidableEq K] [DecidableEq D] in
theorem amountOf_ok {env : Env K D} {x : Exch K} {a : K} (h : amountOf env x = .ok a) : Value env x a := by
  unfold amountOf at h
  split at h
  · rename_i t ht; exact ⟨t, .inl ht, h⟩
  · rename_i hn
    split at h
    · rename_i t ht; exact ⟨t, .inr ⟨hn, ht⟩, h⟩
    · cases h

omit [DecidableEq K] [DecidableEq D] in
theorem rowFactor_ok {env : Env K D} {r : Row} {c : K} (h : rowFactor env r = .ok c) : Factor env r c := by
  unfold rowFactor at h
  split at h
  · rename_i hr; exact .inl ⟨hr, (Except.ok.inj h).symm⟩
  · rename_i hr; rw [not_or] at hr; exact .inr ⟨hr.1, hr.2, h⟩

omit [Field K] [DecidableEq K] in
theorem unitFor_ok {env : Env K D} {d : D} {i : Str} : ∀ {l : List (Str × (Str × Str))}, unitFor env d l = .ok i →
    ∃ p n c, (p, (i, n)) ∈ l ∧ env.unit (underscore n) = .ok (d, c)
  | [], h => by cases h
  | (p, (j, n)) :: l, h => by
    rw [unitFor] at h
    split at h
    · cases h
    · rename_i d' c hd
      split at h
      · rename_i e
        subst e
        obtain rfl := Except.ok.inj h
        exact ⟨p, n, c, by simp, hd⟩
      · obtain ⟨p', n', c', h1, h2⟩ := unitFor_ok h
        exact ⟨p', n', c', by simp [h1], h2⟩

omit [Field K] [DecidableEq K] in
theorem relationOf_new {fl : Flow K} (h : fl.field.relation = none) :
    relationOf fl = (fl.var.bind Prod.snd).filter fun f => f ≠ [] := by
  unfold relationOf
  rcases fl.var with _ | ⟨v, _ | f⟩
  · exact h
  · exact h
  · by_cases e : f = []
    · subst e; simpa [Option.filter] using h
    · simp [e, Option.filter]

theorem baseName_ok {f : FlowFile} {n : Str} (h : baseName f = .ok n) : f.names.head? = some n := by
  unfold baseName at h
  split at h
  · cases h
  · rename_i hn; rw [hn, ← Except.ok.inj h]; rfl

theorem Except.bind_ok' {α β : Type} {x : Py α} {f : α → Py β} {b : β} (h : (x >>= f) = .ok b) :
    ∃ a, x = .ok a ∧ f a = .ok b := by
  cases x with
  | error e => cases h
  | ok a => exact ⟨a, rfl, h⟩

/-- A flow that has been added to the state. -/
structure Added (env : Env K D) (s s' : St K) (x : Exch K) (fl : Flow K) : Prop where
  src : fl.src = x
  num : fl.num = s.next
  fresh : fl.field.id ∉ s.ids
  hash : ∃ base, fl.field.id = env.hash (env.process ++ base)
  groups : groups fl.elem (decide (x.internalId ∈ env.refs)) x.dir fl.typ = .ok (fl.field.inputGroup, fl.field.outputGroup)
  amount : fl.field.amount = fl.m
  comments : fl.field.comments = x.comments
  var : fl.var = x.var
  variableName : fl.field.variableName = x.var.map Prod.fst
  relation : fl.field.relation = (x.var.bind Prod.snd).filter fun f => f ≠ []
  kind : AsElementary env fl ∨ AsProduct env fl
  state : s' = ⟨s.next + 1, s.ids ++ [fl.field.id], s.flows ++ [fl], s.master ++ [(fl.num, fl.elem, fl.field.target)],
    s.reported, s.logged⟩

omit [DecidableEq K] in
theorem elementary_ok {env : Env K D} {s s' : St K} {x : Exch K} {a : K} {f : FlowFile} {r : Row} {fl : Flow K}
    (hf : IsElementary env x f) (hr : Mapped env x.fid r) (ha : Value env x a)
    (h : elementary env s x a f r = .ok (s', fl)) : Added env s (s'.put fl) x fl := by
  unfold elementary at h
  split at h
  · cases h
  · split at h
    · cases h
    · obtain ⟨cf, hcf, h⟩ := Except.bind_ok' h
      obtain ⟨⟨d, c⟩, hd, h⟩ := Except.bind_ok' h
      obtain ⟨i, hi, h⟩ := Except.bind_ok' h
      obtain ⟨base, hb, h⟩ := Except.bind_ok' h
      obtain ⟨j, g, h1, h2, rfl, rfl⟩ := finish_ok h
      obtain ⟨p, n, c', hp, hc'⟩ := unitFor_ok hi
      obtain ⟨hj, hh⟩ := freshId_fresh h1
      refine ⟨rfl, rfl, hj, ?_, h2, rfl, by simp, rfl, ?_, ?_, .inl ?_, rfl⟩
      · rcases hh with h | ⟨k, h⟩
        · exact ⟨base, h⟩
        · exact ⟨base ++ natStr k, by rw [← List.append_assoc]; exact h⟩
      · simp only [variableNameOf]; cases x.var <;> rfl
      · exact relationOf_new rfl
      · exact ⟨f, r, a, cf, d, c, c', p, n, hf, hr, ha, rowFactor_ok hcf, rfl, rfl, rfl, rfl, rfl, rfl, rfl, rfl, hd, hp, hc'⟩

omit [DecidableEq K] [DecidableEq D] in
theorem intermediate_ok {env : Env K D} {s : St K} {x : Exch K} {a : K} {f : FlowFile} {t : Str}
    {o : Option (St K × Flow K)} (hf : env.file x.fid x.version x.uri = some f) (ht : f.typ = some t) (hp : t ≠ c!"Elementary flow")
    (ha : Value env x a) (h : intermediate env s x a f t = .ok o) :
    (o = none ∧ ∀ i n, ¬ HasUnit env f i n) ∨
    ∃ s' fl i n, o = some (s', fl) ∧ HasUnit env f i n ∧ Added env s (s'.put fl) x fl := by
  unfold intermediate at h
  obtain ⟨target, htg, h⟩ := Except.bind_ok' h
  obtain ⟨base, hb, h⟩ := Except.bind_ok' h
  split at h
  · rename_i hn
    refine .inl ⟨(Except.ok.inj h).symm, ?_⟩
    rintro i n ⟨p, h1, h2⟩
    rw [h1, Option.bind_some, h2] at hn
    cases hn
  · rename_i i n hn
    obtain ⟨⟨d, c⟩, hd, h⟩ := Except.bind_ok' h
    obtain ⟨⟨s', fl⟩, hfin, h⟩ := Except.bind_ok' h
    obtain ⟨j, g, h1, h2, rfl, rfl⟩ := finish_ok hfin
    obtain ⟨hj, hh⟩ := freshId_fresh h1
    have hu : HasUnit env f i n := by
      cases hr : f.refProperty with
      | none => rw [hr] at hn; cases hn
      | some p => rw [hr] at hn; exact ⟨p, hr, hn⟩
    refine .inr ⟨_, _, i, n, (Except.ok.inj h).symm, hu, rfl, rfl, hj, ?_, h2, rfl, by simp, rfl, ?_, ?_, .inr ?_, rfl⟩
    · rcases hh with h | ⟨k, h⟩
      · exact ⟨base, h⟩
      · exact ⟨base ++ natStr k, by rw [← List.append_assoc]; exact h⟩
    · simp only [variableNameOf]; cases x.var <;> rfl
    · exact relationOf_new rfl
    · exact ⟨f, a, i, n, ⟨hf, by rw [ht]; intro e; exact hp (Option.some.inj e)⟩, hu, ha, rfl, ht, htg, rfl, rfl, rfl, rfl, baseName_ok hb⟩

omit [DecidableEq K] in
theorem convertOne_ok {env : Env K D} {s s' : St K} {x : Exch K} (h : convertOne env s x = .ok s') :
    (ToReport env x ∧ s' = { s with reported := s.reported ++ [x] }) ∨
    (Unitless env x ∧ s' = { s with logged := s.logged ++ [x] }) ∨
    (ToWrite env x ∧ ∃ fl, Added env s s' x fl) := by
  unfold convertOne at h
  split at h
  · cases h
  obtain ⟨a, ha, h⟩ := Except.bind_ok' h
  have ha := amountOf_ok ha
  split at h
  · rename_i hf
    exact .inl ⟨.inl hf, (Except.ok.inj h).symm⟩
  · rename_i f hf
    split at h
    · cases h
    · rename_i t ht
      split at h
      · rename_i he
        subst he
        split at h
        · rename_i hr
          exact .inl ⟨.inr ⟨f, ⟨hf, ht⟩, rowOf_none hr⟩, (Except.ok.inj h).symm⟩
        · rename_i r hr
          obtain ⟨⟨s1, fl⟩, h1, h⟩ := Except.bind_ok' h
          obtain rfl := Except.ok.inj h
          have hm := rowOf_some.1 hr
          exact .inr (.inr ⟨.inl ⟨f, r, ⟨hf, ht⟩, hm⟩, fl, elementary_ok ⟨hf, ht⟩ hm ha h1⟩)
      · rename_i he
        have hp : IsProduct env x f := ⟨hf, by rw [ht]; intro e; exact he (Option.some.inj e)⟩
        obtain ⟨o, ho, h⟩ := Except.bind_ok' h
        rcases intermediate_ok hf ht he ha ho with ⟨rfl, hn⟩ | ⟨s1, fl, i, n, rfl, hu, hadd⟩
        · exact .inr (.inl ⟨⟨f, hp, hn⟩, (Except.ok.inj h).symm⟩)
        · obtain rfl := Except.ok.inj h
          exact .inr (.inr ⟨.inr ⟨f, i, n, hp, hu⟩, fl, hadd⟩)

omit [DecidableEq K] in
theorem convertAll_append {env : Env K D} : ∀ {l l' : List (Exch K)} {s s' : St K},
    convertAll env s (l ++ l') = .ok s' → ∃ s1, convertAll env s l = .ok s1 ∧ convertAll env s1 l' = .ok s'
  | [], l', s, s', h => ⟨s, rfl, h⟩
  | x :: l, l', s, s', h => by
    rw [List.cons_append, convertAll] at h
    obtain ⟨s1, h1, h2⟩ := Except.bind_ok' h
    obtain ⟨s2, h3, h4⟩ := convertAll_append h2
    exact ⟨s2, by rw [convertAll, h1]; exact h3, h4⟩

omit [DecidableEq K] in
/-- Induction over the exchanges of a data set, from the last one. -/
theorem convert_induction {env : Env K D} {P : List (Exch K) → St K → Prop} (h0 : P [] .empty)
    (hs : ∀ l x s s', convertAll env .empty l = .ok s → P l s → convertOne env s x = .ok s' → P (l ++ [x]) s') :
    ∀ {l : List (Exch K)} {s : St K}, convertAll env .empty l = .ok s → P l s := by
  intro l
  induction l using List.reverseRecOn with
  | nil => intro s h; obtain rfl := Except.ok.inj h; exact h0
  | append_singleton l x ih =>
    intro s h
    obtain ⟨s1, h1, h2⟩ := convertAll_append h
    refine hs l x s1 s h1 (ih h1) ?_
    rw [convertAll] at h2
    obtain ⟨s2, h3, h4⟩ := Except.bind_ok' h2
    obtain rfl := Except.ok.inj h4
    exact h3

end

end Verif.IlcdFlows
