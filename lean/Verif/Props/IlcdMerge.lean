/-
Equal elementary flows of an EcoSpold2 data set are summed: what is kept, and what is lost.
-/
import Verif.Props.IlcdFlows
import Mathlib.Tactic.FieldSimp
import Mathlib.Tactic.Ring

namespace Verif.IlcdFlows
open Spec

section
variable {K D : Type} [Field K] [DecidableEq K] [DecidableEq D]

/-- The elementary flows with a key. -/
def withKey (k : Str × Str) (flows : List (Flow K)) : List (Flow K) :=
  flows.filter fun f => f.elem && decide (f.key = k)

/-! ### Groups of equal flows -/

omit [Field K] [DecidableEq K] in
theorem grouped_get (k : Str × Str) : ∀ em : List (Flow K), aget k (em.foldl addGroup []) =
    if (em.filter fun f => decide (f.key = k)) = [] then none else some (em.filter fun f => decide (f.key = k)) := by
  intro em
  induction em using List.reverseRecOn with
  | nil => simp [aget]
  | append_singleton l f ih =>
    rw [List.foldl_append, List.foldl_cons, List.foldl_nil, addGroup, aget_aset]
    by_cases hk : k = f.key
    · subst hk
      rw [if_pos rfl, List.filter_append, ih]
      by_cases hl : (l.filter fun g => decide (g.key = f.key)) = []
      · simp [hl]
      · simp [hl]
    · rw [if_neg hk, List.filter_append, ih]
      simp [Ne.symm hk]

omit [Field K] [DecidableEq K] in
theorem grouped_nodup (em : List (Flow K)) : ((em.foldl addGroup []).map Prod.fst).Nodup := by
  induction em using List.reverseRecOn with
  | nil => simp
  | append_singleton l f ih =>
    rw [List.foldl_append, List.foldl_cons, List.foldl_nil, addGroup]
    exact aset_nodup ih

/-- The keys of the groups. -/
def doubledKeys (em : List (Flow K)) : List (Str × Str) :=
  ((em.foldl addGroup []).filter fun p => 1 < p.2.length).map (·.1)

omit [Field K] [DecidableEq K] in
theorem doubled_eq (em : List (Flow K)) :
    doubled em = (doubledKeys em).map fun k => em.filter fun f => decide (f.key = k) := by
  unfold doubled doubledKeys
  rw [List.map_map]
  apply List.map_congr_left
  rintro ⟨k, g⟩ hp
  obtain ⟨hp, hl⟩ := List.mem_filter.1 hp
  have := aget_eq_of_mem (grouped_nodup em) hp
  rw [grouped_get] at this
  split at this
  · cases this
  · simpa using this.symm

omit [Field K] [DecidableEq K] in
theorem doubledKeys_nodup (em : List (Flow K)) : (doubledKeys em).Nodup :=
  (grouped_nodup em).sublist (List.filter_sublist.map _)

omit [Field K] [DecidableEq K] in
theorem mem_doubledKeys {em : List (Flow K)} {k : Str × Str} :
    k ∈ doubledKeys em ↔ 1 < (em.filter fun f => decide (f.key = k)).length := by
  unfold doubledKeys
  constructor
  · intro h
    obtain ⟨⟨k', g⟩, hp, rfl⟩ := List.mem_map.1 h
    obtain ⟨hp, hl⟩ := List.mem_filter.1 hp
    have := aget_eq_of_mem (grouped_nodup em) hp
    rw [grouped_get] at this
    split at this
    · cases this
    · rw [Option.some.inj this]; simpa using hl
  · intro h
    have hne : (em.filter fun f => decide (f.key = k)) ≠ [] := by
      intro e; rw [e] at h; simp at h
    have hg := grouped_get k em
    rw [if_neg hne] at hg
    exact List.mem_map.2 ⟨(k, _), List.mem_filter.2 ⟨aget_mem hg, by simpa using h⟩, rfl⟩

/-! ### Sums -/

/-- What summing changes: the amount and the uncertainty. -/
structure SameBut (x y : Flow K) : Prop where
  src : y.src = x.src
  elem : y.elem = x.elem
  typ : y.typ = x.typ
  num : y.num = x.num
  unit : y.unit = x.unit
  base : y.base = x.base
  var : y.var = x.var
  field : ∃ u, y.field = { x.field with unc := u }

omit [Field K] [DecidableEq K] [DecidableEq D] in
theorem SameBut.trans {x y z : Flow K} (a : SameBut x y) (b : SameBut y z) : SameBut x z :=
  ⟨b.src.trans a.src, b.elem.trans a.elem, b.typ.trans a.typ, b.num.trans a.num, b.unit.trans a.unit,
    b.base.trans a.base, b.var.trans a.var, by
      obtain ⟨u, hu⟩ := a.field
      obtain ⟨v, hv⟩ := b.field
      exact ⟨v, by rw [hv, hu]⟩⟩

theorem sum_ok {env : Env K D} {x y z : Flow K} (h : sum env x y = .ok z) :
    SameBut x z ∧ ∃ d c c', env.unit x.unit = .ok (d, c) ∧ env.unit y.unit = .ok (d, c') ∧
      z.m = x.m + y.m * (c' / c) ∧ sumUnc x y = .ok (z.unc, z.field.unc) := by
  unfold sum at h
  obtain ⟨u, hu, h⟩ := Except.bind_ok' h
  obtain ⟨⟨d, c⟩, h1, h⟩ := Except.bind_ok' h
  obtain ⟨⟨d', c'⟩, h2, h⟩ := Except.bind_ok' h
  simp only at h
  split at h
  · rename_i e
    subst e
    obtain rfl := Except.ok.inj h
    exact ⟨⟨rfl, rfl, rfl, rfl, rfl, rfl, rfl, ⟨_, rfl⟩⟩, d, c, c', h1, h2, rfl, hu⟩
  · cases h

theorem sumAll_ok {env : Env K D} {scale : Str → K}
    (hs : ∀ u d c, env.unit u = .ok (d, c) → scale u = c ∧ c ≠ 0) : ∀ {l : List (Flow K)} {x z : Flow K},
    sumAll env x l = .ok z → SameBut x z ∧ z.m * scale x.unit = ((x :: l).map fun f => f.m * scale f.unit).sum
  | [], x, z, h => by
    obtain rfl := Except.ok.inj h
    exact ⟨⟨rfl, rfl, rfl, rfl, rfl, rfl, rfl, ⟨_, rfl⟩⟩, by simp⟩
  | y :: l, x, z, h => by
    rw [sumAll] at h
    obtain ⟨x', h1, h2⟩ := Except.bind_ok' h
    obtain ⟨a, d, c, c', u1, u2, hm, -⟩ := sum_ok h1
    obtain ⟨b, hz⟩ := sumAll_ok hs h2
    refine ⟨a.trans b, ?_⟩
    rw [a.unit] at hz
    rw [hz]
    obtain ⟨e1, n1⟩ := hs _ _ _ u1
    obtain ⟨e2, n2⟩ := hs _ _ _ u2
    simp only [List.map_cons, List.sum_cons, a.unit, hm, e1, e2]
    have : y.m * (c' / c) * c = y.m * c' := by field_simp
    rw [add_mul, this, add_assoc]

omit [DecidableEq K] [DecidableEq D] in
theorem filter_filterMap {α β : Type} {g : α → Option β} {p : β → Bool} {q : α → Bool} :
    ∀ {l : List α}, (∀ x ∈ l, ∀ y, g x = some y → p y = q x) →
      (l.filterMap g).filter p = (l.filter q).filterMap g
  | [], _ => rfl
  | x :: l, h => by
    have ih := filter_filterMap (l := l) (fun y hy => h y (by simp [hy]))
    cases hx : g x with
    | none =>
      rw [List.filterMap_cons_none hx, ih]
      by_cases hq : q x = true
      · rw [List.filter_cons_of_pos hq, List.filterMap_cons_none hx]
      · rw [List.filter_cons_of_neg hq]
    | some y =>
      rw [List.filterMap_cons_some hx]
      have := h x (by simp) y hx
      by_cases hq : q x = true
      · rw [List.filter_cons_of_pos hq, List.filterMap_cons_some hx, List.filter_cons_of_pos (by rw [this, hq]), ih]
      · rw [List.filter_cons_of_neg hq, List.filter_cons_of_neg (by rw [this]; exact hq), ih]

/-- The part of the state summing depends on. -/
structure MInv (s : St K) : Prop where
  nums : (s.flows.map (·.num)).Nodup
  ids : ∀ f ∈ s.flows, f.field.id ∈ s.ids
  nodup : (s.flows.map (·.field.id)).Nodup
  master : s.master.Perm (s.flows.map fun f => (f.num, f.elem, f.field.target))

/-- The flow written for a group, in terms of its first flow. -/
structure Merged (env : Env K D) (s : St K) (x y : Flow K) : Prop where
  src : y.src = x.src
  elem : y.elem = x.elem
  num : y.num = x.num
  unit : y.unit = x.unit
  target : y.field.target = x.field.target
  fresh : y.field.id ∉ s.ids
  amount : y.field.amount = y.m
  comments : y.field.comments = x.field.comments ++ x.src.comments
  variableName : y.field.variableName = x.field.variableName
  relation : y.field.relation = x.field.relation
  unitId : y.field.unitId = x.field.unitId
  name : y.field.name = x.field.name
  groups : groups y.elem (decide (y.src.internalId ∈ env.refs)) y.src.dir y.typ =
    .ok (y.field.inputGroup, y.field.outputGroup)

omit [Field K] [DecidableEq K] in
theorem eq_of_num {flows : List (Flow K)} (h : (flows.map (·.num)).Nodup) {x y : Flow K} (hx : x ∈ flows)
    (hy : y ∈ flows) (e : x.num = y.num) : x = y :=
  List.inj_on_of_nodup_map h hx hy e

theorem mergeGroup_ok {env : Env K D} {scale : Str → K}
    (hs : ∀ u d c, env.unit u = .ok (d, c) → scale u = c ∧ c ≠ 0) {s s' : St K} (hi : MInv s) {k : Str × Str}
    {x : Flow K} {rest : List (Flow K)} (hg : (x :: rest).Perm (withKey k s.flows))
    (h : mergeGroup env s (x :: rest) = .ok s') :
    ∃ y, Merged env s x y ∧ y.m * scale y.unit = ((x :: rest).map fun f => f.m * scale f.unit).sum ∧
      MInv s' ∧ withKey k s'.flows = [y] ∧
      (∀ p : Flow K → Bool, (∀ f, f.elem = true → f.key = k → p f = false) → s'.flows.filter p = s.flows.filter p) ∧
      (∀ f ∈ s'.flows, f = y ∨ f ∈ s.flows) ∧ s.ids ⊆ s'.ids := by
  unfold mergeGroup at h
  obtain ⟨x1, h1, h⟩ := Except.bind_ok' h
  obtain ⟨⟨s1, x2⟩, h2, h⟩ := Except.bind_ok' h
  obtain rfl := Except.ok.inj h
  obtain ⟨sb, hm⟩ := sumAll_ok hs h1
  obtain ⟨i, g, hid, hgr, rfl, rfl⟩ := finish_ok h2
  obtain ⟨u, hu⟩ := sb.field
  have hk : ∀ f ∈ x :: rest, f ∈ s.flows ∧ f.elem = true ∧ f.key = k := by
    intro f hf
    have := hg.mem_iff.1 hf
    simpa [withKey] using this
  have hxk := hk x (by simp)
  have hfresh := (freshId_fresh hid).1
  set y : Flow K := { x1 with
    var := none
    field := { x1.field with
      id := i
      comments := x1.field.comments ++ x1.src.comments
      amount := x1.m
      inputGroup := g.1
      outputGroup := g.2
      variableName := variableNameOf { x1 with var := none }
      relation := relationOf { x1 with var := none } } } with hy
  have hmer : Merged env s x y := by
    refine ⟨sb.src, sb.elem, sb.num, sb.unit, ?_, hfresh, rfl, ?_, ?_, ?_, ?_, ?_, ?_⟩
    · simp only [hy, hu]
    · simp only [hy, hu, sb.src]
    · simp only [hy, hu, variableNameOf]
    · simp only [hy, hu, relationOf]
    · simp only [hy, hu]
    · simp only [hy, hu]
    · exact hgr
  have hye : y.elem = true := hmer.elem.trans hxk.2.1
  have hyk : y.key = k := by
    rw [← hxk.2.2]
    simp [Flow.key, hmer.target, hmer.src]
  have hnd : ((x :: rest).map (·.num)).Nodup :=
    (hg.map _).nodup_iff.2 (hi.nums.sublist (List.filter_sublist.map _))
  have hxr : x.num ∉ rest.map (·.num) := (List.nodup_cons.1 hnd).1
  -- what `place` does
  have hpx : place y rest x = some y := by
    unfold place
    rw [if_pos hmer.num.symm]
  have hpr : ∀ f ∈ rest, place y rest f = none := by
    intro f hf
    have hne : f.num ≠ y.num := by
      rw [hmer.num]; intro e; exact hxr (e ▸ List.mem_map.2 ⟨f, hf, rfl⟩)
    unfold place
    rw [if_neg hne, if_pos (List.mem_map.2 ⟨f, hf, rfl⟩)]
  have hpo : ∀ f ∈ s.flows, f ∉ x :: rest → place y rest f = some f := by
    intro f hf hn
    have h1 : f.num ≠ y.num := by
      rw [hmer.num]; intro e
      exact hn (by rw [eq_of_num hi.nums hf hxk.1 e]; simp)
    have h2 : f.num ∉ rest.map (·.num) := by
      intro e
      obtain ⟨f', hf', e⟩ := List.mem_map.1 e
      have := eq_of_num hi.nums hf (hk f' (by simp [hf'])).1 e.symm
      exact hn (by rw [this]; simp [hf'])
    unfold place
    rw [if_neg h1, if_neg h2]
  have hcase : ∀ f ∈ s.flows, ∀ z, place y rest f = some z → (z = y ∧ f = x) ∨ (z = f ∧ f ∉ x :: rest) := by
    intro f hf z hz
    by_cases hn : f ∈ x :: rest
    · rcases List.mem_cons.1 hn with rfl | hn
      · rw [hpx] at hz; exact .inl ⟨(Option.some.inj hz).symm, rfl⟩
      · rw [hpr f hn] at hz; cases hz
    · rw [hpo f hf hn] at hz; exact .inr ⟨(Option.some.inj hz).symm, hn⟩
  have hmem : ∀ f, f ∈ x :: rest ↔ f ∈ s.flows ∧ f.elem = true ∧ f.key = k := by
    intro f; rw [hg.mem_iff]; simp [withKey]
  refine ⟨y, hmer, ?_, ⟨?_, ?_, ?_, ?_⟩, ?_, ?_, ?_, ?_⟩
  · rw [hmer.unit]; exact hm
  · -- numbers
    have : ((s.flows.filterMap (place y rest)).map (·.num)).Sublist (s.flows.map (·.num)) := by
      have key : ∀ l : List (Flow K), (∀ f ∈ l, f ∈ s.flows) →
          ((l.filterMap (place y rest)).map (·.num)).Sublist (l.map (·.num)) := by
        intro l
        induction l with
        | nil => intro _; simp
        | cons f l ih =>
          intro hl
          have ih := ih fun f hf => hl f (by simp [hf])
          cases hp : place y rest f with
          | none => rw [List.filterMap_cons_none hp]; exact ih.cons _
          | some z =>
            rw [List.filterMap_cons_some hp, List.map_cons, List.map_cons]
            have : z.num = f.num := by
              rcases hcase f (hl f (by simp)) z hp with ⟨rfl, rfl⟩ | ⟨rfl, -⟩
              · exact hmer.num
              · rfl
            rw [this]
            exact ih.cons_cons _
      exact key _ fun f hf => hf
    exact hi.nums.sublist this
  · -- identifiers are known
    intro f hf
    obtain ⟨f', hf', hp⟩ := List.mem_filterMap.1 hf
    rcases hcase f' hf' f hp with ⟨rfl, -⟩ | ⟨rfl, -⟩
    · simp [hy]
    · exact List.mem_append_left _ (hi.ids f hf')
  · -- identifiers are different
    have key : ∀ l : List (Flow K), (∀ f ∈ l, f ∈ s.flows) → (l.map (·.field.id)).Nodup → (l.map (·.num)).Nodup →
        ((l.filterMap (place y rest)).map (·.field.id)).Nodup := by
      intro l
      induction l with
      | nil => intros; simp
      | cons f l ih =>
        intro hl hd hn
        have ih := ih (fun f hf => hl f (by simp [hf])) (List.nodup_cons.1 hd).2 (List.nodup_cons.1 hn).2
        cases hp : place y rest f with
        | none => rw [List.filterMap_cons_none hp]; exact ih
        | some z =>
          rw [List.filterMap_cons_some hp, List.map_cons, List.nodup_cons]
          refine ⟨?_, ih⟩
          intro hmz
          obtain ⟨w, hw, e⟩ := List.mem_map.1 hmz
          obtain ⟨f', hf', hp'⟩ := List.mem_filterMap.1 hw
          rcases hcase f (hl f (by simp)) z hp with ⟨rfl, rfl⟩ | ⟨rfl, hnz⟩
          · rcases hcase f' (hl f' (by simp [hf'])) w hp' with ⟨rfl, rfl⟩ | ⟨rfl, -⟩
            · exact (List.nodup_cons.1 hn).1 (List.mem_map.2 ⟨_, hf', rfl⟩)
            · exact hmer.fresh (e ▸ hi.ids w (hl w (by simp [hf'])))
          · rcases hcase f' (hl f' (by simp [hf'])) w hp' with ⟨rfl, rfl⟩ | ⟨rfl, -⟩
            · exact hmer.fresh (e ▸ hi.ids z (hl z (by simp)))
            · exact (List.nodup_cons.1 hd).1 (List.mem_map.2 ⟨w, hf', e⟩)
    exact key _ (fun f hf => hf) hi.nodup hi.nums
  · -- the master data
    have hq : ∀ f ∈ s.flows, decide (f.num ∉ (x :: rest).map (·.num)) = !(f.elem && decide (f.key = k)) := by
      intro f hf
      have h1 : f.num ∈ (x :: rest).map (·.num) ↔ f.elem = true ∧ f.key = k := by
        constructor
        · intro hm
          obtain ⟨f', hf', e⟩ := List.mem_map.1 hm
          have h2 := (hmem f').1 hf'
          rw [eq_of_num hi.nums hf h2.1 e.symm]
          exact h2.2
        · intro hc
          exact List.mem_map.2 ⟨f, (hmem f).2 ⟨hf, hc⟩, rfl⟩
      by_cases hc : f.elem = true ∧ f.key = k
      · rw [decide_eq_false (not_not.2 (h1.2 hc))]
        simp [hc.1, hc.2]
      · rw [decide_eq_true (mt h1.1 hc)]
        by_cases he : f.elem = true
        · have hk' : f.key ≠ k := fun e => hc ⟨he, e⟩
          simp [he, hk']
        · simp [he]
    have e1 : (s.flows.filterMap (place y rest)).Perm
        (y :: s.flows.filter fun f => !(f.elem && decide (f.key = k))) := by
      refine ((List.filter_append_perm (fun f : Flow K => f.elem && decide (f.key = k)) s.flows).symm.filterMap _).trans ?_
      rw [List.filterMap_append]
      have a1 : ((s.flows.filter fun f => f.elem && decide (f.key = k)).filterMap (place y rest)).Perm [y] := by
        refine (hg.symm.filterMap _).trans ?_
        rw [List.filterMap_cons_some hpx, List.filterMap_eq_nil_iff.2 hpr]
      have a2 : (s.flows.filter fun f => !(f.elem && decide (f.key = k))).filterMap (place y rest) =
          s.flows.filter fun f => !(f.elem && decide (f.key = k)) := by
        have : ∀ f ∈ s.flows.filter (fun f => !(f.elem && decide (f.key = k))), place y rest f = some f := by
          intro f hf
          obtain ⟨hf, hpf⟩ := List.mem_filter.1 hf
          refine hpo f hf fun hn => ?_
          obtain ⟨-, h1, h2⟩ := (hmem f).1 hn
          simp [h1, h2] at hpf
        rw [List.filterMap_congr this, List.filterMap_some]
      rw [a2]
      exact a1.append_right _
    refine ((hi.master.filter _).append_right _).trans ?_
    refine List.Perm.trans ?_ (e1.map _).symm
    rw [List.filter_map]
    have e2 : s.flows.filter ((fun e : Nat × Bool × Str => decide (e.1 ∉ (x :: rest).map (·.num))) ∘
        fun f : Flow K => (f.num, f.elem, f.field.target)) = s.flows.filter fun f => !(f.elem && decide (f.key = k)) :=
      List.filter_congr fun f hf => hq f hf
    rw [e2]
    exact List.perm_append_comm
  · -- one flow of the key
    have e : withKey k (s.flows.filterMap (place y rest)) = (withKey k s.flows).filterMap (place y rest) := by
      unfold withKey
      apply filter_filterMap
      intro f hf z hz
      rcases hcase f hf z hz with ⟨rfl, rfl⟩ | ⟨rfl, -⟩
      · simp [hye, hyk, hxk.2.1, hxk.2.2]
      · rfl
    have : ((withKey k s.flows).filterMap (place y rest)).Perm [y] := by
      refine (hg.symm.filterMap _).trans ?_
      rw [List.filterMap_cons_some hpx, List.filterMap_eq_nil_iff.2 hpr]
    simp only
    rw [e]
    exact List.perm_singleton.1 this
  · intro p hp
    simp only
    rw [filter_filterMap (q := p)]
    · have : ∀ f ∈ s.flows.filter p, place y rest f = some f := by
        intro f hf
        obtain ⟨hf, hpf⟩ := List.mem_filter.1 hf
        refine hpo f hf fun hn => ?_
        obtain ⟨-, h1, h2⟩ := (hmem f).1 hn
        rw [hp f h1 h2] at hpf
        cases hpf
      rw [List.filterMap_congr this, List.filterMap_some]
    · intro f hf z hz
      rcases hcase f hf z hz with ⟨rfl, rfl⟩ | ⟨rfl, -⟩
      · rw [hp _ hye hyk, hp _ hxk.2.1 hxk.2.2]
      · rfl
  · intro f hf
    obtain ⟨f', hf', hp⟩ := List.mem_filterMap.1 hf
    rcases hcase f' hf' f hp with ⟨rfl, -⟩ | ⟨rfl, -⟩
    · exact .inl rfl
    · exact .inr hf'

  · intro a ha; exact List.mem_append_left _ ha

omit [Field K] [DecidableEq K] in
theorem withKey_of_filter {k : Str × Str} {l l' : List (Flow K)}
    (h : ∀ p : Flow K → Bool, (∀ f, f.elem = true → f.key = k → p f = false) → l'.filter p = l.filter p)
    {k' : Str × Str} (hk : k' ≠ k) : withKey k' l' = withKey k' l := by
  unfold withKey
  apply h
  intro f _ e
  simp [e, Ne.symm hk]

/-- What summing all groups does. -/
theorem mergeAll_ok {env : Env K D} {scale : Str → K}
    (hs : ∀ u d c, env.unit u = .ok (d, c) → scale u = c ∧ c ≠ 0) (G : Str × Str → List (Flow K)) :
    ∀ {ks : List (Str × Str)} {s s' : St K}, ks.Nodup → MInv s →
    (∀ k ∈ ks, G k ≠ [] ∧ (G k).Perm (withKey k s.flows)) → mergeAll env s (ks.map G) = .ok s' →
    MInv s' ∧ s.ids ⊆ s'.ids ∧
    (∀ p : Flow K → Bool, (∀ f, f.elem = true → f.key ∈ ks → p f = false) → s'.flows.filter p = s.flows.filter p) ∧
    ∀ k ∈ ks, ∃ x y, (G k).head? = some x ∧ Merged env s x y ∧ withKey k s'.flows = [y] ∧
      y.m * scale y.unit = ((withKey k s.flows).map fun f => f.m * scale f.unit).sum
  | [], s, s', _, hi, _, h => by
    obtain rfl := Except.ok.inj h
    exact ⟨hi, fun a h => h, fun _ _ => rfl, by simp⟩
  | k :: ks, s, s', hn, hi, hG, h => by
    rw [List.map_cons, mergeAll] at h
    obtain ⟨s1, h1, h2⟩ := Except.bind_ok' h
    obtain ⟨hk, hn⟩ := List.nodup_cons.1 hn
    obtain ⟨hne, hp⟩ := hG k (by simp)
    cases hg : G k with
    | nil => exact absurd hg hne
    | cons x rest =>
      rw [hg] at h1 hp
      obtain ⟨y, m1, m2, m3, m4, m5, -, m6⟩ := mergeGroup_ok hs hi hp h1
      have hother : ∀ k' ∈ ks, withKey k' s1.flows = withKey k' s.flows := fun k' hk' =>
        withKey_of_filter m5 (fun e => hk (e ▸ hk'))
      obtain ⟨a1, a2, a3, a4⟩ := mergeAll_ok hs G hn m3
        (fun k' hk' => ⟨(hG k' (by simp [hk'])).1, by rw [hother k' hk']; exact (hG k' (by simp [hk'])).2⟩) h2
      refine ⟨a1, fun a ha => a2 (m6 ha), ?_, ?_⟩
      · intro p hp'
        rw [a3 p fun f he hf => hp' f he (by simp [hf])]
        exact m5 p fun f he hf => hp' f he (by simp [hf])
      · intro k' hk'
        rcases List.mem_cons.1 hk' with rfl | hk'
        · refine ⟨x, y, by rw [hg]; rfl, m1, ?_, ?_⟩
          · rw [← m4]
            unfold withKey
            apply a3
            intro f _ hf
            have : f.key ≠ k' := fun e => hk (e ▸ hf)
            simp [this]
          · rw [m2]
            exact (hp.map _).sum_eq
        · obtain ⟨x', y', b1, b2, b3, b4⟩ := a4 k' hk'
          refine ⟨x', y', b1, ⟨b2.src, b2.elem, b2.num, b2.unit, b2.target, fun e => b2.fresh (m6 e), b2.amount,
            b2.comments, b2.variableName, b2.relation, b2.unitId, b2.name, b2.groups⟩, b3, ?_⟩
          rw [b4, hother k' hk']

omit [DecidableEq K] [DecidableEq D] in
theorem Inv.minv {env : Env K D} {s : St K} (h : Inv env s) : MInv s :=
  ⟨h.nums.imp (fun h => Nat.ne_of_lt h), h.ids, h.nodup, by rw [h.master]⟩

omit [Field K] [DecidableEq K] in
theorem filter_perm {em flows : List (Flow K)} (hem : em.Perm (flows.filter (·.elem))) (k : Str × Str) :
    (em.filter fun f => decide (f.key = k)).Perm (withKey k flows) := by
  refine (hem.filter _).trans ?_
  rw [List.filter_filter]
  unfold withKey
  rw [List.filter_congr (q := fun f => f.elem && decide (f.key = k))]
  intro f _
  exact Bool.and_comm _ _

/-- Summing, in terms of the state before. -/
theorem merge_ok {env : Env K D} {scale : Str → K}
    (hs : ∀ u d c, env.unit u = .ok (d, c) → scale u = c ∧ c ≠ 0) {s s' : St K} (hi : MInv s) {em : List (Flow K)}
    (hem : em.Perm (s.flows.filter (·.elem))) (h : merge env s em = .ok s') :
    MInv s' ∧ (∀ p : Flow K → Bool, (∀ f, f.elem = true → 1 < (withKey f.key s.flows).length → p f = false) →
      s'.flows.filter p = s.flows.filter p) ∧
    ∀ k, ((withKey k s.flows).length ≤ 1 ∧ withKey k s'.flows = withKey k s.flows) ∨
      (1 < (withKey k s.flows).length ∧ ∃ x y, (em.find? fun f => decide (f.key = k)) = some x ∧ x ∈ withKey k s.flows ∧
        Merged env s x y ∧ withKey k s'.flows = [y] ∧
        y.m * scale y.unit = ((withKey k s.flows).map fun f => f.m * scale f.unit).sum) := by
  unfold merge at h
  rw [doubled_eq] at h
  have hlen : ∀ k, k ∈ doubledKeys em ↔ 1 < (withKey k s.flows).length := by
    intro k; rw [mem_doubledKeys, (filter_perm hem k).length_eq]
  obtain ⟨a1, -, a3, a4⟩ := mergeAll_ok hs (fun k => em.filter fun f => decide (f.key = k)) (doubledKeys_nodup em) hi
    (fun k hk => ⟨by
      intro e
      have := mem_doubledKeys.1 hk
      rw [e] at this
      simp at this, filter_perm hem k⟩) h
  refine ⟨a1, fun p hp => a3 p fun f he hf => hp f he ((hlen _).1 hf), fun k => ?_⟩
  by_cases hk : k ∈ doubledKeys em
  · obtain ⟨x, y, b1, b2, b3, b4⟩ := a4 k hk
    rw [List.head?_filter] at b1
    refine .inr ⟨(hlen k).1 hk, x, y, b1, ?_, b2, b3, b4⟩
    have h1 := List.mem_of_find?_eq_some b1
    have h2 := List.find?_some b1
    exact (filter_perm hem k).mem_iff.1 (List.mem_filter.2 ⟨h1, h2⟩)
  · refine .inl ⟨Nat.le_of_not_lt fun e => hk ((hlen k).2 e), ?_⟩
    unfold withKey
    apply a3
    intro f _ hf
    have : f.key ≠ k := fun e => hk (e ▸ hf)
    simp [this]

omit [DecidableEq K] in
theorem total_eq (scale : Str → K) (flows : List (Flow K)) (t d : Str) :
    total scale flows t d = ((withKey (t, d) flows).map fun f => f.field.amount * scale f.unit).sum := by
  unfold total withKey
  congr 2
  apply List.filter_congr
  intro f _
  simp [Flow.key]

/-- C35, from ILCD to EcoSpold2, for every order in which the set of the elementary exchanges is gone through. With the
option to sum equal elementary flows the total of every flow in every direction is conserved, counted in base units; there
is exactly one exchange for every elementary flow and direction of the source; the other exchanges stay as they are. -/
theorem merge_total {env : Env K D} {scale : Str → K}
    (hs : ∀ u d c, env.unit u = .ok (d, c) → scale u = c ∧ c ≠ 0) {xs : List (Exch K)} {s s' : St K}
    (h : convertAll env .empty xs = .ok s) {em : List (Flow K)} (hem : em.Perm (s.flows.filter (·.elem)))
    (hm : merge env s em = .ok s') :
    (∀ t d, total scale s'.flows t d = total scale s.flows t d) ∧
    (∀ t d, (∃ f ∈ s.flows, f.elem = true ∧ f.field.target = t ∧ f.src.dir = d) →
      ∃ g, (s'.flows.filter fun f => f.elem && decide (f.field.target = t ∧ f.src.dir = d)) = [g]) ∧
    (s'.flows.filter fun f => !f.elem) = s.flows.filter fun f => !f.elem := by
  have hi := convertAll_inv h
  obtain ⟨a1, a2, a3⟩ := merge_ok hs hi.minv hem hm
  have hkey : ∀ (l : List (Flow K)) t d, (l.filter fun f => f.elem && decide (f.field.target = t ∧ f.src.dir = d)) =
      withKey (t, d) l := by
    intro l t d
    unfold withKey
    apply List.filter_congr
    intro f _
    simp [Flow.key]
  refine ⟨?_, ?_, ?_⟩
  · intro t d
    rw [total_eq, total_eq]
    rcases a3 (t, d) with ⟨-, e⟩ | ⟨-, x, y, -, -, b2, b3, b4⟩
    · rw [e]
    · rw [b3, List.map_cons, List.map_nil, List.sum_singleton, b2.amount, b4]
      congr 1
      apply List.map_congr_left
      intro f hf
      rw [(hi.flows f (List.mem_filter.1 hf).1).amount]
  · rintro t d ⟨f, hf, he, rfl, rfl⟩
    rw [hkey]
    have hmem : f ∈ withKey (f.field.target, f.src.dir) s.flows := by simp [withKey, hf, he, Flow.key]
    rcases a3 (f.field.target, f.src.dir) with ⟨hl, e⟩ | ⟨-, x, y, -, -, b2, b3, b4⟩
    · rw [e]
      match hw : withKey (f.field.target, f.src.dir) s.flows with
      | [] => rw [hw] at hmem; simp at hmem
      | [g] => exact ⟨g, rfl⟩
      | _ :: _ :: _ => rw [hw] at hl; simp at hl
    · exact ⟨y, b3⟩
  · apply a2
    intro f he _
    simp [he]

/-- C41 with the option: the identifiers are still all different, and the master data have exactly one entry per
exchange. -/
theorem merge_ids {env : Env K D} {scale : Str → K}
    (hs : ∀ u d c, env.unit u = .ok (d, c) → scale u = c ∧ c ≠ 0) {xs : List (Exch K)} {s s' : St K}
    (h : convertAll env .empty xs = .ok s) {em : List (Flow K)} (hem : em.Perm (s.flows.filter (·.elem)))
    (hm : merge env s em = .ok s') :
    (s'.flows.map (·.field.id)).Nodup ∧ s'.master.Perm (s'.flows.map fun f => (f.num, f.elem, f.field.target)) := by
  obtain ⟨a1, -⟩ := merge_ok hs (convertAll_inv h).minv hem hm
  exact ⟨a1.nodup, a1.master⟩

/-- C64, from ILCD to EcoSpold2. The exchange written for several equal ones is that of the one the set gives first: it
has its variable and its formula, although the amount is the sum, and its comments twice; the comments of the others
are lost. -/
theorem merge_keeps_first {env : Env K D} {scale : Str → K}
    (hs : ∀ u d c, env.unit u = .ok (d, c) → scale u = c ∧ c ≠ 0) {xs : List (Exch K)} {s s' : St K}
    (h : convertAll env .empty xs = .ok s) {em : List (Flow K)} (hem : em.Perm (s.flows.filter (·.elem)))
    (hm : merge env s em = .ok s') {g : Flow K} (hg : g ∈ s'.flows) (he : g.elem = true)
    (hd : 1 < (s.flows.filter fun f => f.elem && decide (f.field.target = g.field.target ∧ f.src.dir = g.src.dir)).length) :
    ∃ x, (em.find? fun f => decide (f.field.target = g.field.target ∧ f.src.dir = g.src.dir)) = some x ∧
      g.src = x.src ∧ g.field.comments = x.src.comments ++ x.src.comments ∧
      g.field.variableName = x.src.var.map Prod.fst ∧
      g.field.relation = ((x.src.var.bind Prod.snd).filter fun f => f ≠ []) ∧
      g.field.amount * scale g.unit = total scale s.flows g.field.target g.src.dir := by
  have hi := convertAll_inv h
  obtain ⟨a1, a2, a3⟩ := merge_ok hs hi.minv hem hm
  have hkey : (s.flows.filter fun f => f.elem && decide (f.field.target = g.field.target ∧ f.src.dir = g.src.dir)) =
      withKey (g.field.target, g.src.dir) s.flows := by
    unfold withKey
    apply List.filter_congr
    intro f _
    simp [Flow.key]
  rw [hkey] at hd
  rcases a3 (g.field.target, g.src.dir) with ⟨hl, -⟩ | ⟨-, x, y, b0, b1, b2, b3, b4⟩
  · omega
  · have : g ∈ withKey (g.field.target, g.src.dir) s'.flows := by simp [withKey, hg, he, Flow.key]
    rw [b3, List.mem_singleton] at this
    subst this
    have c := hi.flows x (List.mem_filter.1 b1).1
    refine ⟨x, ?_, b2.src, ?_, ?_, ?_, ?_⟩
    · rw [← b0]
      congr 1
      funext f
      simp [Flow.key]
    · rw [b2.comments, c.comments]
    · rw [b2.variableName, c.variableName]
    · rw [b2.relation, c.relation]
    · rw [total_eq, b2.amount, b4]
      congr 1
      apply List.map_congr_left
      intro f hf
      rw [(hi.flows f (List.mem_filter.1 hf).1).amount]

/-- C40 with the option: the groups are still valid. -/
theorem merge_groups {env : Env K D} {scale : Str → K}
    (hs : ∀ u d c, env.unit u = .ok (d, c) → scale u = c ∧ c ≠ 0) {xs : List (Exch K)} {s s' : St K}
    (h : convertAll env .empty xs = .ok s) {em : List (Flow K)} (hem : em.Perm (s.flows.filter (·.elem)))
    (hm : merge env s em = .ok s') : ∀ f ∈ s'.flows, ValidGroups f.elem f.field := by
  intro f hf
  obtain ⟨a1, a2, a3⟩ := merge_ok hs (convertAll_inv h).minv hem hm
  have hold : f ∈ s.flows → ValidGroups f.elem f.field := groups_always_valid h f
  by_cases he : f.elem = true
  · have hmem : f ∈ withKey f.key s'.flows := by simp [withKey, hf, he]
    rcases a3 f.key with ⟨-, e⟩ | ⟨-, x, y, -, -, b2, b3, -⟩
    · rw [e] at hmem
      exact hold (List.mem_filter.1 hmem).1
    · rw [b3, List.mem_singleton] at hmem
      subst hmem
      exact valid_of_groups b2.groups
  · have hmem : f ∈ s'.flows.filter fun f => !f.elem := by simp [hf, he]
    rw [a2 _ (by intro f he _; simp [he])] at hmem
    exact hold (List.mem_filter.1 hmem).1

/-- When two amounts can be added: the units are known and have the same dimension, and if both are normal, both have a
variance. -/
theorem sum_ok_iff (env : Env K D) (x y : Flow K) : (∃ z, sum env x y = .ok z) ↔
    (∃ d c c', env.unit x.unit = .ok (d, c) ∧ env.unit y.unit = .ok (d, c')) ∧
    ¬ ∃ v w, x.unc = some (.normal v) ∧ y.unc = some (.normal w) ∧ (v = 0 ∨ w = 0) := by
  have hu : (∃ u, sumUnc x y = .ok u) ↔
      ¬ ∃ v w, x.unc = some (.normal v) ∧ y.unc = some (.normal w) ∧ (v = 0 ∨ w = 0) := by
    unfold sumUnc
    split
    · rename_i v w hv hw
      rw [hv, hw]
      by_cases hvw : v = 0 ∨ w = 0
      · rw [if_pos hvw]
        constructor
        · rintro ⟨u, h⟩; cases h
        · intro h; exact absurd ⟨v, w, rfl, rfl, hvw⟩ h
      · rw [if_neg hvw]
        refine ⟨?_, fun _ => ⟨_, rfl⟩⟩
        rintro - ⟨v', w', h1, h2, h3⟩
        simp only [Option.some.injEq, Unc.normal.injEq] at h1 h2
        subst h1 h2
        exact hvw h3
    · rename_i u u' hno hu hu'
      refine ⟨?_, fun _ => ⟨_, rfl⟩⟩
      rintro - ⟨v, w, h1, h2, -⟩
      rw [hu] at h1
      rw [hu'] at h2
      exact hno v w (Option.some.inj h1) (Option.some.inj h2)
    · rename_i hno
      refine ⟨?_, fun _ => ⟨_, rfl⟩⟩
      rintro - ⟨v, w, h1, h2, -⟩
      exact hno _ _ h1 h2
  rw [← hu]
  constructor
  · rintro ⟨z, h⟩
    obtain ⟨-, d, c, c', h1, h2, -, h3⟩ := sum_ok h
    exact ⟨⟨d, c, c', h1, h2⟩, ⟨_, h3⟩⟩
  · rintro ⟨⟨d, c, c', h1, h2⟩, ⟨u, hu⟩⟩
    unfold sum
    rw [hu, h1, h2]
    simp only [bind, Except.bind, if_true]
    exact ⟨_, rfl⟩

/-- C64 fails, from ILCD to EcoSpold2: the uncertainty written is that of the first exchange unless both are normal, so
that a lognormal distribution has another mean than the amount written. -/
theorem merge_stale_uncertainty {env : Env K D} {x y z : Flow K} (h : sum env x y = .ok z)
    (hn : ¬ ∃ v w, x.unc = some (.normal v) ∧ y.unc = some (.normal w)) : z.field.unc = x.field.unc := by
  obtain ⟨-, d, c, c', -, -, -, hu⟩ := sum_ok h
  unfold sumUnc at hu
  split at hu
  · rename_i v w hv hw
    exact absurd ⟨v, w, hv, hw⟩ hn
  · exact (Prod.mk.inj (Except.ok.inj hu)).2.symm
  · exact (Prod.mk.inj (Except.ok.inj hu)).2.symm

/-- The mean written for two normal amounts is the sum of the plain numbers, the amount the sum in the unit of the
first: they agree exactly if the second number is the same in both units. -/
theorem merge_normal_mean {env : Env K D} {x y z : Flow K} {v w d c c'} (h : sum env x y = .ok z)
    (hx : x.unc = some (.normal v)) (hy : y.unc = some (.normal w)) (h1 : env.unit x.unit = .ok (d, c))
    (h2 : env.unit y.unit = .ok (d, c')) :
    z.field.unc = some (.normal (x.m + y.m) (v + w)) ∧ (x.m + y.m = z.m ↔ y.m = y.m * (c' / c)) := by
  obtain ⟨-, d1, e, e', u1, u2, hm, hu⟩ := sum_ok h
  rw [h1] at u1
  rw [h2] at u2
  simp only [Except.ok.injEq, Prod.mk.injEq] at u1 u2
  obtain ⟨rfl, rfl⟩ := u1
  obtain ⟨-, rfl⟩ := u2
  unfold sumUnc at hu
  rw [hx, hy] at hu
  simp only at hu
  split at hu
  · cases hu
  · refine ⟨(Prod.mk.inj (Except.ok.inj hu)).2.symm, ?_⟩
    rw [hm]
    exact add_right_inj _

end

/-! ### Examples -/

/-- A table with two flows for one target, a waste, and the units kg and g. -/
def exEnv : Env ℚ Str where
  flt := fun t => if t = c!"2" then .ok 2 else if t = c!"3" then .ok 3 else if t = c!"0.5" then .ok (1 / 2) else .error .valueError
  hash := fun t => t
  convId := fun t => .ok (c!"c" ++ t)
  process := c!"P"
  refs := [c!"0"]
  row := fun t =>
    if t = c!"e1" then some ⟨c!" MATCH", c!"T", c!"carbon dioxide", c!"air/unspecified", c!"kg", []⟩
    else if t = c!"e2" then some ⟨c!"MATCH", c!"T", c!"carbon dioxide", c!"air/unspecified", c!"g", c!"0.5"⟩
    else if t = c!"e3" then some ⟨c!"NO MATCH ", [], [], [], [], []⟩
    else none
  subcompartment := fun t => if t = c!"air/unspecified" then some c!"s" else none
  file := fun t _ _ =>
    if t = c!"e1" ∨ t = c!"e2" ∨ t = c!"e3" then some ⟨some c!"Elementary flow", [c!"carbon dioxide"], none⟩
    else if t = c!"w" then some ⟨some c!"Waste flow", [c!"waste"], some c!"mass"⟩
    else if t = c!"u" then some ⟨some c!"Product flow", [c!"unit unknown"], some c!"?"⟩
    else none
  unit := fun t => if t = c!"kg" then .ok (c!"[mass]", 1) else if t = c!"g" then .ok (c!"[mass]", 1 / 1000) else .error .valueError
  units := [(c!"mass", (c!"id of kg", c!"kg"))]

def exElem (fid amount internal : Str) (var : Option (Str × Option Str)) (unc : Option (Unc ℚ)) : Exch ℚ :=
  ⟨fid, [], [], [c!"n"], some amount, none, [fid], var, c!"Output", internal, unc⟩

/-- A waste as the reference input, two flows for one target, one without counterpart, one without data set and one
without unit. -/
def exchanges : List (Exch ℚ) := [
  ⟨c!"w", [], [], [c!"waste"], some c!"2", none, [], none, c!"Input", c!"0", none⟩,
  exElem c!"e1" c!"2" c!"1" (some (c!"v", some c!"a*2")) (some (.lognormal 1)),
  exElem c!"e2" c!"3" c!"2" none (some (.lognormal 1)),
  exElem c!"e3" c!"3" c!"3" none none,
  exElem c!"x" c!"3" c!"4" none none,
  exElem c!"u" c!"3" c!"5" none none]

def exState : St ℚ := match convertAll exEnv .empty exchanges with
  | .ok s => s
  | .error _ => .empty

theorem exState_ok : convertAll exEnv .empty exchanges = .ok exState := by decide +kernel

/-- The hypotheses of the theorems on the conversion of a data set. -/
example : exState.flows.map (fun f => (f.src.fid, f.field.amount)) = [(c!"w", 2), (c!"e1", 2), (c!"e2", 3 / 2)] ∧
    exState.reported.map (·.fid) = [c!"e3", c!"x"] ∧ exState.logged.map (·.fid) = [c!"u"] ∧
    exState.flows.map (fun f => f.field.id) = [c!"Pwaste", c!"Pcarbon dioxide", c!"Pcarbon dioxide1"] := by decide +kernel

/-- C36 fails: a product whose unit is not known is neither written nor reported to the user. -/
theorem unit_unknown_lost : exElem c!"u" c!"3" c!"5" none none ∈ exchanges ∧
    (∀ f ∈ exState.flows, f.src.fid ≠ c!"u") ∧ (∀ x ∈ exState.reported, x.fid ≠ c!"u") := by decide +kernel

/-- C72 fails: the waste that enters the process is written as its output, with the same amount. -/
theorem waste_becomes_output : ∃ f ∈ exState.flows, f.src.dir = c!"Input" ∧ f.field.amount = 2 ∧
    f.field.inputGroup = none ∧ f.field.outputGroup = some 0 := by decide +kernel

/-- C73 fails: an exchange in grams gets the identifier of the kilogram. -/
theorem unit_id_other : ∃ f ∈ exState.flows, f.field.unitName = c!"g" ∧ f.field.unitId = c!"id of kg" := by decide +kernel

/-- The hypotheses of the theorems on sums. -/
theorem exEnv_scale : ∀ u d c, exEnv.unit u = .ok (d, c) →
    (if u = c!"kg" then 1 else 1 / 1000 : ℚ) = c ∧ c ≠ 0 := by
  intro u d c h
  simp only [exEnv] at h
  split at h
  · rename_i e
    rw [if_pos e]
    have := (Prod.mk.inj (Except.ok.inj h)).2
    exact ⟨this, by rw [← this]; decide⟩
  · rename_i e
    rw [if_neg e]
    split at h
    · have := (Prod.mk.inj (Except.ok.inj h)).2
      exact ⟨this, by rw [← this]; decide +kernel⟩
    · cases h

/-- C64 fails, from ILCD to EcoSpold2: what is written for equal elementary flows depends on the order in which a set is
gone through, which is not determined by the data set: the amount is 2.0015 kg or 2001.5 g, with the formula of one
exchange or without formula, and the comments of the one or of the other. -/
theorem merge_order_matters : ∃ s1 s2, (exState.flows.filter (·.elem)).Perm (exState.flows.filter (·.elem)) ∧
    (exState.flows.filter (·.elem)).reverse.Perm (exState.flows.filter (·.elem)) ∧
    merge exEnv exState (exState.flows.filter (·.elem)) = .ok s1 ∧
    merge exEnv exState (exState.flows.filter (·.elem)).reverse = .ok s2 ∧
    s1.flows.map (fun f => (f.field.unitName, f.field.amount)) = [(c!"kg", 2), (c!"kg", 2 + 3 / 2000)] ∧
    s1.flows.map (fun f => (f.field.relation, f.field.comments)) = [(none, []), (some c!"a*2", [c!"e1", c!"e1"])] ∧
    s2.flows.map (fun f => (f.field.unitName, f.field.amount)) = [(c!"kg", 2), (c!"g", 2000 + 3 / 2)] ∧
    s2.flows.map (fun f => (f.field.relation, f.field.comments)) = [(none, []), (none, [c!"e2", c!"e2"])] := by
  refine ⟨match merge exEnv exState (exState.flows.filter (·.elem)) with | .ok s => s | .error _ => .empty,
    match merge exEnv exState (exState.flows.filter (·.elem)).reverse with | .ok s => s | .error _ => .empty,
    .refl _, List.reverse_perm _, ?_, ?_, ?_, ?_, ?_, ?_⟩ <;> decide +kernel

/-- C64 fails: the sum keeps the distribution of the first exchange, with its mean. -/
theorem merge_stale_example : ∃ s1, merge exEnv exState (exState.flows.filter (·.elem)) = .ok s1 ∧
    s1.flows.map (fun f => (f.field.amount, f.field.unc)) = [(2, none), (2 + 3 / 2000, some (.lognormal 2 1))] := by
  refine ⟨match merge exEnv exState (exState.flows.filter (·.elem)) with | .ok s => s | .error _ => .empty, ?_, ?_⟩ <;>
    decide +kernel

/-- The hypotheses of `elementary_reference_stops`. -/
example : convertAll exEnv .empty [exElem c!"e1" c!"2" c!"0" none none] = .error .valueError := by decide +kernel

end Verif.IlcdFlows
