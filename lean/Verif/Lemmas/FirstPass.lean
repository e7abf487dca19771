import Verif.Model.FirstPass
import Verif.Spec.FirstPass
import Verif.Lemmas.XmlStream
import Verif.Lemmas.XmlValue
import Verif.Props.XmlStream
import Verif.Lemmas.Assoc
import Verif.Lemmas.MapFile
import Mathlib.Data.List.Forall2

namespace Verif.FirstPass
open Verif.Xml Verif.Xml.Spec

/-! ### The loop, slot by slot -/

/-- What one value does to its slot. -/
def slotStep (slot : Slot) (old : Option PyVal) (e : Rule × PyVal) : Py (Option PyVal) :=
  match old with
  | none => e.1.apply e.2 >>= fun v => .ok (some (if slot.many then .list [v] else v))
  | some o =>
    if slot.many then e.1.apply e.2 >>= fun v =>
      match o with
      | .list l => .ok (some (.list (l ++ [v])))
      | _ => .error .attributeError
    else .ok (some o)

/-- The values read for a slot. -/
def entries (table : Table) (slot : Slot) (l : List (Str × PyVal)) : List (Rule × PyVal) :=
  l.filterMap fun p => match aget p.1 table with
    | some (s, r) => if s = slot then some (r, p.2) else none
    | none => none

theorem step_slot {table : Table} {info : Info} {p : Str × PyVal} {s : Slot} {r : Rule}
    (h : aget p.1 table = some (s, r)) :
    (∀ info', step table info p = .ok info' →
      slotStep s (aget s info) (r, p.2) = .ok (aget s info') ∧ ∀ t, t ≠ s → aget t info' = aget t info) ∧
    ((∃ o, slotStep s (aget s info) (r, p.2) = .ok o) → ∃ info', step table info p = .ok info') := by
  simp only [step, h, slotStep]
  cases hs : aget s info with
  | none =>
    simp only
    cases r.apply p.2 with
    | error e => simp [bind, Except.bind]
    | ok v =>
      simp only [bind, Except.bind, Except.ok.injEq]
      refine ⟨?_, fun _ => ⟨_, rfl⟩⟩
      rintro _ rfl
      refine ⟨by simp, fun t ht => by rw [aget_aset]; simp [ht]⟩
  | some o =>
    simp only
    split
    · cases r.apply p.2 with
      | error e => simp [bind, Except.bind]
      | ok v =>
        simp only [bind, Except.bind]
        cases o <;> simp only [Except.ok.injEq, reduceCtorEq, false_implies, implies_true,
          exists_false, and_self, false_and] <;> try (simp; done)
        refine ⟨?_, fun _ => ⟨_, rfl⟩⟩
        rintro _ rfl
        refine ⟨by simp, fun t ht => by rw [aget_aset]; simp [ht]⟩
    · simp only [Except.ok.injEq]
      refine ⟨?_, fun _ => ⟨_, rfl⟩⟩
      rintro _ rfl
      exact ⟨by rw [hs], fun _ _ => rfl⟩

theorem gather_slots (table : Table) (l : List (Str × PyVal)) (info : Info)
    (hl : ∀ p ∈ l, (aget p.1 table).isSome = true) :
    (∀ info', gather table info l = .ok info' →
      ∀ t, (entries table t l).foldlM (slotStep t) (aget t info) = .ok (aget t info')) ∧
    ((∀ t, ∃ o, (entries table t l).foldlM (slotStep t) (aget t info) = .ok o) →
      ∃ info', gather table info l = .ok info') := by
  induction l generalizing info with
  | nil => simp [gather, entries, pure, Except.pure]
  | cons p l ih =>
    obtain ⟨⟨s, r⟩, hp⟩ := Option.isSome_iff_exists.1 (hl p (by simp))
    obtain ⟨h1, h2⟩ := step_slot (info := info) hp
    have he : ∀ t, entries table t (p :: l) =
        if s = t then (r, p.2) :: entries table t l else entries table t l := by
      intro t; simp only [entries, List.filterMap_cons, hp]; split <;> simp_all
    simp only [gather]
    constructor
    · intro info' h t
      cases hst : step table info p with
      | error e => rw [hst] at h; simp [bind, Except.bind] at h
      | ok i1 =>
        rw [hst] at h
        have h3 := (ih i1 fun q hq => hl q (by simp [hq])).1 info' h t
        obtain ⟨h4, h5⟩ := h1 i1 hst
        rw [he]
        split
        · rename_i hts; subst hts
          simp only [List.foldlM_cons, h4]; exact h3
        · rename_i hts
          rw [← h5 t (fun h => hts h.symm)]; exact h3
    · intro h
      have hs := h s
      rw [he, if_pos rfl] at hs
      obtain ⟨o, ho⟩ := hs
      simp only [List.foldlM_cons] at ho
      cases hst : slotStep s (aget s info) (r, p.2) with
      | error e => rw [hst] at ho; simp [bind, Except.bind] at ho
      | ok o1 =>
        rw [hst] at ho
        obtain ⟨i1, hi1⟩ := h2 ⟨o1, hst⟩
        obtain ⟨h4, h5⟩ := h1 i1 hi1
        rw [hst] at h4
        simp only [Except.ok.injEq] at h4
        rw [hi1]
        refine (ih i1 fun q hq => hl q (by simp [hq])).2 fun t => ?_
        by_cases hts : s = t
        · subst hts; rw [← h4]; exact ⟨o, ho⟩
        · rw [h5 t (fun h => hts h.symm)]
          have := h t
          rwa [he, if_neg hts] at this

/-- A slot of which only the first value counts. -/
theorem once_ok (t : Slot) (ht : t.many = false) (es : List (Rule × PyVal)) (o : Option PyVal) :
    es.foldlM (slotStep t) none = .ok o ↔
      (es = [] ∧ o = none) ∨ ∃ e es' v, es = e :: es' ∧ e.1.apply e.2 = .ok v ∧ o = some v := by
  have keep : ∀ (es : List (Rule × PyVal)) (v : PyVal), es.foldlM (slotStep t) (some v) = .ok (some v) := by
    intro es v
    induction es with
    | nil => rfl
    | cons e es ih => simp only [List.foldlM_cons, slotStep, ht]; exact ih
  cases es with
  | nil => simp [pure, Except.pure, eq_comm]
  | cons e es =>
    simp only [List.foldlM_cons, slotStep, ht]
    cases hv : e.1.apply e.2 with
    | error x => simp [bind, Except.bind, hv]
    | ok v =>
      simp only [bind, Except.bind, Bool.false_eq_true, if_false]
      have := keep es v
      rw [this]
      simp only [Except.ok.injEq, reduceCtorEq, false_and, false_or, List.cons.injEq]
      constructor
      · rintro rfl; exact ⟨e, es, v, ⟨rfl, rfl⟩, hv, rfl⟩
      · rintro ⟨_, _, v', ⟨rfl, rfl⟩, hv', rfl⟩
        rw [hv] at hv'; cases hv'; rfl

/-- The slot of which all values are kept. -/
theorem many_from (t : Slot) (ht : t.many = true) (es : List (Rule × PyVal)) (l : List PyVal)
    (o : Option PyVal) :
    es.foldlM (slotStep t) (some (.list l)) = .ok o ↔
      ∃ m, List.Forall₂ (fun e v => e.1.apply e.2 = .ok v) es m ∧ o = some (.list (l ++ m)) := by
  induction es generalizing l with
  | nil => simp [pure, Except.pure, eq_comm]
  | cons e es ih =>
    simp only [List.foldlM_cons, slotStep, ht, if_true]
    cases hv : e.1.apply e.2 with
    | error x =>
      simp only [bind, Except.bind, reduceCtorEq, false_iff]
      rintro ⟨_, h, _⟩
      cases h with
      | cons h _ => rw [hv] at h; cases h
    | ok v =>
      simp only [bind, Except.bind]
      have := ih (l ++ [v])
      rw [show (List.foldlM (slotStep t) (some (PyVal.list (l ++ [v]))) es = .ok o) ↔ _ from ih (l ++ [v])]
      constructor
      · rintro ⟨m, hm, rfl⟩
        exact ⟨v :: m, .cons hv hm, by simp⟩
      · rintro ⟨_, h, rfl⟩
        cases h with
        | cons h hm =>
          rw [hv] at h; cases h
          exact ⟨_, hm, by simp⟩

theorem many_ok (t : Slot) (ht : t.many = true) (es : List (Rule × PyVal)) (o : Option PyVal) :
    es.foldlM (slotStep t) none = .ok o ↔
      (es = [] ∧ o = none) ∨ (es ≠ [] ∧
        ∃ m, List.Forall₂ (fun e v => e.1.apply e.2 = .ok v) es m ∧ o = some (.list m)) := by
  cases es with
  | nil => simp [pure, Except.pure, eq_comm]
  | cons e es =>
    simp only [reduceCtorEq, false_and, false_or, ne_eq, not_false_eq_true, true_and]
    simp only [List.foldlM_cons, slotStep, ht, if_true]
    cases hv : e.1.apply e.2 with
    | error x =>
      simp only [bind, Except.bind, reduceCtorEq, false_iff]
      rintro ⟨_, h, _⟩
      cases h with
      | cons h _ => rw [hv] at h; cases h
    | ok v =>
      simp only [bind, Except.bind]
      rw [many_from t ht]
      constructor
      · rintro ⟨m, hm, rfl⟩
        exact ⟨v :: m, .cons hv hm, by simp⟩
      · rintro ⟨_, h, rfl⟩
        cases h with
        | cons h hm =>
          rw [hv] at h; cases h
          exact ⟨_, hm, by simp⟩

/-- The values read for a slot when one path at most feeds it. -/
theorem entries_path {table : Table} {t : Slot} {k : Str} {r : Rule} {l : List (Str × PyVal)}
    (hk : aget k table = some (t, r))
    (h : ∀ p ∈ l, p.1 ≠ k → ∀ r', aget p.1 table ≠ some (t, r')) :
    entries table t l = ((l.filter fun p => decide (p.1 = k)).map Prod.snd).map fun v => (r, v) := by
  induction l with
  | nil => rfl
  | cons p l ih =>
    have ih := ih fun q hq => h q (by simp [hq])
    have hp := h p (by simp)
    rw [entries] at ih ⊢
    by_cases hpk : p.1 = k
    · simp only [List.filterMap_cons, hpk, hk, if_true, List.filter_cons, decide_true, List.map_cons]
      rw [ih]
    · simp only [List.filterMap_cons, List.filter_cons, hpk, decide_false, Bool.false_eq_true, if_false]
      rw [← ih]
      cases ha : aget p.1 table with
      | none => rfl
      | some q =>
        obtain ⟨s, r'⟩ := q
        simp only
        rw [if_neg]
        rintro rfl
        exact hp hpk r' ha

/-- What the first pass leaves in a slot. -/
def run (table : Table) (doc : Elem) (t : Slot) : Py (Option PyVal) :=
  (entries table t (read (table.map Prod.fst) doc)).foldlM (slotStep t) none

theorem read_entry {table : Table} {doc : Elem} (hdoc : WellNamed doc) :
    ∀ p ∈ read (table.map Prod.fst) doc, (aget p.1 table).isSome = true := by
  intro p hp
  rw [read_visit _ _ hdoc] at hp
  exact (aget_isSome _ _).2 (visit_mem_keys _ _ _ p hp)

/-- The whole first pass, slot by slot. -/
theorem firstPass_ok_iff (table : Table) (doc : Elem) (hdoc : WellNamed doc) :
    (∃ r, firstPass table doc = .ok r) ↔ ∀ t, ∃ o, run table doc t = .ok o := by
  obtain ⟨h1, h2⟩ := gather_slots table (read (table.map Prod.fst) doc) [] (read_entry hdoc)
  simp only [firstPass]
  cases hg : gather table [] (read (table.map Prod.fst) doc) with
  | error e =>
    simp only [bind, Except.bind, reduceCtorEq, exists_false, false_iff]
    intro h
    obtain ⟨i, hi⟩ := h2 h
    rw [hg] at hi; cases hi
  | ok i =>
    simp only [bind, Except.bind, Except.ok.injEq, exists_eq', true_iff]
    exact fun t => ⟨_, h1 i hg t⟩

theorem firstPass_slots {table : Table} {doc : Elem} (hdoc : WellNamed doc) {r : Result}
    (h : firstPass table doc = .ok r) :
    run table doc .version = .ok r.version ∧ run table doc .filename = .ok r.filename ∧
    ∀ t, t ≠ .version → t ≠ .filename → run table doc t = .ok (aget t r.rest) := by
  obtain ⟨h1, -⟩ := gather_slots table (read (table.map Prod.fst) doc) [] (read_entry hdoc)
  simp only [firstPass] at h
  cases hg : gather table [] (read (table.map Prod.fst) doc) with
  | error e => rw [hg] at h; simp [bind, Except.bind] at h
  | ok i =>
    rw [hg] at h
    simp only [bind, Except.bind, Except.ok.injEq] at h
    subst h
    refine ⟨h1 i hg _, h1 i hg _, fun t ht1 ht2 => ?_⟩
    have := h1 i hg t
    rw [MapFile.aget_adel _ _ _ ht2, MapFile.aget_adel _ _ _ ht1]
    exact this

/-! ### Values of elements -/

theorem item_dict (k : Str) (d : List (Str × PyVal)) (v : PyVal) :
    item k (.dict d) = .ok v ↔ aget k d = some v := by
  simp only [item]; cases aget k d <;> simp

theorem collapse_dict {D d : List (Str × PyVal)} (h : collapse D = .dict d)
    (hs : ∀ v, aget c!"#text" D = some v → ∃ s, v = .str s) : d = D := by
  unfold collapse at h
  split at h
  · split at h
    · rename_i k v hk
      subst hk
      obtain ⟨s, rfl⟩ := hs v (by simp [aget])
      cases h
    · simpa using h.symm
  · simpa using h.symm

theorem item_text (e : Elem) (he : WellNamed e) (v : PyVal) :
    item c!"#text" (elem2dict e) = .ok v ↔ ∃ s, Spec.Labelled e s ∧ v = .str s := by
  have hr := element_represented e he
  cases he with
  | mk tag attrs text children tail hname ha hn hc =>
    have ht := fullDict_text (text := text) hn hc
    have hw : elem2dict (.mk tag attrs text children tail) = collapse (fullDict attrs text children) := by
      simp only [elem2dict, fullDict]
    generalize elem2dict (.mk tag attrs text children tail) = w at hr hw
    cases hr with
    | text tag s tail hs => simp [item, Spec.Labelled, Elem.text, Elem.attrs, Elem.children]
    | dict tag attrs text children tail d value h1 h2 h3 h4 h5 h6 h7 =>
      have hd : d = fullDict attrs text children := by
        refine collapse_dict hw.symm fun v hv => ?_
        rw [ht] at hv
        split at hv
        · exact ⟨_, (Option.some.inj hv).symm⟩
        · split at hv
          · exact ⟨_, (Option.some.inj hv).symm⟩
          · cases hv
      rw [item_dict, hd, ht]
      simp only [Spec.Labelled, Elem.text, Elem.attrs, Elem.children]
      cases hx : textEntry text with
      | some s =>
        obtain ⟨rfl, hv⟩ := (textEntry_iff text s).1 hx
        have hne : attrs ≠ [] ∨ children ≠ [] := by
          rcases h1 with h | h | h
          · exact .inl h
          · exact .inr h
          · exact absurd hv (h s rfl)
        simp only [Option.some.injEq]
        constructor
        · rintro rfl; exact ⟨s, .inl ⟨rfl, hv, hne⟩, rfl⟩
        · rintro ⟨s', ⟨rfl, -⟩ | ⟨h, -⟩, rfl⟩
          · rfl
          · exact absurd hv (h s rfl)
      | none =>
        have hnv : ∀ t, text = some t → ¬ Visible t := fun t ht' hv => by
          rw [(textEntry_iff text t).2 ⟨ht', hv⟩] at hx; cases hx
        simp only
        constructor
        · intro h
          split at h
          · rename_i hh
            exact ⟨[], .inr ⟨hnv, rfl, hh.1, hh.2⟩, (Option.some.inj h).symm⟩
          · cases h
        · rintro ⟨s, ⟨h, hv, -⟩ | ⟨-, rfl, h1, h2⟩, rfl⟩
          · exact absurd hv (hnv s h)
          · rw [if_pos ⟨h1, h2⟩]

/-- The entry of a child is a value on its own only when the child is alone. -/
theorem item_child (e : Elem) (he : WellNamed e) (n : Str) (hn : Name n) (v : PyVal) :
    item n (elem2dict e) = .ok v ↔
      (∃ c, Spec.named n e = [c] ∧ v = elem2dict c) ∨
      (2 ≤ (Spec.named n e).length ∧ v = .list ((Spec.named n e).map elem2dict)) := by
  by_cases hc : ∃ c ∈ e.children, localName c.tag = n
  · obtain ⟨d, hd, h⟩ := children_kept e he n hn hc
    rw [hd, item_dict]
    simp only [Spec.named]
    rcases h with ⟨c, h1, h2⟩ | ⟨h1, h2⟩
    · rw [h2, h1]; simp [eq_comm]
    · rw [h2]
      constructor
      · intro h; exact .inr ⟨h1, (Option.some.inj h).symm⟩
      · rintro (⟨c, h, -⟩ | ⟨-, rfl⟩)
        · rw [h] at h1; simp at h1
        · rfl
  · have h0 : Spec.named n e = [] := by
      simp only [Spec.named, List.filter_eq_nil_iff, decide_eq_true_eq]
      exact fun c hc1 hc2 => hc ⟨c, hc1, hc2⟩
    rw [h0]
    refine iff_of_false ?_ (by simp)
    have h := element_represented e he
    generalize elem2dict e = w at h
    cases h with
    | text tag s tail hs => simp [item]
    | dict tag attrs text children tail d value h1 h2 h3 h4 h5 h6 h7 =>
      have := h4 n hn
      simp only [Spec.named, Elem.children] at h0
      rw [h0] at this
      rw [item_dict]
      intro h
      rw [h] at this
      rcases this with h | ⟨l, -, h, hl⟩
      · simp at h
      · simp at h; subst h; simp at hl

theorem item_attr (e : Elem) (he : WellNamed e) (n : Str) (hn : Name n) (v : PyVal) :
    item ('@' :: n) (elem2dict e) = .ok v ↔ ∃ a ∈ e.attrs, localName a.1 = n ∧ v = .str a.2 := by
  have h := element_represented e he
  generalize elem2dict e = w at h
  cases h with
  | text tag s tail hs => simp [item, Elem.attrs]
  | dict tag attrs text children tail d value h1 h2 h3 h4 h5 h6 h7 =>
    have := h3 n v hn
    simp only [item, Elem.attrs]
    rw [← this]
    cases aget ('@' :: n) d <;> simp

theorem child_wellNamed {e c : Elem} (he : WellNamed e) (hc : c ∈ e.children) : WellNamed c := by
  cases he with
  | mk _ _ _ _ _ _ _ _ h => exact h c hc

theorem named_wellNamed {n : Str} {e c : Elem} (he : WellNamed e) (h : Spec.named n e = [c]) : WellNamed c :=
  child_wellNamed he (List.mem_filter.1 (by rw [← Spec.named, h]; simp : c ∈ e.children.filter _)).1

theorem bind_ok {α β : Type} {x : Py α} {f : α → Py β} {b : β} :
    (x >>= f) = .ok b ↔ ∃ a, x = .ok a ∧ f a = .ok b := by
  cases x <;> simp [bind, Except.bind]

/-- The rule for exchanges. -/
theorem flow_apply (e : Elem) (he : WellNamed e) (v : PyVal) :
    Rule.flow.apply (elem2dict e) = .ok v ↔
      ∃ i s, Spec.FlowOf e i s ∧ v = .list [.str i, .str s] := by
  have noList : ∀ (k : Str) (l : List PyVal) (w : PyVal), item k (.list l) ≠ .ok w := by
    intro k l w h; simp [item] at h
  simp only [Rule.apply, bind_ok]
  constructor
  · rintro ⟨i, hi, r, hr, d, hd, n, hn, hv⟩
    obtain ⟨a, ha, han, rfl⟩ := (item_attr e he _ (by decide) i).1 hi
    rcases (item_child e he _ (by decide) r).1 hr with ⟨c, hc, rfl⟩ | ⟨-, rfl⟩
    · have hcw := named_wellNamed he hc
      rcases (item_child c hcw _ (by decide) d).1 hd with ⟨c', hc', rfl⟩ | ⟨-, rfl⟩
      · have hcw' := named_wellNamed hcw hc'
        obtain ⟨s, hs, rfl⟩ := (item_text c' hcw' n).1 hn
        simp only [Except.ok.injEq] at hv
        exact ⟨a.2, s, ⟨⟨a, ha, han, rfl⟩, c, hc, c', hc', hs⟩, hv.symm⟩
      · exact absurd hn (noList _ _ _)
    · exact absurd hd (noList _ _ _)
  · rintro ⟨i, s, ⟨⟨a, ha, han, rfl⟩, c, hc, c', hc', hs⟩, rfl⟩
    have hcw := named_wellNamed he hc
    have hcw' := named_wellNamed hcw hc'
    exact ⟨_, (item_attr e he _ (by decide) _).2 ⟨a, ha, han, rfl⟩, _,
      (item_child e he _ (by decide) _).2 (.inl ⟨c, hc, rfl⟩), _,
      (item_child c hcw _ (by decide) _).2 (.inl ⟨c', hc', rfl⟩), _,
      (item_text c' hcw' _).2 ⟨s, hs, rfl⟩, rfl⟩

/-- The rule for names that may be without language. -/
theorem entryOr_apply (e : Elem) (he : WellNamed e) (v : PyVal) :
    Rule.entryOr.apply (elem2dict e) = .ok v ↔ ∃ s, Spec.Written e s ∧ v = .str s := by
  have ht := item_text e he v
  have h := element_represented e he
  generalize elem2dict e = w at h ht
  cases h with
  | text tag s tail hs =>
    simp only [Rule.apply, Except.ok.injEq, Spec.Written, Elem.text, Option.some.injEq]
    constructor
    · rintro rfl; exact ⟨s, .inl ⟨rfl, hs⟩, rfl⟩
    · rintro ⟨s', ⟨rfl, -⟩ | h, rfl⟩
      · rfl
      · simp [Spec.Labelled, Elem.text, Elem.attrs, Elem.children] at h
  | dict tag attrs text children tail d value h1 h2 h3 h4 h5 h6 h7 =>
    simp only [Rule.apply]
    rw [ht]
    constructor
    · rintro ⟨s, h, rfl⟩; exact ⟨s, .inr h, rfl⟩
    · rintro ⟨s, ⟨hx, hv⟩ | h, rfl⟩
      · refine ⟨s, .inl ⟨hx, hv, ?_⟩, rfl⟩
        rcases h1 with h | h | h
        · exact .inl h
        · exact .inr h
        · exact absurd hv (h s hx)
      · exact ⟨s, h, rfl⟩

theorem select_wellNamed (ns : List Str) (l : List Elem) (hl : ∀ e ∈ l, WellNamed e) :
    ∀ e ∈ select ns l, WellNamed e := by
  match ns with
  | [] => simp [select]
  | [n] => intro e he; simp only [select, List.mem_filter] at he; exact hl e he.1
  | n :: m :: ns =>
    intro e he
    simp only [select, List.mem_flatMap, List.mem_filter] at he
    obtain ⟨c, ⟨hc, -⟩, he⟩ := he
    exact select_wellNamed (m :: ns) c.children (fun e h => child_wellNamed (hl c hc) h) e he

/-! ### Slots fed by one path -/

/-- Elements under one path, of which the first counts. -/
theorem run_once {table : Table} {doc : Elem} (hdoc : WellNamed doc) {t : Slot} (ht : t.many = false)
    {ns : List Str} {rule : Rule} (hne : ns ≠ []) (hns : ∀ n ∈ ns, Name n)
    (hk : aget (pathText ns) table = some (t, rule))
    (hu : ∀ p ∈ read (table.map Prod.fst) doc, p.1 ≠ pathText ns → ∀ r', aget p.1 table ≠ some (t, r'))
    (o : Option PyVal) :
    run table doc t = .ok o ↔ (select ns [doc] = [] ∧ o = none) ∨
      ∃ e l v, select ns [doc] = e :: l ∧ rule.apply (elem2dict e) = .ok v ∧ o = some v := by
  have hm : pathText ns ∈ table.map Prod.fst := (aget_isSome _ _).1 (by rw [hk]; rfl)
  rw [run, entries_path hk hu, elements_delivered _ doc hdoc ns hne hns, if_pos hm, once_ok t ht]
  cases select ns [doc] with
  | nil => simp
  | cons e l =>
    simp only [List.map_cons, reduceCtorEq, false_and, false_or, List.cons.injEq]
    constructor
    · rintro ⟨_, _, v, ⟨rfl, rfl⟩, hv, rfl⟩; exact ⟨e, l, v, ⟨rfl, rfl⟩, hv, rfl⟩
    · rintro ⟨_, _, v, ⟨rfl, rfl⟩, hv, rfl⟩; exact ⟨_, _, v, ⟨rfl, rfl⟩, hv, rfl⟩

/-- An attribute of the elements under one path, of which the first counts. -/
theorem run_attr {table : Table} {doc : Elem} (hdoc : WellNamed doc) {t : Slot} (ht : t.many = false)
    {ns : List Str} {a : Str} {rule : Rule} (hne : ns ≠ []) (hns : ∀ n ∈ ns, Name n)
    (hk : aget (pathText ns ++ c!"/@" ++ a) table = some (t, rule))
    (hu : ∀ p ∈ read (table.map Prod.fst) doc, p.1 ≠ pathText ns ++ c!"/@" ++ a →
      ∀ r', aget p.1 table ≠ some (t, r'))
    (o : Option PyVal) :
    run table doc t = .ok o ↔ (Spec.attrValues a (select ns [doc]) = [] ∧ o = none) ∨
      ∃ s l v, Spec.attrValues a (select ns [doc]) = s :: l ∧ rule.apply (.str s) = .ok v ∧ o = some v := by
  have hm : pathText ns ++ c!"/@" ++ a ∈ table.map Prod.fst := (aget_isSome _ _).1 (by rw [hk]; rfl)
  have hv : ((select ns [doc]).flatMap fun e => (e.attrs.filter fun p => p.1 = a).map fun p => PyVal.str p.2) =
      (Spec.attrValues a (select ns [doc])).map .str := by
    simp only [Spec.attrValues, List.map_flatMap, List.map_map]; rfl
  rw [run, entries_path hk hu, attributes_delivered _ doc hdoc ns hne hns, if_pos hm, hv, once_ok t ht]
  cases Spec.attrValues a (select ns [doc]) with
  | nil => simp
  | cons e l =>
    simp only [List.map_cons, reduceCtorEq, false_and, false_or, List.cons.injEq]
    constructor
    · rintro ⟨_, _, v, ⟨rfl, rfl⟩, hv, rfl⟩; exact ⟨e, l, v, ⟨rfl, rfl⟩, hv, rfl⟩
    · rintro ⟨_, _, v, ⟨rfl, rfl⟩, hv, rfl⟩; exact ⟨_, _, v, ⟨rfl, rfl⟩, hv, rfl⟩

/-- Elements under one path, all of which count. -/
theorem run_many {table : Table} {doc : Elem} (hdoc : WellNamed doc) {t : Slot} (ht : t.many = true)
    {ns : List Str} {rule : Rule} (hne : ns ≠ []) (hns : ∀ n ∈ ns, Name n)
    (hk : aget (pathText ns) table = some (t, rule))
    (hu : ∀ p ∈ read (table.map Prod.fst) doc, p.1 ≠ pathText ns → ∀ r', aget p.1 table ≠ some (t, r'))
    (o : Option PyVal) :
    run table doc t = .ok o ↔ (select ns [doc] = [] ∧ o = none) ∨
      (select ns [doc] ≠ [] ∧
        ∃ m, List.Forall₂ (fun e v => rule.apply (elem2dict e) = .ok v) (select ns [doc]) m ∧
          o = some (.list m)) := by
  have hm : pathText ns ∈ table.map Prod.fst := (aget_isSome _ _).1 (by rw [hk]; rfl)
  rw [run, entries_path hk hu, elements_delivered _ doc hdoc ns hne hns, if_pos hm, many_ok t ht]
  simp only [List.map_eq_nil_iff, List.forall₂_map_left_iff, ne_eq]

end Verif.FirstPass
