/-
C160, C161, C162: what the first pass over a file finds.
-/
import Verif.Lemmas.FirstPass

namespace Verif.FirstPass
open Verif.Xml Verif.Xml.Spec

theorem alone {table : Table} {doc : Elem} (hdoc : WellNamed doc) {t : Slot} {k : Str}
    (h : ∀ q ∈ table.map Prod.fst, q ≠ k → (aget q table).map Prod.fst ≠ some t) :
    ∀ p ∈ read (table.map Prod.fst) doc, p.1 ≠ k → ∀ r', aget p.1 table ≠ some (t, r') := by
  intro p hp hk r' hr
  rw [read_visit _ _ hdoc] at hp
  have := h p.1 (visit_mem_keys _ _ _ p hp) hk
  rw [hr] at this
  exact this rfl

theorem run_absent {table : Table} {doc : Elem} (hdoc : WellNamed doc) {t : Slot}
    (h : ∀ q ∈ table.map Prod.fst, (aget q table).map Prod.fst ≠ some t) : run table doc t = .ok none := by
  have he : entries table t (read (table.map Prod.fst) doc) = [] := by
    rw [entries, List.filterMap_eq_nil_iff]
    intro p hp
    rw [read_visit _ _ hdoc] at hp
    have := h p.1 (visit_mem_keys _ _ _ p hp)
    cases ha : aget p.1 table with
    | none => rfl
    | some q =>
      obtain ⟨s, r⟩ := q
      rw [ha] at this
      simp only [Option.map_some, ne_eq, Option.some.injEq] at this
      simp [this]
  rw [run, he]; rfl

theorem forall₂_left {α β : Type} {R : α → β → Prop} {l : List α} {m : List β}
    (h : List.Forall₂ R l m) : ∀ a ∈ l, ∃ b ∈ m, R a b := by
  induction h with
  | nil => simp
  | cons h _ ih =>
    intro a ha
    rcases List.mem_cons.1 ha with rfl | ha
    · exact ⟨_, by simp, h⟩
    · obtain ⟨b, hb, hr⟩ := ih a ha; exact ⟨b, by simp [hb], hr⟩

theorem forall₂_of {α β : Type} {R : α → β → Prop} {l : List α} (h : ∀ a ∈ l, ∃ b, R a b) :
    ∃ m, List.Forall₂ R l m := by
  induction l with
  | nil => exact ⟨[], .nil⟩
  | cons a l ih =>
    obtain ⟨b, hb⟩ := h a (by simp)
    obtain ⟨m, hm⟩ := ih fun a ha => h a (by simp [ha])
    exact ⟨b :: m, .cons hb hm⟩

/-! ### C160: ILCD files -/

theorem ilcd_filename (doc : Elem) (hdoc : WellNamed doc) (o : Option PyVal) :
    run ilcdTable doc .filename = .ok o ↔ (select Spec.namePath [doc] = [] ∧ o = none) ∨
      ∃ e l s, select Spec.namePath [doc] = e :: l ∧ Spec.Labelled e s ∧ o = some (.str s) := by
  rw [run_once (ns := Spec.namePath) (rule := .entry) hdoc rfl (by decide) (by decide) (by decide +kernel)
    (alone hdoc (by decide +kernel))]
  refine or_congr_right ?_
  constructor
  · rintro ⟨e, l, v, he, hv, rfl⟩
    have hw := select_wellNamed Spec.namePath [doc] (by simpa using hdoc) e (by rw [he]; simp)
    obtain ⟨s, hs, rfl⟩ := (item_text e hw v).1 hv
    exact ⟨e, l, s, he, hs, rfl⟩
  · rintro ⟨e, l, s, he, hs, rfl⟩
    have hw := select_wellNamed Spec.namePath [doc] (by simpa using hdoc) e (by rw [he]; simp)
    exact ⟨e, l, _, he, (item_text e hw _).2 ⟨s, hs, rfl⟩, rfl⟩

theorem ilcd_version (doc : Elem) (hdoc : WellNamed doc) :
    run ilcdTable doc .version = .ok
      ((Spec.attrValues c!"version" (select [c!"processDataSet"] [doc])).head?.map fun v =>
        .list (((splitOn '.' v).take 2).map .str)) := by
  rw [run_attr (ns := [c!"processDataSet"]) (a := c!"version") (rule := .numbers) hdoc rfl (by decide)
    (by decide) (by decide +kernel) (alone hdoc (by decide +kernel))]
  cases Spec.attrValues c!"version" (select [c!"processDataSet"] [doc]) with
  | nil => simp
  | cons s l => exact .inr ⟨s, l, _, rfl, rfl, rfl⟩

theorem ilcd_flows (doc : Elem) (hdoc : WellNamed doc) (o : Option PyVal) :
    run ilcdTable doc .flows = .ok o ↔ (select Spec.exchangePath [doc] = [] ∧ o = none) ∨
      (select Spec.exchangePath [doc] ≠ [] ∧ ∃ m : List (Str × Str),
        List.Forall₂ (fun e p => Spec.FlowOf e p.1 p.2) (select Spec.exchangePath [doc]) m ∧
        o = some (.list (m.map fun p => .list [.str p.1, .str p.2]))) := by
  rw [run_many (ns := Spec.exchangePath) (rule := .flow) hdoc rfl (by decide) (by decide) (by decide +kernel)
    (alone hdoc (by decide +kernel))]
  refine or_congr_right (and_congr_right fun _ => ?_)
  have hw := select_wellNamed Spec.exchangePath [doc] (by simpa using hdoc)
  generalize select Spec.exchangePath [doc] = l at hw
  constructor
  · rintro ⟨m, hm, rfl⟩
    suffices ∃ m' : List (Str × Str), List.Forall₂ (fun e p => Spec.FlowOf e p.1 p.2) l m' ∧
        m = m'.map fun p => .list [.str p.1, .str p.2] by
      obtain ⟨m', h1, rfl⟩ := this
      exact ⟨m', h1, rfl⟩
    induction hm with
    | nil => exact ⟨[], .nil, rfl⟩
    | cons h _ ih =>
      obtain ⟨i, s, hf, rfl⟩ := (flow_apply _ (hw _ (by simp)) _).1 h
      obtain ⟨m', h1, rfl⟩ := ih fun e he => hw e (by simp [he])
      exact ⟨(i, s) :: m', .cons hf h1, rfl⟩
  · rintro ⟨m, hm, rfl⟩
    refine ⟨_, ?_, rfl⟩
    induction hm with
    | nil => exact .nil
    | cons h _ ih =>
      exact .cons ((flow_apply _ (hw _ (by simp)) _).2 ⟨_, _, h, rfl⟩) (ih fun e he => hw e (by simp [he]))

/-- The first pass over an ILCD file succeeds exactly if the first base name carries an attribute (or
is empty with a language) and every exchange has a number and one flow with one description that does
the same. Several languages of a description, or a description without `xml:lang`, stop the file. -/
theorem ilcd_first_pass_iff (doc : Elem) (hdoc : WellNamed doc) :
    (∃ r, firstPass ilcdTable doc = .ok r) ↔
      (∀ e, (select Spec.namePath [doc]).head? = some e → ∃ s, Spec.Labelled e s) ∧
      ∀ e ∈ select Spec.exchangePath [doc], ∃ i s, Spec.FlowOf e i s := by
  rw [firstPass_ok_iff _ _ hdoc]
  constructor
  · intro h
    obtain ⟨o, ho⟩ := h .filename
    obtain ⟨o', ho'⟩ := h .flows
    rw [ilcd_filename _ hdoc] at ho
    rw [ilcd_flows _ hdoc] at ho'
    constructor
    · intro e he
      rcases ho with ⟨h, -⟩ | ⟨e', l, s, h, hs, -⟩
      · rw [h] at he; cases he
      · rw [h] at he; cases he; exact ⟨s, hs⟩
    · intro e he
      rcases ho' with ⟨h, -⟩ | ⟨-, m, hm, -⟩
      · rw [h] at he; cases he
      · obtain ⟨p, -, hp⟩ := forall₂_left hm e he
        exact ⟨_, _, hp⟩
  · rintro ⟨h1, h2⟩ t
    cases t with
    | version => exact ⟨_, ilcd_version doc hdoc⟩
    | language => exact ⟨_, run_absent hdoc (by decide +kernel)⟩
    | filename =>
      simp only [ilcd_filename _ hdoc]
      cases hs : select Spec.namePath [doc] with
      | nil => exact ⟨_, .inl ⟨rfl, rfl⟩⟩
      | cons e l =>
        obtain ⟨s, hl⟩ := h1 e (by rw [hs]; rfl)
        exact ⟨_, .inr ⟨e, l, s, rfl, hl, rfl⟩⟩
    | flows =>
      simp only [ilcd_flows _ hdoc]
      by_cases hs : select Spec.exchangePath [doc] = []
      · exact ⟨_, .inl ⟨hs, rfl⟩⟩
      · obtain ⟨m, hm⟩ := forall₂_of (R := fun e (p : Str × Str) => Spec.FlowOf e p.1 p.2)
          fun e he => (h2 e he).elim fun i hi => hi.elim fun s hs => ⟨(i, s), hs⟩
        exact ⟨_, .inr ⟨hs, m, hm, rfl⟩⟩

/-- What the first pass finds: the text of the first base name, the first two parts of the version,
and number and name of every exchange in the order of the file. -/
theorem ilcd_first_pass (doc : Elem) (hdoc : WellNamed doc) (r : Result)
    (h : firstPass ilcdTable doc = .ok r) :
    ((select Spec.namePath [doc] = [] ∧ r.filename = none) ∨
      ∃ e l s, select Spec.namePath [doc] = e :: l ∧ Spec.Labelled e s ∧ r.filename = some (.str s)) ∧
    (r.version = (Spec.attrValues c!"version" (select [c!"processDataSet"] [doc])).head?.map fun v =>
        .list (((splitOn '.' v).take 2).map .str)) ∧
    ((select Spec.exchangePath [doc] = [] ∧ aget .flows r.rest = none) ∨
      (select Spec.exchangePath [doc] ≠ [] ∧ ∃ m : List (Str × Str),
        List.Forall₂ (fun e p => Spec.FlowOf e p.1 p.2) (select Spec.exchangePath [doc]) m ∧
        aget .flows r.rest = some (.list (m.map fun p => .list [.str p.1, .str p.2])))) ∧
    aget .language r.rest = none := by
  obtain ⟨h1, h2, h3⟩ := firstPass_slots hdoc h
  refine ⟨(ilcd_filename _ hdoc _).1 h2, ?_, (ilcd_flows _ hdoc _).1 (h3 _ (by decide) (by decide)), ?_⟩
  · rw [ilcd_version _ hdoc] at h1; exact (Except.ok.inj h1).symm
  · have := h3 .language (by decide) (by decide)
    rw [run_absent hdoc (by decide +kernel)] at this; exact (Except.ok.inj this).symm

/-- A number and a name at most belong to an exchange. -/
theorem flowOf_unique {e : Elem} (he : WellNamed e) {i s i' s' : Str} (h : Spec.FlowOf e i s)
    (h' : Spec.FlowOf e i' s') : i = i' ∧ s = s' := by
  have h1 := (flow_apply e he _).2 ⟨i, s, h, rfl⟩
  have h2 := (flow_apply e he _).2 ⟨i', s', h', rfl⟩
  rw [h1] at h2
  simpa using h2

/-- Two descriptions of a flow stop the file. -/
theorem two_descriptions_stop (doc : Elem) (hdoc : WellNamed doc) (e r : Elem)
    (he : e ∈ select Spec.exchangePath [doc]) (hr : r ∈ Spec.named c!"referenceToFlowDataSet" e)
    (h2 : 2 ≤ (Spec.named c!"shortDescription" r).length) :
    ∀ x, firstPass ilcdTable doc ≠ .ok x := by
  intro x hx
  obtain ⟨i, s, -, r', hr', d, hd, -⟩ := ((ilcd_first_pass_iff doc hdoc).1 ⟨x, hx⟩).2 e he
  rw [hr'] at hr
  simp only [List.mem_singleton] at hr
  subst hr
  rw [hd] at h2
  simp at h2

/-- A description without attributes stops the file, although `xml:lang` is optional in ILCD. -/
theorem plain_description_stops (doc : Elem) (hdoc : WellNamed doc) (e r d : Elem)
    (he : e ∈ select Spec.exchangePath [doc]) (hr : r ∈ Spec.named c!"referenceToFlowDataSet" e)
    (hd : d ∈ Spec.named c!"shortDescription" r) (hp : d.attrs = []) (hc : d.children = []) :
    ∀ x, firstPass ilcdTable doc ≠ .ok x := by
  intro x hx
  obtain ⟨i, s, -, r', hr', d', hd', hl⟩ := ((ilcd_first_pass_iff doc hdoc).1 ⟨x, hx⟩).2 e he
  rw [hr'] at hr
  simp only [List.mem_singleton] at hr
  subst hr
  rw [hd'] at hd
  simp only [List.mem_singleton] at hd
  subst hd
  simp [Spec.Labelled, hp, hc] at hl

/-- A base name without attributes stops the file. -/
theorem plain_name_stops (doc : Elem) (hdoc : WellNamed doc) (e : Elem)
    (he : (select Spec.namePath [doc]).head? = some e) (hp : e.attrs = []) (hc : e.children = []) :
    ∀ x, firstPass ilcdTable doc ≠ .ok x := by
  intro x hx
  obtain ⟨s, hl⟩ := ((ilcd_first_pass_iff doc hdoc).1 ⟨x, hx⟩).1 e he
  simp [Spec.Labelled, hp, hc] at hl

/-! ### C161: the names by number -/

theorem addFlow_all (m : List (Str × Str)) (d : List (Str × PyVal)) :
    (m.map fun p => PyVal.list [.str p.1, .str p.2]).foldlM addFlow d =
      .ok (m.foldl (fun d p => aset p.1 (.str p.2) d) d) := by
  induction m generalizing d with
  | nil => rfl
  | cons p m ih =>
    simp only [List.map_cons, List.foldlM_cons, addFlow, List.foldl_cons]
    exact ih _

theorem aget_all (m : List (Str × Str)) (d : List (Str × PyVal)) (i : Str) (v : PyVal) :
    aget i (m.foldl (fun d p => aset p.1 (.str p.2) d) d) = some v ↔
      (∃ l p k, m = l ++ p :: k ∧ p.1 = i ∧ v = .str p.2 ∧ ∀ q ∈ k, q.1 ≠ i) ∨
      ((∀ q ∈ m, q.1 ≠ i) ∧ aget i d = some v) := by
  induction m generalizing d with
  | nil => simp
  | cons p m ih =>
    rw [List.foldl_cons, ih, aget_aset]
    constructor
    · rintro (⟨l, q, k, rfl, h1, h2, h3⟩ | ⟨h1, h2⟩)
      · exact .inl ⟨p :: l, q, k, rfl, h1, h2, h3⟩
      · split at h2
        · rename_i hi
          exact .inl ⟨[], p, m, rfl, hi.symm, (Option.some.inj h2).symm, h1⟩
        · rename_i hi
          refine .inr ⟨?_, h2⟩
          intro q hq
          rcases List.mem_cons.1 hq with rfl | hq
          · exact fun h => hi h.symm
          · exact h1 q hq
    · rintro (⟨l, q, k, h, h1, h2, h3⟩ | ⟨h1, h2⟩)
      · cases l with
        | nil =>
          simp only [List.nil_append, List.cons.injEq] at h
          obtain ⟨rfl, rfl⟩ := h
          exact .inr ⟨h3, by rw [if_pos h1.symm, h2]⟩
        | cons x l =>
          simp only [List.cons_append, List.cons.injEq] at h
          obtain ⟨rfl, rfl⟩ := h
          exact .inl ⟨l, q, k, rfl, h1, h2, h3⟩
      · exact .inr ⟨fun q hq => h1 q (by simp [hq]), by
          rw [if_neg fun h => h1 p (by simp) h.symm]; exact h2⟩

theorem forall₂_split {α β : Type} {R : α → β → Prop} {l k : List β} {p : β} {xs : List α}
    (h : List.Forall₂ R xs (l ++ p :: k)) :
    ∃ xl e xk, xs = xl ++ e :: xk ∧ R e p ∧ List.Forall₂ R xk k := by
  induction l generalizing xs with
  | nil => cases h with | cons h1 h2 => exact ⟨[], _, _, rfl, h1, h2⟩
  | cons x l ih =>
    cases h with
    | cons h1 h2 =>
      obtain ⟨xl, e, xk, rfl, h3, h4⟩ := ih h2
      exact ⟨_ :: xl, e, xk, rfl, h3, h4⟩

theorem last_iff {exs : List Elem} {m : List (Str × Str)}
    (hm : List.Forall₂ (fun e p => Spec.FlowOf e p.1 p.2) exs m) (hw : ∀ e ∈ exs, WellNamed e) (i n : Str) :
    (∃ l p k, m = l ++ p :: k ∧ p.1 = i ∧ n = p.2 ∧ ∀ q ∈ k, q.1 ≠ i) ↔ Spec.LastNamed exs i n := by
  constructor
  · rintro ⟨l, p, k, rfl, rfl, rfl, h3⟩
    obtain ⟨xl, e, xk, rfl, h4, h5⟩ := forall₂_split hm
    refine ⟨xl, e, xk, rfl, h4, fun e' he' s' hf => ?_⟩
    obtain ⟨q, hq, hr⟩ := forall₂_left h5 e' he'
    exact h3 q hq (flowOf_unique (hw e' (by simp [he'])) hr hf).1
  · rintro ⟨xl, e, xk, rfl, hf, h3⟩
    obtain ⟨l, p, k, rfl, h4, h5⟩ := forall₂_split hm.flip
    obtain ⟨rfl, rfl⟩ := flowOf_unique (hw e (by simp)) h4 hf
    refine ⟨l, p, k, rfl, rfl, rfl, fun q hq hi => ?_⟩
    obtain ⟨e', he', hr⟩ := forall₂_left h5 q hq
    rw [hi] at hr
    exact h3 e' he' _ hr

/-- The names available while a file with exchanges is converted are those of its own exchanges,
whatever was converted before; of two exchanges with one number the later gives the name. -/
theorem names_of_file (doc : Elem) (hdoc : WellNamed doc) (s s' : Shared) (d : List (Str × PyVal))
    (h : fileInfo doc s = .ok (s', d)) (hne : select Spec.exchangePath [doc] ≠ []) (i : Str) (v : PyVal) :
    aget i d = some v ↔ ∃ n, v = .str n ∧ Spec.LastNamed (select Spec.exchangePath [doc]) i n := by
  simp only [fileInfo, bind_ok] at h
  obtain ⟨r, hr, d', hd, hs⟩ := h
  simp only [Except.ok.injEq, Prod.mk.injEq] at hs
  obtain ⟨rfl, rfl⟩ := hs
  obtain ⟨-, -, h3, -⟩ := ilcd_first_pass doc hdoc r hr
  rcases h3 with ⟨h0, -⟩ | ⟨-, m, hm, h3⟩
  · exact absurd h0 hne
  have hw := select_wellNamed Spec.exchangePath [doc] (by simpa using hdoc)
  simp only [post, h3, Option.some_or, flowNames, addFlow_all, Except.ok.injEq] at hd
  subst hd
  rw [aget_all]
  simp only [aget, reduceCtorEq, and_false, or_false, Spec.LastNamed]
  generalize select Spec.exchangePath [doc] = exs at hm hw
  constructor
  · rintro ⟨l, p, k, h1, h2, rfl, h3⟩
    exact ⟨_, rfl, (last_iff hm hw i _).1 ⟨l, p, k, h1, h2, rfl, h3⟩⟩
  · rintro ⟨n, rfl, h⟩
    obtain ⟨l, p, k, h1, h2, h3, h4⟩ := (last_iff hm hw i n).2 h
    exact ⟨l, p, k, h1, h2, by rw [h3], h4⟩

/-- When the exchanges are numbered apart, every number leads to the name of its exchange. -/
theorem names_by_number (doc : Elem) (hdoc : WellNamed doc) (s s' : Shared) (d : List (Str × PyVal))
    (h : fileInfo doc s = .ok (s', d))
    (hd : (select Spec.exchangePath [doc]).Pairwise fun e e' => ∀ i n n', Spec.FlowOf e i n → ¬ Spec.FlowOf e' i n')
    (e : Elem) (he : e ∈ select Spec.exchangePath [doc]) (i n : Str) (hf : Spec.FlowOf e i n) :
    aget i d = some (.str n) := by
  rw [names_of_file doc hdoc s s' d h (List.ne_nil_of_mem he)]
  refine ⟨n, rfl, ?_⟩
  obtain ⟨l, m, hlm⟩ := List.append_of_mem he
  refine ⟨l, e, m, hlm, hf, fun e' he' n' => ?_⟩
  rw [hlm, List.pairwise_append] at hd
  exact (List.pairwise_cons.1 hd.2.1).1 e' he' i n n' hf

/-- A file with exchanges passes exactly if its first pass does. -/
theorem fileInfo_iff (doc : Elem) (hdoc : WellNamed doc) (s : Shared)
    (hne : select Spec.exchangePath [doc] ≠ []) :
    (∃ x, fileInfo doc s = .ok x) ↔
      (∀ e, (select Spec.namePath [doc]).head? = some e → ∃ s, Spec.Labelled e s) ∧
      ∀ e ∈ select Spec.exchangePath [doc], ∃ i s, Spec.FlowOf e i s := by
  rw [← ilcd_first_pass_iff doc hdoc]
  constructor
  · rintro ⟨x, hx⟩
    simp only [fileInfo, bind_ok] at hx
    obtain ⟨r, hr, -⟩ := hx
    exact ⟨r, hr⟩
  · rintro ⟨r, hr⟩
    obtain ⟨-, -, h3, -⟩ := ilcd_first_pass doc hdoc r hr
    rcases h3 with ⟨h0, -⟩ | ⟨-, m, hm, h3⟩
    · exact absurd h0 hne
    · simp only [fileInfo, hr, bind, Except.bind, post, h3, Option.some_or, flowNames, addFlow_all]
      exact ⟨_, rfl⟩

/-- A file without exchanges is refused when it is the first one (or the first after an error). -/
theorem no_exchanges_stop (doc : Elem) (hdoc : WellNamed doc) (s : Shared) (hs : s.flows = none)
    (h0 : select Spec.exchangePath [doc] = []) : ∀ x, fileInfo doc s ≠ .ok x := by
  intro x hx
  simp only [fileInfo, bind_ok] at hx
  obtain ⟨r, hr, d, hd, -⟩ := hx
  obtain ⟨-, -, h3, -⟩ := ilcd_first_pass doc hdoc r hr
  rcases h3 with ⟨-, h3⟩ | ⟨h, -⟩
  · rw [post, h3, hs] at hd
    cases hd
  · exact h h0

/-- After an error no name of an earlier file is left, and the language stays. -/
theorem after_error (doc : Elem) (hdoc : WellNamed doc) (s : Shared) (h0 : select Spec.exchangePath [doc] = []) :
    (∀ x, fileInfo doc (delete s) ≠ .ok x) ∧ (delete s).language = s.language :=
  ⟨no_exchanges_stop doc hdoc (delete s) rfl h0, rfl⟩

/-- Otherwise it is converted with the names of the last file that had exchanges. -/
theorem no_exchanges_old_names (doc doc' : Elem) (hdoc : WellNamed doc) (hdoc' : WellNamed doc')
    (s s' : Shared) (d : List (Str × PyVal)) (h : fileInfo doc s = .ok (s', d))
    (h0 : select Spec.exchangePath [doc'] = [])
    (hn : ∀ e, (select Spec.namePath [doc']).head? = some e → ∃ s, Spec.Labelled e s) :
    ∃ s'', fileInfo doc' s' = .ok (s'', d) ∧ s''.flows = s'.flows := by
  obtain ⟨r, hr⟩ := (ilcd_first_pass_iff doc' hdoc').2 ⟨hn, by simp [h0]⟩
  obtain ⟨-, -, h3, -⟩ := ilcd_first_pass doc' hdoc' r hr
  rcases h3 with ⟨-, h3⟩ | ⟨h, -⟩
  · simp only [fileInfo, bind_ok] at h
    obtain ⟨r1, hr1, d1, hd1, hs1⟩ := h
    simp only [Except.ok.injEq, Prod.mk.injEq] at hs1
    obtain ⟨rfl, rfl⟩ := hs1
    refine ⟨post r.rest (post r1.rest s), ?_, ?_⟩
    · have hp : (post r.rest (post r1.rest s)).flows = (post r1.rest s).flows := by
        rw [post, h3, Option.none_or]
      simp only [fileInfo, hr, bind, Except.bind]
      rw [hp, hd1]
    · rw [post, h3, Option.none_or]
  · exact absurd h0 h

/-! ### C162: EcoSpold2 files -/

theorem select_prefix {a b : Str} {ns : List Str} {l : List Elem} (h : select [a, b] l = []) (hne : ns ≠ []) :
    select (a :: b :: ns) l = [] := by
  cases ns with
  | nil => exact absurd rfl hne
  | cons n ns =>
    simp only [select, List.flatMap_eq_nil_iff] at h ⊢
    intro e he c hc
    have := h e he
    rw [this] at hc
    cases hc

theorem alone_but {table : Table} {doc : Elem} (hdoc : WellNamed doc) {t : Slot} {k other : Str}
    (h : ∀ q ∈ table.map Prod.fst, q ≠ k → q ≠ other → (aget q table).map Prod.fst ≠ some t)
    (ho : ((read (table.map Prod.fst) doc).filter fun p => decide (p.1 = other)).map Prod.snd = []) :
    ∀ p ∈ read (table.map Prod.fst) doc, p.1 ≠ k → ∀ r', aget p.1 table ≠ some (t, r') := by
  intro p hp hk r' hr
  have hp' := hp
  rw [read_visit _ _ hdoc] at hp'
  refine h p.1 (visit_mem_keys _ _ _ p hp') hk ?_ (by rw [hr]; rfl)
  intro hpo
  simp only [List.map_eq_nil_iff, List.filter_eq_nil_iff, decide_eq_true_eq] at ho
  exact ho p hp hpo

theorem nothing_under {table : Table} {doc : Elem} (hdoc : WellNamed doc) {ns : List Str} (hne : ns ≠ [])
    (hns : ∀ n ∈ ns, Name n) (h : select ns [doc] = []) :
    ((read (table.map Prod.fst) doc).filter fun p => decide (p.1 = pathText ns)).map Prod.snd = [] := by
  rw [elements_delivered _ doc hdoc ns hne hns, h]; simp

theorem nothing_at {table : Table} {doc : Elem} (hdoc : WellNamed doc) {ns : List Str} (hne : ns ≠ [])
    (hns : ∀ n ∈ ns, Name n) (a : Str) (h : select ns [doc] = []) :
    ((read (table.map Prod.fst) doc).filter fun p => decide (p.1 = pathText ns ++ c!"/@" ++ a)).map Prod.snd
      = [] := by
  rw [attributes_delivered _ doc hdoc ns hne hns, h]; simp

open Spec in
theorem ecs2_filename (k : Kind) (doc : Elem) (hdoc : WellNamed doc)
    (hk : select [c!"ecoSpold", k.other.tag] [doc] = []) (o : Option PyVal) :
    run ecs2Table doc .filename = .ok o ↔ (activityNames k doc = [] ∧ o = none) ∨
      ∃ e l s, activityNames k doc = e :: l ∧ NameFor k e s ∧ o = some (.str s) := by
  have hw := select_wellNamed [c!"ecoSpold", k.tag, c!"activityDescription", c!"activity", c!"activityName"]
    [doc] (by simpa using hdoc)
  have ho := nothing_under (table := ecs2Table) hdoc (by simp) (by cases k <;> decide)
    (select_prefix (ns := [c!"activityDescription", c!"activity", c!"activityName"]) hk (by simp))
  cases k with
  | activity =>
    rw [run_once (ns := [c!"ecoSpold", Kind.activity.tag, c!"activityDescription", c!"activity", c!"activityName"])
      (rule := .entryOr) hdoc rfl (by decide) (by decide) (by decide +kernel)
      (alone_but hdoc (by decide +kernel) ho)]
    refine or_congr_right ?_
    constructor
    · rintro ⟨e, l, v, he, hv, rfl⟩
      obtain ⟨s, hs, rfl⟩ := (entryOr_apply e (hw e (by rw [he]; simp)) v).1 hv
      exact ⟨e, l, s, he, hs, rfl⟩
    · rintro ⟨e, l, s, he, hs, rfl⟩
      have he' := he
      rw [activityNames] at he
      exact ⟨e, l, _, he, (entryOr_apply e (hw e (by rw [he]; simp)) _).2 ⟨s, hs, rfl⟩, rfl⟩
  | child =>
    rw [run_once (ns := [c!"ecoSpold", Kind.child.tag, c!"activityDescription", c!"activity", c!"activityName"])
      (rule := .entry) hdoc rfl (by decide) (by decide) (by decide +kernel)
      (alone_but hdoc (by decide +kernel) ho)]
    refine or_congr_right ?_
    constructor
    · rintro ⟨e, l, v, he, hv, rfl⟩
      obtain ⟨s, hs, rfl⟩ := (item_text e (hw e (by rw [he]; simp)) v).1 hv
      exact ⟨e, l, s, he, hs, rfl⟩
    · rintro ⟨e, l, s, he, hs, rfl⟩
      rw [activityNames] at he
      exact ⟨e, l, _, he, (item_text e (hw e (by rw [he]; simp)) _).2 ⟨s, hs, rfl⟩, rfl⟩

open Spec in
theorem ecs2_version (k : Kind) (doc : Elem) (hdoc : WellNamed doc)
    (hk : select [c!"ecoSpold", k.other.tag] [doc] = []) :
    run ecs2Table doc .version = .ok
      ((attrValues c!"internalSchemaVersion" (fileAttributes k doc)).head?.map fun v =>
        .list (((splitOn '.' v).take 2).map .str)) := by
  have ho := nothing_at (table := ecs2Table) hdoc (by simp) (by cases k <;> decide) c!"internalSchemaVersion"
    (select_prefix (ns := [c!"administrativeInformation", c!"fileAttributes"]) hk (by simp))
  have this := fun hs => run_attr (ns := [c!"ecoSpold", k.tag, c!"administrativeInformation", c!"fileAttributes"])
      (a := c!"internalSchemaVersion") (t := .version) (rule := .numbers) hdoc rfl (by simp) (by cases k <;> decide)
      (by cases k <;> decide +kernel) (alone_but hdoc (by cases k <;> decide +kernel) ho) hs
  rw [this, fileAttributes]
  cases attrValues c!"internalSchemaVersion"
    (select [c!"ecoSpold", k.tag, c!"administrativeInformation", c!"fileAttributes"] [doc]) with
  | nil => simp
  | cons s l => exact .inr ⟨s, l, _, rfl, rfl, rfl⟩

open Spec in
theorem ecs2_language (k : Kind) (doc : Elem) (hdoc : WellNamed doc)
    (hk : select [c!"ecoSpold", k.other.tag] [doc] = []) :
    run ecs2Table doc .language = .ok
      ((attrValues c!"defaultLanguage" (fileAttributes k doc)).head?.map .str) := by
  have ho := nothing_at (table := ecs2Table) hdoc (by simp) (by cases k <;> decide) c!"defaultLanguage"
    (select_prefix (ns := [c!"administrativeInformation", c!"fileAttributes"]) hk (by simp))
  have this := fun hs => run_attr (ns := [c!"ecoSpold", k.tag, c!"administrativeInformation", c!"fileAttributes"])
      (a := c!"defaultLanguage") (t := .language) (rule := .whole) hdoc rfl (by simp) (by cases k <;> decide)
      (by cases k <;> decide +kernel) (alone_but hdoc (by cases k <;> decide +kernel) ho) hs
  rw [this, fileAttributes]
  cases attrValues c!"defaultLanguage"
    (select [c!"ecoSpold", k.tag, c!"administrativeInformation", c!"fileAttributes"] [doc]) with
  | nil => simp
  | cons s l => exact .inr ⟨s, l, _, rfl, rfl, rfl⟩

/-- The first pass over an EcoSpold2 file with data sets of one kind succeeds exactly if the first
activity name is not empty (or has a language), and for child data sets only with an attribute. -/
theorem ecs2_first_pass_iff (k : Spec.Kind) (doc : Elem) (hdoc : WellNamed doc)
    (hk : select [c!"ecoSpold", k.other.tag] [doc] = []) :
    (∃ r, firstPass ecs2Table doc = .ok r) ↔
      ∀ e, (Spec.activityNames k doc).head? = some e → ∃ s, Spec.NameFor k e s := by
  rw [firstPass_ok_iff _ _ hdoc]
  constructor
  · intro h e he
    obtain ⟨o, ho⟩ := h .filename
    rw [ecs2_filename k _ hdoc hk] at ho
    rcases ho with ⟨h, -⟩ | ⟨e', l, s, h, hs, -⟩
    · rw [h] at he; cases he
    · rw [h] at he; cases he; exact ⟨s, hs⟩
  · intro h t
    cases t with
    | version => exact ⟨_, ecs2_version k doc hdoc hk⟩
    | language => exact ⟨_, ecs2_language k doc hdoc hk⟩
    | flows => exact ⟨_, run_absent hdoc (by decide +kernel)⟩
    | filename =>
      simp only [ecs2_filename k _ hdoc hk]
      cases hs : Spec.activityNames k doc with
      | nil => exact ⟨_, .inl ⟨rfl, rfl⟩⟩
      | cons e l =>
        obtain ⟨s, hl⟩ := h e (by rw [hs]; rfl)
        exact ⟨_, .inr ⟨e, l, s, rfl, hl, rfl⟩⟩

/-- What it finds: the first name (in the first language written), the version and the default
language. -/
theorem ecs2_first_pass (k : Spec.Kind) (doc : Elem) (hdoc : WellNamed doc)
    (hk : select [c!"ecoSpold", k.other.tag] [doc] = []) (r : Result)
    (h : firstPass ecs2Table doc = .ok r) :
    ((Spec.activityNames k doc = [] ∧ r.filename = none) ∨
      ∃ e l s, Spec.activityNames k doc = e :: l ∧ Spec.NameFor k e s ∧ r.filename = some (.str s)) ∧
    (r.version = (Spec.attrValues c!"internalSchemaVersion" (Spec.fileAttributes k doc)).head?.map fun v =>
        .list (((splitOn '.' v).take 2).map .str)) ∧
    (aget .language r.rest = (Spec.attrValues c!"defaultLanguage" (Spec.fileAttributes k doc)).head?.map .str) ∧
    aget .flows r.rest = none := by
  obtain ⟨h1, h2, h3⟩ := firstPass_slots hdoc h
  refine ⟨(ecs2_filename k _ hdoc hk _).1 h2, ?_, ?_, ?_⟩
  · rw [ecs2_version k _ hdoc hk] at h1; exact (Except.ok.inj h1).symm
  · have := h3 .language (by decide) (by decide)
    rw [ecs2_language k _ hdoc hk] at this; exact (Except.ok.inj this).symm
  · have := h3 .flows (by decide) (by decide)
    rw [run_absent hdoc (by decide +kernel)] at this; exact (Except.ok.inj this).symm

/-- A child data set with a plain name is refused, the same data set as an activity is not. -/
theorem plain_child_stops (doc : Elem) (hdoc : WellNamed doc)
    (hk : select [c!"ecoSpold", Spec.Kind.activity.tag] [doc] = []) (e : Elem)
    (he : (Spec.activityNames .child doc).head? = some e) (hp : e.attrs = []) (hc : e.children = []) :
    ∀ x, firstPass ecs2Table doc ≠ .ok x := by
  intro x hx
  obtain ⟨s, hl⟩ := (ecs2_first_pass_iff .child doc hdoc hk).1 ⟨x, hx⟩ e he
  simp [Spec.NameFor, Spec.Labelled, hp, hc] at hl

theorem plain_activity_passes (doc : Elem) (hdoc : WellNamed doc)
    (hk : select [c!"ecoSpold", Spec.Kind.child.tag] [doc] = []) (e : Elem) (s : Str)
    (he : (Spec.activityNames .activity doc).head? = some e) (ht : e.text = some s) (hv : Visible s) :
    ∃ r, firstPass ecs2Table doc = .ok r ∧ r.filename = some (.str s) := by
  obtain ⟨r, hr⟩ := (ecs2_first_pass_iff .activity doc hdoc hk).2 (by
    intro e' he'; rw [he] at he'; cases he'; exact ⟨s, .inl ⟨ht, hv⟩⟩)
  refine ⟨r, hr, ?_⟩
  obtain ⟨h1 | ⟨e', l, s', h1, h2, h3⟩, -⟩ := ecs2_first_pass .activity doc hdoc hk r hr
  · rw [h1.1] at he; cases he
  · rw [h1] at he; cases he
    rw [h3]
    rcases h2 with ⟨h, -⟩ | ⟨h, -⟩ | ⟨h, -⟩
    · rw [ht] at h; cases h; rfl
    · rw [ht] at h; cases h; rfl
    · exact absurd hv (h s ht)

/-- A file without a default language takes the one of the file before it. -/
theorem language_kept (k : Spec.Kind) (doc : Elem) (hdoc : WellNamed doc)
    (hk : select [c!"ecoSpold", k.other.tag] [doc] = []) (r : Result) (h : firstPass ecs2Table doc = .ok r)
    (s : Shared) :
    (post r.rest s).language =
      match Spec.attrValues c!"defaultLanguage" (Spec.fileAttributes k doc) with
      | l :: _ => some (.str l)
      | [] => s.language := by
  obtain ⟨-, -, h3, -⟩ := ecs2_first_pass k doc hdoc hk r h
  rw [post, h3]
  cases Spec.attrValues c!"defaultLanguage" (Spec.fileAttributes k doc) <;> rfl

/-! ### Cases that meet the hypotheses -/

/-- A description in English. -/
def english (tag text : Str) : Elem := .mk tag [(c!"{xml}lang", c!"en")] (some text) [] none

def sampleExchange (i : Str) (descriptions : List Elem) : Elem :=
  .mk c!"exchange" [(c!"dataSetInternalID", i)] none
    [.mk c!"{p}referenceToFlowDataSet" [(c!"type", c!"flow data set")] none descriptions none] none

/-- An ILCD process with the given exchanges. -/
def sampleIlcd (exchanges : List Elem) : Elem :=
  .mk c!"{p}processDataSet" [(c!"version", c!"1.1.2")] none
    [.mk c!"{p}processInformation" [] none
      [.mk c!"{p}dataSetInformation" [] none
        [.mk c!"{p}name" [] none [english c!"baseName" c!"Steel", english c!"baseName" c!"Stahl"] none] none] none,
     .mk c!"exchanges" [] none exchanges none] none

theorem english_wellNamed (tag text : Str) (h : Name (localName tag)) : WellNamed (english tag text) :=
  .mk _ _ _ _ _ h (by decide) (by decide) (by simp)

theorem sampleExchange_wellNamed (i : Str) (ds : List Elem) (h : ∀ d ∈ ds, WellNamed d) :
    WellNamed (sampleExchange i ds) := by
  refine .mk _ _ _ _ _ (by decide) (by simp; decide) (by simp) ?_
  intro e he
  simp only [List.mem_singleton] at he
  subst he
  exact .mk _ _ _ _ _ (by decide) (by decide) (by decide) h

theorem sampleIlcd_wellNamed (exs : List Elem) (h : ∀ e ∈ exs, WellNamed e) : WellNamed (sampleIlcd exs) := by
  refine .mk _ _ _ _ _ (by decide) (by decide) (by decide) ?_
  intro e he
  simp only [List.mem_cons, List.not_mem_nil, or_false] at he
  rcases he with rfl | rfl
  · refine .mk _ _ _ _ _ (by decide) (by decide) (by decide) ?_
    intro e he
    simp only [List.mem_singleton] at he
    subst he
    refine .mk _ _ _ _ _ (by decide) (by decide) (by decide) ?_
    intro e he
    simp only [List.mem_singleton] at he
    subst he
    refine .mk _ _ _ _ _ (by decide) (by decide) (by decide) ?_
    intro e he
    simp only [List.mem_cons, List.not_mem_nil, or_false] at he
    rcases he with rfl | rfl <;> exact english_wellNamed _ _ (by decide)
  · exact .mk _ _ _ _ _ (by decide) (by decide) (by decide) h

def goodIlcd : Elem := sampleIlcd
  [sampleExchange c!"0" [english c!"{c}shortDescription" c!"Steel"],
   sampleExchange c!"1" [english c!"{c}shortDescription" c!"Ore"],
   sampleExchange c!"1" [english c!"{c}shortDescription" c!"Slag"]]

def twoLanguages : Elem := sampleIlcd
  [sampleExchange c!"0" [english c!"{c}shortDescription" c!"Steel", english c!"{c}shortDescription" c!"Stahl"]]

def plainIlcd : Elem := sampleIlcd
  [sampleExchange c!"0" [.mk c!"{c}shortDescription" [] (some c!"Steel") [] none]]

theorem goodIlcd_wellNamed : WellNamed goodIlcd := by
  apply sampleIlcd_wellNamed
  intro e he
  simp only [List.mem_cons, List.not_mem_nil, or_false] at he
  rcases he with rfl | rfl | rfl <;> (
    apply sampleExchange_wellNamed
    intro d hd
    simp only [List.mem_singleton] at hd
    subst hd
    exact english_wellNamed _ _ (by decide))

theorem twoLanguages_wellNamed : WellNamed twoLanguages := by
  apply sampleIlcd_wellNamed
  intro e he
  simp only [List.mem_singleton] at he
  subst he
  apply sampleExchange_wellNamed
  intro d hd
  simp only [List.mem_cons, List.not_mem_nil, or_false] at hd
  rcases hd with rfl | rfl <;> exact english_wellNamed _ _ (by decide)

theorem plainIlcd_wellNamed : WellNamed plainIlcd := by
  apply sampleIlcd_wellNamed
  intro e he
  simp only [List.mem_singleton] at he
  subst he
  apply sampleExchange_wellNamed
  intro d hd
  simp only [List.mem_singleton] at hd
  subst hd
  exact .mk _ _ _ _ _ (by decide) (by decide) (by decide) (by simp)

/-- The first pass over the sample, its name, version and flows; the later exchange numbered 1 gives
the name. -/
example : firstPass ilcdTable goodIlcd = .ok
    { version := some (.list [.str c!"1", .str c!"1"]), filename := some (.str c!"Steel"),
      rest := [(.flows, .list [.list [.str c!"0", .str c!"Steel"], .list [.str c!"1", .str c!"Ore"],
        .list [.str c!"1", .str c!"Slag"]])] } := by
  rfl

/-- The later of the two exchanges numbered 1 gives the name. -/
example : (fileInfo goodIlcd ⟨none, none⟩).map Prod.snd = .ok [(c!"0", .str c!"Steel"), (c!"1", .str c!"Slag")] := by
  rfl

theorem two_at : select Spec.exchangePath [twoLanguages] = [sampleExchange c!"0"
    [english c!"{c}shortDescription" c!"Steel", english c!"{c}shortDescription" c!"Stahl"]] := by rfl

theorem plain_at : select Spec.exchangePath [plainIlcd] = [sampleExchange c!"0"
    [.mk c!"{c}shortDescription" [] (some c!"Steel") [] none]] := by rfl

/-- Files that ILCD permits and the first pass refuses. -/
example : ∀ x, firstPass ilcdTable twoLanguages ≠ .ok x :=
  two_descriptions_stop twoLanguages twoLanguages_wellNamed _ _ (by rw [two_at]; exact List.mem_singleton.2 rfl)
    (List.mem_singleton.2 rfl) (by decide)

example : ∀ x, firstPass ilcdTable plainIlcd ≠ .ok x :=
  plain_description_stops plainIlcd plainIlcd_wellNamed _ _ _ (by rw [plain_at]; exact List.mem_singleton.2 rfl)
    (List.mem_singleton.2 rfl) (List.mem_singleton.2 rfl) rfl rfl

example : (∀ x, fileInfo (sampleIlcd []) ⟨none, none⟩ ≠ .ok x) ∧
    ∃ s, (fileInfo (sampleIlcd []) s).map Prod.snd =
      .ok [(c!"0", .str c!"Steel"), (c!"1", .str c!"Slag")] :=
  ⟨no_exchanges_stop _ (sampleIlcd_wellNamed [] (by simp)) _ rfl rfl,
    ⟨none, some (.list [.list [.str c!"0", .str c!"Steel"], .list [.str c!"1", .str c!"Ore"],
      .list [.str c!"1", .str c!"Slag"]])⟩, rfl⟩

/-- An EcoSpold2 data set of either kind with the given name. -/
def sampleEcs2 (k : Spec.Kind) (name : Elem) : Elem :=
  .mk c!"{e}ecoSpold" [] none
    [.mk (c!"{e}" ++ k.tag) [] none
      [.mk c!"activityDescription" [] none [.mk c!"activity" [] none [name] none] none,
       .mk c!"administrativeInformation" [] none
        [.mk c!"fileAttributes" [(c!"defaultLanguage", c!"de"), (c!"internalSchemaVersion", c!"2.0.11")]
          none [] none] none] none] none

def plainName : Elem := .mk c!"activityName" [] (some c!"Stahl") [] none

example : firstPass ecs2Table (sampleEcs2 .activity plainName) = .ok
    { version := some (.list [.str c!"2", .str c!"0"]), filename := some (.str c!"Stahl"),
      rest := [(.language, .str c!"de")] } := by rfl

example : firstPass ecs2Table (sampleEcs2 .child plainName) = .error .typeError := by rfl

example : firstPass ecs2Table (sampleEcs2 .child (english c!"activityName" c!"steel")) = .ok
    { version := some (.list [.str c!"2", .str c!"0"]), filename := some (.str c!"steel"),
      rest := [(.language, .str c!"de")] } := by rfl

example : select [c!"ecoSpold", Spec.Kind.child.other.tag] [sampleEcs2 .child plainName] = [] ∧
    (Spec.activityNames .child (sampleEcs2 .child plainName)).head? = some plainName := ⟨rfl, rfl⟩

end Verif.FirstPass
