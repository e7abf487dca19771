/-
The exchanges of an EcoSpold2 data set after a conversion to ILCD and back.
-/
import Verif.Lemmas.RoundTrip
import Verif.Props.IlcdMerge
import Verif.Props.RefUnits

namespace Verif.RoundTrip

open EcsFlows (Exch Flow)
open Spec

section

variable {P D : Type} [DecidableEq P] [DecidableEq D] {env : EcsFlows.Env P} {fenv : FlowFiles.Env} {base : IlcdFlows.Env ℝ D}
  {E : Uuid.BlockFn} {unitProp : P → Str} {package : Str → IlcdFlows.FlowFile} {shown : ℝ → Str} {xs : List Exch} {ex : Extras}
  {b : Bool} {d : Doc P} {s2 : IlcdFlows.St ℝ}

/-- The kind of the exchanges written back is that of the source. -/
theorem pairs (S : Setting env fenv E unitProp package xs) {s : EcsFlows.St P}
    {st : FlowFiles.State P Info} {merged : List ((Str × EcsFlows.Dir) × Flow)}
    (hs : EcsFlows.run env xs (EcsFlows.fresh []) = .ok s) (hfl : d.flows = s.flows.filterMap (EcsFlows.place merged))
    (hr : FlowFiles.run fenv ⟨[], []⟩ (xs.filterMap (fileExchange env)) = .ok (st, d.links)) (hd : d.files = st.files)
    (h : back base E unitProp package shown ex d = .ok s2) (el : Bool) (q : Flow → Bool)
    (hq : ∀ f ∈ s.flows, q f = true → f.src.isElem = el)
    (hq' : ∀ f ∈ s.flows, q f = false → ∀ e, readOf shown ex d merged f = some e → f.src.isElem = el →
      ¬ IlcdFlows.Spec.ToWrite (reader base E unitProp package d) e)
    (hw : ∀ f ∈ s.flows, q f = true → ∃ e, readOf shown ex d merged f = some e ∧
      IlcdFlows.Spec.ToWrite (reader base E unitProp package d) e) :
    List.Forall₂ (fun f fl => readOf shown ex d merged f = some fl.src ∧ f ∈ s.flows ∧ fl ∈ s2.flows)
      (s.flows.filter q) (s2.flows.filter fun fl => fl.elem == el) := by
  classical
  have hall := files_all hs
  have hsrc := (IlcdFlows.exchanges_accounted h).1
  rw [exchanges_eq hfl] at hsrc
  have hi := IlcdFlows.convertAll_inv h
  set env2 := reader base E unitProp package d with henv2
  let kind : IlcdFlows.Exch ℝ → Bool := fun e => decide (∃ f, IlcdFlows.Spec.IsElementary env2 e f)
  have hk : ∀ fl ∈ s2.flows, fl.elem = kind fl.src := by
    intro fl hfl
    rcases (hi.flows fl hfl).kind with ⟨f, -, -, -, -, -, -, -, -, h1, -, -, -, h2, -⟩ | ⟨f, -, -, -, h1, -, -, h2, -⟩
    · rw [h2]; exact (decide_eq_true ⟨f, h1⟩).symm
    · rw [h2]
      refine (decide_eq_false ?_).symm
      rintro ⟨f', h3, h4⟩
      rw [h1.1] at h3
      obtain rfl := Option.some.inj h3
      exact h1.2 h4
  have he : (s2.flows.filter fun fl => fl.elem == el).map (·.src) =
      (s.flows.filterMap (readOf shown ex d merged)).filter fun e => kind e == el && decide (IlcdFlows.Spec.ToWrite env2 e) := by
    rw [← List.filter_filter, ← hsrc, List.filter_map]
    congr 1
    exact List.filter_congr fun fl hfl => by simp [hk fl hfl]
  have hkind : ∀ f ∈ s.flows, ∀ e, readOf shown ex d merged f = some e → kind e = f.src.isElem := by
    intro f hf e hfe
    rcases file_read (base := base) (package := package) S (src_mem hs hf) hall (read_back S hs hr hd hf hfe) with
      ⟨h1, row, -, -, h2⟩ | ⟨h1, p, y, i, n, -, -, -, -, h2⟩
    · rw [h1]; exact decide_eq_true ⟨_, h2⟩
    · rw [h1]
      refine decide_eq_false ?_
      rintro ⟨f', h3, h4⟩
      rw [h2.1] at h3
      obtain rfl := Option.some.inj h3
      exact h2.2 h4
  have hF := forall₂_filterMap (h := readOf shown ex d merged)
    (p := fun e => kind e == el && decide (IlcdFlows.Spec.ToWrite env2 e)) (q := q) (l := s.flows) ?_ ?_
  · rw [← he] at hF
    exact (forall₂_and_mem (forall₂_join hF)).imp fun f fl ⟨h1, h2, h3⟩ =>
      ⟨h1, (List.mem_filter.1 h2).1, (List.mem_filter.1 h3).1⟩
  · intro f hf e hfe
    cases hqf : q f with
    | true =>
      obtain ⟨e', h1, h2⟩ := hw f hf hqf
      rw [hfe] at h1
      obtain rfl := Option.some.inj h1
      simp [hkind f hf e hfe, hq f hf hqf, h2]
    | false =>
      by_cases hel : f.src.isElem = el
      · simp [hq' f hf hqf e hfe hel]
      · simp [hkind f hf e hfe, hel]
  · intro f hf hqf hn
    obtain ⟨e, h1, -⟩ := hw f hf hqf
    rw [h1] at hn; cases hn

/-- C163: every product comes back, in the order of the source: with its identifier, the name and the groups of the first
exchange of the same flow with the same properties, its value in the unit of ILCD with its uncertainty, and the unit of
EcoSpold2 for the flow property. No other product is written. -/
theorem products_back (S : Setting env fenv E unitProp package xs) (h1 : there env fenv b xs = .ok d)
    (hl : Legible base shown d) (h2 : back base E unitProp package shown ex d = .ok s2) :
    List.Forall₂ (fun x fl => ProductBack env unitProp xs x fl.field) (xs.filter fun x => !x.isElem)
      (s2.flows.filter fun fl => !fl.elem) := by
  classical
  obtain ⟨s, st, merged, hs, hfl, hm, hm', hr, hrefs, hd⟩ := there_ok h1
  have hall := files_all hs
  have hi := IlcdFlows.convertAll_inv h2
  have hread : ∀ f ∈ s.flows, f.src.isElem = false → ∃ r, readOf shown ex d merged f =
      some (exchOf shown ex { f with mean := some f.amount.m } r) := by
    intro f hf he
    obtain ⟨r, hlk, -⟩ := linked S hs hr hd hf
    refine ⟨r, ?_⟩
    unfold readOf
    rw [place_product S hs hm hm' hf he, Option.bind_some]
    simp [hlk]
  have hF := pairs (base := base) (package := package) S hs hfl hr hd h2 false (fun f => !f.src.isElem) (by simp)
    (by
      intro f hf h e _ h'
      simp only [Bool.not_eq_eq_eq_not, Bool.not_false] at h
      rw [h] at h'; cases h')
    (by
      intro f hf he
      simp only [Bool.not_eq_eq_eq_not, Bool.not_true] at he
      obtain ⟨r, hfe⟩ := hread f hf he
      refine ⟨_, hfe, ?_⟩
      rcases file_read (base := base) (package := package) S (src_mem hs hf) hall (read_back S hs hr hd hf hfe) with
        ⟨h, -⟩ | ⟨-, p, y, i, n, -, -, -, hu, h⟩
      · rw [he] at h; cases h
      · exact .inr ⟨_, i, n, h, unitProp p, rfl, hu⟩)
  have hx : xs.filter (fun x => !x.isElem) = (s.flows.filter fun f => !f.src.isElem).map Flow.src := by
    have : (fun f : Flow => !f.src.isElem) = (fun x : Exch => !x.isElem) ∘ Flow.src := rfl
    rw [this, ← List.filter_map, (EcsFlows.exchanges_state hs).1, List.filter_filter]
    refine List.filter_congr fun x _ => ?_
    cases he : x.isElem <;> simp [EcsFlows.Spec.Convertible, he]
  rw [hx, List.forall₂_map_left_iff]
  have hb : (fun fl : IlcdFlows.Flow ℝ => !fl.elem) = fun fl => fl.elem == false := by
    funext fl; cases fl.elem <;> rfl
  rw [hb]
  have hmem := forall₂_and_mem hF
  refine hmem.imp fun f fl ⟨⟨hfe, hf, hfl2⟩, hfq, hflq⟩ => ?_
  have he : f.src.isElem = false := by simpa using (List.mem_filter.1 hfq).2
  have hel : fl.elem = false := by simpa using (List.mem_filter.1 hflq).2
  have hrb := read_back S hs hr hd hf hfe
  obtain ⟨r, hr'⟩ := hread f hf he
  have hsrc : fl.src = exchOf shown ex { f with mean := some f.amount.m } r := Option.some.inj (hfe.symm.trans hr')
  have hc := hi.flows fl hfl2
  rcases hc.kind with ⟨-, -, -, -, -, -, -, -, -, -, -, -, -, h, -⟩ | ⟨ff, a', i', n', k1, k2, k3, -, k4, k5, k6, k7, k8, k9, k10⟩
  · rw [hel] at h; cases h
  rcases file_read (base := base) (package := package) S (src_mem hs hf) hall hrb with ⟨h, -⟩ | ⟨-, p, y, i, n, l1, l2, l3, l4, l5⟩
  · rw [he] at h; cases h
  have hff : ff = _ := Option.some.inj (k1.1.symm.trans l5.1)
  subst hff
  have hv := S.groups _ (src_mem hs hf) he
  have ha' : a' = f.amount.m := by
    obtain ⟨t, ht, hfl'⟩ := k3
    rw [hsrc] at ht
    have : t = shown f.amount.m := by
      rcases ht with ht | ⟨ht, -⟩
      · exact (Option.some.inj ht).symm
      · cases ht
    rw [this] at hfl'
    exact Except.ok.inj (hfl'.symm.trans (hl _ (by rw [hfl]; exact List.mem_filterMap.2 ⟨f, hf, place_product S hs hm hm' hf he⟩) _ rfl))
  obtain ⟨g, hdir⟩ := (flows_ok hs f hf).dirs
  refine ⟨?_, ⟨y, l3, ?_, ?_⟩, ?_, ?_⟩
  · obtain ⟨v, u1, u2⟩ := (Uuid.uuid_roundtrip_exact E f.src.fid (S.ids _ (src_mem hs hf) he)).1
    rw [S.fconv, u1] at l2
    have e : (reader base E unitProp package d).convId fl.src.fid = .ok f.src.fid := by
      show Uuid.ilcdToEcs E fl.src.fid = _
      rw [← Except.ok.inj l2]; exact u2
    exact Except.ok.inj (k5.symm.trans e)
  · simpa [eq_comm] using k10
  · have hg := hc.groups
    rw [hel, ← Option.some.inj k4, hsrc] at hg
    refine groups_back hv hdir ?_ hg
    rw [← isReference_valid hv, ← isRef_iff hs hf, decide_eq_true_iff]
    show natStr f.internalId ∈ d.refs.map natStr ↔ _
    rw [hrefs]
  · rcases (flows_ok hs f hf).kind with ⟨-, -, o, ho⟩ | ⟨h, -⟩
    · unfold EcsFlows.basicAmount at ho
      split at ho
      · cases ho
      · rename_i a ha
        split at ho
        · cases ho
        · rename_i c hcu
          have e := (Prod.mk.inj (Except.ok.inj ho)).2
          refine ⟨a, c, ha, hcu, ?_, ?_⟩
          · rw [hc.amount, k8, ha', ← e]; rfl
          · rw [k9, hsrc, ha']
            simp only [exchOf, (flows_ok hs f hf).bounds, ← e]
            exact unc_back a c f.src.unc _
    · rw [he] at h; cases h
  · refine ⟨p, l1, ?_⟩
    rw [k6, k7]
    obtain ⟨p', u1, u2⟩ := k2
    rw [← Option.some.inj u1] at u2
    exact u2

/-- C163, when equal elementary flows are summed at the end of the way back: the products are the same. -/
theorem products_back_merged (S : Setting env fenv E unitProp package xs) (h1 : there env fenv b xs = .ok d)
    (hl : Legible base shown d) (h2 : back base E unitProp package shown ex d = .ok s2) {scale : Str → ℝ}
    (hs : ∀ u dm c, base.unit u = .ok (dm, c) → scale u = c ∧ c ≠ 0) {em : List (IlcdFlows.Flow ℝ)}
    (hem : em.Perm (s2.flows.filter (·.elem))) {s3 : IlcdFlows.St ℝ}
    (h3 : IlcdFlows.merge (reader base E unitProp package d) s2 em = .ok s3) :
    List.Forall₂ (fun x fl => ProductBack env unitProp xs x fl.field) (xs.filter fun x => !x.isElem)
      (s3.flows.filter fun fl => !fl.elem) := by
  rw [(IlcdFlows.merge_total (env := reader base E unitProp package d) hs h2 hem h3).2.2]
  exact products_back S h1 hl h2

/-- C166: every elementary exchange in both tables comes back, in the order of the source, when equal ones are not summed:
with target, name and unit of the table back, and the value multiplied by the factors of both tables and that of the unit.
No other elementary exchange is written. -/
theorem elementary_back (S : Setting env fenv E unitProp package xs) (h1 : there env fenv false xs = .ok d)
    (hl : Legible base shown d) (h2 : back base E unitProp package shown ex d = .ok s2) :
    (open Classical in List.Forall₂ (fun x fl => ElementaryBack env base x fl.field)
      (xs.filter fun x => x.isElem && decide (∃ r r', Rows env base x r r')) (s2.flows.filter fun fl => fl.elem)) := by
  classical
  obtain ⟨s, st, merged, hs, hfl, -, hm', hr, hrefs, hd⟩ := there_ok h1
  obtain rfl := hm' rfl
  have hall := files_all hs
  have hi := IlcdFlows.convertAll_inv h2
  have hread : ∀ f ∈ s.flows, ∃ r, readOf shown ex d [] f = some (exchOf shown ex { f with mean := some f.amount.m } r) := by
    intro f hf
    obtain ⟨r, hlk, -⟩ := linked S hs hr hd hf
    refine ⟨r, ?_⟩
    unfold readOf
    rw [show EcsFlows.place [] f = some { f with mean := some f.amount.m } from rfl, Option.bind_some]
    simp [hlk]
  have hmap : ∀ fid r, IlcdFlows.Spec.Mapped (reader base E unitProp package d) fid r ↔ IlcdFlows.Spec.Mapped base fid r :=
    fun _ _ => Iff.rfl
  have hrow : ∀ f ∈ s.flows, f.src.isElem = true → ∀ e, readOf shown ex d [] f = some e →
      (IlcdFlows.Spec.ToWrite (reader base E unitProp package d) e ↔ ∃ r r', Rows env base f.src r r') := by
    intro f hf he e hfe
    rcases file_read (base := base) (package := package) S (src_mem hs hf) hall (read_back S hs hr hd hf hfe) with
      ⟨-, row, l1, l2, l3⟩ | ⟨h, -⟩
    · have hrow := EcsFlows.rowOf_some.1 l1
      constructor
      · rintro (⟨ff, r', -, hr'⟩ | ⟨ff, i, n, hp, -⟩)
        · rw [l2] at hr'; exact ⟨row, r', hrow, hr'⟩
        · have := Option.some.inj (hp.1.symm.trans l3.1)
          subst this
          exact absurd l3.2 hp.2
      · rintro ⟨r, r', g1, g2⟩
        have : r = row := Option.some.inj (g1.1.symm.trans hrow.1)
        subst this
        exact .inl ⟨_, r', l3, by rw [l2]; exact g2⟩
    · rw [he] at h; cases h
  have hF := pairs (base := base) (package := package) S hs hfl hr hd h2 true
    (fun f => f.src.isElem && decide (∃ r r', Rows env base f.src r r')) (by simp +contextual)
    (by
      intro f hf h e hfe he
      rw [hrow f hf he e hfe]
      simpa [he] using h)
    (by
      intro f hf h
      simp only [Bool.and_eq_true, decide_eq_true_eq] at h
      obtain ⟨r, hfe⟩ := hread f hf
      exact ⟨_, hfe, (hrow f hf h.1 _ hfe).2 h.2⟩)
  have hx : (xs.filter fun x => x.isElem && decide (∃ r r', Rows env base x r r')) =
      (s.flows.filter fun f => f.src.isElem && decide (∃ r r', Rows env base f.src r r')).map Flow.src := by
    have : (fun f : Flow => f.src.isElem && decide (∃ r r', Rows env base f.src r r')) =
      (fun x : Exch => x.isElem && decide (∃ r r', Rows env base x r r')) ∘ Flow.src := rfl
    rw [this, ← List.filter_map, (EcsFlows.exchanges_state hs).1, List.filter_filter]
    refine List.filter_congr fun x _ => ?_
    by_cases hc : ∃ r r', Rows env base x r r'
    · obtain ⟨r, r', h, -⟩ := id hc
      have : EcsFlows.Spec.Convertible env.mapping x := .inr ⟨r, h⟩
      simp [this]
    · simp [hc]
  rw [hx, List.forall₂_map_left_iff]
  have hb : (fun fl : IlcdFlows.Flow ℝ => fl.elem) = fun fl => fl.elem == true := by
    funext fl; cases fl.elem <;> rfl
  rw [hb]
  refine (forall₂_and_mem hF).imp fun f fl ⟨⟨hfe, hf, hfl2⟩, hfq, hflq⟩ => ?_
  have hq := (List.mem_filter.1 hfq).2
  simp only [Bool.and_eq_true, decide_eq_true_eq] at hq
  obtain ⟨he, -⟩ := hq
  have hel : fl.elem = true := by simpa using (List.mem_filter.1 hflq).2
  obtain ⟨r, hr'⟩ := hread f hf
  have hsrc : fl.src = exchOf shown ex { f with mean := some f.amount.m } r := Option.some.inj (hfe.symm.trans hr')
  have hc := hi.flows fl hfl2
  rcases hc.kind with ⟨ff, r', a', k', -, -, -, -, -, k1, k2, k3, k4, -, k5, -, k6, k7, k8, k9, -⟩ | ⟨-, -, -, -, -, -, -, h, -⟩
  swap
  · rw [hel] at h; cases h
  rcases file_read (base := base) (package := package) S (src_mem hs hf) hall (read_back S hs hr hd hf hfe) with
    ⟨-, row, l1, l2, -⟩ | ⟨h, -⟩
  swap
  · rw [he] at h; cases h
  have ha' : a' = f.amount.m := by
    obtain ⟨t, ht, hfl'⟩ := k3
    rw [hsrc] at ht
    have : t = shown f.amount.m := by
      rcases ht with ht | ⟨ht, -⟩
      · exact (Option.some.inj ht).symm
      · cases ht
    rw [this] at hfl'
    exact Except.ok.inj (hfl'.symm.trans (hl _ (by rw [hfl]; exact List.mem_filterMap.2 ⟨f, hf, rfl⟩) _ rfl))
  refine ⟨?_, ?_⟩
  · rcases (flows_ok hs f hf).kind with ⟨h, -⟩ | ⟨-, row', o, hrow', ho, -⟩
    · rw [he] at h; cases h
    rw [l1] at hrow'
    obtain rfl := Option.some.inj hrow'
    unfold EcsFlows.elemAmount at ho
    split at ho
    · cases ho
    · rename_i k hk
      split at ho
      · cases ho
      · rename_i a ha
        split at ho
        · cases ho
        · rename_i c hcu
          have e := (Prod.mk.inj (Except.ok.inj ho)).2
          have hK : Factor env row k := by
            unfold EcsFlows.rowFactor at hk
            split at hk
            · rename_i hn; exact .inl ⟨hn, (Except.ok.inj hk).symm⟩
            · rename_i hn; rw [not_or] at hn; exact .inr ⟨hn.1, hn.2, hk⟩
          refine ⟨row, r', a, k, c, k', ⟨EcsFlows.rowOf_some.1 l1, by rw [← l2]; exact k2⟩, ha, hK, hcu, k4, k6, k7, k8, ?_⟩
          rw [hc.amount, k9, ha', ← e]; rfl
  · have hg := hc.groups
    have href : decide (fl.src.internalId ∈ (reader base E unitProp package d).refs) = false := by
      refine decide_eq_false ?_
      rw [hsrc]
      show ¬ natStr f.internalId ∈ d.refs.map natStr
      rw [hrefs, isRef_iff hs hf]
      rintro ⟨-, h⟩
      rcases S.elems _ (src_mem hs hf) he with ⟨-, h'⟩ | ⟨-, h'⟩ <;> rw [h'] at h <;> revert h <;> decide
    rw [href, hel, k5, hsrc] at hg
    obtain ⟨g, hdir⟩ := (flows_ok hs f hf).dirs
    rcases S.elems _ (src_mem hs hf) he with ⟨h, -⟩ | ⟨h, h'⟩
    · have : f.dir = .input := by
        simp [EcsFlows.direction, h, EcsFlows.given] at hdir; exact hdir.1.symm
      simp only [exchOf, this] at hg
      rw [if_pos (by simp [h])]
      exact (Except.ok.inj hg).symm
    · have : f.dir = .output := by
        simp [EcsFlows.direction, h, h', EcsFlows.given] at hdir; exact hdir.1.symm
      simp only [exchOf, this] at hg
      rw [if_neg (by simp [h])]
      exact (Except.ok.inj hg).symm

end

/-! ### Groups and names -/

/-- C164, exactly: the groups of a product are those of the source if and only if it is an input of group 5, a reference
product, an output of group 2 described by no waste, or an output of group 3 described by a waste. -/
theorem same_groups_iff {x y : Exch} (hx : ValidGroup x) {w : IlcdFlows.Written ℝ}
    (h : (w.inputGroup, w.outputGroup) = groupsBack x y) :
    SameGroups x w ↔ x.inputGroup = some c!"5" ∨ x.outputGroup = some c!"0" ∨
      (x.outputGroup = some c!"2" ∧ ¬ IsWaste y) ∨ (x.outputGroup = some c!"3" ∧ IsWaste y) := by
  classical
  have n5 : natStr 5 = c!"5" := by decide
  have n0 : natStr 0 = c!"0" := by decide
  have n2 : natStr 2 = c!"2" := by decide
  have n3 : natStr 3 = c!"3" := by decide
  unfold SameGroups
  unfold groupsBack at h
  rcases hx with ⟨h1, g, hg, h2⟩ | ⟨h1, g, hg, h2⟩
  · rw [if_pos (by simp [h2])] at h
    obtain ⟨e1, e2⟩ := Prod.mk.inj h
    rw [e1, e2, h1, h2, Option.map_some, n5]
    simp [eq_comm]
  · rw [if_neg (by simp [h1])] at h
    simp only [List.mem_cons, List.not_mem_nil, or_false] at hg
    by_cases hw : IsWaste y <;> rcases hg with rfl | rfl | rfl | rfl <;> simp [h2, hw] at h <;>
      simp [h.1, h.2, h1, h2, hw, n0, n2, n3]

/-- C164, for a data set in which every product is described once, or equally: the groups come back except for inputs of
groups 1 to 3, which become 5, outputs of group 5, and those whose classification contradicts their group. -/
theorem same_groups_own {x : Exch} (hx : ValidGroup x) (hb : x.byProduct = none) {w : IlcdFlows.Written ℝ}
    (h : (w.inputGroup, w.outputGroup) = groupsBack x x) :
    SameGroups x w ↔ x.inputGroup = some c!"5" ∨ ∃ g ∈ [c!"0", c!"2", c!"3"], x.outputGroup = some g := by
  rw [same_groups_iff hx h]
  unfold IsWaste
  rcases hx with ⟨h1, g, hg, h2⟩ | ⟨h1, g, hg, h2⟩
  · simp [h1]
  · simp only [List.mem_cons, List.not_mem_nil, or_false] at hg
    rcases hg with rfl | rfl | rfl | rfl <;> simp [h1, h2, hb]

/-- The exchange that describes a flow is one of the data set, and there is only one. -/
theorem first_unique {P : Type} {fp : Exch → Py P} {xs : List Exch} {x y z : Exch} (hy : First fp xs x y) (hz : First fp xs x z) :
    y = z := by
  obtain ⟨l, m, e1, a1, a2⟩ := hy
  obtain ⟨l', m', e2, b1, b2⟩ := hz
  rw [e1] at e2
  rcases List.append_eq_append_iff.1 e2 with ⟨k, h1, h2⟩ | ⟨k, h1, h2⟩
  · cases k with
    | nil => exact (List.cons.inj h2).1
    | cons c k =>
      have := (List.cons.inj h2).1
      subst this
      exact absurd a1 (b2 y (by simp [h1]))
  · cases k with
    | nil => exact (List.cons.inj h2).1.symm
    | cons c k =>
      have := (List.cons.inj h2).1
      subst this
      exact absurd b1 (a2 z (by simp [h1]))

/-- C165, exactly: a product comes back with its name if and only if the exchange that describes its flow has that name. -/
theorem same_name_iff {P : Type} {env : EcsFlows.Env P} {unitProp : P → Str} {xs : List Exch} {x y : Exch}
    {w : IlcdFlows.Written ℝ} (h : ProductBack env unitProp xs x w) (hy : First env.fp xs x y) :
    w.name = x.name ↔ y.name = x.name := by
  obtain ⟨z, hz, hn, -⟩ := h.described
  obtain rfl := first_unique hy hz
  rw [hn]

/-- C165: if no two exchanges give the same flow with the same properties two names, all names come back. -/
theorem names_back {P : Type} {env : EcsFlows.Env P} {unitProp : P → Str} {xs : List Exch} {x : Exch}
    {w : IlcdFlows.Written ℝ} (h : ProductBack env unitProp xs x w) (hx : ∀ y ∈ xs, Like env.fp y x → y.name = x.name) :
    w.name = x.name := by
  obtain ⟨z, hz, -⟩ := h.described
  rw [same_name_iff h hz]
  obtain ⟨l, m, rfl, hl, -⟩ := hz
  exact hx z (by simp) hl

/-! ### Quantities -/

open RefUnits Units in
private def comesBack (r : Str × (Str × Str × Str)) (k : Str) : Bool :=
  match aget k pintToIlcdFp with
  | none => true
  | some w =>
    match aget w.fp ilcdToEcsUnit with
    | none => true
    | some n => (r.2.2.2, IlcdFlows.underscore n.2) ∈ synonyms ++ strangers

open RefUnits Units in
private theorem all_come_back : (pintToIlcdDef.all fun r => comesBack r r.1 &&
    (r.1 ≠ energyKey || comesBack r c!"f09fb2f1-8af1-3630-8463-c7ebc26474bf")) = true := by decide +kernel

open RefUnits in
private theorem energyProp_key {e : Option Str} {k k' : Str} (he : energyProp e k = some k') :
    k' = k ∨ (k = energyKey ∧ k' = c!"f09fb2f1-8af1-3630-8463-c7ebc26474bf") := by
  unfold energyProp at he
  split at he
  · rename_i hk
    split at he
    · exact .inl (Option.some.inj he).symm
    · split at he
      · exact .inl (Option.some.inj he).symm
      · split at he
        · exact .inl (Option.some.inj he).symm
        · split at he
          · exact .inr ⟨hk, (Option.some.inj he).symm⟩
          · cases he
  · exact .inl (Option.some.inj he).symm

section

variable {P : Type} {env : EcsFlows.Env P} {unitProp : P → Str} {xs : List Exch} {x : Exch} {w : IlcdFlows.Written ℝ}
  {p : RefUnits.Pint ℝ} {hash : Str → Str} {u : Str}

/-- The unit that comes back is another name of the unit of ILCD, or one of two others. -/
theorem unit_back (h : ProductBack env unitProp xs x w) (hq : Quantity env unitProp p hash x u) :
    (u, IlcdFlows.underscore w.unitName) ∈ synonyms ++ strangers := by
  obtain ⟨fp, hfp, hu⟩ := h.unit
  obtain ⟨g, n, hd⟩ := hq.unit
  obtain ⟨e, s, r, s', hr, hup⟩ := hq.property fp hfp
  obtain ⟨k, row, hk, hrow, href⟩ := RefUnits.unitProperty_row hr
  have hall := List.all_eq_true.1 all_come_back _ (aget_mem hd)
  simp only [Bool.and_eq_true, Bool.or_eq_true, decide_eq_true_eq] at hall
  have hc : comesBack (hash (RefUnits.correctDim (p.dim x.unit)), (g, n, u)) k = true := by
    rcases energyProp_key hk with rfl | ⟨h1, rfl⟩
    · exact hall.1
    · exact hall.2.resolve_left (by simpa using h1)
  unfold comesBack at hc
  rw [hrow] at hc
  rw [hup, (RefUnits.refer_ref href).1] at hu
  simp only [hu, decide_eq_true_eq] at hc
  exact hc

/-- The quantity that comes back, in general. -/
theorem quantity_back (h : ProductBack env unitProp xs x w) (hq : Quantity env unitProp p hash x u) (h0 : p.size u ≠ 0) :
    ∃ a, env.flt x.amount = .ok a ∧ w.amount * p.size u = a * p.size x.unit := by
  obtain ⟨a, c, ha, hc, hw, -⟩ := h.amount
  obtain ⟨g, n, hd⟩ := hq.unit
  obtain ⟨-, -, h3⟩ := RefUnits.converted (p := p) (f := 1) (q := ⟨1, x.unit⟩) hd h0
  refine ⟨a, ha, ?_⟩
  rw [hw, Except.ok.inj (hc.symm.trans hq.factor), mul_assoc, h3, one_mul]

/-- C167: except for amounts of money and of mass over time, a product comes back as the same quantity. -/
theorem same_quantity_partial (h : ProductBack env unitProp xs x w) (hq : Quantity env unitProp p hash x u)
    (h0 : p.size u ≠ 0) (hs : ∀ q ∈ synonyms, p.size q.1 = p.size q.2) (h1 : u ≠ c!"EUR2000") (h2 : u ≠ c!"kg*a") :
    ∃ a, env.flt x.amount = .ok a ∧ w.amount * p.size (IlcdFlows.underscore w.unitName) = a * p.size x.unit := by
  obtain ⟨a, ha, e⟩ := quantity_back h hq h0
  refine ⟨a, ha, ?_⟩
  rcases List.mem_append.1 (unit_back h hq) with hm | hm
  · rw [← hs _ hm]; exact e
  · simp only [strangers, List.mem_cons, List.not_mem_nil, or_false, Prod.mk.injEq] at hm
    rcases hm with ⟨hm, -⟩ | ⟨hm, -⟩
    · exact absurd hm h1
    · exact absurd hm h2

/-- C167, exactly, for the two others: the unit is EUR2005 or kg*day, and a quantity other than zero is kept if and only if
that is as large as EUR2000 or kg*a. -/
theorem stranger_quantity_iff (h : ProductBack env unitProp xs x w) (hq : Quantity env unitProp p hash x u)
    (h0 : p.size u ≠ 0) (hu : u = c!"EUR2000" ∨ u = c!"kg*a") {a : ℝ} (ha : env.flt x.amount = .ok a)
    (hn : a * p.size x.unit ≠ 0) :
    (u, IlcdFlows.underscore w.unitName) ∈ strangers ∧
    (w.amount * p.size (IlcdFlows.underscore w.unitName) = a * p.size x.unit ↔
      p.size (IlcdFlows.underscore w.unitName) = p.size u) := by
  obtain ⟨a', ha', e⟩ := quantity_back h hq h0
  obtain rfl : a = a' := Except.ok.inj (ha.symm.trans ha')
  constructor
  · rcases List.mem_append.1 (unit_back h hq) with hm | hm
    · exfalso
      have : ∀ q ∈ synonyms, q.1 ≠ c!"EUR2000" ∧ q.1 ≠ c!"kg*a" := by decide
      rcases hu with rfl | rfl
      · exact (this _ hm).1 rfl
      · exact (this _ hm).2 rfl
    · exact hm
  · rw [← e]
    have hw : w.amount ≠ 0 := by
      intro h'
      rw [h', zero_mul] at e
      exact hn e.symm
    exact mul_right_inj' hw

/-- C167, refuted for money: euros of 2005 come back as euros of 2005, divided by 1.11. -/
theorem money_back (h : ProductBack env unitProp xs x w) (hq : Quantity env unitProp p hash x c!"EUR2000")
    (hx : x.unit = c!"EUR2005") (h1 : p.size c!"EUR2000" = 1.11) (h2 : p.size c!"EUR2005" = 1) {a : ℝ}
    (ha : env.flt x.amount = .ok a) :
    IlcdFlows.underscore w.unitName = c!"EUR2005" ∧ w.amount * 1.11 = a := by
  obtain ⟨a', ha', e⟩ := quantity_back h hq (by rw [h1]; norm_num)
  obtain rfl : a = a' := Except.ok.inj (ha.symm.trans ha')
  rw [h1, hx, h2, mul_one] at e
  refine ⟨?_, e⟩
  have hm := unit_back h hq
  simp [synonyms, strangers] at hm
  exact hm

/-- C167, refuted for mass over time: kg*day come back as kg*day, divided by the days of a year. -/
theorem mass_time_back (h : ProductBack env unitProp xs x w) (hq : Quantity env unitProp p hash x c!"kg*a")
    (hx : x.unit = c!"kg*day") (h0 : p.size c!"kg*day" ≠ 0) (h1 : p.size c!"kg*a" = 365.25 * p.size c!"kg*day") {a : ℝ}
    (ha : env.flt x.amount = .ok a) :
    IlcdFlows.underscore w.unitName = c!"kg*day" ∧ w.amount * 365.25 = a := by
  obtain ⟨a', ha', e⟩ := quantity_back h hq (by rw [h1]; exact mul_ne_zero (by norm_num) h0)
  obtain rfl : a = a' := Except.ok.inj (ha.symm.trans ha')
  rw [h1, hx, ← mul_assoc] at e
  refine ⟨?_, mul_right_cancel₀ h0 e⟩
  have hm := unit_back h hq
  simp [synonyms, strangers] at hm
  exact hm

end

/-- C166, exactly: the flow of an elementary exchange comes back if and only if the tables are inverse to each other for it. -/
theorem same_flow_iff {P D : Type} {env : EcsFlows.Env P} {base : IlcdFlows.Env ℝ D} {x : Exch} {w : IlcdFlows.Written ℝ}
    (h : ElementaryBack env base x w) {r : EcsFlows.Row} {r' : IlcdFlows.Row} (hr : Rows env base x r r') :
    w.target = x.fid ↔ r'.target = x.fid := by
  obtain ⟨q, q', -, -, -, -, ⟨h1, h2⟩, -, -, -, -, h3, -⟩ := h.found
  obtain rfl : q = r := Option.some.inj (h1.1.symm.trans hr.1.1)
  obtain rfl : q' = r' := Option.some.inj (h2.1.symm.trans hr.2.1)
  rw [h3]

/-- C166, exactly: the quantity of an elementary exchange other than zero comes back if and only if the factors of the tables
and the sizes of the units make up for each other. -/
theorem same_elementary_quantity_iff {P D : Type} {env : EcsFlows.Env P} {base : IlcdFlows.Env ℝ D} {x : Exch}
    {w : IlcdFlows.Written ℝ} (h : ElementaryBack env base x w) (size : Str → ℝ) :
    ∃ r r' a k c k', Rows env base x r r' ∧ env.flt x.amount = .ok a ∧ Factor env r k ∧ env.unitFactor r.unit = .ok c ∧
      IlcdFlows.Spec.Factor base r' k' ∧ (a ≠ 0 → (w.amount * size w.unitName = a * size x.unit ↔
        k * c * k' * size r'.unit = size x.unit)) := by
  obtain ⟨r, r', a, k, c, k', h1, h2, h3, h4, h5, -, -, h6, h7⟩ := h.found
  refine ⟨r, r', a, k, c, k', h1, h2, h3, h4, h5, fun ha => ?_⟩
  rw [h6, h7, show a * k * c * k' * size r'.unit = a * (k * c * k' * size r'.unit) by ring]
  exact mul_right_inj' ha

/-! ### Examples -/

section Examples

open FlowFiles (someId otherId)

/-- Encryption that changes nothing. -/
def E0 : Uuid.BlockFn := fun _ _ => 0

/-- Steel, the reference product; the same flow under another name, as a waste; carbon dioxide. -/
def steel : Exch := ⟨false, c!"x0", someId, c!"steel", c!"kg", c!"1", none, some c!"0", none, none, [], none, []⟩
def scrap : Exch := ⟨false, c!"x1", someId, c!"scrap", c!"kg", c!"1", none, some c!"3", none, none, [], none, []⟩
def dioxide : Exch := ⟨true, c!"x2", c!"co2", c!"carbon dioxide", c!"kg", c!"1", none, some c!"4", none, none, [], none, []⟩

noncomputable def exEnv : EcsFlows.Env Unit where
  flt := fun _ => .ok 1
  showF := id
  unitFactor := fun _ => .ok 1
  conv := Uuid.ecsToIlcd E0
  elemVersion := fun _ => .ok c!"03.00.004"
  fp := fun _ => .ok ()
  mapping := [(c!"co2", ⟨c!"MATCH", otherId, c!"carbon dioxide", c!"kg", c!"n/a"⟩)]

def exFenv : FlowFiles.Env := ⟨Uuid.ecsToIlcd E0, fun _ => some c!"03.00.004", Validators.ascii⟩

noncomputable def exBase : IlcdFlows.Env ℝ Unit where
  flt := fun _ => .ok 1
  hash := id
  convId := .ok
  process := []
  refs := []
  row := fun _ => some ⟨c!"MATCH", c!"co2", c!"Carbon dioxide", c!"air/unspecified", c!"kg", c!"n/a"⟩
  subcompartment := fun _ => some []
  file := fun _ _ _ => none
  unit := fun _ => .ok ((), 1)
  units := []

def exPackage : Str → IlcdFlows.FlowFile := fun _ => ⟨some c!"Elementary flow", [c!"carbon dioxide"], none⟩
def massId : Str := c!"93a60a56-a3c8-11da-a746-0800200b9a66"
def exExtras : Extras := ⟨fun _ => [], fun _ => none, fun _ => none⟩
def exchs : List Exch := [steel, scrap, dioxide]

private theorem conv_some : Uuid.ecsToIlcd E0 someId = .ok someId := by decide +kernel

theorem ex_setting : Setting exEnv exFenv E0 (fun _ => massId) exPackage exchs where
  conv := rfl
  fconv := rfl
  ids := by
    have : Uuid.IsLowerUuid someId := by
      refine ⟨c!"0b0fcf7c", c!"f2f4", c!"4b0f", c!"9d0e", c!"e4b2a1f2a001", rfl, rfl, rfl, rfl, rfl, ?_, rfl⟩
      intro x hx
      revert x
      unfold Uuid.IsLowerHex
      decide +kernel
    intro x hx he
    simp only [exchs, List.mem_cons, List.not_mem_nil, or_false] at hx
    rcases hx with rfl | rfl | rfl
    · exact this
    · exact this
    · cases he
  groups := by
    intro x hx he
    simp only [exchs, List.mem_cons, List.not_mem_nil, or_false] at hx
    rcases hx with rfl | rfl | rfl
    · exact .inr ⟨rfl, c!"0", by simp, rfl⟩
    · exact .inr ⟨rfl, c!"3", by simp, rfl⟩
    · cases he
  elems := by
    intro x hx he
    simp only [exchs, List.mem_cons, List.not_mem_nil, or_false] at hx
    rcases hx with rfl | rfl | rfl
    · cases he
    · cases he
    · exact .inr ⟨rfl, rfl⟩
  targets := by
    intro x hx he r hr
    simp only [exchs, List.mem_cons, List.not_mem_nil, or_false] at hx
    rcases hx with rfl | rfl | rfl
    · cases he
    · cases he
    · have : r = ⟨c!"MATCH", otherId, c!"carbon dioxide", c!"kg", c!"n/a"⟩ := (Option.some.inj hr.1).symm
      subst this
      refine ⟨?_, rfl⟩
      refine ⟨c!"0b0fcf7c", _, rfl, ⟨by decide, by decide, by unfold Validators.Spec.isHex; decide⟩, c!"-", _, rfl, ⟨_, rfl, rfl⟩,
        c!"f2f4", _, rfl, ⟨by decide, by decide, by unfold Validators.Spec.isHex; decide⟩, c!"-", _, rfl, ⟨_, rfl, rfl⟩,
        c!"4b0f", _, rfl, ⟨by decide, by decide, by unfold Validators.Spec.isHex; decide⟩, c!"-", _, rfl, ⟨_, rfl, rfl⟩,
        c!"9d0e", _, rfl, ⟨by decide, by decide, by unfold Validators.Spec.isHex; decide⟩, c!"-", _, rfl, ⟨_, rfl, rfl⟩,
        c!"e4b2a1f2a002", _, rfl, ⟨by decide, by decide, by unfold Validators.Spec.isHex; decide⟩, rfl⟩
  apart := by
    intro x hx y hy he hye r hr
    simp only [exchs, List.mem_cons, List.not_mem_nil, or_false] at hx hy
    rcases hy with rfl | rfl | rfl
    · cases hye
    · cases hye
    have : r = ⟨c!"MATCH", otherId, c!"carbon dioxide", c!"kg", c!"n/a"⟩ := (Option.some.inj hr.1).symm
    subst this
    have h : Uuid.ecsToIlcd E0 someId ≠ .ok otherId ∧ someId ≠ c!"co2" := ⟨by rw [conv_some]; decide, by decide⟩
    rcases hx with rfl | rfl | rfl
    · exact h
    · exact h
    · cases he
  units := by
    intro x hx he p hp
    show (aget massId Units.ilcdToEcsUnit).isSome = true
    decide +kernel

/-- One in kilograms. -/
noncomputable def one : Uncertainty.Amt := ⟨1 * 1, 1 * 1, none⟩
noncomputable def oneElem : Uncertainty.Amt := ⟨1 * 1 * 1, 1 * 1, none⟩

noncomputable def exFlows : List Flow := [
  ⟨steel, someId, c!"01.00.001", 1, .output, some .product, one, none, [], none⟩,
  ⟨scrap, someId, c!"01.00.001", 2, .output, some .waste, one, none, [], none⟩,
  ⟨dioxide, otherId, c!"03.00.004", 3, .output, some .elementary, oneElem, none, [], none⟩]

def exLinks : List FlowFiles.Ref := [
  ⟨someId, c!"01.00.001", c!"../flows/" ++ someId ++ c!"_01.00.001"⟩,
  ⟨someId, c!"01.00.001", c!"../flows/" ++ someId ++ c!"_01.00.001"⟩, ⟨otherId, c!"03.00.004", c!"../flows/" ++ otherId⟩]

def exFiles : List (Str × FlowFiles.Content Unit Info) := [
  (someId ++ c!"_01.00.001.xml", .made c!"01.00.001" () ⟨c!"steel", some .product⟩), (otherId ++ c!".xml", .copied otherId)]

noncomputable def exDoc : Doc Unit := ⟨exFlows.map fun f => { f with mean := some f.amount.m }, [1], exFiles, exLinks⟩

noncomputable def exState : EcsFlows.St Unit where
  main := none
  underMain := none
  shares := []
  counter := 4
  refs := [1]
  funcUnit := some c!"steel, 1 kg"
  versions := [(someId, [(1, ())]), (c!"co2", [(0, ())])]
  files := [((someId, c!"01.00.001"), ())]
  flows := exFlows
  reported := []

private theorem ex_run : EcsFlows.run exEnv exchs (EcsFlows.fresh []) = .ok exState := by
  have h : exEnv.conv someId = .ok someId := conv_some
  have h1 : EcsFlows.step exEnv (EcsFlows.fresh []) steel = .ok { exState with
      counter := 2, versions := [(someId, [(1, ())])], flows := exFlows.take 1 } := by
    rw [EcsFlows.step, if_neg (by decide), EcsFlows.intermediate]
    simp only [show steel.fid = someId from rfl, h]
    rfl
  have h2 : EcsFlows.step exEnv { exState with counter := 2, versions := [(someId, [(1, ())])], flows := exFlows.take 1 } scrap =
      .ok { exState with counter := 3, versions := [(someId, [(1, ())])], flows := exFlows.take 2 } := by
    rw [EcsFlows.step, if_neg (by decide), EcsFlows.intermediate]
    simp only [show scrap.fid = someId from rfl, h]
    rfl
  have h3 : EcsFlows.step exEnv { exState with counter := 3, versions := [(someId, [(1, ())])], flows := exFlows.take 2 } dioxide =
      .ok exState := by
    rw [EcsFlows.step, if_pos (by decide), EcsFlows.elementaryFlow]
    rfl
  simp only [exchs, EcsFlows.run, h1, h2, h3]

private theorem ex_files : ∃ st, FlowFiles.run exFenv ⟨[], []⟩ (exchs.filterMap (fileExchange exEnv)) = .ok (st, exLinks) ∧
    st.files = exFiles := by
  have h : exchs.filterMap (fileExchange exEnv) = [.intermediate someId () ⟨c!"steel", some .product⟩,
      .intermediate someId () ⟨c!"scrap", some .waste⟩, .elementary c!"co2" otherId ()] := rfl
  rw [h]
  exact ⟨⟨[(someId, [(1, ())]), (c!"co2", [(0, ())])], exFiles⟩, by decide +kernel, rfl⟩

theorem ex_there : there exEnv exFenv false exchs = .ok exDoc := by
  obtain ⟨⟨v, f⟩, h, rfl⟩ := ex_files
  have hf := EcsFlows.unmerged exFlows
  unfold there
  simp only [ex_run, bind, Except.bind, show exState.shares = [] from rfl, show exState.flows = exFlows from rfl, hf, h]
  rfl

theorem ex_legible : Legible exBase (fun _ => c!"1") exDoc := by
  intro f hf v hv
  simp only [exDoc, exFlows, List.map_cons, List.map_nil, List.mem_cons, List.not_mem_nil, or_false] at hf
  show Except.ok 1 = Except.ok v
  rcases hf with rfl | rfl | rfl <;> (rw [← Option.some.inj hv]; simp [one, oneElem])

/-- The exchanges read from the data set. -/
noncomputable def exRead (n : Str) (i : Nat) (r : FlowFiles.Ref) : IlcdFlows.Exch ℝ :=
  ⟨r.id, r.version, r.uri, [n], some c!"1", some c!"1", [], none, c!"Output", natStr i, none⟩

private theorem ex_exchanges : exchanges (fun _ => c!"1") exExtras exDoc =
    [exRead c!"steel" 1 exLinks[0], exRead c!"scrap" 2 exLinks[1], exRead c!"carbon dioxide" 3 exLinks[2]] := rfl

private theorem ex_lookup : (lookup exFiles exLinks[0].id exLinks[0].version exLinks[0].uri =
      some (.made c!"01.00.001" () ⟨c!"steel", some .product⟩)) ∧
    lookup exFiles exLinks[2].id exLinks[2].version exLinks[2].uri = some (.copied otherId) := by
  constructor <;> decide +kernel

/-- A product, as it is written in the example. -/
noncomputable def exBack (id : Str) (g : Nat) : IlcdFlows.Written ℝ :=
  ⟨id, someId, c!"steel", c!"kg", c!"487df68b-4994-4027-8fdc-a4dc298257b7", 1, none, some g, [], none, none, none⟩

noncomputable def exReader : IlcdFlows.Env ℝ Unit := reader exBase E0 (fun _ => massId) exPackage exDoc

private theorem ex_file0 : exReader.file exLinks[0].id exLinks[0].version exLinks[0].uri =
    some ⟨some c!"Product flow", [c!"steel"], some massId⟩ := by
  have : exReader.file = fun id version uri => (lookup exFiles id version uri).map (flowFile (fun _ => massId) exPackage) := rfl
  rw [this]
  simp only [ex_lookup.1]
  rfl

private theorem ex_file2 : exReader.file exLinks[2].id exLinks[2].version exLinks[2].uri =
    some ⟨some c!"Elementary flow", [c!"carbon dioxide"], none⟩ := by
  have : exReader.file = fun id version uri => (lookup exFiles id version uri).map (flowFile (fun _ => massId) exPackage) := rfl
  rw [this]
  simp only [ex_lookup.2]
  rfl

private theorem ex_product (s : IlcdFlows.St ℝ) (n : Str) (k : Nat) (id : Str) (g : Nat)
    (hid : IlcdFlows.freshId exReader.hash s.ids (exReader.process ++ c!"steel") = some id)
    (hg : IlcdFlows.groups false (decide (natStr k ∈ exReader.refs)) c!"Output" c!"Product flow" = .ok (none, some g)) :
    IlcdFlows.convertOne exReader s (exRead n k exLinks[0]) = .ok
      (({ s with ids := s.ids ++ [id] } : IlcdFlows.St ℝ).put
        ⟨exRead n k exLinks[0], false, c!"Product flow", s.next, 1, c!"kg", none, c!"steel", none, exBack id g⟩) := by
  have hc : exReader.convId exLinks[0].id = .ok someId := by
    show Uuid.ilcdToEcs E0 someId = .ok someId
    decide +kernel
  have hu : aget massId exReader.units = some (c!"487df68b-4994-4027-8fdc-a4dc298257b7", c!"kg") := by
    show aget massId Units.ilcdToEcsUnit = _
    decide +kernel
  have ha : IlcdFlows.amountOf exReader (exRead n k exLinks[0]) = .ok 1 := rfl
  have hn : exReader.unit c!"kg" = .ok ((), 1) := rfl
  have hk : IlcdFlows.underscore c!"kg" = c!"kg" := by decide
  have ht : ¬ (c!"Product flow" = c!"Elementary flow") := by decide
  unfold IlcdFlows.convertOne
  rw [if_neg (by simp [exRead]), ha]
  simp only [exRead, bind, Except.bind, ex_file0, if_neg ht, IlcdFlows.intermediate, hc, IlcdFlows.baseName, Option.bind_some, hu, hn,
    hk, IlcdFlows.finish, hid]
  erw [hg]
  rfl

private theorem ex_elementary (s : IlcdFlows.St ℝ) (hid : c!"carbon dioxide" ∉ s.ids) :
    ∃ i, IlcdFlows.convertOne exReader s (exRead c!"carbon dioxide" 3 exLinks[2]) = .ok
      (({ s with ids := s.ids ++ [c!"carbon dioxide"] } : IlcdFlows.St ℝ).put
        ⟨exRead c!"carbon dioxide" 3 exLinks[2], true, c!"Elementary flow", s.next, 1 * 1, c!"kg", none, c!"carbon dioxide", none,
          ⟨c!"carbon dioxide", c!"co2", c!"Carbon dioxide", c!"kg", i, 1 * 1, none, some 4, [], none, none, none⟩⟩) := by
  have hi : ∃ i, IlcdFlows.unitFor exReader () exReader.units = .ok i := ⟨_, rfl⟩
  obtain ⟨i, hi⟩ := hi
  refine ⟨i, ?_⟩
  have ha : IlcdFlows.amountOf exReader (exRead c!"carbon dioxide" 3 exLinks[2]) = .ok 1 := rfl
  have hr : IlcdFlows.rowOf exReader exLinks[2].id =
    some ⟨c!"MATCH", c!"co2", c!"Carbon dioxide", c!"air/unspecified", c!"kg", c!"n/a"⟩ := rfl
  have hs : exReader.subcompartment c!"air/unspecified" = some [] := rfl
  have hn : exReader.unit c!"kg" = .ok ((), 1) := rfl
  have hl : ¬ (splitOn '/' c!"air/unspecified").length < 2 := by decide
  have hf : IlcdFlows.rowFactor exReader ⟨c!"MATCH", c!"co2", c!"Carbon dioxide", c!"air/unspecified", c!"kg", c!"n/a"⟩ = .ok 1 := rfl
  have hh : IlcdFlows.freshId exReader.hash s.ids (exReader.process ++ c!"carbon dioxide") = some c!"carbon dioxide" := by
    show IlcdFlows.freshId (fun t => t) s.ids c!"carbon dioxide" = _
    rw [IlcdFlows.freshId, if_neg hid]
  have hg : IlcdFlows.groups true (decide (natStr 3 ∈ exReader.refs)) c!"Output" c!"Elementary flow" = .ok (none, some 4) := rfl
  unfold IlcdFlows.convertOne
  rw [if_neg (by simp [exRead]), ha]
  simp only [exRead, bind, Except.bind, ex_file2, if_true, hr, IlcdFlows.elementary, hs, if_neg hl, hf, hn, hi, IlcdFlows.baseName,
    IlcdFlows.finish, hh]
  erw [hg]
  rfl

private theorem convert_three {env : IlcdFlows.Env ℝ Unit} {s s1 s2 s3 : IlcdFlows.St ℝ} {a b c : IlcdFlows.Exch ℝ}
    (h1 : IlcdFlows.convertOne env s a = .ok s1) (h2 : IlcdFlows.convertOne env s1 b = .ok s2)
    (h3 : IlcdFlows.convertOne env s2 c = .ok s3) : IlcdFlows.convertAll env s [a, b, c] = .ok s3 := by
  simp [IlcdFlows.convertAll, h1, h2, h3, bind, Except.bind]

theorem ex_back : ∃ s, back exBase E0 (fun _ => massId) exPackage (fun _ => c!"1") exExtras exDoc = .ok s ∧
    (s.flows.filter fun fl => !fl.elem).map (·.field) = [exBack c!"steel" 0, exBack c!"steel1" 2] ∧
    (s.flows.filter fun fl => fl.elem).map (fun fl => (fl.field.target, fl.field.unitName, fl.field.outputGroup)) =
      [(c!"co2", c!"kg", some 4)] := by
  have h1 := ex_product .empty c!"steel" 1 c!"steel" 0 rfl rfl
  have h2 := ex_product (n := c!"scrap") (k := 2) (id := c!"steel1") (g := 2) (s := (({ IlcdFlows.St.empty with ids := [c!"steel"] } : IlcdFlows.St ℝ).put
        ⟨exRead c!"steel" 1 exLinks[0], false, c!"Product flow", 0, 1, c!"kg", none, c!"steel", none, exBack c!"steel" 0⟩)) (hid := rfl) (hg := rfl)
  obtain ⟨i, h3⟩ := ex_elementary (s := ((({ (({ IlcdFlows.St.empty with ids := [c!"steel"] } : IlcdFlows.St ℝ).put
        ⟨exRead c!"steel" 1 exLinks[0], false, c!"Product flow", 0, 1, c!"kg", none, c!"steel", none, exBack c!"steel" 0⟩) with
          ids := [c!"steel", c!"steel1"] } : IlcdFlows.St ℝ).put
        ⟨exRead c!"scrap" 2 exLinks[0], false, c!"Product flow", 1, 1, c!"kg", none, c!"steel", none, exBack c!"steel1" 2⟩)))
        (hid := by simp [IlcdFlows.St.put])
  have h : back exBase E0 (fun _ => massId) exPackage (fun _ => c!"1") exExtras exDoc = IlcdFlows.convertAll exReader .empty
      [exRead c!"steel" 1 exLinks[0], exRead c!"scrap" 2 exLinks[0], exRead c!"carbon dioxide" 3 exLinks[2]] := by
    unfold back
    rw [ex_exchanges]
    rfl
  exact ⟨_, h.trans (convert_three h1 h2 h3), rfl, rfl⟩

/-- The theorems on both conversions apply to the example. -/
example : ∃ s, Setting exEnv exFenv E0 (fun _ => massId) exPackage exchs ∧ there exEnv exFenv false exchs = .ok exDoc ∧
    Legible exBase (fun _ => c!"1") exDoc ∧
    back exBase E0 (fun _ => massId) exPackage (fun _ => c!"1") exExtras exDoc = .ok s := by
  obtain ⟨s, h, -⟩ := ex_back
  exact ⟨s, ex_setting, ex_there, ex_legible, h⟩

/-- C164 and C165, refuted: the second product of the example comes back, but under the name of the first, and the waste is no
waste any more. -/
theorem not_kept : ∃ s fl, there exEnv exFenv false exchs = .ok exDoc ∧
    back exBase E0 (fun _ => massId) exPackage (fun _ => c!"1") exExtras exDoc = .ok s ∧
    (exchs.filter fun x => !x.isElem)[1]? = some scrap ∧ (s.flows.filter fun fl => !fl.elem)[1]? = some fl ∧
    fl.field.target = scrap.fid ∧ fl.field.name ≠ scrap.name ∧ ¬ SameGroups scrap fl.field := by
  obtain ⟨s, h, h1, -⟩ := ex_back
  have h2 : ((s.flows.filter fun fl => !fl.elem).map (·.field))[1]? = some (exBack c!"steel1" 2) := by rw [h1]; rfl
  rw [List.getElem?_map] at h2
  cases hf : (s.flows.filter fun fl => !fl.elem)[1]? with
  | none => rw [hf] at h2; cases h2
  | some fl =>
    rw [hf] at h2
    have e : fl.field = exBack c!"steel1" 2 := Option.some.inj h2
    refine ⟨s, fl, ex_there, h, rfl, hf, by rw [e]; rfl, ?_, ?_⟩
    · rw [e]
      show c!"steel" ≠ c!"scrap"
      decide
    · rw [e]
      rintro ⟨-, h⟩
      have : natStr 2 = c!"3" := Option.some.inj h
      revert this
      decide

/-- `same_groups_iff`, `same_name_iff` and `names_back`: the first product of the example is described by itself. -/
example : ∃ s fl, (s.flows.filter fun fl => !fl.elem)[0]? = some fl ∧
    back exBase E0 (fun _ => massId) exPackage (fun _ => c!"1") exExtras exDoc = .ok s ∧
    ProductBack exEnv (fun _ => massId) exchs steel fl.field ∧ First exEnv.fp exchs steel steel ∧ ValidGroup steel ∧
    fl.field.name = steel.name ∧ SameGroups steel fl.field := by
  obtain ⟨s, h, -⟩ := ex_back
  have hp := products_back ex_setting ex_there ex_legible h
  have hx : (exchs.filter fun x => !x.isElem) = [steel, scrap] := rfl
  rw [hx] at hp
  obtain ⟨fl, l, h1, -, hl⟩ := List.forall₂_cons_left_iff.1 hp
  have hf : First exEnv.fp exchs steel steel :=
    ⟨[], [scrap, dioxide], rfl, ⟨rfl, rfl, (), rfl, rfl⟩, by simp⟩
  have hv : ValidGroup steel := .inr ⟨rfl, c!"0", by simp, rfl⟩
  refine ⟨s, fl, by rw [hl]; rfl, h, h1, hf, hv, (same_name_iff h1 hf).2 rfl, ?_⟩
  obtain ⟨y, hy, -, hg⟩ := h1.described
  obtain rfl := first_unique hf hy
  exact (same_groups_iff hv hg).2 (.inr (.inl rfl))

/-- Pint, with the sizes it has for money and for mass over time. -/
noncomputable def exPint : RefUnits.Pint ℝ where
  dim := fun u => if u = c!"EUR2005" then c!"[currency]" else if u = c!"kg*day" then c!"[mass] * [time]" else c!"[mass]"
  size := fun u => if u = c!"EUR2000" then 1.11 else if u = c!"kg*a" then 365.25 else 1
  base := id

def exHash (t : Str) : Str :=
  if t = c!"[currency]" then c!"7cd6e908-4c0a-35b9-9530-620e5877f4e5"
  else if t = c!"[mass] * [time]" then c!"86e381c9-d6d4-3241-b8f6-3d78596aa3cc"
  else c!"7844486d-bbaf-3c45-9487-7fe3476c5b6f"

/-- A product in the given unit, its surroundings, and how it comes back. -/
def exUnit (u : Str) : Exch := { steel with unit := u }

noncomputable def exUnits : EcsFlows.Env Unit :=
  { exEnv with unitFactor := fun u => .ok (RefUnits.toIlcdUnit exPint exHash 1 ⟨1, u⟩).2 }

private theorem ex_quantity {u v prop i n : Str} {g k : Str}
    (h1 : aget (exHash (RefUnits.correctDim (exPint.dim u))) Units.pintToIlcdDef = some (g, k, v))
    (h2 : ∃ r s', RefUnits.unitProperty exHash none (exPint.dim u) (RefUnits.St.start [] []) = .ok (r, s') ∧ r.id = prop)
    (h3 : aget prop Units.ilcdToEcsUnit = some (i, n)) :
    Quantity exUnits (fun _ => prop) exPint exHash (exUnit u) v ∧ ∃ w : IlcdFlows.Written ℝ,
      ProductBack exUnits (fun _ => prop) [exUnit u] (exUnit u) w := by
  obtain ⟨r, s', h2, h4⟩ := h2
  refine ⟨⟨⟨g, k, h1⟩, rfl, fun fp _ => ⟨none, _, r, s', h2, h4.symm⟩⟩,
    ⟨c!"steel", someId, c!"steel", n, i, 1 * (RefUnits.toIlcdUnit exPint exHash 1 ⟨1, u⟩).2, none, some 0, [], none, none, none⟩,
    rfl, ⟨exUnit u, ⟨[], [], rfl, ⟨rfl, rfl, (), rfl, rfl⟩, by simp⟩, rfl, ?_⟩, ⟨1, _, rfl, rfl, rfl, trivial⟩, (), rfl, h3⟩
  unfold groupsBack
  rw [if_neg (by simp [exUnit, steel]), if_pos (show (exUnit u).outputGroup = some c!"0" from rfl)]

/-- `money_back`. -/
example : Quantity exUnits (fun _ => c!"67b63204-ef91-44b2-a927-2f4ead1fae17") exPint exHash (exUnit c!"EUR2005") c!"EUR2000" ∧
    exPint.size c!"EUR2000" = 1.11 ∧ exPint.size c!"EUR2005" = 1 ∧ ∃ w : IlcdFlows.Written ℝ,
      ProductBack exUnits (fun _ => c!"67b63204-ef91-44b2-a927-2f4ead1fae17") [exUnit c!"EUR2005"] (exUnit c!"EUR2005") w := by
  have h := ex_quantity (u := c!"EUR2005") (v := c!"EUR2000") (prop := c!"67b63204-ef91-44b2-a927-2f4ead1fae17") rfl ⟨_, _, rfl, rfl⟩ rfl
  exact ⟨h.1, by simp [exPint], by simp [exPint], h.2⟩

/-- `mass_time_back`. -/
example : Quantity exUnits (fun _ => c!"b3f0f892-c5a3-4c66-a432-c09e3d1e9bd6") exPint exHash (exUnit c!"kg*day") c!"kg*a" ∧
    exPint.size c!"kg*day" ≠ 0 ∧ exPint.size c!"kg*a" = 365.25 * exPint.size c!"kg*day" ∧ ∃ w : IlcdFlows.Written ℝ,
      ProductBack exUnits (fun _ => c!"b3f0f892-c5a3-4c66-a432-c09e3d1e9bd6") [exUnit c!"kg*day"] (exUnit c!"kg*day") w := by
  have h := ex_quantity (u := c!"kg*day") (v := c!"kg*a") (prop := c!"b3f0f892-c5a3-4c66-a432-c09e3d1e9bd6") rfl ⟨_, _, rfl, rfl⟩ rfl
  exact ⟨h.1, by simp [exPint], by simp [exPint], h.2⟩

/-- `same_quantity_partial`: kilograms, with other names of equal size. -/
example : Quantity exUnits (fun _ => massId) exPint exHash (exUnit c!"kg") c!"kg" ∧ exPint.size c!"kg" ≠ 0 ∧
    (∀ q ∈ synonyms, exPint.size q.1 = exPint.size q.2) ∧ ∃ w : IlcdFlows.Written ℝ,
      ProductBack exUnits (fun _ => massId) [exUnit c!"kg"] (exUnit c!"kg") w := by
  have h := ex_quantity (u := c!"kg") (v := c!"kg") (prop := massId) rfl ⟨_, _, rfl, rfl⟩ rfl
  refine ⟨h.1, by simp [exPint], ?_, h.2⟩
  intro q hq
  have hn : ∀ q ∈ synonyms, (q.1 ≠ c!"EUR2000" ∧ q.1 ≠ c!"kg*a") ∧ q.2 ≠ c!"EUR2000" ∧ q.2 ≠ c!"kg*a" := by decide
  obtain ⟨⟨a1, a2⟩, a3, a4⟩ := hn q hq
  simp [exPint, a1, a2, a3, a4]

/-- `elementary_back`, `same_flow_iff` and `same_elementary_quantity_iff`: carbon dioxide comes back. -/
example : ∃ w : IlcdFlows.Written ℝ, ElementaryBack exEnv exBase dioxide w ∧ ∃ r r', Rows exEnv exBase dioxide r r' := by
  obtain ⟨s, h, -, h1⟩ := ex_back
  have hp := elementary_back ex_setting ex_there ex_legible h
  cases hf : s.flows.filter fun fl => fl.elem with
  | nil => rw [hf] at h1; cases h1
  | cons fl l =>
    rw [hf] at hp
    obtain ⟨x, t, hx, -, hxs⟩ := List.forall₂_cons_right_iff.1 hp
    have hm : x ∈ exchs.filter _ := hxs ▸ List.mem_cons_self
    obtain ⟨hm, hd⟩ := List.mem_filter.1 hm
    simp only [Bool.and_eq_true, decide_eq_true_eq] at hd
    simp only [exchs, List.mem_cons, List.not_mem_nil, or_false] at hm
    rcases hm with rfl | rfl | rfl
    · exact absurd hd.1 (by decide)
    · exact absurd hd.1 (by decide)
    · exact ⟨fl.field, hx, hd.2⟩

end Examples

end Verif.RoundTrip
