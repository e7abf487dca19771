/-
Equal elementary flows of a converted data set are summed: what is kept, and what is lost.
-/
import Verif.Lemmas.EcsMerge
import Verif.Props.EcsFlows

namespace Verif.EcsFlows
open Uncertainty Spec

theorem total_eq (flows : List Flow) (t : Str) (d : Dir) :
    total flows t d = ((withKey (t, d) flows).map fun f => f.amount.m).sum := by
  unfold total withKey
  congr 2
  apply List.filter_congr
  intro f _
  simp only [Flow.isElementary, Flow.key, Prod.mk.injEq]
  by_cases h : f.ftype = some .elementary <;> simp [h]

theorem filter_filterMap_congr {α β : Type} {g : α → Option β} {p : β → Bool} {q : α → Bool} :
    ∀ {l : List α}, (∀ x ∈ l, ∀ y, g x = some y → p y = q x) →
      (l.filterMap g).filter p = (l.filter q).filterMap g
  | [], _ => rfl
  | x :: l, h => by
    have ih := filter_filterMap_congr (l := l) (fun y hy => h y (by simp [hy]))
    cases hx : g x with
    | none =>
      rw [List.filterMap_cons_none hx, ih]
      by_cases hq : q x = true
      · rw [List.filter_cons_of_pos hq, List.filterMap_cons_none hx]
      · rw [List.filter_cons_of_neg hq]
    | some y =>
      rw [List.filterMap_cons_some hx]
      have := h x (by simp) y hx
      by_cases hq : q x = true
      · rw [List.filter_cons_of_pos hq, List.filterMap_cons_some hx, List.filter_cons_of_pos (by rw [this, hq]), ih]
      · rw [List.filter_cons_of_neg hq, List.filter_cons_of_neg (by rw [this]; exact hq), ih]

theorem filterMap_map_sublist {α β γ : Type} {g : α → Option β} {u : β → γ} {v : α → γ} :
    ∀ {l : List α}, (∀ x ∈ l, ∀ y, g x = some y → u y = v x) → ((l.filterMap g).map u).Sublist (l.map v)
  | [], _ => by simp
  | x :: l, h => by
    have ih := filterMap_map_sublist (l := l) (u := u) (v := v) (fun y hy => h y (by simp [hy]))
    cases hx : g x with
    | none => rw [List.filterMap_cons_none hx]; exact ih.cons _
    | some y =>
      rw [List.filterMap_cons_some hx, List.map_cons, List.map_cons, h x (by simp) y hx]
      exact ih.cons_cons _

theorem isElementary_iff (f : Flow) : f.isElementary = true ↔ f.ftype = some .elementary := by
  simp [Flow.isElementary]

theorem placed {flows : List Flow} {r : List ((Str × Dir) × Flow)} (hr : mergeGroups (groups flows) = .ok r)
    {x y : Flow} (h : place r x = some y) : y.key = x.key ∧ y.ftype = x.ftype ∧ y.internalId = x.internalId := by
  unfold place at h
  split at h
  · simp only [Option.some.injEq] at h; subst h; exact ⟨rfl, rfl, rfl⟩
  · rename_i m hm
    split at h
    · rename_i he
      split at h
      · rename_i hi
        simp only [Option.some.injEq] at h
        subst h
        rcases place_ok hr x.key with ⟨h0, -⟩ | ⟨f0, f1, l, m', hw, h1, h2⟩
        · rw [h0] at hm; simp at hm
        · rw [h1] at hm
          simp only [Option.some.injEq] at hm
          subst hm
          have hf0 := (mem_withKey (k := x.key) (flows := flows) (f := f0)).1 (by rw [hw]; simp)
          have sb := (mergeRest_ok h2).1
          refine ⟨?_, ?_, hi.symm⟩
          · rw [← hf0.2.2]; simp [Flow.key, sb.target, sb.dir]
          · rw [sb.ftype, (isElementary_iff _).1 hf0.2.1, (isElementary_iff _).1 he]
      · simp at h
    · simp only [Option.some.injEq] at h; subst h; exact ⟨rfl, rfl, rfl⟩

theorem withKey_find (k : Str × Dir) (flows : List Flow) :
    (withKey k flows).head? =
      flows.find? fun f => decide (f.ftype = some .elementary ∧ f.target = k.1 ∧ f.dir = k.2) := by
  unfold withKey
  rw [List.head?_filter]
  congr 1
  funext f
  obtain ⟨t, d⟩ := k
  simp only [Flow.isElementary, Flow.key, Prod.mk.injEq]
  by_cases h : f.ftype = some .elementary <;> simp [h]

/-- C35. With the option to sum equal elementary flows, the result has for every elementary flow and
direction of the source exactly one exchange, its value is the total of the exchanges of the source, and it
has the identifier of the first of them. The other exchanges stay, with their own values, and the order is
kept. The exchanges that are no elementary flows are taken to refer to other flows. -/
theorem merge_total {flows out : List Flow} (hid : (flows.map Flow.internalId).Nodup)
    (hsep : ∀ f ∈ flows, ∀ g ∈ flows, f.ftype = some .elementary → g.ftype ≠ some .elementary →
      (f.target, f.dir) ≠ (g.target, g.dir))
    (h : finish true [] flows = .ok out) :
    (∀ t d, (∃ f ∈ flows, f.ftype = some .elementary ∧ f.target = t ∧ f.dir = d) →
      ∃ f g, (flows.find? fun f => decide (f.ftype = some .elementary ∧ f.target = t ∧ f.dir = d)) = some f ∧
        (out.filter fun g => decide (g.ftype = some .elementary ∧ g.target = t ∧ g.dir = d)) = [g] ∧
        g.mean = some (total flows t d) ∧ g.internalId = f.internalId ∧ g.src = f.src) ∧
    (out.filter fun g => decide (g.ftype ≠ some .elementary)) =
      (flows.filter fun g => decide (g.ftype ≠ some .elementary)).map
        (fun f => { f with mean := some f.amount.m }) ∧
    (out.map Flow.internalId).Sublist (flows.map Flow.internalId) := by
  obtain ⟨r, hr, rfl⟩ := finish_true h
  refine ⟨?_, ?_, ?_⟩
  · rintro t d ⟨f, hf, hfe, rfl, rfl⟩
    have hfm : f ∈ withKey (f.target, f.dir) flows := mem_withKey.2 ⟨hf, (isElementary_iff _).2 hfe, rfl⟩
    have hfilter : ((flows.filterMap (place r)).filter fun g =>
        decide (g.ftype = some .elementary ∧ g.target = f.target ∧ g.dir = f.dir)) =
        (withKey (f.target, f.dir) flows).filterMap (place r) := by
      unfold withKey
      apply filter_filterMap_congr
      intro x _ y hy
      obtain ⟨h1, h2, -⟩ := placed hr hy
      have h1' : y.target = x.target ∧ y.dir = x.dir := by simpa [Flow.key] using h1
      simp only [h2, h1'.1, h1'.2, Flow.isElementary, Flow.key, Prod.mk.injEq]
      by_cases hx : x.ftype = some .elementary <;> simp [hx]
    rw [hfilter, total_eq]
    have hfind := withKey_find (f.target, f.dir) flows
    have hnd : ((withKey (f.target, f.dir) flows).map Flow.internalId).Nodup :=
      hid.sublist (List.filter_sublist.map _)
    rcases place_ok hr (f.target, f.dir) with ⟨h0, hl⟩ | ⟨f0, f1, l, m, hw, h1, h2⟩
    · match hw : withKey (f.target, f.dir) flows with
      | [] => rw [hw] at hfm; simp at hfm
      | [f'] =>
        rw [hw] at hfm
        simp only [List.mem_singleton] at hfm
        subst hfm
        rw [hw] at hfind
        refine ⟨f, { f with mean := some f.amount.m }, hfind.symm, ?_, by simp, rfl, rfl⟩
        have : place r f = some { f with mean := some f.amount.m } := by
          unfold place
          rw [show f.key = (f.target, f.dir) from rfl, h0]
        simp [this]
      | _ :: _ :: _ => rw [hw] at hl; simp at hl
    · obtain ⟨sb, hm, -⟩ := mergeRest_ok h2
      rw [hw] at hfind hnd ⊢
      refine ⟨f0, m, hfind.symm, ?_, hm, sb.id, sb.src⟩
      have hk : ∀ g ∈ f0 :: f1 :: l, g.isElementary = true ∧ g.key = (f.target, f.dir) := by
        intro g hg
        rw [← hw] at hg
        exact (mem_withKey.1 hg).2
      have hp0 : place r f0 = some m := by
        unfold place
        rw [(hk f0 (by simp)).2, h1]
        simp [(hk f0 (by simp)).1, sb.id]
      rw [List.filterMap_cons_some hp0, List.cons.injEq]
      refine ⟨rfl, List.filterMap_eq_nil_iff.2 ?_⟩
      intro g hg
      have hne : g.internalId ≠ m.internalId := by
        rw [sb.id]
        intro e
        rw [List.map_cons, List.nodup_cons] at hnd
        exact hnd.1 (e ▸ List.mem_map.2 ⟨g, hg, rfl⟩)
      unfold place
      rw [(hk g (List.mem_cons_of_mem _ hg)).2, h1]
      simp [(hk g (List.mem_cons_of_mem _ hg)).1, hne]
  · rw [filter_filterMap_congr (q := fun g => decide (g.ftype ≠ some .elementary))]
    · rw [← List.filterMap_eq_map]
      apply List.filterMap_congr
      intro x hx
      obtain ⟨hx, hxe⟩ := List.mem_filter.1 hx
      have hxe : x.ftype ≠ some .elementary := by simpa using hxe
      rcases place_ok hr x.key with ⟨h0, hl⟩ | ⟨f0, f1, l, m, hw, h1, h2⟩
      · unfold place; rw [h0]; rfl
      · have hf0 := (mem_withKey (k := x.key) (flows := flows) (f := f0)).1 (by rw [hw]; simp)
        exact absurd hf0.2.2 (hsep f0 hf0.1 x hx ((isElementary_iff _).1 hf0.2.1) hxe)
    · intro x _ y hy
      rw [(placed hr hy).2.1]
  · exact filterMap_map_sublist fun x _ y hy => (placed hr hy).2.2

/-- C35, the other choice: without the option every exchange stays, with its own value. -/
theorem unmerged (flows : List Flow) :
    finish false [] flows = .ok (flows.map fun f => { f with mean := some f.amount.m }) := by
  simp only [finish, allocate_nil, Bool.false_eq_true, if_false, Except.ok.injEq]
  rw [← List.filterMap_eq_map]
  apply List.filterMap_congr
  intro x _
  simp [place, aget]

/-- C35, when summing fails: the sum of two exchanges of a group cannot be made exactly if the second has
sources and the first none, or if both are normal and one has no positive variance. -/
theorem merge_fails_iff (f g : Flow) : (∃ m, mergeOne f g = .ok m) ↔
    ¬ (f.sources = [] ∧ g.sources ≠ []) ∧
    ¬ ∃ v w, f.amount.unc = some (.normal v) ∧ g.amount.unc = some (.normal w) ∧ ¬ (0 < v ∧ 0 < w) := by
  have hs : (∃ l, mergeSources f.sources g.sources = .ok l) ↔ ¬ (f.sources = [] ∧ g.sources ≠ []) := by
    unfold mergeSources
    split
    · simp_all
    · split <;> simp_all
  have ha : (∃ a, f.amount.add g.amount = .ok a) ↔
      ¬ ∃ v w, f.amount.unc = some (.normal v) ∧ g.amount.unc = some (.normal w) ∧ ¬ (0 < v ∧ 0 < w) := by
    unfold Amt.add sumUnc
    split
    · rename_i v w hv hw
      simp only [hv, hw, canMake, Bool.false_eq_true, false_imp_iff, true_and]
      by_cases hvw : 0 < v ∧ 0 < w
      · simp only [hvw, and_self, if_true, Except.map]
        simp only [Except.ok.injEq, exists_eq', true_iff, not_exists]
        rintro v' w' ⟨h1, h2, h3⟩
        simp only [Option.some.injEq, Unc.normal.injEq] at h1 h2
        subst h1 h2
        exact h3 hvw
      · simp only [hvw, if_false, Except.map]
        simp only [reduceCtorEq, exists_false, false_iff, not_not]
        exact ⟨v, w, rfl, rfl, hvw⟩
    · rename_i u u' hno hu hu'
      simp only [Except.map, Except.ok.injEq, exists_eq', true_iff, not_exists]
      rintro v w ⟨h1, h2, -⟩
      rw [hu] at h1
      rw [hu'] at h2
      exact hno v w (by simpa using h1) (by simpa using h2)
    all_goals (simp only [Except.map, Except.ok.injEq, exists_eq', true_iff, not_exists]; rintro v w ⟨h1, h2, -⟩; simp_all)
  rw [← hs, ← ha]
  unfold mergeOne
  constructor
  · rintro ⟨m, h⟩
    split at h
    · simp at h
    · rename_i src hsrc
      split at h
      · simp at h
      · rename_i a haa
        exact ⟨⟨src, hsrc⟩, ⟨a, haa⟩⟩
  · rintro ⟨⟨l, hl⟩, ⟨a, haa⟩⟩
    simp only [hl, haa]
    exact ⟨_, rfl⟩

/-- C64 fails: two exchanges of the same flow with lognormal amounts. The sum has no uncertainty, but the
bounds of the first exchange stay in the data set; if the second exchange is large enough, the written
maximum is below the written value. -/
theorem merge_stale_bounds (f g : Flow) (v w : ℝ) (hf : f.amount.unc = some (.lognormal v))
    (hb : f.bounds = f.amount.written) (hg : g.amount.unc = some (.lognormal w))
    (hs : g.sources = []) :
    ∃ m b, mergeOne f g = .ok m ∧ m.amount.unc = none ∧ m.bounds = some b ∧ f.amount.written = some b ∧
      m.amount.m = f.amount.m + g.amount.m ∧ b.mean = f.amount.m ∧
      (g.amount.m > f.amount.m * (Real.exp (Real.sqrt v) ^ 2 - 1) → b.max < m.amount.m) := by
  have hw : f.amount.written = some ⟨.lognormal, f.amount.m, f.amount.m / Real.exp (Real.sqrt v) ^ 2,
      f.amount.m * Real.exp (Real.sqrt v) ^ 2, some (Real.exp (Real.sqrt v) ^ 2)⟩ := by
    simp [Amt.written, hf]
  refine ⟨{ f with amount := ⟨f.amount.m + g.amount.m, f.amount.f + g.amount.m, none⟩ }, _, ?_, rfl,
    by rw [hb]; exact hw, hw, rfl, rfl, ?_⟩
  · simp [mergeOne, mergeSources, hs, Amt.add, sumUnc, hf, hg, Except.map, mergeBounds, Amt.written]
  · intro hlt
    simp only
    nlinarith

theorem flowType_ref (b : Option Str) : flowType b .output c!"0" ≠ some .elementary := by
  unfold flowType
  cases b with
  | none => simp
  | some c => simp only; split <;> simp

theorem reference_kind {FP : Type} [DecidableEq FP] {env : Env FP} {xs : List Exch}
    {files : List ((Str × Str) × FP)} {s : St FP} (h : run env xs (fresh files) = .ok s) :
    ∀ f ∈ s.flows, IsReference f.src → f.ftype ≠ some .elementary := by
  refine run_induction (P := fun _ s => ∀ f ∈ s.flows, IsReference f.src → f.ftype ≠ some .elementary)
    (by simp [fresh]) ?_ h
  intro l x s s' _ ih hs
  have key : ∀ f dir group, Numbered env s s' x f dir group → (∃ b, f.ftype = flowType b dir group) →
      ∀ g ∈ s'.flows, IsReference g.src → g.ftype ≠ some .elementary := by
    rintro f dir group hn ⟨b, hb⟩ g hg hr
    rw [hn.flows] at hg
    rcases List.mem_append.1 hg with hg | hg
    · exact ih g hg hr
    · simp only [List.mem_singleton] at hg
      subst hg
      rw [hn.src] at hr
      obtain ⟨hd, hgr⟩ := (direction_ref hn.dirs).2 hr
      rw [hb, hd, hgr]
      exact flowType_ref b
  unfold step at hs
  split at hs
  · rcases elementaryFlow_ok hs with ⟨hr, rfl⟩ | ⟨f, dir, group, fp, o, r, hn, -, -, -, hft, -⟩
    · exact ih
    · exact key f dir group hn ⟨_, hft⟩
  · obtain ⟨f, dir, group, fp, o, hn, -, hft, -⟩ := intermediate_ok hs
    exact key f dir group hn ⟨_, hft⟩

/-- C33, with the option to sum equal elementary flows: the identifiers are still different and in order,
and the identifiers of the reference flows are still there. -/
theorem merge_identifiers {FP : Type} [DecidableEq FP] {env : Env FP} {xs : List Exch}
    {files : List ((Str × Str) × FP)} {s : St FP} {out : List Flow}
    (h : run env xs (fresh files) = .ok s) (hf : finish true [] s.flows = .ok out) :
    (out.map Flow.internalId).Pairwise (· < ·) ∧ ∀ n ∈ s.refs, n ∈ out.map Flow.internalId := by
  obtain ⟨h1, h2, -⟩ := exchanges_numbered h
  obtain ⟨r, hr, rfl⟩ := finish_true hf
  constructor
  · have hsub : ((s.flows.filterMap (place r)).map Flow.internalId).Sublist (s.flows.map Flow.internalId) :=
      filterMap_map_sublist fun x _ y hy => (placed hr hy).2.2
    rw [h1] at hsub
    exact List.Pairwise.sublist hsub List.pairwise_lt_range'
  · intro n hn
    obtain ⟨f, hfm, rfl, href⟩ := (h2 n).1 hn
    have hk := reference_kind h f hfm href
    have hp : ∃ g, place r f = some g ∧ g.internalId = f.internalId := by
      unfold place
      split
      · exact ⟨_, rfl, rfl⟩
      · have : ¬ f.isElementary = true := fun e => hk ((isElementary_iff _).1 e)
        rw [if_neg this]
        exact ⟨_, rfl, rfl⟩
    obtain ⟨g, hg, hi⟩ := hp
    exact List.mem_map.2 ⟨g, List.mem_filterMap.2 ⟨f, hfm, hg⟩, hi⟩

/-! ### Examples -/

/-- The data set of the example before: two exchanges of carbon dioxide become one, of the value 2; the
identifiers are still 1, 2 and 3. -/
example : ∃ s out, run exEnv exchanges (fresh []) = .ok s ∧ finish true s.shares s.flows = .ok out ∧
    out.map Flow.internalId = [1, 2, 3] := ⟨_, _, rfl, rfl, rfl⟩

/-- C33 fails with the option: the identifiers have gaps. -/
theorem merge_gap : ∃ s out, run exEnv [exElem c!"x3" c!"e1", exElem c!"x5" c!"e1",
      exProduct c!"x1" c!"p1" c!"kg" (some c!"0") none] (fresh []) = .ok s ∧
    finish true s.shares s.flows = .ok out ∧ out.map Flow.internalId = [1, 3] ∧ s.refs = [3] :=
  ⟨_, _, rfl, rfl, rfl, rfl⟩

/-- The hypotheses of `merge_total` hold for the flows of every conversion in which no product has the
identifier of an elementary flow. -/
example {FP : Type} [DecidableEq FP] {env : Env FP} {xs : List Exch} {files : List ((Str × Str) × FP)}
    {s : St FP} (h : run env xs (fresh files) = .ok s) : (s.flows.map Flow.internalId).Nodup := by
  rw [(exchanges_numbered h).1]; exact List.nodup_range'

example : ∃ s, run exEnv exchanges (fresh []) = .ok s ∧
    ∀ f ∈ s.flows, ∀ g ∈ s.flows, f.ftype = some .elementary → g.ftype ≠ some .elementary →
      (f.target, f.dir) ≠ (g.target, g.dir) := by
  refine ⟨_, rfl, ?_⟩
  simp [fresh, exProduct, exElem, flowType]

/-- The hypotheses of `merge_stale_bounds`. -/
example : ∃ s f g, run exEnv exchanges (fresh []) = .ok s ∧ s.flows[2]? = some f ∧ s.flows[3]? = some g ∧
    f.amount.unc = some (.lognormal 1) ∧ g.amount.unc = some (.lognormal 1) ∧ f.bounds = f.amount.written ∧
    g.sources = [] :=
  ⟨_, _, _, rfl, rfl, rfl, rfl, rfl, rfl, rfl⟩

/-! ### Sources of merged exchanges -/

theorem foldl_sources (b : List Str) : ∀ a : List Str,
    (a.Nodup → (b.foldl (fun acc n => if n ∈ acc then acc else acc ++ [n]) a).Nodup) ∧
    ∀ x, x ∈ b.foldl (fun acc n => if n ∈ acc then acc else acc ++ [n]) a ↔ x ∈ a ∨ x ∈ b := by
  induction b with
  | nil => intro a; simp
  | cons n b ih =>
    intro a
    rw [List.foldl_cons]
    by_cases h : n ∈ a
    · rw [if_pos h]
      refine ⟨(ih a).1, fun x => ?_⟩
      rw [(ih a).2 x, List.mem_cons]
      constructor
      · rintro (h | h)
        · exact .inl h
        · exact .inr (.inr h)
      · rintro (h' | rfl | h')
        · exact .inl h'
        · exact .inl h
        · exact .inr h'
    · rw [if_neg h]
      refine ⟨fun hn => (ih _).1 ?_, fun x => ?_⟩
      · simp only [List.nodup_append, List.nodup_cons, List.not_mem_nil, not_false_eq_true, List.nodup_nil,
          and_self, List.mem_singleton, true_and]
        exact ⟨hn, fun a' ha b' hb => by subst hb; exact fun e => h (e ▸ ha)⟩
      · rw [(ih _).2 x, List.mem_append, List.mem_singleton, List.mem_cons, or_assoc]

/-- C35: a merged exchange names the sources of all exchanges it stands for, each once. -/
theorem merge_sources : ∀ {l : List Flow} {f0 g : Flow}, mergeRest f0 l = .ok g →
    (f0.sources.Nodup → g.sources.Nodup) ∧ ∀ x, x ∈ g.sources ↔ x ∈ f0.sources ∨ ∃ f ∈ l, x ∈ f.sources
  | [], f0, g, h => by
    obtain rfl := Except.ok.inj h
    exact ⟨fun h => h, by simp⟩
  | f :: l, f0, g, h => by
    rw [mergeRest] at h
    split at h
    · cases h
    · rename_i f1 h1
      obtain ⟨i1, i2⟩ := merge_sources h
      unfold mergeOne at h1
      split at h1
      · cases h1
      · rename_i src hs
        split at h1
        · cases h1
        · obtain rfl := Except.ok.inj h1
          simp only at i1 i2
          have key : (f0.sources.Nodup → src.Nodup) ∧ ∀ x, x ∈ src ↔ x ∈ f0.sources ∨ x ∈ f.sources := by
            unfold mergeSources at hs
            split at hs
            · rename_i hb
              obtain rfl := Except.ok.inj hs
              exact ⟨fun h => h, by simp [hb]⟩
            · split at hs
              · cases hs
              · obtain rfl := Except.ok.inj hs
                exact foldl_sources f.sources f0.sources
          refine ⟨fun hn => i1 (key.1 hn), fun x => ?_⟩
          rw [i2 x, key.2 x]
          simp only [List.mem_cons, exists_eq_or_imp, or_assoc]

end Verif.EcsFlows
