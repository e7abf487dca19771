/-
The elementary exchanges of an ILCD data set after a conversion to EcoSpold2 and back, with and without summing.
-/
import Verif.Props.RoundIlcd

namespace Verif.RoundIlcd

open EcsFlows (Flow)
open IlcdFlows.Spec (IsProduct IsElementary HasUnit Value ToWrite)
open RoundTrip (Doc there)
open Spec

/-! ### Sums -/

theorem forall₂_sum {α β : Type} {R : α → β → Prop} {l : List α} {m : List β} {g : α → ℝ} {h : β → ℝ}
    (hF : List.Forall₂ R l m) (hR : ∀ a ∈ l, ∀ b ∈ m, R a b → g a = h b) : (l.map g).sum = (m.map h).sum := by
  induction hF with
  | nil => rfl
  | cons h1 _ ih =>
    rw [List.map_cons, List.map_cons, List.sum_cons, List.sum_cons, hR _ (by simp) _ (by simp) h1,
      ih fun a ha b hb => hR a (by simp [ha]) b (by simp [hb])]

/-- Sums of two lists weighted by a key are equal if the sums for each key are. -/
theorem sum_by_key₂ {α κ : Type} [DecidableEq κ] (key : α → κ) (W : κ → ℝ) (g : α → ℝ) (l m : List α)
    (h : ∀ k, ((l.filter fun a => decide (key a = k)).map g).sum = ((m.filter fun a => decide (key a = k)).map g).sum) :
    (l.map fun a => W (key a) * g a).sum = (m.map fun a => W (key a) * g a).sum := by
  have := RoundTrip.sum_by_key (fun p : Bool × α => key p.2) W (fun p => if p.1 then g p.2 else 0) (fun p => if p.1 then 0 else g p.2)
    _ (l.map (fun a => (true, a)) ++ m.map fun a => (false, a)) le_rfl ?_
  · simpa [Function.comp_def] using this
  · intro k
    have e := h k
    simpa [Function.comp_def, List.filter_map] using e

theorem sum_filterMap {α : Type} {g : α → Option α} {h : α → ℝ} : ∀ l : List α,
    ((l.filterMap g).map h).sum = (l.map fun a => match g a with | some b => h b | none => 0).sum
  | [] => rfl
  | a :: l => by
    have ih := sum_filterMap (g := g) (h := h) l
    cases hg : g a with
    | none => rw [List.filterMap_cons_none hg]; simp [hg, ih]
    | some b => rw [List.filterMap_cons_some hg]; simp [hg, ih]

section

variable {P D : Type} [DecidableEq P] [DecidableEq D] {env1 : IlcdFlows.Env ℝ D} {env2 : EcsFlows.Env P} {fenv : FlowFiles.Env}
  {E : Uuid.BlockFn} {xs : List (IlcdFlows.Exch ℝ)} {shown : ℝ → Str} {ex : Extras} {s : IlcdFlows.St ℝ}
  {fls : List (IlcdFlows.Flow ℝ)} {scale : Str → ℝ} {b1 b2 : Bool} {order : List (IlcdFlows.Flow ℝ) → List (IlcdFlows.Flow ℝ)}
  {d : Doc P}

/-! ### One exchange -/

omit [DecidableEq P] in
theorem rowFactor_ok {r : EcsFlows.Row} {k : ℝ} (h : EcsFlows.rowFactor env2 r = .ok k) : RoundTrip.Spec.Factor env2 r k := by
  unfold EcsFlows.rowFactor at h
  split at h
  · rename_i hr; exact .inl ⟨hr, (Except.ok.inj h).symm⟩
  · rename_i hr; rw [not_or] at hr; exact .inr ⟨hr.1, hr.2, h⟩

omit [DecidableEq P] in
theorem factor_unique {r : EcsFlows.Row} {k k' : ℝ} (h : RoundTrip.Spec.Factor env2 r k) (h' : RoundTrip.Spec.Factor env2 r k') :
    k = k' := by
  rcases h with ⟨h1, rfl⟩ | ⟨h1, h2, h3⟩ <;> rcases h' with ⟨g1, rfl⟩ | ⟨g1, g2, g3⟩
  · rfl
  · exact absurd h1 (by simp [g1, g2])
  · exact absurd g1 (by simp [h1, h2])
  · exact Except.ok.inj (h3.symm.trans g3)

/-- An elementary exchange of the second conversion and the flow in the middle. -/
theorem elementary_pair (S : Setting env1 env2 fenv E xs) (hs : IlcdFlows.convertAll env1 .empty xs = .ok s)
    (M : Middle scale s fls b1) (hl : Legible env2 shown fls) {s2 : EcsFlows.St P}
    (hs2 : EcsFlows.run env2 (document shown ex fls) (EcsFlows.fresh []) = .ok s2) {e : Flow} (he : e ∈ s2.flows)
    {fl : IlcdFlows.Flow ℝ} (hfl : fl ∈ fls) (hel : fl.elem = true) (hsrc : e.src = exchOf shown ex fl) :
    e.isElementary = true ∧ e.dir = toward fl.src ∧ ∃ r' k' c, EcsFlows.Spec.Mapped env2.mapping fl.field.target r' ∧
      RoundTrip.Spec.Factor env2 r' k' ∧ env2.unitFactor r'.unit = .ok c ∧ e.target = r'.target ∧
      e.amount.m = fl.field.amount * k' * c := by
  have T := setting (shown := shown) (ex := ex) S hs M
  have k := RoundTrip.flows_ok hs2 e he
  have hi : e.src.isElem = true := by rw [hsrc]; exact hel
  refine ⟨by rw [(RoundTrip.flow_kind T hs2 he).1, hi], ?_, ?_⟩
  · obtain ⟨g, hd⟩ := k.dirs
    have hg := (M.groups fl hfl).2 hel
    have n4 : natStr 4 = c!"4" := by decide
    unfold toward
    rw [hsrc] at hd
    split at hg
    · rename_i hin
      obtain ⟨h1, h2⟩ := Prod.mk.inj hg
      rw [if_pos hin]
      simp [EcsFlows.direction, exchOf, h1, n4, EcsFlows.given] at hd
      exact hd.1.symm
    · rename_i hin
      obtain ⟨h1, h2⟩ := Prod.mk.inj hg
      rw [if_neg hin]
      simp [EcsFlows.direction, exchOf, h1, h2, EcsFlows.given] at hd
      exact hd.1.symm
  · rcases k.kind with ⟨h, -⟩ | ⟨-, r', o, h1, h2, h3⟩
    · rw [hi] at h; cases h
    · have hm := EcsFlows.rowOf_some.1 h1
      rw [hsrc] at hm
      unfold EcsFlows.elemAmount at h2
      split at h2
      · cases h2
      · rename_i k' hk
        split at h2
        · cases h2
        · rename_i a ha
          split at h2
          · cases h2
          · rename_i c hc
            have e1 := (Prod.mk.inj (Except.ok.inj h2)).2
            have ha' : a = fl.field.amount := by
              rw [hsrc] at ha
              exact Except.ok.inj (ha.symm.trans (hl fl hfl))
            refine ⟨r', k', c, hm, rowFactor_ok hk, hc, h3, ?_⟩
            rw [← e1, ha']
            rfl

/-- An elementary flow in the middle with a row in the table back is among the exchanges of the second conversion. -/
theorem elementary_there {s2 : EcsFlows.St P} (hs2 : EcsFlows.run env2 (document shown ex fls) (EcsFlows.fresh []) = .ok s2)
    {fl : IlcdFlows.Flow ℝ} (hfl : fl ∈ fls) {r' : EcsFlows.Row} (hr : EcsFlows.Spec.Mapped env2.mapping fl.field.target r') :
    ∃ e ∈ s2.flows, e.src = exchOf shown ex fl := by
  classical
  have : exchOf shown ex fl ∈ s2.flows.map Flow.src := by
    rw [(EcsFlows.exchanges_state hs2).1]
    exact List.mem_filter.2 ⟨mem_document.2 ⟨fl, hfl, rfl⟩, decide_eq_true (.inr ⟨r', hr⟩)⟩
  obtain ⟨e, h1, h2⟩ := List.mem_map.1 this
  exact ⟨e, h1, h2⟩

/-! ### Weights -/

open Classical in
/-- What one unit of a flow of EcoSpold2 adds to the total of a flow of ILCD. -/
private noncomputable def weight (env2 : EcsFlows.Env P) (t : Str) (u : Str) : ℝ :=
  if h : ∃ v, ∃ r' k' c, EcsFlows.Spec.Mapped env2.mapping u r' ∧ RoundTrip.Spec.Factor env2 r' k' ∧ env2.unitFactor r'.unit = .ok c ∧
    r'.target = t ∧ v = k' * c then h.choose else 0

omit [DecidableEq P] in
private theorem weight_eq {t u : Str} {r' : EcsFlows.Row} {k' c : ℝ} (h1 : EcsFlows.Spec.Mapped env2.mapping u r')
    (h2 : RoundTrip.Spec.Factor env2 r' k') (h3 : env2.unitFactor r'.unit = .ok c) :
    weight env2 t u = if r'.target = t then k' * c else 0 := by
  unfold weight
  split
  · rename_i h
    obtain ⟨r2, k2, c2, g1, g2, g3, g4, g5⟩ := h.choose_spec
    obtain rfl : r' = r2 := Option.some.inj (h1.1.symm.trans g1.1)
    rw [if_pos g4, g5, factor_unique h2 g2, Except.ok.inj (h3.symm.trans g3)]
  · rename_i h
    rw [if_neg]
    intro e
    exact h ⟨_, r', k', c, h1, h2, h3, e, rfl⟩

omit [DecidableEq P] in
private theorem weight_zero {t u : Str} (h : ¬ ∃ r', EcsFlows.Spec.Mapped env2.mapping u r') : weight env2 t u = 0 := by
  unfold weight
  rw [dif_neg]
  rintro ⟨-, r', -, -, g, -⟩
  exact h ⟨r', g⟩

/-- What a flow in the middle adds to the total. -/
private noncomputable def adds (env2 : EcsFlows.Env P) (t : Str) (dir : EcsFlows.Dir) (fl : IlcdFlows.Flow ℝ) : ℝ :=
  if toward fl.src = dir then weight env2 t fl.field.target * fl.field.amount else 0

omit [DecidableEq P] in
private theorem adds_key (t : Str) (dir : EcsFlows.Dir) (fl : IlcdFlows.Flow ℝ) : adds env2 t dir fl =
    (fun k : Str × Str => if (if k.2 = c!"Input" then EcsFlows.Dir.input else .output) = dir then weight env2 t k.1 else 0) fl.key *
      fl.field.amount := by
  unfold adds toward IlcdFlows.Flow.key
  by_cases h : (if fl.src.dir = c!"Input" then EcsFlows.Dir.input else .output) = dir <;> simp [h]

/-- The total written, from the flows in the middle. -/
private theorem written_middle (S : Setting env1 env2 fenv E xs) (hs : IlcdFlows.convertAll env1 .empty xs = .ok s)
    (M : Middle scale s fls b1) (hl : Legible env2 shown fls) {s2 : EcsFlows.St P} {merged : List ((Str × EcsFlows.Dir) × Flow)}
    (hs2 : EcsFlows.run env2 (document shown ex fls) (EcsFlows.fresh []) = .ok s2)
    (hm : b2 = true → EcsFlows.mergeGroups (EcsFlows.groups s2.flows) = .ok merged) (hm' : b2 = false → merged = [])
    (hfl : d.flows = s2.flows.filterMap (EcsFlows.place merged)) (t : Str) (dir : EcsFlows.Dir) :
    written d t dir = ((fls.filter fun f => f.elem).map (adds env2 t dir)).sum := by
  classical
  have T := setting (shown := shown) (ex := ex) S hs M
  have hmm : EcsFlows.mergeGroups (EcsFlows.groups s2.flows) = .ok merged ∨ merged = [] := by
    cases b2 with
    | true => exact .inl (hm rfl)
    | false => exact .inr (hm' rfl)
  have hid : (s2.flows.map Flow.internalId).Nodup := by
    rw [(EcsFlows.exchanges_numbered hs2).1]; exact List.nodup_range'
  obtain ⟨gs, es, e1, e2, e3⟩ := flows_middle hs2
  have hgs : ∀ g ∈ gs, g.isElementary = false := by
    intro g hg
    rw [(RoundTrip.flow_kind T hs2 (by rw [e1]; simp [hg])).1]
    have : g.src ∈ gs.map Flow.src := List.mem_map_of_mem hg
    rw [e2] at this
    obtain ⟨fl, hfl, e⟩ := List.mem_map.1 this
    rw [← e]
    simpa [exchOf] using (List.mem_filter.1 hfl).2
  have A : written d t dir = ((EcsFlows.withKey (t, dir) s2.flows).map fun f => f.amount.m).sum := by
    rw [← (RoundTrip.placedMean_key hid hmm (t, dir)).1]
    unfold written
    have : (d.flows.filter fun g => decide (g.ftype = some .elementary ∧ g.target = t ∧ g.dir = dir)) =
        (EcsFlows.withKey (t, dir) s2.flows).filterMap (EcsFlows.place merged) := by
      rw [hfl]
      unfold EcsFlows.withKey
      apply EcsFlows.filter_filterMap_congr
      intro x _ y hy
      obtain ⟨h1, h2⟩ := place_ftype hmm hy
      have h2' : y.target = x.target ∧ y.dir = x.dir := by simpa [EcsFlows.Flow.key] using h2
      simp only [h1, h2'.1, h2'.2, EcsFlows.Flow.isElementary, EcsFlows.Flow.key, Prod.mk.injEq]
      by_cases hx : x.ftype = some .elementary <;> simp [hx]
    rw [this, sum_filterMap]
    congr 1
    refine List.map_congr_left fun a _ => ?_
    unfold RoundTrip.placedMean
    cases EcsFlows.place merged a <;> rfl
  have B : ((EcsFlows.withKey (t, dir) s2.flows).map fun f => f.amount.m).sum =
      (es.map fun f => if f.isElementary && decide (f.key = (t, dir)) then f.amount.m else 0).sum := by
    unfold EcsFlows.withKey
    rw [e1, List.filter_append, List.map_append, List.sum_append, RoundTrip.sum_filter_ite, RoundTrip.sum_filter_ite]
    rw [show (gs.map fun f => if (f.isElementary && decide (f.key = (t, dir))) = true then f.amount.m else 0).sum = 0 from ?_, zero_add]
    refine List.sum_eq_zero fun v hv => ?_
    obtain ⟨g, hg, rfl⟩ := List.mem_map.1 hv
    simp [hgs g hg]
  rw [List.filter_map] at e3
  have C := forall₂_sum (g := fun f : Flow => if f.isElementary && decide (f.key = (t, dir)) then f.amount.m else 0)
    (h := adds env2 t dir) (forall₂_of_map_eq e3) ?_
  · rw [A, B, C, RoundTrip.sum_filter_ite]
    congr 1
    refine List.map_congr_left fun fl _ => ?_
    split
    · rfl
    · rename_i h
      have h' : ¬ ∃ r', EcsFlows.Spec.Mapped env2.mapping fl.field.target r' := by
        rw [Function.comp_apply, decide_eq_true_eq] at h
        exact h
      unfold adds
      rw [weight_zero h']
      simp
  · intro e he fl hflm hsrc
    obtain ⟨hflm, -⟩ := List.mem_filter.1 hflm
    obtain ⟨hflm, hel⟩ := List.mem_filter.1 hflm
    obtain ⟨h1, h2, r', k', c, h3, h4, h5, h6, h7⟩ := elementary_pair S hs M hl hs2 (by rw [e1]; simp [he]) hflm hel hsrc
    simp only [h1, Bool.true_and, decide_eq_true_eq, EcsFlows.Flow.key, Prod.mk.injEq, h6, h2, h7]
    unfold adds
    rw [weight_eq h3 h4 h5]
    by_cases q1 : r'.target = t <;> by_cases q2 : toward fl.src = dir <;> simp [q1, q2]
    ring

/-- Summing in the middle. -/
private theorem middle_sum (hs : IlcdFlows.convertAll env1 .empty xs = .ok s) (M : Middle scale s fls b1) (hz : Sizes env1 scale)
    (hu : b1 = true → SameUnits env1 xs) (t : Str) (dir : EcsFlows.Dir) :
    ((fls.filter fun f => f.elem).map (adds env2 t dir)).sum = ((s.flows.filter fun f => f.elem).map (adds env2 t dir)).sum := by
  cases b1 with
  | false => rw [M.same rfl]
  | true =>
    have hu := hu rfl
    have e : adds env2 t dir = fun fl => (fun k : Str × Str => if (if k.2 = c!"Input" then EcsFlows.Dir.input else .output) = dir then
        weight env2 t k.1 else 0) fl.key * fl.field.amount := funext fun fl => adds_key t dir fl
    rw [e]
    refine sum_by_key₂ IlcdFlows.Flow.key (fun k : Str × Str =>
      if (if k.2 = c!"Input" then EcsFlows.Dir.input else .output) = dir then weight env2 t k.1 else 0) (fun fl => fl.field.amount) _ _ fun k => ?_
    have hw : ∀ l : List (IlcdFlows.Flow ℝ), ((l.filter fun f => f.elem).filter fun f => decide (f.key = k)) = IlcdFlows.withKey k l := by
      intro l
      rw [List.filter_filter]
      unfold IlcdFlows.withKey
      exact List.filter_congr fun f _ => by rw [Bool.and_comm]
    rw [hw, hw]
    rcases M.keys k with h | ⟨x, y, h1, h2, h3, h4⟩
    · rw [h]
    · obtain ⟨hx, hxe, hxk⟩ := mem_withKey.1 h1
      obtain ⟨hxm, ⟨-, f, r, a, c, x1, x2, -, -, x3, -, x4, dm, cc, x5⟩ | ⟨h, -⟩⟩ := origin hs hx
      swap
      · rw [hxe] at h; cases h
      have hne : scale x.unit ≠ 0 := by
        rw [x4, (hz _ _ _ x5).1]; exact (hz _ _ _ x5).2
      have hunit : ∀ z ∈ IlcdFlows.withKey k s.flows, z.unit = x.unit := by
        intro z hz'
        obtain ⟨hzm, hze, hzk⟩ := mem_withKey.1 hz'
        obtain ⟨hzx, ⟨-, f', r', a', c', z1, z2, -, -, z3, -, z4, -⟩ | ⟨h, -⟩⟩ := origin hs hzm
        · rw [z4, x4]
          refine hu _ hzx _ hxm f' f r' r z1 x1 z2 x2 ?_
          rw [← z3, ← x3]
          exact (Prod.mk.inj (hzk.trans hxk.symm)).1
        · rw [hze] at h; cases h
      rw [h3] at h4
      have : ((IlcdFlows.withKey k s.flows).map fun f => f.field.amount * scale f.unit) =
          (IlcdFlows.withKey k s.flows).map fun f => f.field.amount * scale x.unit :=
        List.map_congr_left fun z hz' => by rw [hunit z hz']
      rw [this, List.sum_map_mul_right] at h4
      rw [h2]
      simpa using mul_right_cancel₀ hne h4

/-- C171: whether or not equal flows are summed, in one conversion or both, the total of every flow of ILCD in every direction is that
of the exchanges of the source, multiplied by the factors of both tables and that of the unit of the table back. -/
theorem elementary_total (S : Setting env1 env2 fenv E xs) (ho : ∀ l, (order l).Perm l) (hz : Sizes env1 scale)
    (h1 : toEcs env1 b1 order xs = .ok fls) (hl : Legible env2 shown fls) (h2 : toIlcd env2 fenv b2 shown ex fls = .ok d)
    (hu : b1 = true → SameUnits env1 xs) (t : Str) (dir : EcsFlows.Dir) :
    ∃ vs, List.Forall₂ (Adds env1 env2 t dir) xs vs ∧ written d t dir = vs.sum := by
  classical
  obtain ⟨s, hs, M⟩ := middle ho hz h1
  obtain ⟨s2, st, merged, hs2, hfl, hm, hm', -⟩ := RoundTrip.there_ok h2
  rw [written_middle S hs M hl hs2 hm hm' hfl, middle_sum hs M hz hu, RoundTrip.sum_filter_ite]
  have hsrc := (IlcdFlows.exchanges_accounted hs).1
  have key : List.Forall₂ (Adds env1 env2 t dir) (xs.filter fun x => decide (ToWrite env1 x))
      (s.flows.map fun fl => if fl.elem then adds env2 t dir fl else 0) := by
    rw [← hsrc, List.forall₂_map_left_iff, List.forall₂_map_right_iff, List.forall₂_same]
    intro fl hflm
    obtain ⟨hx, ⟨he, f, r, a, k, p1, p2, p3, p4, p5, p6, -⟩ | ⟨he, f, a, i, n, p1, -⟩⟩ := origin hs hflm
    · rw [if_pos he]
      unfold adds
      by_cases hd : toward fl.src = dir
      · rw [if_pos hd]
        by_cases hr : ∃ r', EcsFlows.Spec.Mapped env2.mapping r.target r'
        · obtain ⟨r', hr⟩ := hr
          -- the flow, or the one it was added to, is converted
          obtain ⟨fl', hfl', he', ht'⟩ : ∃ fl' ∈ fls, fl'.elem = true ∧ fl'.field.target = fl.field.target := by
            have hmem : fl ∈ IlcdFlows.withKey fl.key s.flows := mem_withKey.2 ⟨hflm, he, rfl⟩
            rcases M.keys fl.key with h | ⟨x, y, -, h, -⟩
            · rw [← h] at hmem
              exact ⟨fl, (mem_withKey.1 hmem).1, he, rfl⟩
            · have : y ∈ IlcdFlows.withKey fl.key fls := by rw [h]; simp
              obtain ⟨y1, y2, y3⟩ := mem_withKey.1 this
              exact ⟨y, y1, y2, (Prod.mk.inj y3).1⟩
          have hr0 : EcsFlows.Spec.Mapped env2.mapping fl'.field.target r' := by rw [ht', p5]; exact hr
          obtain ⟨e, hes, hesrc⟩ := elementary_there hs2 hfl' hr0
          obtain ⟨-, -, r2, k', c, q1, q2, q3, -⟩ := elementary_pair S hs M hl hs2 hes hfl' he' hesrc
          obtain rfl : r' = r2 := Option.some.inj (hr0.1.symm.trans q1.1)
          rw [p5, weight_eq hr q2 q3]
          by_cases ht : r'.target = t
          · left
            refine ⟨r, r', a, k, k', c, hd, ⟨⟨f, p1⟩, p2, hr⟩, ht, p3, p4, q2, q3, ?_⟩
            rw [if_pos ht, p6]; ring
          · right
            refine ⟨?_, by simp [ht]⟩
            rintro ⟨-, r3, r4, ⟨-, g1, g2⟩, g3⟩
            obtain rfl : r = r3 := Option.some.inj (p2.1.symm.trans g1.1)
            obtain rfl : r' = r4 := Option.some.inj (hr.1.symm.trans g2.1)
            exact ht g3
        · right
          refine ⟨?_, by rw [p5, weight_zero hr, zero_mul]⟩
          rintro ⟨-, r3, r4, ⟨-, g1, g2⟩, -⟩
          obtain rfl : r = r3 := Option.some.inj (p2.1.symm.trans g1.1)
          exact hr ⟨r4, g2⟩
      · rw [if_neg hd]
        exact .inr ⟨fun h => hd h.1, rfl⟩
    · rw [he]
      refine .inr ⟨?_, rfl⟩
      rintro ⟨-, r, r', ⟨⟨f', g⟩, -⟩, -⟩
      obtain rfl : f = f' := Option.some.inj (p1.1.symm.trans g.1)
      exact p1.2 g.2
  have hrest : ∀ x ∈ xs, decide (ToWrite env1 x) = false → Adds env1 env2 t dir x 0 := by
    intro x _ hn
    refine .inr ⟨?_, rfl⟩
    rintro ⟨-, r, r', ⟨⟨f, g⟩, g2, -⟩, -⟩
    exact (decide_eq_false_iff_not.1 hn) (.inl ⟨f, r, g, g2⟩)
  obtain ⟨vs, h3, h4⟩ := RoundTrip.forall₂_fill key hrest
  exact ⟨vs, h3, h4.symm⟩

open Classical in
/-- C171, exchange by exchange when nothing is summed: every elementary exchange with a row in both tables comes back, in the order of
the source, and no other one is written. -/
theorem elementary_back (S : Setting env1 env2 fenv E xs) (ho : ∀ l, (order l).Perm l) (hz : Sizes env1 scale)
    (h1 : toEcs env1 false order xs = .ok fls) (hl : Legible env2 shown fls) (h2 : toIlcd env2 fenv false shown ex fls = .ok d) :
    List.Forall₂ (ElementaryBack env1 env2) (xs.filter fun x => decide (∃ r r', Rows env1 env2 x r r'))
      (d.flows.filter fun g => decide (g.ftype = some .elementary)) := by
  obtain ⟨s, hs, M⟩ := middle ho hz h1
  obtain ⟨s2, st, merged, hs2, hfl, hm, hm', -⟩ := RoundTrip.there_ok h2
  obtain rfl := hm' rfl
  have T := setting (shown := shown) (ex := ex) S hs M
  have hsame := M.same rfl
  subst hsame
  obtain ⟨gs, es, e1, e2, e3⟩ := flows_middle hs2
  have hk : ∀ f ∈ s2.flows, (f.ftype = some .elementary ↔ f.src.isElem = true) := by
    intro f hf
    rw [← (RoundTrip.flow_kind T hs2 hf).1, EcsFlows.isElementary_iff]
  have a0 : d.flows = s2.flows.map fun g => { g with mean := some g.amount.m } := by
    rw [hfl, ← List.filterMap_eq_map]
    rfl
  have hge : ∀ g ∈ gs, g.src.isElem = false := by
    intro g hg
    have : g.src ∈ gs.map Flow.src := List.mem_map_of_mem hg
    rw [e2] at this
    obtain ⟨fl, hfl, e⟩ := List.mem_map.1 this
    rw [← e]
    simpa [exchOf] using (List.mem_filter.1 hfl).2
  have hee : ∀ g ∈ es, g.src.isElem = true := by
    intro g hg
    have : g.src ∈ es.map Flow.src := List.mem_map_of_mem hg
    rw [e3] at this
    obtain ⟨fl, hfl, e⟩ := List.mem_map.1 (List.mem_filter.1 this).1
    rw [← e]
    simpa [exchOf] using (List.mem_filter.1 hfl).2
  have a1 : (d.flows.filter fun g => decide (g.ftype = some .elementary)) = es.map fun g => { g with mean := some g.amount.m } := by
    rw [a0, e1, List.map_append, List.filter_append]
    have n1 : (gs.map fun g => { g with mean := some g.amount.m }).filter (fun g => decide (g.ftype = some .elementary)) = [] := by
      rw [List.filter_eq_nil_iff]
      intro y hy
      obtain ⟨g, hg, rfl⟩ := List.mem_map.1 hy
      simp only [decide_eq_true_eq]
      show ¬ g.ftype = _
      rw [hk g (by rw [e1]; simp [hg]), hge g hg]
      decide
    rw [n1, List.nil_append, List.filter_eq_self]
    intro y hy
    obtain ⟨g, hg, rfl⟩ := List.mem_map.1 hy
    simp only [decide_eq_true_eq]
    exact (hk g (by rw [e1]; simp [hg])).2 (hee g hg)
  have hsrc := (IlcdFlows.exchanges_accounted hs).1
  rw [List.filter_map] at e3
  have a2 : ((s.flows.filter fun f => f.elem).filter ((fun y : EcsFlows.Exch =>
      decide (∃ r, EcsFlows.Spec.Mapped env2.mapping y.fid r)) ∘ exchOf shown ex)).map (·.src) =
      xs.filter fun x => decide (∃ r r', Rows env1 env2 x r r') := by
    rw [List.filter_filter, List.filter_congr (q := (fun x => decide (∃ r r', Rows env1 env2 x r r')) ∘ (·.src)), ← List.filter_map,
      hsrc, List.filter_filter]
    · refine List.filter_congr fun x _ => ?_
      by_cases h : ∃ r r', Rows env1 env2 x r r'
      · obtain ⟨r, r', ⟨f, g1⟩, g2, -⟩ := id h
        have : ToWrite env1 x := .inl ⟨f, r, g1, g2⟩
        simp [h, this]
      · simp [h]
    · intro fl hflm
      obtain ⟨hx, ⟨he, f, r, a, k, p1, p2, p3, p4, p5, -⟩ | ⟨he, f, a, i, n, p1, -⟩⟩ := origin hs hflm
      · rw [he, Bool.and_true, Function.comp_apply, Function.comp_apply]
        refine decide_eq_decide.2 ⟨?_, ?_⟩
        · rintro ⟨r', hr'⟩
          exact ⟨r, r', ⟨f, p1⟩, p2, by rw [← p5]; exact hr'⟩
        · rintro ⟨r0, r', -, g1, g2⟩
          obtain rfl : r = r0 := Option.some.inj (p2.1.symm.trans g1.1)
          exact ⟨r', by show EcsFlows.Spec.Mapped _ fl.field.target _; rw [p5]; exact g2⟩
      · rw [he, Bool.and_false, Function.comp_apply, eq_comm, decide_eq_false_iff_not]
        rintro ⟨r, r', ⟨f', g⟩, -⟩
        obtain rfl : f = f' := Option.some.inj (p1.1.symm.trans g.1)
        exact p1.2 g.2
  rw [a1, ← a2, List.forall₂_map_left_iff, List.forall₂_map_right_iff]
  refine (RoundTrip.forall₂_and_mem (forall₂_of_map_eq e3).flip).imp ?_
  rintro fl e ⟨hsrc', hflm, he⟩
  obtain ⟨hflm, -⟩ := List.mem_filter.1 hflm
  obtain ⟨hflm, hel⟩ := List.mem_filter.1 hflm
  obtain ⟨h3, h4, r', k', c, h5, h6, h7, h8, h9⟩ := elementary_pair S hs M hl hs2 (by rw [e1]; simp [he]) hflm hel hsrc'
  obtain ⟨hx, ⟨-, f, r, a, k, p1, p2, p3, p4, p5, p6, -⟩ | ⟨h, -⟩⟩ := origin hs hflm
  · refine ⟨r, r', a, k, k', c, ⟨⟨f, p1⟩, p2, by rw [← p5]; exact h5⟩, p3, p4, h6, h7, h8, h4, ?_⟩
    show some e.amount.m = _
    rw [h9, p6]
  · rw [hel] at h; cases h

open Classical in
/-- C172: the exchanges are numbered anew: the products come first, in their order, with the numbers from 1 on. -/
theorem products_numbered (S : Setting env1 env2 fenv E xs) (ho : ∀ l, (order l).Perm l) (hz : Sizes env1 scale)
    (h1 : toEcs env1 b1 order xs = .ok fls) (h2 : toIlcd env2 fenv b2 shown ex fls = .ok d) :
    (d.flows.filter fun g => decide (g.ftype ≠ some .elementary)).map Flow.internalId =
      List.range' 1 (xs.filter fun x => decide (Product env1 x)).length ∧
    (d.flows.map Flow.internalId).Nodup ∧
    ∀ g ∈ d.flows, g.ftype = some .elementary → (xs.filter fun x => decide (Product env1 x)).length < g.internalId := by
  obtain ⟨s, hs, M⟩ := middle ho hz h1
  obtain ⟨s2, st, merged, hs2, hfl, hm, hm', hr, hrefs, hd⟩ := RoundTrip.there_ok h2
  obtain ⟨gs, es, e1, e2, hg, he, e3⟩ := split_back S hs M hs2 hm hm' hfl
  have hid := (EcsFlows.exchanges_numbered hs2).1
  have hmm : EcsFlows.mergeGroups (EcsFlows.groups s2.flows) = .ok merged ∨ merged = [] := by
    cases b2 with
    | true => exact .inl (hm rfl)
    | false => exact .inr (hm' rfl)
  have hlen : gs.length = (xs.filter fun x => decide (Product env1 x)).length := by
    rw [← products_middle hs, List.length_map, ← M.prods]
    simpa using congrArg List.length e2
  rw [e1, List.map_append, List.length_append, ← List.range'_append_1] at hid
  have hsplit := List.append_inj hid (by simp)
  refine ⟨?_, ?_, ?_⟩
  · rw [e3, List.map_map, ← hlen]
    exact hsplit.1
  · rw [hfl]
    refine List.Nodup.sublist (EcsFlows.filterMap_map_sublist fun x _ y hy => RoundTrip.place_id hy) ?_
    rw [(EcsFlows.exchanges_numbered hs2).1]
    exact List.nodup_range'
  · intro g hgm hge
    rw [hfl] at hgm
    obtain ⟨f, hf, hp⟩ := List.mem_filterMap.1 hgm
    rw [RoundTrip.place_id hp]
    have T := setting (shown := shown) (ex := ex) S hs M
    have hfe : f.ftype = some .elementary := by rw [← (place_ftype hmm hp).1]; exact hge
    have hfi : f.src.isElem = true := by
      rw [← (RoundTrip.flow_kind T hs2 hf).1, EcsFlows.isElementary_iff]; exact hfe
    rw [e1] at hf
    rcases List.mem_append.1 hf with hf | hf
    · rw [hg f hf] at hfi; cases hfi
    · have : f.internalId ∈ es.map Flow.internalId := List.mem_map_of_mem hf
      rw [hsplit.2, List.mem_range'_1] at this
      omega

end

end Verif.RoundIlcd
