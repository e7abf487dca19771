/-
The exchanges of an ILCD data set after a conversion to EcoSpold2 and back.
-/
import Verif.Lemmas.RoundIlcd

namespace Verif.RoundIlcd

open EcsFlows (Flow)
open IlcdFlows.Spec (IsProduct IsElementary HasUnit Value ToWrite)
open RoundTrip (Doc there)
open Spec

section

variable {P D : Type} [DecidableEq P] [DecidableEq D] {env1 : IlcdFlows.Env ℝ D} {env2 : EcsFlows.Env P} {fenv : FlowFiles.Env}
  {E : Uuid.BlockFn} {xs : List (IlcdFlows.Exch ℝ)} {shown : ℝ → Str} {ex : Extras} {s : IlcdFlows.St ℝ}
  {fls : List (IlcdFlows.Flow ℝ)} {scale : Str → ℝ} {b1 b2 : Bool} {order : List (IlcdFlows.Flow ℝ) → List (IlcdFlows.Flow ℝ)}
  {d : Doc P}

open Classical in
omit [DecidableEq P] in
/-- The products converted to EcoSpold2. -/
theorem products_middle (hs : IlcdFlows.convertAll env1 .empty xs = .ok s) :
    (s.flows.filter fun f => !f.elem).map (·.src) = xs.filter fun x => decide (Product env1 x) := by
  have h1 : (s.flows.filter fun f => !f.elem) = s.flows.filter ((fun x => decide (Product env1 x)) ∘ (·.src)) := by
    refine List.filter_congr fun fl hfl => ?_
    rcases (origin hs hfl).2 with ⟨he, f, r, a, k, h, -⟩ | ⟨he, f, a, i, n, h, h', -⟩
    · rw [he, Function.comp_apply, eq_comm, Bool.not_true, decide_eq_false_iff_not]
      rintro ⟨f', i, n, h2, -⟩
      obtain rfl : f = f' := Option.some.inj (h.1.symm.trans h2.1)
      exact h2.2 h.2
    · rw [he, Function.comp_apply, eq_comm, Bool.not_false, decide_eq_true_iff]
      exact ⟨f, i, n, h, h'⟩
  rw [h1, ← List.filter_map, (IlcdFlows.exchanges_accounted hs).1, List.filter_filter]
  refine List.filter_congr fun x _ => ?_
  by_cases hp : Product env1 x
  · have hw : ToWrite env1 x := .inr hp
    simp [hp, hw]
  · simp [hp]

omit [DecidableEq P] [DecidableEq D] in
/-- Direction, type and reference of a product in the middle. -/
theorem kind_back {fl : IlcdFlows.Flow ℝ} {f : IlcdFlows.FlowFile} (hf : f.typ = some fl.typ)
    (hg : IlcdFlows.groups false (decide (fl.src.internalId ∈ env1.refs)) fl.src.dir fl.typ =
      .ok (fl.field.inputGroup, fl.field.outputGroup)) :
    (∃ g, EcsFlows.direction (exchOf shown ex fl) = .ok (dirBack env1 fl.src, g) ∧
      EcsFlows.flowType none (dirBack env1 fl.src) g = some (typeBack env1 fl.src f)) ∧
    (EcsFlows.Spec.IsReference (exchOf shown ex fl) ↔ Reference env1 fl.src) := by
  have n5 : natStr 5 = c!"5" := by decide
  have n0 : natStr 0 = c!"0" := by decide
  have n2 : natStr 2 = c!"2" := by decide
  have n3 : natStr 3 = c!"3" := by decide
  have hR : Reference env1 fl.src ↔ decide (fl.src.internalId ∈ env1.refs) = true := by simp [Reference]
  rcases IlcdFlows.groups_valid hg with ⟨n, h1, h2, h3, h4, h5⟩ | ⟨n, h1, h2, ⟨h3, rfl⟩ | ⟨h3, h4, h5⟩⟩
  · obtain ⟨e1, e2⟩ := Prod.mk.inj h1
    have hnr : ¬ Reference env1 fl.src := by rw [hR, h3]; simp
    have hn : n = 5 := by
      simp [IlcdFlows.inputCodes] at h2
      unfold IlcdFlows.inputCode at h5
      split_ifs at h5 <;> cases h5 <;> first | rfl | simp at h2
    subst hn
    have hd : dirBack env1 fl.src = .input := by simp [dirBack, hnr, h4]
    refine ⟨⟨c!"5", ?_, ?_⟩, ?_⟩
    · rw [hd]; simp [EcsFlows.direction, exchOf, e1, n5, EcsFlows.given]
    · rw [hd]; simp [EcsFlows.flowType, typeBack, h4]
    · simp [EcsFlows.Spec.IsReference, exchOf, e1, e2, n5, hnr]
  · obtain ⟨e1, e2⟩ := Prod.mk.inj h1
    have hr : Reference env1 fl.src := hR.2 h3
    have hd : dirBack env1 fl.src = .output := by simp [dirBack, hr]
    refine ⟨⟨c!"0", ?_, ?_⟩, ?_⟩
    · rw [hd]; simp [EcsFlows.direction, exchOf, e1, e2, n0, EcsFlows.given]
    · rw [hd]; simp [EcsFlows.flowType, typeBack, hr]
    · simp [EcsFlows.Spec.IsReference, exchOf, e1, e2, n0, hr]
  · obtain ⟨e1, e2⟩ := Prod.mk.inj h1
    have hnr : ¬ Reference env1 fl.src := by rw [hR, h3]; simp
    have hd : dirBack env1 fl.src = .output := by simp [dirBack, h4]
    have hn : (n = 3 ∧ fl.typ = c!"Waste flow") ∨ (n = 2 ∧ fl.typ ≠ c!"Waste flow") := by
      simp [IlcdFlows.outputCodes] at h2
      unfold IlcdFlows.outputCode at h5
      split_ifs at h5 with g1 g2 g3 g4
      · cases h5; simp at h2
      · cases h5; exact .inr ⟨rfl, by rw [g2]; decide⟩
      · cases h5; exact .inl ⟨rfl, g3⟩
      · cases h5; exact .inr ⟨rfl, g3⟩
    refine ⟨⟨natStr n, ?_, ?_⟩, ?_⟩
    · rw [hd]; simp [EcsFlows.direction, exchOf, e1, e2, EcsFlows.given]
    · rw [hd]
      rcases hn with ⟨rfl, ht⟩ | ⟨rfl, ht⟩
      · simp [EcsFlows.flowType, typeBack, hnr, h4, hf, ht, n3]
      · simp [EcsFlows.flowType, typeBack, hf, ht, n2]
    · rcases hn with ⟨rfl, ht⟩ | ⟨rfl, ht⟩ <;> simp [EcsFlows.Spec.IsReference, exchOf, e1, e2, n2, n3, hnr]

/-- The uncertainty of a product after both conversions. -/
theorem bounds_back (a c : ℝ) (u : Option (IlcdFlows.Unc ℝ)) :
    BoundsBack a c u ((Uncertainty.init a ((u.map fun v => v.write a 1).map uncOf)).toUnit c).written := by
  rintro w rfl
  rcases w with ⟨k, m, lo, hi, sd⟩
  cases k with
  | lognormal =>
    cases sd with
    | none => trivial
    | some q =>
      intro hq
      have h0 : 0 ≤ Real.log (Real.sqrt q) := Real.log_nonneg (Real.one_le_sqrt.2 hq)
      have e : Real.exp (Real.sqrt (Real.log (Real.sqrt q) ^ 2)) ^ 2 = q := by
        rw [Real.sqrt_sq h0, Real.exp_log (Real.sqrt_pos.2 (by linarith)), Real.sq_sqrt (by linarith)]
      simp only [RoundTrip.uncOf, Option.map_some, Option.getD_some, IlcdFlows.Unc.write, uncOf, Uncertainty.init,
        Uncertainty.Amt.toUnit, Uncertainty.Amt.written, e]
  | normal =>
    cases sd with
    | none => trivial
    | some q =>
      intro hq
      have e : 2 * Real.sqrt ((q / 2) ^ 2 * 1 ^ 2) * (1 * c) = q * c := by
        rw [one_pow, mul_one, Real.sqrt_sq (by linarith)]; ring
      simp only [RoundTrip.uncOf, Option.map_some, Option.getD_some, IlcdFlows.Unc.write, uncOf, Uncertainty.init,
        Uncertainty.Amt.toUnit, Uncertainty.Amt.written, e]
  | triangular =>
    simp [RoundTrip.uncOf, IlcdFlows.Unc.write, uncOf, Uncertainty.init, Uncertainty.Amt.toUnit, Uncertainty.Amt.written]
  | uniform =>
    simp [RoundTrip.uncOf, IlcdFlows.Unc.write, uncOf, Uncertainty.init, Uncertainty.Amt.toUnit, Uncertainty.Amt.written]

theorem place_ftype {flows : List Flow} {merged : List ((Str × EcsFlows.Dir) × Flow)}
    (hm : EcsFlows.mergeGroups (EcsFlows.groups flows) = .ok merged ∨ merged = []) {f g : Flow}
    (h : EcsFlows.place merged f = some g) : g.ftype = f.ftype ∧ g.key = f.key := by
  rcases hm with hm | rfl
  · exact ⟨(EcsFlows.placed hm h).2.1, (EcsFlows.placed hm h).1⟩
  · simp only [EcsFlows.place, aget, Option.some.injEq] at h
    subst h
    exact ⟨rfl, rfl⟩

/-- The second conversion: the products, then the elementary exchanges. -/
theorem split_back (S : Setting env1 env2 fenv E xs) (hs : IlcdFlows.convertAll env1 .empty xs = .ok s)
    (M : Middle scale s fls b1) {s2 : EcsFlows.St P} {merged : List ((Str × EcsFlows.Dir) × Flow)}
    (hs2 : EcsFlows.run env2 (document shown ex fls) (EcsFlows.fresh []) = .ok s2)
    (hm : b2 = true → EcsFlows.mergeGroups (EcsFlows.groups s2.flows) = .ok merged) (hm' : b2 = false → merged = [])
    (hfl : d.flows = s2.flows.filterMap (EcsFlows.place merged)) :
    ∃ gs es, s2.flows = gs ++ es ∧ gs.map Flow.src = (fls.filter fun f => !f.elem).map (exchOf shown ex) ∧
      (∀ g ∈ gs, g.src.isElem = false) ∧ (∀ e ∈ es, e.src.isElem = true) ∧
      (d.flows.filter fun g => decide (g.ftype ≠ some .elementary)) = gs.map fun g => { g with mean := some g.amount.m } := by
  classical
  have T := setting (shown := shown) (ex := ex) S hs M
  obtain ⟨gs, es, h1, h2, h3⟩ := flows_middle hs2
  have hg : ∀ g ∈ gs, g.src.isElem = false := by
    intro g hg
    have : g.src ∈ gs.map Flow.src := List.mem_map_of_mem hg
    rw [h2] at this
    obtain ⟨fl, hfl, e⟩ := List.mem_map.1 this
    rw [← e]
    simpa [exchOf] using (List.mem_filter.1 hfl).2
  have he : ∀ e ∈ es, e.src.isElem = true := by
    intro e he
    have : e.src ∈ es.map Flow.src := List.mem_map_of_mem he
    rw [h3] at this
    obtain ⟨fl, hfl, e⟩ := List.mem_map.1 (List.mem_filter.1 this).1
    rw [← e]
    simpa [exchOf] using (List.mem_filter.1 hfl).2
  have hmm : EcsFlows.mergeGroups (EcsFlows.groups s2.flows) = .ok merged ∨ merged = [] := by
    cases b2 with
    | true => exact .inl (hm rfl)
    | false => exact .inr (hm' rfl)
  have hk : ∀ f ∈ s2.flows, (f.ftype = some .elementary ↔ f.src.isElem = true) := by
    intro f hf
    rw [← (RoundTrip.flow_kind T hs2 hf).1, EcsFlows.isElementary_iff]
  refine ⟨gs, es, h1, h2, hg, he, ?_⟩
  have a1 : gs.filterMap (EcsFlows.place merged) = gs.map fun g => { g with mean := some g.amount.m } := by
    rw [← List.filterMap_eq_map]
    refine List.filterMap_congr fun g hgm => ?_
    exact RoundTrip.place_product T hs2 hm hm' (by rw [h1]; simp [hgm]) (hg g hgm)
  rw [hfl, h1, List.filterMap_append, List.filter_append, a1]
  have a2 : (es.filterMap (EcsFlows.place merged)).filter (fun g => decide (g.ftype ≠ some .elementary)) = [] := by
    rw [List.filter_eq_nil_iff]
    intro y hy
    obtain ⟨f, hf, hp⟩ := List.mem_filterMap.1 hy
    simp only [decide_eq_true_eq, not_not]
    rw [(place_ftype hmm hp).1, hk f (by rw [h1]; simp [hf])]
    exact he f hf
  rw [a2, List.append_nil, List.filter_eq_self]
  intro y hy
  obtain ⟨g, hgm, rfl⟩ := List.mem_map.1 hy
  simp only [decide_eq_true_eq]
  show g.ftype ≠ _
  rw [Ne, hk g (by rw [h1]; simp [hgm]), hg g hgm]
  decide

open Classical in
/-- C168: every product with a unit in EcoSpold2 comes back, in the order of the source, whether or not equal elementary flows are
summed: with its identifier, direction and value in the unit of ILCD, its uncertainty, as a reference flow if it was one, and with a
file of its flow. No other product is written. -/
theorem products_back (S : Setting env1 env2 fenv E xs) (ho : ∀ l, (order l).Perm l) (hz : Sizes env1 scale)
    (h1 : toEcs env1 b1 order xs = .ok fls) (hl : Legible env2 shown fls) (h2 : toIlcd env2 fenv b2 shown ex fls = .ok d) :
    List.Forall₂ (ProductBack env1 env2 (document shown ex fls) d xs) (xs.filter fun x => decide (Product env1 x))
      (d.flows.filter fun g => decide (g.ftype ≠ some .elementary)) := by
  obtain ⟨s, hs, M⟩ := middle ho hz h1
  obtain ⟨s2, st, merged, hs2, hfl, hm, hm', hr, hrefs, hd⟩ := RoundTrip.there_ok h2
  have T := setting (shown := shown) (ex := ex) S hs M
  obtain ⟨gs, es, e1, e2, hg, -, e3⟩ := split_back S hs M hs2 hm hm' hfl
  have hall := RoundTrip.files_all hs2
  rw [e3, ← products_middle hs, List.forall₂_map_left_iff, List.forall₂_map_right_iff]
  rw [M.prods] at e2
  refine (RoundTrip.forall₂_and_mem (forall₂_of_map_eq e2).flip).imp ?_
  rintro fl g ⟨hsrc, hflm, hgm⟩
  have hgm2 : g ∈ s2.flows := by rw [e1]; simp [hgm]
  obtain ⟨hflm, hfle⟩ := List.mem_filter.1 hflm
  have hfle : fl.elem = false := by simpa using hfle
  have c := (IlcdFlows.convertAll_inv hs).flows fl hflm
  have hgr := c.groups
  rw [hfle] at hgr
  have k := RoundTrip.flows_ok hs2 g hgm2
  obtain ⟨hx, ⟨h, -⟩ | ⟨-, f, a, i, n, p1, p2, p3, -, p4, p5, p6, -, p7, p8, p9⟩⟩ := origin hs hflm
  · rw [hfle] at h; cases h
  have hll := S.ids _ hx f p1
  obtain ⟨v, u1, u2⟩ := (Uuid.uuid_roundtrip_exact E _ hll).2
  rw [S.conv, u1] at p5
  have hv : v = fl.field.target := Except.ok.inj p5
  obtain ⟨⟨gr, q1, q2⟩, q3⟩ := kind_back (shown := shown) (ex := ex) p4 hgr
  have hfid : g.src.fid = fl.field.target := by rw [hsrc]; rfl
  have hge := hg g hgm
  have hflf : fl ∈ fls := by
    have : fl ∈ fls.filter fun f => !f.elem := by rw [M.prods]; simp [hflm, hfle]
    exact (List.mem_filter.1 this).1
  rcases k.kind with ⟨-, k1, o, k2⟩ | ⟨h, -⟩
  swap
  · rw [hge] at h; cases h
  refine ⟨?_, ?_, ?_, ?_, ?_⟩
  · rw [S.conv2, hfid, ← hv, u2] at k1
    exact (Except.ok.inj k1).symm
  · obtain ⟨g', hd'⟩ := k.dirs
    rw [hsrc, q1] at hd'
    exact (Prod.mk.inj (Except.ok.inj hd')).1.symm
  · show g.internalId ∈ d.refs ↔ _
    rw [hrefs, ← q3, ← hsrc, ← RoundTrip.isRef_iff hs2 hgm2]
    constructor
    · intro h; exact List.mem_map_of_mem h
    · intro h
      obtain ⟨m, hm1, hm2⟩ := List.mem_map.1 h
      have := congrArg parseNat hm2
      rw [parseNat_natStr, parseNat_natStr] at this
      rw [← Option.some.inj this]; exact hm1
  · unfold EcsFlows.basicAmount at k2
    split at k2
    · cases k2
    · rename_i a0 ha0
      split at k2
      · cases k2
      · rename_i cc hcc
        have e := (Prod.mk.inj (Except.ok.inj k2)).2
        have ha : a0 = a := by
          have : g.src.amount = shown fl.field.amount := by rw [hsrc]; rfl
          rw [this, hl fl hflf] at ha0
          rw [← Except.ok.inj ha0, c.amount, p7]
        have hun : g.src.unit = n := by rw [hsrc]; exact p6
        refine ⟨f, i, n, a, cc, p1, p2, p3, by rw [← hun]; exact hcc, ?_, hun, ?_⟩
        · show some g.amount.m = _
          rw [← e, ha]; rfl
        · show BoundsBack a cc fl.src.unc g.bounds
          have : g.src.unc = (fl.src.unc.map fun u => u.write a 1).map uncOf := by
            rw [hsrc]
            show fl.field.unc.map uncOf = _
            rw [p8]
          rw [k.bounds, ← e, ha, this]
          exact bounds_back a cc fl.src.unc
  · obtain ⟨r, l1, l2⟩ := RoundTrip.linked T hs2 hr hd hgm2
    obtain ⟨p, i', m1, m2, m3, m4⟩ := l2.prod hge
    obtain ⟨y', dd, gr', hy', hdir, hi'⟩ := RoundTrip.firstInfo_first m1 hall m3
    obtain ⟨lst, mst, hys, ⟨w1, w2, -⟩, -⟩ := id hy'
    have hymem : y' ∈ document shown ex fls := by rw [hys]; simp
    obtain ⟨fl0, hfl0, rfl⟩ := mem_document.1 hymem
    have hfl0e : fl0.elem = false := w1
    have hfl0m : fl0 ∈ s.flows := by
      have : fl0 ∈ fls.filter fun f => !f.elem := by simp [hfl0, hfl0e]
      rw [M.prods] at this
      exact (List.mem_filter.1 this).1
    have c0 := (IlcdFlows.convertAll_inv hs).flows fl0 hfl0m
    have hgr0 := c0.groups
    rw [hfl0e] at hgr0
    obtain ⟨hx0, ⟨h, -⟩ | ⟨-, f0, a0, i0, n0, r1, r2, r3, -, r4, r5, r6, -, r7, r8, r9⟩⟩ := origin hs hfl0m
    · rw [hfl0e] at h; cases h
    obtain ⟨⟨gr0, t1, t2⟩, -⟩ := kind_back (shown := shown) (ex := ex) r4 hgr0
    obtain ⟨v0, z1, z2⟩ := (Uuid.uuid_roundtrip_exact E _ (S.ids _ hx0 f0 r1)).2
    rw [S.conv, z1] at r5
    have hv0 : v0 = fl0.field.target := Except.ok.inj r5
    have hsame : fl0.src.fid = fl.src.fid := by
      have w2' : fl0.field.target = fl.field.target := by rw [← hfid]; exact w2
      rw [hv0, w2', ← hv, u2] at z2
      exact (Except.ok.inj z2).symm
    refine ⟨r, p, fl0.src, f0, fl0.field.name, _, l1, ?_, m1, hx0, hsame, r1, r9, hy', rfl, ?_⟩
    · rw [S.fconv, hfid, ← hv, u2] at m2
      exact (Except.ok.inj m2).symm
    · rw [m4, hi']
      rw [t1] at hdir
      obtain ⟨d1, d2⟩ := Prod.mk.inj (Except.ok.inj hdir)
      subst d1; subst d2
      rw [← t2]
      rfl

end

end Verif.RoundIlcd
