/-
The exchanges of an EcoSpold2 data set converted to ILCD: identifiers, reference flows, versions of the
flow data sets, elementary flows and allocation.
-/
import Verif.Lemmas.EcsFlows

namespace Verif.EcsFlows
open Uncertainty Spec

variable {FP : Type} [DecidableEq FP]

open Classical in
/-- The exchanges of the result are those of the source that have a counterpart, in the same order, with
the identifiers 1, 2, 3, ...; the others are reported. -/
theorem exchanges_state {env : Env FP} {xs : List Exch} {files : List ((Str × Str) × FP)} {s : St FP}
    (h : run env xs (fresh files) = .ok s) :
    s.flows.map Flow.src = xs.filter (fun x => decide (Convertible env.mapping x)) ∧
    s.reported = xs.filter (fun x => decide (¬ Convertible env.mapping x)) ∧
    s.flows.map Flow.internalId = List.range' 1 s.flows.length ∧
    s.counter = s.flows.length + 1 ∧
    s.refs = (s.flows.filter fun f => decide (IsReference f.src)).map Flow.internalId := by
  refine run_induction (P := fun xs s =>
    s.flows.map Flow.src = xs.filter (fun x => decide (Convertible env.mapping x)) ∧
    s.reported = xs.filter (fun x => decide (¬ Convertible env.mapping x)) ∧
    s.flows.map Flow.internalId = List.range' 1 s.flows.length ∧
    s.counter = s.flows.length + 1 ∧
    s.refs = (s.flows.filter fun f => decide (IsReference f.src)).map Flow.internalId)
    ⟨rfl, rfl, rfl, rfl, rfl⟩ ?_ h
  rintro l x s s' - ⟨h1, h2, h3, h4, h5⟩ hs
  rcases step_ok hs with ⟨hc, rfl⟩ | ⟨hc, f, dir, group, hn⟩
  · refine ⟨?_, ?_, h3, h4, h5⟩
    · simp [List.filter_append, hc, h1]
    · simp only [List.filter_append, h2]; simp [hc]
  · have hi : f.internalId = s.flows.length + 1 := by rw [hn.id, h4]
    refine ⟨?_, ?_, ?_, ?_, ?_⟩
    · simp [hn.flows, List.filter_append, hc, h1, hn.src]
    · simp only [hn.reported, List.filter_append, h2]; simp [hc]
    · rw [hn.flows, List.map_append, h3, List.length_append, List.length_singleton, List.range'_concat,
        List.map_singleton, hi]
      congr 2; omega
    · rw [hn.counter, hn.flows, h4]; simp
    · rw [hn.refs, hn.flows, List.filter_append, List.map_append, h5]
      have hr := direction_ref hn.dirs
      by_cases hd : dir = .output ∧ group = c!"0"
      · have : IsReference f.src := by rw [hn.src]; exact hr.1 hd
        simp only [hd, and_self, if_true, this, List.filter_cons, decide_true, List.filter_nil,
          List.map_singleton, hn.id]
      · have : ¬ IsReference f.src := by rw [hn.src]; exact fun h => hd (hr.2 h)
        simp [hd, this]

/-- C33. Before equal flows are summed, the exchanges of a converted data set carry the identifiers
1, 2, 3, ... in the order of the source, and the reference flows listed are exactly the identifiers of
the reference products. -/
theorem exchanges_numbered {env : Env FP} {xs : List Exch} {files : List ((Str × Str) × FP)} {s : St FP}
    (h : run env xs (fresh files) = .ok s) :
    s.flows.map Flow.internalId = List.range' 1 s.flows.length ∧
    (∀ n, n ∈ s.refs ↔ ∃ f ∈ s.flows, f.internalId = n ∧ IsReference f.src) ∧ s.refs.Nodup := by
  classical
  obtain ⟨-, -, h3, -, h5⟩ := exchanges_state h
  have hnd : (s.flows.map Flow.internalId).Nodup := by rw [h3]; exact List.nodup_range'
  refine ⟨h3, ?_, ?_⟩
  · intro n
    rw [h5]
    simp only [List.mem_map, List.mem_filter, decide_eq_true_eq]
    constructor
    · rintro ⟨f, ⟨h1, h2⟩, h3⟩; exact ⟨f, h1, h3, h2⟩
    · rintro ⟨f, h1, h3, h2⟩; exact ⟨f, ⟨h1, h2⟩, h3⟩
  · rw [h5]; exact hnd.sublist (List.filter_sublist.map _)

/-- C36, first part: every exchange of the source is either in the result or reported, and never both;
nothing else is in the result, and nothing is there twice. -/
theorem exchanges_accounted {env : Env FP} {xs : List Exch} {files : List ((Str × Str) × FP)} {s : St FP}
    (h : run env xs (fresh files) = .ok s) :
    (s.flows.map Flow.src ++ s.reported).Perm xs ∧
    (∀ f ∈ s.flows, Convertible env.mapping f.src) ∧ (∀ x ∈ s.reported, ¬ Convertible env.mapping x) := by
  classical
  obtain ⟨h1, h2, -⟩ := exchanges_state h
  refine ⟨?_, ?_, ?_⟩
  · rw [h1, h2]
    have := List.filter_append_perm (fun x => decide (Convertible env.mapping x)) xs
    simpa using this
  · intro f hf
    have : f.src ∈ s.flows.map Flow.src := List.mem_map.2 ⟨f, hf, rfl⟩
    rw [h1] at this
    simpa using (List.mem_filter.1 this).2
  · intro x hx
    rw [h2] at hx
    simpa using (List.mem_filter.1 hx).2

/-- C62. The functional unit is named after the reference product if there is exactly one and left out
if there are two, but for three it is named after the last one: it is present exactly if the number of
reference products is odd. -/
theorem functional_unit {env : Env FP} {xs : List Exch} {files : List ((Str × Str) × FP)} {s : St FP}
    (h : run env xs (fresh files) = .ok s) :
    (s.funcUnit.isSome ↔ s.refs.length % 2 = 1) ∧
    (∀ t, s.funcUnit = some t → ∃ f ∈ s.flows, IsReference f.src ∧ t = unitText env f.src) := by
  refine run_induction (P := fun _ s =>
    (s.funcUnit.isSome ↔ s.refs.length % 2 = 1) ∧
    (∀ t, s.funcUnit = some t → ∃ f ∈ s.flows, IsReference f.src ∧ t = unitText env f.src))
    ⟨by simp [fresh], by simp [fresh]⟩ ?_ h
  rintro l x s s' - ⟨h1, h2⟩ hs
  rcases step_ok hs with ⟨hc, rfl⟩ | ⟨hc, f, dir, group, hn⟩
  · exact ⟨h1, h2⟩
  · by_cases hd : dir = .output ∧ group = c!"0"
    · have hr : IsReference f.src := by rw [hn.src]; exact (direction_ref hn.dirs).1 hd
      rw [hn.unit, hn.refs, hn.flows]
      simp only [hd, and_self, if_true, List.length_append, List.length_singleton]
      constructor
      · cases ho : s.funcUnit with
        | none =>
          simp only [ho, Option.isSome_none, Bool.false_eq_true, false_iff] at h1
          simp [nameUnit]; omega
        | some t =>
          simp only [ho, Option.isSome_some, true_iff] at h1
          simp [nameUnit]; omega
      · intro t ht
        cases ho : s.funcUnit with
        | none =>
          simp only [ho, nameUnit, Option.some.injEq] at ht
          exact ⟨f, by simp, hr, by rw [← ht, hn.src]⟩
        | some t => simp [ho, nameUnit] at ht
    · rw [hn.unit, hn.refs, hn.flows]
      simp only [hd, if_false]
      refine ⟨h1, fun t ht => ?_⟩
      obtain ⟨g, hg, hr, e⟩ := h2 t ht
      exact ⟨g, by simp [hg], hr, e⟩

/-! ### Elementary flows -/

/-- C36, second part: an elementary exchange of the result refers to the flow of the table and its value
is that of the source, times the factor of the table (one if there is none), in the unit of ILCD. -/
theorem elementary_converted {env : Env FP} {xs : List Exch} {files : List ((Str × Str) × FP)} {s : St FP}
    (h : run env xs (fresh files) = .ok s) : ∀ f ∈ s.flows, f.src.isElem = true →
    ∃ r a k c, Mapped env.mapping f.src.fid r ∧ f.target = r.target ∧ env.flt f.src.amount = .ok a ∧
      env.unitFactor r.unit = .ok c ∧ f.amount.m = a * k * c ∧
      ((r.factor = [] ∨ r.factor = c!"n/a") ∧ k = 1 ∨
        ¬ (r.factor = [] ∨ r.factor = c!"n/a") ∧ env.flt r.factor = .ok k) := by
  refine run_induction (P := fun _ s => ∀ f ∈ s.flows, f.src.isElem = true →
    ∃ r a k c, Mapped env.mapping f.src.fid r ∧ f.target = r.target ∧ env.flt f.src.amount = .ok a ∧
      env.unitFactor r.unit = .ok c ∧ f.amount.m = a * k * c ∧
      ((r.factor = [] ∨ r.factor = c!"n/a") ∧ k = 1 ∨
        ¬ (r.factor = [] ∨ r.factor = c!"n/a") ∧ env.flt r.factor = .ok k)) (by simp [fresh]) ?_ h
  intro l x s s' _ ih hs
  unfold step at hs
  split at hs
  · rename_i he
    rcases elementaryFlow_ok hs with ⟨hr, rfl⟩ | ⟨f, dir, group, fp, o, r, hn, hr, ha, ht, -⟩
    · exact ih
    · rw [hn.flows]
      intro g hg hge
      rcases List.mem_append.1 hg with hg | hg
      · exact ih g hg hge
      · simp only [List.mem_singleton] at hg
        subst hg
        unfold elemAmount rowFactor at ha
        split at ha
        · simp at ha
        · rename_i k hk
          split at ha
          · simp at ha
          · rename_i a haa
            split at ha
            · simp at ha
            · rename_i c hcc
              simp only [Except.ok.injEq, Prod.mk.injEq] at ha
              refine ⟨r, a, k, c, by rw [hn.src]; exact rowOf_some.1 hr, ht, by rw [hn.src]; exact haa, hcc, ?_, ?_⟩
              · rw [← ha.2]; rfl
              · split at hk
                · rename_i hf
                  simp only [Except.ok.injEq] at hk
                  exact .inl ⟨hf, hk.symm⟩
                · rename_i hf; exact .inr ⟨hf, hk⟩
  · rename_i he
    obtain ⟨f, dir, group, fp, o, hn, -⟩ := intermediate_ok hs
    rw [hn.flows]
    intro g hg hge
    rcases List.mem_append.1 hg with hg | hg
    · exact ih g hg hge
    · simp only [List.mem_singleton] at hg
      subst hg
      rw [hn.src] at hge
      exact absurd hge he

/-! ### Versions -/

/-- The invariant of the versions. `xs` are the exchanges of the data set. -/
structure VersionInv (env : Env FP) (xs : List Exch) (s : St FP) : Prop where
  read : ∀ f ∈ s.flows, f.src ∈ xs
  ok : ∀ y ∈ xs, y.isElem = false → ∀ d, aget y.fid s.versions = some d → VersionsOk d
  flow : ∀ f ∈ s.flows, f.src.isElem = false → ∃ n fp d, env.fp f.src = .ok fp ∧
    aget f.src.fid s.versions = some d ∧ (n, fp) ∈ d ∧ f.version = versionText n ∧
    env.conv f.src.fid = .ok f.target
  file : ∀ y ∈ xs, y.isElem = false → ∀ d u, aget y.fid s.versions = some d → env.conv y.fid = .ok u →
    ∀ p ∈ d, aget (u, versionText p.1) s.files = some p.2

theorem versions_inv {env : Env FP} {xs : List Exch} {files : List ((Str × Str) × FP)} {s : St FP}
    (hkind : ∀ x ∈ xs, ∀ y ∈ xs, x.isElem = true → y.isElem = false → x.fid ≠ y.fid)
    (hconv : ∀ x ∈ xs, ∀ y ∈ xs, ∀ u, env.conv x.fid = .ok u → env.conv y.fid = .ok u → x.fid = y.fid)
    (h : run env xs (fresh files) = .ok s) : VersionInv env xs s := by
  refine run_induction (P := fun _ s => VersionInv env xs s)
    ⟨by simp [fresh], by simp [fresh, aget], by simp [fresh], by simp [fresh, aget]⟩ ?_ h
  intro l x s s' hpre inv hs
  have hx : x ∈ xs := hpre.subset (by simp)
  unfold step at hs
  split at hs
  · rename_i he
    rcases elementaryFlow_ok hs with ⟨hr, rfl⟩ | ⟨f, dir, group, fp, o, r, hn, hr, ha, ht, -, -, -, hv, hf⟩
    · exact ⟨inv.read, inv.ok, inv.flow, inv.file⟩
    · have hget : ∀ y ∈ xs, y.isElem = false → aget y.fid s'.versions = aget y.fid s.versions := by
        intro y hy hye
        rw [hv, aget_aset, if_neg (hkind x hx y hy he hye).symm]
      refine ⟨?_, ?_, ?_, ?_⟩
      · intro g hg
        rw [hn.flows] at hg
        rcases List.mem_append.1 hg with hg | hg
        · exact inv.read g hg
        · simp only [List.mem_singleton] at hg
          rw [hg, hn.src]; exact hx
      · intro y hy hye d hd
        rw [hget y hy hye] at hd
        exact inv.ok y hy hye d hd
      · intro g hg hge
        rw [hn.flows] at hg
        rcases List.mem_append.1 hg with hg | hg
        · obtain ⟨n, fp', d, h1, h2, h3⟩ := inv.flow g hg hge
          exact ⟨n, fp', d, h1, by rw [hget _ (inv.read g hg) hge]; exact h2, h3⟩
        · simp only [List.mem_singleton] at hg
          subst hg
          rw [hn.src, he] at hge
          simp at hge
      · intro y hy hye d u hd hu p hp
        rw [hget y hy hye] at hd
        rw [hf]
        exact inv.file y hy hye d u hd hu p hp
  · rename_i he
    have he : x.isElem = false := by simpa using he
    obtain ⟨f, dir, group, fp, o, hn, -, -, hfp, hu, hver, hv, hf⟩ := intermediate_ok hs
    obtain ⟨c1, c2, c3, c4, c5⟩ := chooseVersion_spec fp (aget x.fid s.versions)
      (fun d hd => inv.ok x hx he d hd)
    refine ⟨?_, ?_, ?_, ?_⟩
    · intro g hg
      rw [hn.flows] at hg
      rcases List.mem_append.1 hg with hg | hg
      · exact inv.read g hg
      · simp only [List.mem_singleton] at hg
        rw [hg, hn.src]; exact hx
    · intro y hy hye d hd
      rw [hv, aget_aset] at hd
      split at hd
      · simp only [Option.some.injEq] at hd
        rw [← hd]; exact c1
      · exact inv.ok y hy hye d hd
    · intro g hg hge
      rw [hn.flows] at hg
      rcases List.mem_append.1 hg with hg | hg
      · obtain ⟨n, fp', d, h1, h2, h3, h4, h5⟩ := inv.flow g hg hge
        by_cases e : g.src.fid = x.fid
        · refine ⟨n, fp', (chooseVersion fp (aget x.fid s.versions)).2.1, h1,
            by rw [hv, aget_aset, if_pos e], c3 _ ?_, h4, h5⟩
          rw [← e, h2]; exact h3
        · exact ⟨n, fp', d, h1, by rw [hv, aget_aset, if_neg e]; exact h2, h3, h4, h5⟩
      · simp only [List.mem_singleton] at hg
        subst hg
        refine ⟨_, fp, (chooseVersion fp (aget x.fid s.versions)).2.1, by rw [hn.src]; exact hfp,
          by rw [hv, hn.src, aget_aset_self], c2, hver, by rw [hn.src]; exact hu⟩
    · intro y hy hye d u hd hcu p hp
      rw [hv, aget_aset] at hd
      by_cases e : y.fid = x.fid
      · rw [if_pos e] at hd
        simp only [Option.some.injEq] at hd
        have hut : u = f.target := by
          rw [e, hu] at hcu; simpa using hcu.symm
        rcases c4 p (by rw [hd]; exact hp) with hold | ⟨hw, rfl⟩
        · -- an earlier version
          cases ho : aget x.fid s.versions with
          | none => rw [ho] at hold; simp at hold
          | some d0 =>
            rw [ho] at hold
            have hfile := inv.file y hy hye d0 u (by rw [e]; exact ho) hcu p (by simpa using hold)
            rw [hf]
            split
            · rename_i hw
              rw [aget_aset, if_neg ?_]
              · exact hfile
              · intro heq
                simp only [Prod.mk.injEq] at heq
                rw [hver] at heq
                have hpn := versionText_inj heq.2
                refine c5 hw ?_
                rw [← hpn, ho]
                exact List.mem_map.2 ⟨p, by simpa using hold, rfl⟩
            · exact hfile
        · rw [hf, if_pos hw, hut, hver, aget_aset_self]
      · rw [if_neg e] at hd
        have hfile := inv.file y hy hye d u hd hcu p hp
        rw [hf]
        split
        · rw [aget_aset, if_neg ?_]
          · exact hfile
          · intro heq
            simp only [Prod.mk.injEq] at heq
            exact e (hconv y hy x hx u hcu (by rw [heq.1]; exact hu))
        · exact hfile

/-- C34. Within one data set two exchanges of the same product refer to the same version of the flow
data set exactly if they have the same flow properties, and the file of that version holds these
properties. The identifiers of products and elementary flows are taken to differ, and the conversion of
identifiers not to join two of them (proved for identifiers in lower case in `Verif.Uuid`). -/
theorem versions_distinguish {env : Env FP} {xs : List Exch} {files : List ((Str × Str) × FP)} {s : St FP}
    (hkind : ∀ x ∈ xs, ∀ y ∈ xs, x.isElem = true → y.isElem = false → x.fid ≠ y.fid)
    (hconv : ∀ x ∈ xs, ∀ y ∈ xs, ∀ u, env.conv x.fid = .ok u → env.conv y.fid = .ok u → x.fid = y.fid)
    (h : run env xs (fresh files) = .ok s) :
    (∀ f ∈ s.flows, ∀ g ∈ s.flows, f.src.isElem = false → g.src.isElem = false → f.target = g.target →
      (f.version = g.version ↔ env.fp f.src = env.fp g.src)) ∧
    (∀ f ∈ s.flows, f.src.isElem = false →
      ∃ fp, env.fp f.src = .ok fp ∧ aget (f.target, f.version) s.files = some fp) := by
  have inv := versions_inv hkind hconv h
  constructor
  · intro f hf g hg hfe hge ht
    obtain ⟨n, fp, d, h1, h2, h3, h4, h5⟩ := inv.flow f hf hfe
    obtain ⟨n', fp', d', h1', h2', h3', h4', h5'⟩ := inv.flow g hg hge
    have hid : f.src.fid = g.src.fid :=
      hconv _ (inv.read f hf) _ (inv.read g hg) _ h5 (by rw [ht]; exact h5')
    have hdd : d = d' := by rw [hid, h2'] at h2; simpa using h2.symm
    subst hdd
    have ok := inv.ok _ (inv.read f hf) hfe d h2
    rw [h1, h1', h4, h4', Except.ok.injEq]
    constructor
    · intro e
      have hn := versionText_inj e
      subst hn
      have e1 := aget_eq_of_mem ok.keys h3
      have e2 := aget_eq_of_mem ok.keys h3'
      rw [e1] at e2
      simpa using e2
    · rintro rfl
      have := List.inj_on_of_nodup_map ok.vals h3 h3' rfl
      simp only [Prod.mk.injEq, and_true] at this
      rw [this]
  · intro f hf hfe
    obtain ⟨n, fp, d, h1, h2, h3, h4, h5⟩ := inv.flow f hf hfe
    exact ⟨fp, h1, by rw [h4]; exact inv.file _ (inv.read f hf) hfe d _ h2 h5 (n, fp) h3⟩

/-- C34 fails between the data sets of a database: the versions are counted anew for each data set, so
the same product with other properties gets the same version there, and its file replaces the one the
first data set refers to. -/
theorem versions_clash {env : Env FP} {x y : Exch} {files : List ((Str × Str) × FP)} {s s' : St FP} {p q : FP}
    (hx : x.isElem = false) (hy : y.isElem = false) (hid : x.fid = y.fid)
    (hp : env.fp x = .ok p) (hq : env.fp y = .ok q)
    (h : run env [x] (fresh files) = .ok s) (h' : run env [y] (fresh s.files) = .ok s') :
    ∃ f g, s.flows = [f] ∧ s'.flows = [g] ∧ f.target = g.target ∧ f.version = g.version ∧
      aget (f.target, f.version) s.files = some p ∧ aget (f.target, f.version) s'.files = some q := by
  obtain ⟨s1, h1, h2⟩ := run_cons h
  obtain ⟨s1', h1', h2'⟩ := run_cons h'
  simp only [run, Except.ok.injEq] at h2 h2'
  subst h2 h2'
  simp only [step, hx, hy, Bool.false_eq_true, if_false] at h1 h1'
  obtain ⟨f, dir, group, fp, o, hn, -, -, hfp, hu, hver, -, hf⟩ := intermediate_ok h1
  obtain ⟨g, dir', group', fp', o', hn', -, -, hfp', hu', hver', -, hf'⟩ := intermediate_ok h1'
  have e1 : fp = p := by rw [hp] at hfp; simpa using hfp.symm
  have e2 : fp' = q := by rw [hq] at hfp'; simpa using hfp'.symm
  subst e1 e2
  have et : f.target = g.target := by rw [hid, hu'] at hu; simpa using hu.symm
  have ev : f.version = g.version := by
    rw [hver, hver']; simp [fresh, aget, chooseVersion]
  refine ⟨f, g, by simp [hn.flows, fresh], by simp [hn'.flows, fresh], et, ev, ?_, ?_⟩
  · rw [hf]; simp [fresh, aget, chooseVersion]
  · rw [hf', et, ev]; simp [fresh, aget, chooseVersion]

/-! ### Allocation -/

omit [DecidableEq FP] in
theorem addShares_none {env : Env FP} {x : Exch} {o : ℝ} : ∀ {l : List (Str × Str)} {d d' : List (Str × ℝ)},
    addShares env none x o l d = .ok d' → d' = d := by
  intro l
  induction l with
  | nil => intro d d' h; simp only [addShares, Except.ok.injEq] at h; exact h.symm
  | cons p l ih =>
    intro d d' h
    obtain ⟨pid, t⟩ := p
    simp only [addShares, reduceCtorEq, if_false] at h
    split at h
    · simp at h
    · exact ih h

/-- C63 fails: the master allocation property of the activity is never used. Whatever is declared, no
exchange gets a share, unless it has an attribute `specificAllocationProperty`, which the format does not
have. -/
theorem no_shares {env : Env FP} {xs : List Exch} {files : List ((Str × Str) × FP)} {s : St FP}
    {master : Str} (hsp : ∀ x ∈ xs, x.specific = none)
    (h : run env xs (setMaster (fresh files) master) = .ok s) : s.shares = [] ∧ s.main = some master := by
  have := run_induction (P := fun _ s => s.shares = [] ∧ s.underMain = none ∧ s.main = some master)
    ⟨rfl, rfl, rfl⟩ ?_ h
  · exact ⟨this.1, this.2.2⟩
  · rintro l x s s' hpre ⟨h1, h2, h3⟩ hs
    have hx : x ∈ xs := hpre.subset (by simp)
    rcases step_ok hs with ⟨hc, rfl⟩ | ⟨hc, f, dir, group, hn⟩
    · exact ⟨h1, h2, h3⟩
    · refine ⟨?_, by rw [hn.under, h2], by rw [hn.main, h3]⟩
      obtain ⟨o, ho⟩ := hn.shares
      have hp : allocProperty s x = none := by simp [allocProperty, hsp x hx, h2]
      rw [hp] at ho
      rw [addShares_none ho, h1]

/-! ### Examples -/

/-- Numbers are 1, unit factors are 1, identifiers stay, and the flow properties of a product are the
length of its unit. -/
def exEnv : Env Nat where
  flt := fun _ => .ok 1
  showF := id
  unitFactor := fun _ => .ok 1
  conv := fun u => .ok u
  elemVersion := fun _ => .ok c!"03.00.000"
  fp := fun x => .ok x.unit.length
  mapping := [(c!"e1", ⟨c!"EXACT", c!"t1", c!"carbon dioxide", c!"kg", []⟩),
    (c!"e2", ⟨c!"NO MATCH", [], [], [], []⟩)]

def exProduct (id fid unit : Str) (out : Option Str) (inp : Option Str) : Exch :=
  ⟨false, id, fid, c!"steel", unit, c!"1", inp, out, some (.normal 1), none, [], none, [(c!"price", c!"3")]⟩

def exElem (id fid : Str) : Exch :=
  ⟨true, id, fid, c!"carbon dioxide", c!"kg", c!"1", none, some c!"4", some (.lognormal 1), none, [], none, []⟩

/-- A reference product, the same product with other properties as an input, a mapped elementary flow
twice and one that is not mapped. -/
def exchanges : List Exch :=
  [exProduct c!"x1" c!"p1" c!"kg" (some c!"0") none, exProduct c!"x2" c!"p1" c!"ton" none (some c!"5"),
   exElem c!"x3" c!"e1", exElem c!"x4" c!"e2", exElem c!"x5" c!"e1"]

/-- The hypotheses of the theorems on the exchanges of a data set hold for it. -/
example : ∃ s, run exEnv exchanges (fresh []) = .ok s ∧ s.flows.map Flow.internalId = [1, 2, 3, 4] ∧
    s.refs = [1] ∧ s.funcUnit = some c!"steel, 1 kg" ∧ s.reported.map Exch.id = [c!"x4"] ∧
    s.flows.map Flow.version = [c!"01.00.001", c!"01.00.002", c!"03.00.000", c!"03.00.000"] :=
  ⟨_, rfl, rfl, rfl, rfl, rfl, rfl⟩

example : ∀ x ∈ exchanges, ∀ y ∈ exchanges, x.isElem = true → y.isElem = false → x.fid ≠ y.fid := by
  simp [exchanges, exProduct, exElem]

example : ∀ x ∈ exchanges, ∀ y ∈ exchanges, ∀ u, exEnv.conv x.fid = .ok u → exEnv.conv y.fid = .ok u →
    x.fid = y.fid := by
  intro x _ y _ u hx hy
  simp only [exEnv, Except.ok.injEq] at hx hy
  rw [hx, hy]

/-- Three reference products: the functional unit is named after the third. -/
example : ∃ s, run exEnv [exProduct c!"x1" c!"p1" c!"kg" (some c!"0") none,
      exProduct c!"x2" c!"p2" c!"m3" (some c!"0") none, exProduct c!"x3" c!"p3" c!"MJ" (some c!"0") none] (fresh []) = .ok s ∧
    s.refs = [1, 2, 3] ∧ s.funcUnit = some c!"steel, 1 MJ" :=
  ⟨_, rfl, rfl, rfl⟩

/-- The hypotheses of `versions_clash`: two data sets with the same product in other units. -/
example : ∃ s s', run exEnv [exProduct c!"x1" c!"p1" c!"kg" (some c!"0") none] (fresh []) = .ok s ∧
    run exEnv [exProduct c!"x1" c!"p1" c!"ton" (some c!"0") none] (fresh s.files) = .ok s' ∧
    s.files = [((c!"p1", c!"01.00.001"), 2)] ∧ s'.files = [((c!"p1", c!"01.00.001"), 3)] :=
  ⟨_, _, rfl, rfl, rfl, rfl⟩

/-- The hypotheses of `no_shares`, with a declared master allocation property. -/
example : (∀ x ∈ exchanges, x.specific = none) ∧
    ∃ s, run exEnv exchanges (setMaster (fresh []) c!"price") = .ok s :=
  ⟨by simp [exchanges, exProduct, exElem], _, rfl⟩

end Verif.EcsFlows
