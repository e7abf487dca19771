/-
Both conversions of an exchange, one after the other.
-/
import Verif.Spec.RoundTrip
import Verif.Props.EcsMerge
import Verif.Props.FlowFiles
import Verif.Props.IlcdFlows
import Verif.Props.Uncertainty

namespace Verif.RoundTrip

open EcsFlows (Exch Flow)
open Spec

variable {P D : Type} [DecidableEq P]

/-! ### The exchanges there -/

/-- What holds of an exchange of ILCD before the end of the data set. -/
structure FlowOk (env : EcsFlows.Env P) (f : Flow) : Prop where
  ftype : f.src.isElem = false → ∃ g, EcsFlows.direction f.src = .ok (f.dir, g) ∧ f.ftype = EcsFlows.flowType f.src.byProduct f.dir g
  eltype : f.src.isElem = true → ∃ g, EcsFlows.direction f.src = .ok (f.dir, g) ∧ f.ftype = EcsFlows.flowType none f.dir g
  bounds : f.bounds = f.amount.written
  dirs : ∃ g, EcsFlows.direction f.src = .ok (f.dir, g)
  fp : ∃ p, env.fp f.src = .ok p
  kind : (f.src.isElem = false ∧ env.conv f.src.fid = .ok f.target ∧ ∃ o, EcsFlows.basicAmount env f.src = .ok (o, f.amount)) ∨
    (f.src.isElem = true ∧ ∃ r o, EcsFlows.rowOf env f.src = some r ∧ EcsFlows.elemAmount env f.src r = .ok (o, f.amount) ∧
      f.target = r.target)

theorem flows_ok {env : EcsFlows.Env P} {xs : List Exch} {s : EcsFlows.St P}
    (h : EcsFlows.run env xs (EcsFlows.fresh []) = .ok s) : ∀ f ∈ s.flows, FlowOk env f := by
  refine EcsFlows.run_induction (P := fun _ s => ∀ f ∈ s.flows, FlowOk env f) (by simp [EcsFlows.fresh]) ?_ h
  rintro l x s s' - ih hs f hf
  have one : ∀ g dir group, EcsFlows.Numbered env s s' x g dir group → (f = g → FlowOk env f) → FlowOk env f := by
    intro g dir group hn hg
    rw [hn.flows] at hf
    rcases List.mem_append.1 hf with hf | hf
    · exact ih f hf
    · exact hg (List.mem_singleton.1 hf)
  unfold EcsFlows.step at hs
  split at hs
  · rename_i he
    rcases EcsFlows.elementaryFlow_ok hs with ⟨-, rfl⟩ | ⟨g, dir, group, fp, o, r, hn, hr, ha, ht, hft, hp, -⟩
    · exact ih f hf
    · refine one g dir group hn ?_
      rintro rfl
      have e := hn.src
      have e' := hn.dirEq
      subst e; subst e'
      exact ⟨fun h => absurd (he.symm.trans h) (by decide), fun _ => ⟨group, hn.dirs, hft⟩, hn.bounds, ⟨group, hn.dirs⟩, ⟨fp, hp⟩, .inr ⟨he, r, o, hr, ha, ht⟩⟩
  · rename_i he
    obtain ⟨g, dir, group, fp, o, hn, ha, hft, hp, hc, -⟩ := EcsFlows.intermediate_ok hs
    refine one g dir group hn ?_
    rintro rfl
    have e := hn.src
    have e' := hn.dirEq
    subst e; subst e'
    exact ⟨fun _ => ⟨group, hn.dirs, hft⟩, fun h => absurd h he, hn.bounds, ⟨group, hn.dirs⟩, ⟨fp, hp⟩,
      .inl ⟨by simpa using he, hc, o, ha⟩⟩

/-! ### Lists -/

theorem forall₂_filterMap {α β : Type} {h : α → Option β} {p : β → Bool} {q : α → Bool} :
    ∀ {l : List α}, (∀ a ∈ l, ∀ b, h a = some b → p b = q a) → (∀ a ∈ l, q a = true → h a ≠ none) →
      List.Forall₂ (fun a b => h a = some b) (l.filter q) ((l.filterMap h).filter p)
  | [], _, _ => by simp
  | a :: l, h1, h2 => by
    have ih := forall₂_filterMap (l := l) (fun a ha => h1 a (by simp [ha])) (fun a ha => h2 a (by simp [ha]))
    cases ha : h a with
    | none =>
      have hq : q a = false := by
        cases hq : q a with
        | false => rfl
        | true => exact absurd ha (h2 a (by simp) hq)
      rw [List.filterMap_cons_none ha, List.filter_cons_of_neg (by simp [hq])]
      exact ih
    | some b =>
      have hpq := h1 a (by simp) b ha
      rw [List.filterMap_cons_some ha]
      cases hq : q a with
      | false => rw [List.filter_cons_of_neg (by simp [hq]), List.filter_cons_of_neg (by simp [hpq, hq])]; exact ih
      | true => rw [List.filter_cons_of_pos (by simp [hq]), List.filter_cons_of_pos (by simp [hpq, hq])]; exact .cons ha ih

theorem forall₂_map_left {α β γ : Type} {R : β → γ → Prop} {g : α → β} {l : List α} {m : List γ}
    (h : List.Forall₂ R (l.map g) m) : List.Forall₂ (fun a c => R (g a) c) l m := by
  induction l generalizing m with
  | nil => cases h; exact .nil
  | cons a l ih => cases h with | cons h1 h2 => exact .cons h1 (ih h2)

theorem forall₂_get {α β : Type} {R : α → β → Prop} {l : List α} {m : List β} (h : List.Forall₂ R l m) {n : Nat} {a : α}
    (ha : l[n]? = some a) : ∃ b, m[n]? = some b ∧ R a b := by
  induction h generalizing n with
  | nil => simp at ha
  | cons h1 _ ih =>
    cases n with
    | zero => simp only [List.getElem?_cons_zero, Option.some.injEq] at ha; subst ha; exact ⟨_, rfl, h1⟩
    | succ n => exact ih ha

theorem forall₂_and_mem {α β : Type} {R : α → β → Prop} {l : List α} {m : List β} (h : List.Forall₂ R l m) :
    List.Forall₂ (fun a b => R a b ∧ a ∈ l ∧ b ∈ m) l m := by
  induction h with
  | nil => exact .nil
  | cons h1 _ ih =>
    refine .cons ⟨h1, by simp, by simp⟩ (ih.imp fun a b hab => ⟨hab.1, by simp [hab.2.1], by simp [hab.2.2]⟩)

/-- Lists related to a third one. -/
theorem forall₂_join {α β γ : Type} {R : α → β → Prop} {g : γ → β} {l : List α} {m : List γ}
    (h : List.Forall₂ R l (m.map g)) : List.Forall₂ (fun a c => R a (g c)) l m := by
  induction m generalizing l with
  | nil => cases h; exact .nil
  | cons c m ih => cases h with | cons h1 h2 => exact .cons h1 (ih h2)

/-! ### The files -/

section Files

variable {env : EcsFlows.Env P} {fenv : FlowFiles.Env} {base : IlcdFlows.Env ℝ D} {E : Uuid.BlockFn} {unitProp : P → Str}
  {package : Str → IlcdFlows.FlowFile} {shown : ℝ → Str} {xs : List Exch}

/-- The exchange as the files see it, for one that was converted. -/
theorem fileExchange_some {x : Exch} {e : FlowFiles.Exchange P Info} (h : fileExchange env x = some e) :
    ∃ p d g, env.fp x = .ok p ∧ EcsFlows.direction x = .ok (d, g) ∧
      ((x.isElem = true ∧ ∃ r, EcsFlows.rowOf env x = some r ∧ e = .elementary x.fid r.target p) ∨
       (x.isElem = false ∧ e = .intermediate x.fid p ⟨x.name, EcsFlows.flowType x.byProduct d g⟩)) := by
  unfold fileExchange at h
  split at h
  · rename_i p d g hp hd
    refine ⟨p, d, g, hp, hd, ?_⟩
    split at h
    · rename_i he
      rw [Option.map_eq_some_iff] at h
      obtain ⟨r, hr, rfl⟩ := h
      exact .inl ⟨he, r, hr, rfl⟩
    · rename_i he
      exact .inr ⟨by simpa using he, (Option.some.inj h).symm⟩
  · cases h

theorem fileExchange_intermediate {l : List Exch} {f : Str} {p : P} {i : Info}
    (h : FlowFiles.Exchange.intermediate f p i ∈ l.filterMap (fileExchange env)) : ∃ x ∈ l, x.isElem = false ∧ x.fid = f := by
  obtain ⟨x, hx, hs⟩ := List.mem_filterMap.1 h
  obtain ⟨p', d, g, -, -, ⟨-, r, -, e⟩ | ⟨he, e⟩⟩ := fileExchange_some hs
  · cases e
  · injection e with e1 e2 e3; exact ⟨x, hx, he, e1.symm⟩

theorem fileExchange_elementary {l : List Exch} {f t : Str} {p : P}
    (h : FlowFiles.Exchange.elementary f t p ∈ l.filterMap (fileExchange env)) :
    ∃ x ∈ l, x.isElem = true ∧ x.fid = f ∧ ∃ r, EcsFlows.Spec.Mapped env.mapping x.fid r ∧ r.target = t := by
  obtain ⟨x, hx, hs⟩ := List.mem_filterMap.1 h
  obtain ⟨p', d, g, -, -, ⟨he, r, hr, e⟩ | ⟨-, e⟩⟩ := fileExchange_some hs
  · injection e with e1 e2 e3; exact ⟨x, hx, he, e1.symm, r, EcsFlows.rowOf_some.1 hr, e2.symm⟩
  · cases e

/-- What is needed of the list of files. -/
theorem files_setting (S : Setting env fenv E unitProp package xs) :
    FlowFiles.Spec.Apart (xs.filterMap (fileExchange env)) ∧ FlowFiles.Spec.Names fenv (xs.filterMap (fileExchange env)) ∧
    (∀ f t fp, FlowFiles.Exchange.elementary f t fp ∈ xs.filterMap (fileExchange env) → Validators.Spec.UuidText t) ∧
    (∀ f fp i f' t fp', FlowFiles.Exchange.intermediate f fp i ∈ xs.filterMap (fileExchange env) →
      FlowFiles.Exchange.elementary f' t fp' ∈ xs.filterMap (fileExchange env) → fenv.conv f ≠ .ok t) := by
  have ht : ∀ f t fp, FlowFiles.Exchange.elementary f t fp ∈ xs.filterMap (fileExchange env) → Validators.Spec.UuidText t := by
    intro f t fp h
    obtain ⟨x, hx, he, rfl, r, hr, rfl⟩ := fileExchange_elementary h
    exact (S.targets x hx he r hr).1
  refine ⟨?_, FlowFiles.names_of_uuid E S.fconv ?_ ht, ht, ?_⟩
  · intro f fp i t fp' h1 h2
    obtain ⟨x, hx, he, rfl⟩ := fileExchange_intermediate h1
    obtain ⟨y, hy, hye, hyf, r, hr, -⟩ := fileExchange_elementary h2
    exact (S.apart x hx y hy he hye r hr).2 hyf.symm
  · intro f fp i h
    obtain ⟨x, hx, he, rfl⟩ := fileExchange_intermediate h
    exact S.ids x hx he
  · intro f fp i f' t fp' h1 h2
    obtain ⟨x, hx, he, rfl⟩ := fileExchange_intermediate h1
    obtain ⟨y, hy, hye, -, r, hr, rfl⟩ := fileExchange_elementary h2
    rw [S.fconv]
    exact (S.apart x hx y hy he hye r hr).1

/-- The description in the files is that of the first exchange with the same flow and properties. -/
theorem firstInfo_first {x : Exch} {p : P} (hp : env.fp x = .ok p) {i : Info} : ∀ {xs : List Exch},
    (∀ z ∈ xs, z.isElem = false → ∃ e, fileExchange env z = some e) →
    FlowFiles.Spec.firstInfo x.fid p (xs.filterMap (fileExchange env)) = some i →
    ∃ y d g, First env.fp xs x y ∧ EcsFlows.direction y = .ok (d, g) ∧ i = ⟨y.name, EcsFlows.flowType y.byProduct d g⟩
  | [], _, h => by simp [FlowFiles.Spec.firstInfo] at h
  | z :: xs, hd, h => by
    have later : FlowFiles.Spec.firstInfo x.fid p (xs.filterMap (fileExchange env)) = some i → ¬ Like env.fp z x →
        ∃ y d g, First env.fp (z :: xs) x y ∧ EcsFlows.direction y = .ok (d, g) ∧
          i = ⟨y.name, EcsFlows.flowType y.byProduct d g⟩ := by
      intro h hz
      obtain ⟨y, d, g, ⟨l, m, rfl, h1, h2⟩, h3, h4⟩ := firstInfo_first hp (fun z hz => hd z (by simp [hz])) h
      refine ⟨y, d, g, ⟨z :: l, m, rfl, h1, ?_⟩, h3, h4⟩
      intro w hw
      rcases List.mem_cons.1 hw with rfl | hw
      · exact hz
      · exact h2 w hw
    cases hz : fileExchange env z with
    | none =>
      rw [List.filterMap_cons_none hz] at h
      refine later h fun hl => ?_
      obtain ⟨e, he⟩ := hd z (by simp) hl.1
      rw [hz] at he; cases he
    | some e =>
      rw [List.filterMap_cons_some hz] at h
      obtain ⟨p', d, g, hp', hdir, ⟨he, r, -, rfl⟩ | ⟨he, rfl⟩⟩ := fileExchange_some hz
      · refine later (by simpa [FlowFiles.Spec.firstInfo] using h) fun hl => ?_
        rw [hl.1] at he; cases he
      · by_cases hc : z.fid = x.fid ∧ p' = p
        · obtain ⟨h1, rfl⟩ := hc
          have hi : i = ⟨z.name, EcsFlows.flowType z.byProduct d g⟩ := by
            simpa [FlowFiles.Spec.firstInfo, h1, eq_comm] using h
          exact ⟨z, d, g, ⟨[], xs, rfl, ⟨he, h1, p', hp', hp⟩, by simp⟩, hdir, hi⟩
        · refine later (by simpa [FlowFiles.Spec.firstInfo, hc] using h) ?_
          rintro ⟨-, h1, q, h2, h3⟩
          rw [hp'] at h2; rw [hp] at h3
          exact hc ⟨h1, by rw [Except.ok.inj h2, Except.ok.inj h3]⟩

end Files

/-! ### What is known of both conversions -/

theorem finish_place {b : Bool} {sh : List (Str × ℝ)} {flows out : List Flow} (h : EcsFlows.finish b sh flows = .ok out) :
    ∃ r, out = flows.filterMap (EcsFlows.place r) ∧ (b = true → EcsFlows.mergeGroups (EcsFlows.groups flows) = .ok r) ∧
      (b = false → r = []) := by
  unfold EcsFlows.finish at h
  split at h
  · cases h
  · split at h
    · cases h
    · rename_i r hr
      refine ⟨r, (Except.ok.inj h).symm, ?_, ?_⟩
      · rintro rfl; simpa using hr
      · rintro rfl; simpa [eq_comm] using hr

/-- The parts of a conversion there. -/
theorem there_ok {env : EcsFlows.Env P} {fenv : FlowFiles.Env} {b : Bool} {xs : List Exch} {d : Doc P}
    (h : there env fenv b xs = .ok d) : ∃ s st merged, EcsFlows.run env xs (EcsFlows.fresh []) = .ok s ∧
      d.flows = s.flows.filterMap (EcsFlows.place merged) ∧
      (b = true → EcsFlows.mergeGroups (EcsFlows.groups s.flows) = .ok merged) ∧ (b = false → merged = []) ∧
      FlowFiles.run fenv ⟨[], []⟩ (xs.filterMap (fileExchange env)) = .ok (st, d.links) ∧ d.refs = s.refs ∧ d.files = st.files := by
  unfold there at h
  obtain ⟨s, hs, h⟩ := IlcdFlows.Except.bind_ok' h
  obtain ⟨out, ho, h⟩ := IlcdFlows.Except.bind_ok' h
  obtain ⟨⟨st, rs⟩, hr, h⟩ := IlcdFlows.Except.bind_ok' h
  obtain ⟨merged, h1, h2, h3⟩ := finish_place ho
  have e := (Except.ok.inj h).symm
  subst e
  exact ⟨s, st, merged, hs, h1, h2, h3, hr, rfl, rfl⟩

theorem fileExchange_flow {env : EcsFlows.Env P} {f : Flow} (h : FlowOk env f) : ∃ e, fileExchange env f.src = some e := by
  obtain ⟨g, hd⟩ := h.dirs
  obtain ⟨p, hp⟩ := h.fp
  unfold fileExchange
  rw [hp, hd]
  rcases h.kind with ⟨he, -⟩ | ⟨he, r, o, hr, -⟩
  · simp [he]
  · simp [he, hr]

/-- The exchanges the files are made of are those converted. -/
theorem fileExchanges {env : EcsFlows.Env P} {xs : List Exch} {s : EcsFlows.St P}
    (h : EcsFlows.run env xs (EcsFlows.fresh []) = .ok s) :
    List.Forall₂ (fun f e => fileExchange env f.src = some e) s.flows (xs.filterMap (fileExchange env)) := by
  classical
  have hf := flows_ok h
  have h1 := (EcsFlows.exchanges_state h).1
  have h2 : xs.filterMap (fileExchange env) = (xs.filter fun x => decide (EcsFlows.Spec.Convertible env.mapping x)).filterMap
      (fileExchange env) := by
    rw [List.filterMap_filter]
    refine List.filterMap_congr fun x _ => ?_
    by_cases hc : EcsFlows.Spec.Convertible env.mapping x
    · simp [hc]
    · simp only [hc, decide_false, Bool.false_eq_true, if_false]
      cases he : fileExchange env x with
      | none => rfl
      | some e =>
        obtain ⟨p, d, g, -, -, ⟨-, r, hr, -⟩ | ⟨hb, -⟩⟩ := fileExchange_some he
        · exact absurd (.inr ⟨r, EcsFlows.rowOf_some.1 hr⟩) hc
        · exact absurd (.inl hb) hc
  have h3 : xs.filterMap (fileExchange env) = s.flows.filterMap fun f => fileExchange env f.src := by
    rw [h2, ← h1, List.filterMap_map]; rfl
  rw [h3]
  have := forall₂_filterMap (h := fun f : Flow => fileExchange env f.src) (p := fun _ => true) (q := fun _ => true) (l := s.flows)
    (fun _ _ _ _ => rfl) (fun f hm _ hn => by obtain ⟨e, he⟩ := fileExchange_flow (hf f hm); rw [he] at hn; cases hn)
  simpa using this

/-- Where the reference of an exchange leads. -/
structure Linked (env : EcsFlows.Env P) (fenv : FlowFiles.Env) (xs : List Exch) (d : Doc P) (f : Flow) (r : FlowFiles.Ref) :
    Prop where
  elem : f.src.isElem = true → ∃ row, EcsFlows.rowOf env f.src = some row ∧ r.id = row.target ∧
    lookup d.files r.id r.version r.uri = some (.copied row.target)
  prod : f.src.isElem = false → ∃ p i, env.fp f.src = .ok p ∧ fenv.conv f.src.fid = .ok r.id ∧
    FlowFiles.Spec.firstInfo f.src.fid p (xs.filterMap (fileExchange env)) = some i ∧
    lookup d.files r.id r.version r.uri = some (.made r.version p i)

theorem linked {env : EcsFlows.Env P} {fenv : FlowFiles.Env} {E : Uuid.BlockFn} {unitProp : P → Str}
    {package : Str → IlcdFlows.FlowFile} {xs : List Exch} {d : Doc P} {s : EcsFlows.St P}
    {st : FlowFiles.State P Info} (S : Setting env fenv E unitProp package xs)
    (hs : EcsFlows.run env xs (EcsFlows.fresh []) = .ok s)
    (hr : FlowFiles.run fenv ⟨[], []⟩ (xs.filterMap (fileExchange env)) = .ok (st, d.links)) (hd : d.files = st.files)
    {f : Flow} (hf : f ∈ s.flows) : ∃ r, d.links[f.internalId - 1]? = some r ∧ Linked env fenv xs d f r := by
  obtain ⟨ha, hn, ht, hti⟩ := files_setting S
  have h1 := FlowFiles.flows_found ha hn hr
  have h2 := FlowFiles.reference_of ha hn hr
  have h3 := fileExchanges hs
  have hid := (EcsFlows.exchanges_state hs).2.2.1
  obtain ⟨n, hn', rfl⟩ := List.mem_iff_getElem.1 hf
  have e : (s.flows[n]).internalId = n + 1 := by
    have := congrArg (fun l => l[n]?) hid
    simp only [List.getElem?_map, List.getElem?_eq_getElem hn', Option.map_some] at this
    rw [List.getElem?_eq_getElem (by simpa using hn')] at this
    simpa [Nat.add_comm] using this
  obtain ⟨x, hx, hfx⟩ := forall₂_get h3 (List.getElem?_eq_getElem hn')
  obtain ⟨r, hr', hF⟩ := forall₂_get h1.flip hx
  obtain ⟨r2, hr2, hR⟩ := forall₂_get h2.flip hx
  obtain rfl : r = r2 := Option.some.inj (hr'.symm.trans hr2)
  refine ⟨r, by rw [e]; exact hr', ?_⟩
  have look : ∀ c, FlowFiles.Spec.LeadsTo st.files r c → lookup d.files r.id r.version r.uri = some c := by
    rintro c ⟨name, hu, hc⟩
    obtain ⟨name', hu', hg⟩ := FlowFiles.read_again ha hn ht hti hr .absent r (List.mem_of_getElem? hr')
    obtain rfl : name = name' := List.append_cancel_left (hu.symm.trans hu')
    unfold lookup
    rw [hd, hg]
    exact hc
  obtain ⟨p, dd, g, hp, -, ⟨he, row, hrow, rfl⟩ | ⟨he, rfl⟩⟩ := fileExchange_some hfx
  · refine ⟨fun _ => ⟨row, hrow, hR.1, look _ hF⟩, fun h => absurd (he.symm.trans h) (by decide)⟩
  · refine ⟨fun h => absurd (he.symm.trans h) (by decide), fun _ => ?_⟩
    obtain ⟨i, hi, hl⟩ := hF
    obtain ⟨id, k, hc, -, h4, -⟩ := hR
    exact ⟨p, i, hp, by rw [h4]; exact hc, hi, look _ hl⟩

/-! ### Groups and uncertainties -/

theorem direction_valid {x : Exch} (h : ValidGroup x) :
    (x.inputGroup ≠ none ∧ x.outputGroup = none ∧ ∃ g ∈ [c!"1", c!"2", c!"3", c!"5"], EcsFlows.direction x = .ok (.input, g)) ∨
    (x.inputGroup = none ∧ ∃ g ∈ [c!"0", c!"2", c!"3", c!"5"], x.outputGroup = some g ∧ EcsFlows.direction x = .ok (.output, g)) := by
  rcases h with ⟨h1, g, hg, h2⟩ | ⟨h1, g, hg, h2⟩
  · refine .inl ⟨by simp [h2], h1, g, hg, ?_⟩
    have : EcsFlows.given (some g) = some g := by
      simp only [List.mem_cons, List.not_mem_nil, or_false] at hg
      rcases hg with rfl | rfl | rfl | rfl <;> rfl
    simp [EcsFlows.direction, h2, this]
  · exact .inr ⟨h1, g, hg, h2, by simp [EcsFlows.direction, h1, h2, EcsFlows.given]⟩

open Classical in
/-- The type of a product in its file. -/
theorem flowType_valid {y : Exch} (h : ValidGroup y) {d : EcsFlows.Dir} {g : Str} (hd : EcsFlows.direction y = .ok (d, g)) :
    EcsFlows.flowType y.byProduct d g = some (if IsWaste y then .waste else .product) := by
  unfold IsWaste
  cases hb : y.byProduct with
  | some c => by_cases hc : c = c!"Waste" <;> simp [EcsFlows.flowType, hc]
  | none =>
    rcases direction_valid h with ⟨h1, -, g', hg, h2⟩ | ⟨h1, g', hg, h2, h3⟩
    · rw [hd] at h2
      obtain ⟨rfl, rfl⟩ := Prod.mk.inj (Except.ok.inj h2)
      simp only [List.mem_cons, List.not_mem_nil, or_false] at hg
      rcases hg with rfl | rfl | rfl | rfl <;> simp [EcsFlows.flowType, h1]
    · rw [hd] at h3
      obtain ⟨rfl, rfl⟩ := Prod.mk.inj (Except.ok.inj h3)
      simp only [List.mem_cons, List.not_mem_nil, or_false] at hg
      rcases hg with rfl | rfl | rfl | rfl <;> simp [EcsFlows.flowType, h1, h2]

theorem isReference_valid {x : Exch} (h : ValidGroup x) : EcsFlows.Spec.IsReference x ↔ x.outputGroup = some c!"0" := by
  unfold EcsFlows.Spec.IsReference
  rcases h with ⟨h1, g, hg, h2⟩ | ⟨h1, g, hg, h2⟩
  · simp [h1]
  · simp [h1]

open Classical in
theorem groups_back {x y : Exch} (hx : ValidGroup x) {d : EcsFlows.Dir} {g : Str} (hd : EcsFlows.direction x = .ok (d, g))
    {isRef : Bool} (hr : isRef = true ↔ x.outputGroup = some c!"0") {w : Option Nat × Option Nat}
    (h : IlcdFlows.groups false isRef (dirText d) (typeText (if IsWaste y then .waste else .product)) = .ok w) :
    w = groupsBack x y := by
  unfold groupsBack
  rcases direction_valid hx with ⟨h1, h2, g', -, h3⟩ | ⟨h1, g', hg, h2, h3⟩
  · rw [hd] at h3
    obtain ⟨rfl, rfl⟩ := Prod.mk.inj (Except.ok.inj h3)
    have e : isRef = false := by
      cases isRef with
      | false => rfl
      | true => rw [hr.1 rfl] at h2; cases h2
    subst e
    rw [if_pos h1]
    have e : ∀ t : EcsFlows.FType, t = .waste ∨ t = .product →
        IlcdFlows.groups false false (dirText .input) (typeText t) = .ok (some 5, none) := by
      rintro t (rfl | rfl) <;> rfl
    rw [e _ (by by_cases hw : IsWaste y <;> simp [hw])] at h
    exact (Except.ok.inj h).symm
  · rw [hd] at h3
    obtain ⟨rfl, rfl⟩ := Prod.mk.inj (Except.ok.inj h3)
    rw [if_neg (by simpa using h1)]
    by_cases h0 : x.outputGroup = some c!"0"
    · have e := hr.2 h0
      subst e
      rw [if_pos h0]
      simpa [IlcdFlows.groups, IlcdFlows.accept, IlcdFlows.outputCodes, Except.map, eq_comm] using h
    · have e : isRef = false := by
        cases isRef with
        | false => rfl
        | true => exact absurd (hr.1 rfl) h0
      subst e
      rw [if_neg h0]
      by_cases hw : IsWaste y
      · rw [if_pos hw] at h ⊢
        exact (Except.ok.inj h).symm
      · rw [if_neg hw] at h ⊢
        exact (Except.ok.inj h).symm

theorem unc_back (a c : ℝ) (u : Option Uncertainty.Unc) (o : Option (IlcdFlows.Unc ℝ)) :
    UncBack a c u ((match ((Uncertainty.init a u).toUnit c).written with
      | some w => some (uncOf w)
      | none => o).map fun v : IlcdFlows.Unc ℝ => v.write (a * c) 1) := by
  rcases u with _ | u
  · trivial
  · cases u with
    | lognormal v =>
      intro hv
      simp only [Uncertainty.init, Uncertainty.Amt.toUnit, Uncertainty.Amt.written, uncOf, Option.map_some, Option.getD_some,
        IlcdFlows.Unc.write, Option.some.injEq, IlcdFlows.WUnc.lognormal.injEq, true_and]
      rw [Real.sqrt_sq (Real.exp_pos _).le, Real.log_exp, Real.sq_sqrt hv]
    | normal v =>
      intro hv
      simp only [Uncertainty.init, Uncertainty.Amt.toUnit, Uncertainty.Amt.written, uncOf, Option.map_some, Option.getD_some,
        IlcdFlows.Unc.write, Option.some.injEq, IlcdFlows.WUnc.normal.injEq, true_and]
      have := Real.sq_sqrt hv
      calc (2 * Real.sqrt v * (1 * c) / 2) ^ 2 * 1 ^ 2 = c * c * Real.sqrt v ^ 2 := by ring
        _ = c * c * v := by rw [this]
    | triangular lo hi =>
      simp [UncBack, Uncertainty.init, Uncertainty.Amt.toUnit, Uncertainty.Amt.written, uncOf, IlcdFlows.Unc.write]
    | uniform lo hi =>
      simp [UncBack, Uncertainty.init, Uncertainty.Amt.toUnit, Uncertainty.Amt.written, uncOf, IlcdFlows.Unc.write]
    | other => trivial

/-! ### The exchanges back -/

theorem place_id {r : List ((Str × EcsFlows.Dir) × Flow)} {f g : Flow} (h : EcsFlows.place r f = some g) :
    g.internalId = f.internalId := by
  unfold EcsFlows.place at h
  split at h
  · obtain rfl := Option.some.inj h; rfl
  · split at h
    · split at h
      · rename_i e; obtain rfl := Option.some.inj h; exact e.symm
      · cases h
    · obtain rfl := Option.some.inj h; rfl

section Back

variable {env : EcsFlows.Env P} {fenv : FlowFiles.Env} {base : IlcdFlows.Env ℝ D} {E : Uuid.BlockFn} {unitProp : P → Str}
  {package : Str → IlcdFlows.FlowFile} {shown : ℝ → Str} {xs : List Exch} {ex : Extras} {b : Bool} {d : Doc P}

/-- How an exchange of the source is read. -/
noncomputable def readOf (shown : ℝ → Str) (ex : Extras) (d : Doc P) (merged : List ((Str × EcsFlows.Dir) × Flow)) (f : Flow) :
    Option (IlcdFlows.Exch ℝ) :=
  (EcsFlows.place merged f).bind fun f' => (d.links[f'.internalId - 1]?).map (exchOf shown ex f')

theorem exchanges_eq {s : EcsFlows.St P} {merged : List ((Str × EcsFlows.Dir) × Flow)}
    (h : d.flows = s.flows.filterMap (EcsFlows.place merged)) :
    exchanges shown ex d = s.flows.filterMap (readOf shown ex d merged) := by
  unfold exchanges
  rw [h, List.filterMap_filterMap]
  rfl

/-- What is known of an exchange of ILCD and the exchange read from it. -/
structure ReadBack (env : EcsFlows.Env P) (fenv : FlowFiles.Env) (xs : List Exch) (shown : ℝ → Str) (ex : Extras) (d : Doc P)
    (merged : List ((Str × EcsFlows.Dir) × Flow)) (f : Flow) (e : IlcdFlows.Exch ℝ) : Prop where
  read : ∃ f' r, EcsFlows.place merged f = some f' ∧ f'.internalId = f.internalId ∧ e = exchOf shown ex f' r ∧
    Linked env fenv xs d f r
  known : FlowOk env f

theorem read_back {s : EcsFlows.St P} {st : FlowFiles.State P Info} {merged : List ((Str × EcsFlows.Dir) × Flow)}
    (S : Setting env fenv E unitProp package xs) (hs : EcsFlows.run env xs (EcsFlows.fresh []) = .ok s)
    (hr : FlowFiles.run fenv ⟨[], []⟩ (xs.filterMap (fileExchange env)) = .ok (st, d.links)) (hd : d.files = st.files)
    {f : Flow} (hf : f ∈ s.flows) {e : IlcdFlows.Exch ℝ} (he : readOf shown ex d merged f = some e) :
    ReadBack env fenv xs shown ex d merged f e := by
  obtain ⟨f', h1, h2⟩ := Option.bind_eq_some_iff.1 he
  have hid := place_id h1
  obtain ⟨r, hl, hL⟩ := linked S hs hr hd hf
  rw [hid, hl, Option.map_some] at h2
  exact ⟨⟨f', r, h1, hid, (Option.some.inj h2).symm, hL⟩, flows_ok hs f hf⟩

/-- The source of an exchange converted is an exchange of the data set. -/
theorem src_mem {s : EcsFlows.St P} (hs : EcsFlows.run env xs (EcsFlows.fresh []) = .ok s) {f : Flow} (hf : f ∈ s.flows) :
    f.src ∈ xs := by
  have : f.src ∈ s.flows.map Flow.src := List.mem_map_of_mem hf
  rw [(EcsFlows.exchanges_state hs).1] at this
  exact (List.mem_filter.1 this).1

/-- A product is never summed. -/
theorem place_product {s : EcsFlows.St P} {merged : List ((Str × EcsFlows.Dir) × Flow)}
    (S : Setting env fenv E unitProp package xs) (hs : EcsFlows.run env xs (EcsFlows.fresh []) = .ok s)
    (hm : b = true → EcsFlows.mergeGroups (EcsFlows.groups s.flows) = .ok merged) (hm' : b = false → merged = []) {f : Flow}
    (hf : f ∈ s.flows) (he : f.src.isElem = false) :
    EcsFlows.place merged f = some { f with mean := some f.amount.m } := by
  have hn : aget f.key merged = none := by
    cases b with
    | false => rw [hm' rfl]; rfl
    | true =>
      rcases EcsFlows.place_ok (hm rfl) f.key with ⟨h, -⟩ | ⟨f0, f1, l, m, h, -⟩
      · exact h
      · exfalso
        obtain ⟨h0, h1, h2⟩ := EcsFlows.mem_withKey.1 (show f0 ∈ EcsFlows.withKey f.key s.flows by rw [h]; simp)
        have k0 := flows_ok hs f0 h0
        have k := flows_ok hs f hf
        rw [EcsFlows.isElementary_iff] at h1
        have e0 : f0.src.isElem = true := by
          cases hc : f0.src.isElem with
          | true => rfl
          | false =>
            obtain ⟨g, hg, ht⟩ := k0.ftype hc
            rw [flowType_valid (S.groups _ (src_mem hs h0) hc) hg] at ht
            rw [ht] at h1
            split at h1 <;> cases h1
        rcases k0.kind with ⟨hc, -⟩ | ⟨-, row, o, hrow, -, ht⟩
        · rw [e0] at hc; cases hc
        · rcases k.kind with ⟨-, hc, -⟩ | ⟨hc, -⟩
          · refine (S.apart _ (src_mem hs hf) _ (src_mem hs h0) he e0 row (EcsFlows.rowOf_some.1 hrow)).1 ?_
            rw [← S.conv, hc, ← ht]
            exact congrArg Except.ok (Prod.mk.inj h2).1.symm
          · rw [he] at hc; cases hc
  unfold EcsFlows.place
  rw [hn]

/-- The file of the flow of an exchange that is read. -/
theorem file_read {merged : List ((Str × EcsFlows.Dir) × Flow)} {f : Flow} {e : IlcdFlows.Exch ℝ}
    (S : Setting env fenv E unitProp package xs) (hx : f.src ∈ xs)
    (hall : ∀ z ∈ xs, z.isElem = false → ∃ e, fileExchange env z = some e)
    (h : ReadBack env fenv xs shown ex d merged f e) :
    (f.src.isElem = true ∧ ∃ row, EcsFlows.rowOf env f.src = some row ∧ e.fid = row.target ∧
      IlcdFlows.Spec.IsElementary (reader base E unitProp package d) e (package row.target)) ∨
    (f.src.isElem = false ∧ ∃ p y i n, env.fp f.src = .ok p ∧ fenv.conv f.src.fid = .ok e.fid ∧ First env.fp xs f.src y ∧
      aget (unitProp p) Units.ilcdToEcsUnit = some (i, n) ∧
      (open Classical in IlcdFlows.Spec.IsProduct (reader base E unitProp package d) e
        ⟨some (typeText (if IsWaste y then .waste else .product)), [y.name], some (unitProp p)⟩)) := by
  obtain ⟨⟨f', r, -, -, rfl, hL⟩, -⟩ := h
  cases he : f.src.isElem with
  | true =>
    obtain ⟨row, h1, h2, h3⟩ := hL.elem he
    refine .inl ⟨rfl, row, h1, h2, ?_, (S.targets _ hx he row (EcsFlows.rowOf_some.1 h1)).2⟩
    show (lookup d.files r.id r.version r.uri).map _ = _
    rw [h3]; rfl
  | false =>
    obtain ⟨p, i, h1, h2, h3, h4⟩ := hL.prod he
    obtain ⟨y, dd, g, hy, hdir, hi⟩ := firstInfo_first h1 hall h3
    obtain ⟨⟨i', n⟩, hu⟩ := Option.isSome_iff_exists.1 (S.units _ hx he p h1)
    have hy' : y ∈ xs ∧ y.isElem = false := by
      obtain ⟨l, m, rfl, h, -⟩ := hy
      exact ⟨by simp, h.1⟩
    refine .inr ⟨rfl, p, y, i', n, h1, h2, hy, hu, ?_, ?_⟩
    · show (lookup d.files r.id r.version r.uri).map _ = _
      rw [h4, hi, flowType_valid (S.groups y hy'.1 hy'.2) hdir]; rfl
    · simp only [ne_eq, Option.some.injEq]
      split <;> exact by decide

theorem files_all {s : EcsFlows.St P} (hs : EcsFlows.run env xs (EcsFlows.fresh []) = .ok s) :
    ∀ z ∈ xs, z.isElem = false → ∃ e, fileExchange env z = some e := by
  intro z hz he
  have : z ∈ s.flows.map Flow.src := by
    rw [(EcsFlows.exchanges_state hs).1]
    exact List.mem_filter.2 ⟨hz, by simp [EcsFlows.Spec.Convertible, he]⟩
  obtain ⟨f, hf, rfl⟩ := List.mem_map.1 this
  exact fileExchange_flow (flows_ok hs f hf)

/-- A number among those of the reference flows. -/
theorem isRef_iff {s : EcsFlows.St P} (hs : EcsFlows.run env xs (EcsFlows.fresh []) = .ok s) {f : Flow} (hf : f ∈ s.flows) :
    natStr f.internalId ∈ s.refs.map natStr ↔ EcsFlows.Spec.IsReference f.src := by
  obtain ⟨-, -, hid, -, hr⟩ := EcsFlows.exchanges_state hs
  have inj : ∀ m n, natStr m = natStr n → m = n := by
    intro m n h
    have := congrArg parseNat h
    simpa [parseNat_natStr] using this
  have nd : (s.flows.map Flow.internalId).Nodup := by rw [hid]; exact List.nodup_range'
  rw [hr]
  constructor
  · intro h
    obtain ⟨n, hn, e⟩ := List.mem_map.1 h
    obtain ⟨g, hg, rfl⟩ := List.mem_map.1 hn
    obtain ⟨hg, hR⟩ := List.mem_filter.1 hg
    have := List.inj_on_of_nodup_map nd hg hf (inj _ _ e)
    rw [← this]
    simpa using hR
  · intro h
    exact List.mem_map.2 ⟨_, List.mem_map.2 ⟨f, List.mem_filter.2 ⟨hf, by simpa using h⟩, rfl⟩, rfl⟩

end Back

end Verif.RoundTrip
