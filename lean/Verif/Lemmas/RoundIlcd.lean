/-
Both conversions of an exchange of ILCD, one after the other.
-/
import Verif.Spec.RoundIlcd
import Verif.Props.RoundSums

namespace Verif.RoundIlcd

open EcsFlows (Flow)
open IlcdFlows.Spec (IsProduct IsElementary HasUnit Value ToWrite ValidGroups)
open RoundTrip (Doc there)
open Spec

variable {P D : Type} [DecidableEq P] [DecidableEq D]

/-! ### The data set in the middle -/

/-- What is known of the exchanges in the middle, from those converted. -/
structure Middle (scale : Str → ℝ) (s : IlcdFlows.St ℝ) (fls : List (IlcdFlows.Flow ℝ)) (sumSame : Bool) : Prop where
  prods : (fls.filter fun f => !f.elem) = s.flows.filter fun f => !f.elem
  known : ∀ fl ∈ fls, ∃ fl0 ∈ s.flows, fl0.elem = fl.elem ∧ fl0.field.target = fl.field.target ∧ fl0.src = fl.src
  groups : ∀ fl ∈ fls, ValidGroups fl.elem fl.field ∧
    (fl.elem = true → (fl.field.inputGroup, fl.field.outputGroup) = if fl.src.dir = c!"Input" then (some 4, none) else (none, some 4))
  same : sumSame = false → fls = s.flows
  keys : ∀ k, IlcdFlows.withKey k fls = IlcdFlows.withKey k s.flows ∨
    ∃ x y, x ∈ IlcdFlows.withKey k s.flows ∧ IlcdFlows.withKey k fls = [y] ∧ y.unit = x.unit ∧
      y.field.amount * scale y.unit = ((IlcdFlows.withKey k s.flows).map fun f => f.field.amount * scale f.unit).sum

/-- The groups of an elementary exchange. -/
theorem elementary_groups {isRef : Bool} {dir typ : Str} {g : Option Nat × Option Nat}
    (h : IlcdFlows.groups true isRef dir typ = .ok g) : g = if dir = c!"Input" then (some 4, none) else (none, some 4) := by
  rcases IlcdFlows.groups_valid h with ⟨n, rfl, hn, -, hd, -⟩ | ⟨n, rfl, hn, h1⟩
  · simp [IlcdFlows.inputCodes] at hn
    simp [hn, hd]
  · simp [IlcdFlows.outputCodes] at hn
    rcases h1 with ⟨-, h1⟩ | ⟨-, h1, -⟩
    · omega
    · simp [hn, h1]

theorem mem_withKey {k : Str × Str} {l : List (IlcdFlows.Flow ℝ)} {f : IlcdFlows.Flow ℝ} :
    f ∈ IlcdFlows.withKey k l ↔ f ∈ l ∧ f.elem = true ∧ f.key = k := by
  simp [IlcdFlows.withKey]

theorem middle {env : IlcdFlows.Env ℝ D} {sumSame : Bool} {order : List (IlcdFlows.Flow ℝ) → List (IlcdFlows.Flow ℝ)}
    (ho : ∀ l, (order l).Perm l) {scale : Str → ℝ} (hsz : Sizes env scale) {xs : List (IlcdFlows.Exch ℝ)}
    {fls : List (IlcdFlows.Flow ℝ)} (h : toEcs env sumSame order xs = .ok fls) :
    ∃ s, IlcdFlows.convertAll env .empty xs = .ok s ∧ Middle scale s fls sumSame := by
  unfold toEcs at h
  obtain ⟨s, hs, h⟩ := IlcdFlows.Except.bind_ok' h
  refine ⟨s, hs, ?_⟩
  have hi := IlcdFlows.convertAll_inv hs
  have hg : ∀ fl ∈ s.flows, fl.elem = true →
      (fl.field.inputGroup, fl.field.outputGroup) = if fl.src.dir = c!"Input" then (some 4, none) else (none, some 4) := by
    intro fl hfl he
    have := (hi.flows fl hfl).groups
    rw [he] at this
    exact elementary_groups this
  split at h
  · rename_i hb
    obtain ⟨s', hs', h⟩ := IlcdFlows.Except.bind_ok' h
    obtain rfl := Except.ok.inj h
    obtain ⟨a1, a2, a3⟩ := IlcdFlows.merge_ok hsz hi.minv (ho _) hs'
    have hv := IlcdFlows.merge_groups hsz hs (ho _) hs'
    have hp := (IlcdFlows.merge_total hsz hs (ho _) hs').2.2
    have mem : ∀ fl ∈ s'.flows, (fl ∈ s.flows) ∨ (fl.elem = true ∧ ∃ x ∈ s.flows, x.elem = true ∧ IlcdFlows.Merged env s x fl) := by
      intro fl hfl
      cases he : fl.elem with
      | false =>
        left
        have : fl ∈ s'.flows.filter fun f => !f.elem := by simp [hfl, he]
        rw [hp] at this
        exact (List.mem_filter.1 this).1
      | true =>
        have hmem : fl ∈ IlcdFlows.withKey fl.key s'.flows := mem_withKey.2 ⟨hfl, he, rfl⟩
        rcases a3 fl.key with ⟨-, e⟩ | ⟨-, x, y, -, b1, b2, b3, -⟩
        · rw [e] at hmem; exact .inl (mem_withKey.1 hmem).1
        · rw [b3, List.mem_singleton] at hmem
          subst hmem
          exact .inr ⟨rfl, x, (mem_withKey.1 b1).1, (mem_withKey.1 b1).2.1, b2⟩
    refine ⟨hp, ?_, ?_, by simp [hb], ?_⟩
    · intro fl hfl
      rcases mem fl hfl with h | ⟨he, x, hx, hxe, hm⟩
      · exact ⟨fl, h, rfl, rfl, rfl⟩
      · exact ⟨x, hx, by rw [hxe, he], hm.target.symm, hm.src.symm⟩
    · intro fl hfl
      refine ⟨hv fl hfl, fun he => ?_⟩
      rcases mem fl hfl with h | ⟨-, x, hx, hxe, hm⟩
      · exact hg fl h he
      · have := hm.groups
        rw [he] at this
        exact elementary_groups this
    · intro k
      rcases a3 k with ⟨-, e⟩ | ⟨-, x, y, -, b1, b2, b3, b4⟩
      · exact .inl e
      · refine .inr ⟨x, y, b1, b3, b2.unit, ?_⟩
        rw [b2.amount, b4]
        congr 1
        exact List.map_congr_left fun f hf => by rw [(hi.flows f (mem_withKey.1 hf).1).amount]
  · obtain rfl := Except.ok.inj h
    exact ⟨rfl, fun fl hfl => ⟨fl, hfl, rfl, rfl, rfl⟩,
      fun fl hfl => ⟨IlcdFlows.groups_always_valid hs fl hfl, hg fl hfl⟩, fun _ => rfl, fun k => .inl rfl⟩

/-! ### The second conversion -/

section Second

variable {env1 : IlcdFlows.Env ℝ D} {env2 : EcsFlows.Env P} {fenv : FlowFiles.Env} {E : Uuid.BlockFn} {xs : List (IlcdFlows.Exch ℝ)}
  {shown : ℝ → Str} {ex : Extras} {s : IlcdFlows.St ℝ} {fls : List (IlcdFlows.Flow ℝ)} {scale : Str → ℝ} {b : Bool}

theorem mem_document {y : EcsFlows.Exch} : y ∈ document shown ex fls ↔ ∃ fl ∈ fls, exchOf shown ex fl = y := by
  unfold document
  rw [List.mem_map]
  constructor
  · rintro ⟨fl, h, rfl⟩
    rcases List.mem_append.1 h with h | h <;> exact ⟨fl, (List.mem_filter.1 h).1, rfl⟩
  · rintro ⟨fl, h, rfl⟩
    refine ⟨fl, List.mem_append.2 ?_, rfl⟩
    cases he : fl.elem
    · exact .inl (List.mem_filter.2 ⟨h, by simp [he]⟩)
    · exact .inr (List.mem_filter.2 ⟨h, he⟩)

/-- What a flow in the middle comes from. -/
theorem origin (hs : IlcdFlows.convertAll env1 .empty xs = .ok s) {fl : IlcdFlows.Flow ℝ} (hfl : fl ∈ s.flows) :
    fl.src ∈ xs ∧
    ((fl.elem = true ∧ ∃ f r a k, IsElementary env1 fl.src f ∧ IlcdFlows.Spec.Mapped env1 fl.src.fid r ∧ Value env1 fl.src a ∧
      IlcdFlows.Spec.Factor env1 r k ∧ fl.field.target = r.target ∧ fl.field.amount = a * k ∧ fl.unit = r.unit ∧
      ∃ d c, env1.unit r.unit = .ok (d, c)) ∨
     (fl.elem = false ∧ IlcdFlows.Spec.AsProduct env1 fl)) := by
  classical
  refine ⟨?_, ?_⟩
  · have : fl.src ∈ s.flows.map (·.src) := List.mem_map_of_mem hfl
    rw [(IlcdFlows.exchanges_accounted hs).1] at this
    exact (List.mem_filter.1 this).1
  · have c := (IlcdFlows.convertAll_inv hs).flows fl hfl
    rcases c.kind with ⟨f, r, a, k, dm, c1, c2, p, n, h1, h2, h3, h4, h5, -, h6, h7, -, -, h8, -, h9, -⟩ | h
    · exact .inl ⟨h5, f, r, a, k, h1, h2, h3, h4, h7, by rw [c.amount, h8], h6, dm, c1, h9⟩
    · obtain ⟨f, a, i, n, h1, h2, h3, h4, -⟩ := id h
      exact .inr ⟨h4, h⟩

private theorem n4 : natStr 4 = c!"4" := by decide

/-- The data set in the middle meets what the conversion to ILCD takes for granted. -/
theorem setting (S : Setting env1 env2 fenv E xs) (hs : IlcdFlows.convertAll env1 .empty xs = .ok s)
    (M : Middle scale s fls b) : RoundTrip.Spec.Setting env2 fenv E (fun _ => RoundTrip.massId) RoundTrip.exPackage
      (document shown ex fls) where
  conv := S.conv2
  fconv := S.fconv
  ids := by
    intro y hy he
    obtain ⟨fl, hfl, rfl⟩ := mem_document.1 hy
    obtain ⟨fl0, h0, e1, e2, e3⟩ := M.known fl hfl
    obtain ⟨hx, ⟨h, -⟩ | ⟨-, f, a, i, n, h1, -, -, -, -, h2, -⟩⟩ := origin hs h0
    · rw [e1] at h; exact absurd (h.symm.trans he) (by decide)
    · have hl := S.ids _ hx f h1
      obtain ⟨v, hv, -, -, -, h4⟩ := Uuid.uuid_shape E _ (Uuid.isUuid_of_lower hl) _ (.inr rfl)
      rw [S.conv, hv] at h2
      show Uuid.IsLowerUuid fl.field.target
      rw [← e2, ← Except.ok.inj h2]
      exact h4 hl
  groups := by
    intro y hy he
    obtain ⟨fl, hfl, rfl⟩ := mem_document.1 hy
    have he' : fl.elem = false := he
    rcases (M.groups fl hfl).1 with ⟨n, h1, h2, h3⟩ | ⟨n, h1, h2, h3⟩
    · rw [he'] at h3
      simp only [Bool.false_eq_true, if_false, List.mem_cons, List.not_mem_nil, or_false] at h3
      refine .inl ⟨by simp [exchOf, h2], natStr n, ?_, by simp [exchOf, h1]⟩
      rcases h3 with rfl | rfl | rfl | rfl <;> decide
    · rw [he'] at h3
      simp only [Bool.false_eq_true, if_false, List.mem_cons, List.not_mem_nil, or_false] at h3
      refine .inr ⟨by simp [exchOf, h1], natStr n, ?_, by simp [exchOf, h2]⟩
      rcases h3 with rfl | rfl | rfl | rfl <;> decide
  elems := by
    intro y hy he
    obtain ⟨fl, hfl, rfl⟩ := mem_document.1 hy
    have := (M.groups fl hfl).2 he
    split at this
    · obtain ⟨h1, h2⟩ := Prod.mk.inj this
      exact .inl ⟨by simp [exchOf, h1, n4], by simp [exchOf, h2]⟩
    · obtain ⟨h1, h2⟩ := Prod.mk.inj this
      exact .inr ⟨by simp [exchOf, h1], by simp [exchOf, h2, n4]⟩
  targets := by
    intro y hy he r' hr'
    obtain ⟨fl, hfl, rfl⟩ := mem_document.1 hy
    obtain ⟨fl0, h0, e1, e2, e3⟩ := M.known fl hfl
    obtain ⟨hx, ⟨-, f, r, a, k, h1, h2, -, -, h3, -⟩ | ⟨h, -⟩⟩ := origin hs h0
    · refine ⟨S.targets _ hx f r r' h1 h2 ?_, rfl⟩
      rw [← h3, e2]; exact hr'
    · rw [e1] at h; exact absurd (h.symm.trans he) (by decide)
  apart := by
    intro x' hx' y' hy' hx'e hy'e r' hr'
    obtain ⟨fx, hfx, rfl⟩ := mem_document.1 hx'
    obtain ⟨fy, hfy, rfl⟩ := mem_document.1 hy'
    obtain ⟨fx0, hx0, a1, a2, a3⟩ := M.known fx hfx
    obtain ⟨fy0, hy0, b1, b2, b3⟩ := M.known fy hfy
    obtain ⟨hx, ⟨h, -⟩ | ⟨-, f, a, i, n, h1, -, -, -, -, h2, -⟩⟩ := origin hs hx0
    · rw [a1] at h; exact absurd (h.symm.trans hx'e) (by decide)
    · obtain ⟨hy, ⟨-, g, r, a', k, g1, g2, -, -, g3, -⟩ | ⟨h, -⟩⟩ := origin hs hy0
      · have hm : EcsFlows.Spec.Mapped env2.mapping r.target r' := by rw [← g3, b2]; exact hr'
        obtain ⟨q1, q2⟩ := S.apart _ hx _ hy f g r r' h1 g1 g2 hm
        have hl := S.ids _ hx f h1
        obtain ⟨v, u1, u2⟩ := (Uuid.uuid_roundtrip_exact E _ hl).2
        rw [S.conv, u1] at h2
        have hv : v = (exchOf shown ex fx).fid := by
          show v = fx.field.target
          rw [← a2]; exact Except.ok.inj h2
        rw [← hv]
        refine ⟨fun e => q1 ?_, fun e => q2 ?_⟩
        · rw [u2] at e; exact Except.ok.inj e
        · rw [u1, e]
          show Except.ok fy.field.target = _
          rw [← b2, g3]
      · rw [b1] at h; exact absurd (h.symm.trans hy'e) (by decide)
  units := by intro x _ _ p _; decide +kernel

/-- The exchanges of the second conversion and the flows in the middle. -/
theorem flows_middle {s2 : EcsFlows.St P} (h : EcsFlows.run env2 (document shown ex fls) (EcsFlows.fresh []) = .ok s2) :
    ∃ gs es, s2.flows = gs ++ es ∧ gs.map Flow.src = (fls.filter fun f => !f.elem).map (exchOf shown ex) ∧
      (open Classical in es.map Flow.src = ((fls.filter fun f => f.elem).map (exchOf shown ex)).filter fun y =>
        decide (∃ r, EcsFlows.Spec.Mapped env2.mapping y.fid r)) := by
  classical
  have h1 := (EcsFlows.exchanges_state h).1
  unfold document at h1
  rw [List.map_append, List.filter_append] at h1
  have hp : ((fls.filter fun f => !f.elem).map (exchOf shown ex)).filter (fun x => decide (EcsFlows.Spec.Convertible env2.mapping x)) =
      (fls.filter fun f => !f.elem).map (exchOf shown ex) := by
    rw [List.filter_eq_self]
    intro y hy
    obtain ⟨fl, hfl, rfl⟩ := List.mem_map.1 hy
    have : fl.elem = false := by simpa using (List.mem_filter.1 hfl).2
    exact decide_eq_true (.inl this)
  have he : ((fls.filter fun f => f.elem).map (exchOf shown ex)).filter (fun x => decide (EcsFlows.Spec.Convertible env2.mapping x)) =
      ((fls.filter fun f => f.elem).map (exchOf shown ex)).filter fun y => decide (∃ r, EcsFlows.Spec.Mapped env2.mapping y.fid r) := by
    refine List.filter_congr fun y hy => ?_
    obtain ⟨fl, hfl, rfl⟩ := List.mem_map.1 hy
    have : fl.elem = true := (List.mem_filter.1 hfl).2
    simp [EcsFlows.Spec.Convertible, exchOf, this]
  rw [hp, he] at h1
  obtain ⟨gs, es, h2, h3, h4⟩ := List.map_eq_append_iff.1 h1
  exact ⟨gs, es, h2, h3, h4⟩

end Second

/-- Lists with the same images. -/
theorem forall₂_of_map_eq {α β γ : Type} {f : α → γ} {g : β → γ} : ∀ {l : List α} {m : List β}, l.map f = m.map g →
    List.Forall₂ (fun a b => f a = g b) l m
  | [], [], _ => .nil
  | [], _ :: _, h => by simp at h
  | _ :: _, [], h => by simp at h
  | a :: l, b :: m, h => by
    rw [List.map_cons, List.map_cons, List.cons.injEq] at h
    exact .cons h.1 (forall₂_of_map_eq h.2)

end Verif.RoundIlcd
