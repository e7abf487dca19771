/-
The exchanges of an ILCD data set on their way to another list of elementary flows.
-/
import Verif.Model.IlcdList
import Verif.Spec.IlcdList
import Verif.Lemmas.Assoc
import Verif.Lemmas.IlcdVars
import Mathlib.Algebra.Order.Field.Rat
import Mathlib.Tactic.Ring
import Mathlib.Tactic.FieldSimp
import Mathlib.Data.Nat.Cast.Basic
import Mathlib.Algebra.CharZero.Defs

namespace Verif.IlcdList

open Verif.IlcdList.Spec

theorem bind_ok_iff {α β : Type} (m : Py α) (f : α → Py β) (b : β) : (m >>= f) = .ok b ↔ ∃ a, m = .ok a ∧ f a = .ok b := by
  cases m with
  | error e =>
    constructor
    · intro h; cases h
    · rintro ⟨a, h, -⟩; cases h
  | ok a =>
    constructor
    · intro h; exact ⟨a, rfl, h⟩
    · rintro ⟨a', h, h'⟩; cases h; exact h'

theorem bind_ok {α β : Type} (a : α) (f : α → Py β) : ((Except.ok a : Py α) >>= f) = f a := rfl

theorem forall₂_append {α β : Type} {R : α → β → Prop} : ∀ {l r : List α} {o : List β}, List.Forall₂ R (l ++ r) o →
    ∃ o1 o2, List.Forall₂ R l o1 ∧ List.Forall₂ R r o2 ∧ o = o1 ++ o2
  | [], _, o, h => ⟨[], o, .nil, h, rfl⟩
  | _ :: _, _, _, .cons h t => by
    obtain ⟨o1, o2, h1, h2, rfl⟩ := forall₂_append t
    exact ⟨_ :: o1, o2, .cons h h1, h2, rfl⟩

section
variable {K : Type} [Field K]

/-! ## Files and units -/

theorem getUri_iff (a : Archive) (dir : Str) (r : FRef) (p : Str) : getUri a dir r = .ok p ↔ Leads a dir r p := by
  unfold getUri Leads clean
  have key : ∀ first : List Str, ((match (first ++ [dir ++ r.id ++ c!".xml", dir ++ r.id ++ c!"_" ++ r.version.getD [] ++ c!".xml"]).find?
      fun p => (a p).isSome with
      | some p => .ok p
      | none => .error (.other 1) : Py Str) = .ok p) ↔
      (∃ f, a p = some f) ∧ (first.find? (fun p => (a p).isSome) = some p ∨
        (first.find? (fun p => (a p).isSome) = none ∧ (p = dir ++ r.id ++ c!".xml" ∨
          (a (dir ++ r.id ++ c!".xml") = none ∧ p = dir ++ r.id ++ c!"_" ++ r.version.getD [] ++ c!".xml")))) := by
    intro first
    rw [List.find?_append]
    cases hf : first.find? (fun p => (a p).isSome) with
    | some q =>
      have hq := List.find?_some hf
      simp only [Option.some_or, Except.ok.injEq, Option.some.injEq, reduceCtorEq, false_and, or_false]
      constructor
      · rintro rfl; exact ⟨Option.isSome_iff_exists.1 hq, rfl⟩
      · exact fun h => h.2
    | none =>
      simp only [Option.none_or, List.find?_cons, List.find?_nil, reduceCtorEq, false_or, true_and]
      cases h1 : a (dir ++ r.id ++ c!".xml") with
      | some f =>
        simp only [Option.isSome_some, Except.ok.injEq]
        constructor
        · rintro rfl; exact ⟨⟨f, h1⟩, .inl rfl⟩
        · rintro ⟨-, rfl | ⟨h, -⟩⟩
          · rfl
          · cases h
      | none =>
        simp only [Option.isSome_none, true_and]
        cases h2 : a (dir ++ r.id ++ c!"_" ++ r.version.getD [] ++ c!".xml") with
        | some f =>
          simp only [Option.isSome_some, Except.ok.injEq]
          constructor
          · rintro rfl; exact ⟨⟨f, h2⟩, .inr rfl⟩
          · rintro ⟨⟨f, hf⟩, rfl | rfl⟩
            · rw [h1] at hf; cases hf
            · rfl
        | none =>
          simp only [Option.isSome_none, reduceCtorEq, false_iff]
          rintro ⟨⟨f, hf⟩, rfl | rfl⟩
          · rw [h1] at hf; cases hf
          · rw [h2] at hf; cases hf
  cases hu : r.uri with
  | none =>
    refine (key _).trans ?_
    simp
  | some u =>
    cases u with
    | nil =>
      refine (key _).trans ?_
      simp
    | cons c l =>
      refine (key _).trans ?_
      simp only [List.find?_cons, List.find?_nil, Option.some.injEq, exists_eq_left', forall_eq', ne_eq, reduceCtorEq,
        not_false_eq_true, true_and, forall_const]
      cases h : a (IlcdVars.replaceAll c!"../" [] (c :: l)) with
      | some f =>
        simp only [Option.isSome_some, Option.some.injEq, reduceCtorEq, false_and, or_false]
        refine and_congr_right fun _ => ?_
        exact eq_comm
      | none =>
        simp only [Option.isSome_none, reduceCtorEq, false_or, true_and]
        refine and_congr_right fun ⟨f, hf⟩ => ?_
        constructor
        · exact .inr
        · rintro (rfl | h')
          · rw [h] at hf; cases hf
          · exact h'

/-- A reference leads to one file at most. -/
theorem leads_unique {a : Archive} {dir : Str} {r : FRef} {p p' : Str} (h : Leads a dir r p) (h' : Leads a dir r p') :
    p = p' := by
  rw [← getUri_iff] at h h'
  rw [h] at h'
  exact Except.ok.inj h'

theorem olcaUnits_ok (flt : Str → Py K) (olca : Option Str) (ref : Str) (main : Bool) (mv : Str) :
    ∀ (us : List GUnit) (u : Units K) (ol : List (Str × K)), (∀ w ∈ us, w.internalId ≠ ref) →
    (given olca = false → ol = []) → (given olca = true → (∀ u ∈ us, u.olcaId ≠ none) ∧
      List.Forall₂ (fun u x => x.1 = u.name ∧ flt u.mean = .ok x.2) (us.filter fun u => u.olcaId = olca) ol) →
    loopUnits flt olca ref main mv u us = .ok { u with olca := u.olca ++ ol }
  | [], u, ol, _, h0, h1 => by
    have : ol = [] := by
      cases h : given olca with
      | false => exact h0 h
      | true => have := (h1 h).2; simpa using this
    subst this
    simp [loopUnits]
  | g :: us, u, ol, hr, h0, h1 => by
    have hr' : ∀ w ∈ us, w.internalId ≠ ref := fun w hw => hr w (List.mem_cons_of_mem _ hw)
    have hg : g.internalId ≠ ref := hr g List.mem_cons_self
    unfold loopUnits
    cases hgiv : given olca with
    | false =>
      simp only [olcaUnit, hgiv, refUnit, if_neg hg, bind_ok, Bool.false_eq_true, if_false]
      exact olcaUnits_ok flt olca ref main mv us u ol hr' h0 (by rw [hgiv]; intro h; cases h)
    | true =>
      obtain ⟨ha, hb⟩ := h1 hgiv
      have ha' : ∀ u ∈ us, u.olcaId ≠ none := fun w hw => ha w (List.mem_cons_of_mem _ hw)
      cases hi : g.olcaId with
      | none => exact absurd hi (ha g List.mem_cons_self)
      | some i =>
        by_cases he : some i = olca
        · rw [List.filter_cons_of_pos (by simp [hi, he])] at hb
          cases hb with
          | cons h2 h3 =>
            rename_i x ol'
            obtain ⟨h4, h5⟩ := h2
            simp only [olcaUnit, hgiv, if_true, hi, if_pos he, h5, bind_ok, refUnit, if_neg hg]
            rw [olcaUnits_ok flt olca ref main mv us _ ol' hr' (by rw [hgiv]; intro h; cases h) (fun _ => ⟨ha', h3⟩)]
            simp only [List.append_assoc, List.cons_append, List.nil_append, ← h4]
        · rw [List.filter_cons_of_neg (by simp [hi, he])] at hb
          simp only [olcaUnit, hgiv, if_true, hi, if_neg he, bind_ok, refUnit, if_neg hg]
          exact olcaUnits_ok flt olca ref main mv us u ol hr' h0 (fun _ => ⟨ha', hb⟩)

theorem loopUnits_append (flt : Str → Py K) (olca : Option Str) (ref : Str) (main : Bool) (mv : Str) :
    ∀ (l r : List GUnit) (u : Units K), loopUnits flt olca ref main mv u (l ++ r) =
      (loopUnits flt olca ref main mv u l >>= fun u => loopUnits flt olca ref main mv u r)
  | [], r, u => rfl
  | g :: l, r, u => by
    rw [List.cons_append, loopUnits, loopUnits]
    cases olcaUnit flt olca u g with
    | error e => rfl
    | ok u1 =>
      simp only [bind_ok]
      cases refUnit flt ref main mv u1 g with
      | error e => rfl
      | ok u2 =>
        simp only [bind_ok]
        exact loopUnits_append flt olca ref main mv l r u2

theorem readFile_eq {a : Archive} {p : Str} {f : File} (h : a p = some f) : readFile a p = .ok f := by
  unfold readFile
  rw [h]

/-- A flow property that leads to a proper unit group gives its unit and nothing else. -/
theorem propUnits_ok (flt : Str → Py K) (a : Archive) (olca : Option Str) (mainId : Str) (u : Units K) (p : FlowProp)
    (name : Str) (v : K) (ol : List (Str × K)) (h : Well flt a olca p name v ol) :
    propUnits flt a olca mainId u p =
      .ok (Units.add { u with olca := u.olca ++ ol } (p.internalId == mainId) (name, v)) := by
  obtain ⟨pp, gp, pre, g, us, ref, h1, h2, h3, h4, h5, h6, ⟨l, w, r, rfl, h7, h8, h9⟩, h10, h11⟩ := h
  rw [← getUri_iff] at h1 h3
  unfold propUnits
  have hg : groupUri a (.property pre g) = .ok gp := by
    cases pre with
    | true => simp only [groupUri, h3]
    | false => simp only [groupUri, h3]
  simp only [h1, bind_ok, readFile_eq h2, hg, readFile_eq h4]
  have hloop : loopUnits flt olca ref (p.internalId == mainId) p.mean u (l ++ w :: r) =
      .ok (Units.add { u with olca := u.olca ++ ol } (p.internalId == mainId) (name, v)) := by
    have split : ∃ o1 o2 o3, ol = o1 ++ (o2 ++ o3) ∧
        (given olca = false → o1 = [] ∧ o2 = [] ∧ o3 = []) ∧
        (given olca = true → List.Forall₂ (fun u x => x.1 = u.name ∧ flt u.mean = .ok x.2) (l.filter fun u => u.olcaId = olca) o1 ∧
          List.Forall₂ (fun u x => x.1 = u.name ∧ flt u.mean = .ok x.2) ([w].filter fun u => u.olcaId = olca) o2 ∧
          List.Forall₂ (fun u x => x.1 = u.name ∧ flt u.mean = .ok x.2) (r.filter fun u => u.olcaId = olca) o3) := by
      cases hg : given olca with
      | false => exact ⟨[], [], [], by simp [h10 hg], by simp, by simp⟩
      | true =>
        have h12 := (h11 hg).2
        rw [show l ++ w :: r = l ++ ([w] ++ r) by simp, List.filter_append, List.filter_append] at h12
        obtain ⟨o1, o', e1, e2, rfl⟩ := forall₂_append h12
        obtain ⟨o2, o3, e3, e4, rfl⟩ := forall₂_append e2
        exact ⟨o1, o2, o3, rfl, by simp, fun _ => ⟨e1, e3, e4⟩⟩
    obtain ⟨o1, o2, o3, rfl, hs0, hs1⟩ := split
    rw [loopUnits_append, olcaUnits_ok flt olca ref _ p.mean l u o1 (fun w hw => h9 w (by simp [hw])) (fun h => (hs0 h).1)
      (fun h => ⟨fun w hw => (h11 h).1 w (by simp [hw]), (hs1 h).1⟩)]
    simp only [bind_ok]
    unfold loopUnits
    have hone : olcaUnit flt olca { u with olca := u.olca ++ o1 } w = .ok { u with olca := u.olca ++ o1 ++ o2 } := by
      unfold olcaUnit
      cases hg : given olca with
      | false => simp [(hs0 hg).2.1]
      | true =>
        have hw := (h11 hg).1 w (by simp)
        obtain ⟨i, hi⟩ := Option.ne_none_iff_exists'.1 hw
        have h12 := (hs1 hg).2.1
        by_cases he : some i = olca
        · rw [List.filter_cons_of_pos (by simp [hi, he])] at h12
          cases h12 with
          | cons h2 h3 =>
            simp only [List.filter_nil, List.forall₂_nil_left_iff] at h3
            subst h3
            rename_i x
            simp only [if_true, hi, if_pos he, h2.2, bind_ok, ← h2.1]
        · rw [List.filter_cons_of_neg (by simp [hi, he])] at h12
          simp only [List.filter_nil, List.forall₂_nil_left_iff] at h12
          simp [hi, if_neg he, h12]
    rw [hone]
    simp only [bind_ok, refUnit, if_pos h7, h6]
    rw [olcaUnits_ok flt olca ref _ p.mean r _ o3 (fun w hw => h9 w (by simp [hw])) (fun h => (hs0 h).2.2)
      (fun h => ⟨fun w hw => (h11 h).1 w (by simp [hw]), (hs1 h).2.2⟩)]
    unfold Units.add
    cases hmm : p.internalId == mainId <;> simp [h8]
  have hgu : groupUnits flt olca (p.internalId == mainId) p.mean u (.group true ref (l ++ w :: r)) =
      .ok (Units.add { u with olca := u.olca ++ ol } (p.internalId == mainId) (name, v)) := by
    unfold groupUnits
    match hus : l ++ w :: r, h5 with
    | a1 :: a2 :: rest, _ =>
      simp only
      rw [← hus, hloop]
  rw [hgu]
  simp only [bind_ok]
  rw [if_neg]
  unfold Units.add
  split <;> simp

/-- The units of a flow of which all flow properties lead to proper unit groups. -/
theorem units_exact (flt : Str → Py K) (a : Archive) (uri main : Str) (at3 : Option Str) (olca : Option Str)
    (ps : List FlowProp) (hf : a uri = some (.flow true main ps at3)) (hne : ps ≠ []) (name : FlowProp → Str)
    (v : FlowProp → K) (ol : FlowProp → List (Str × K)) (h : ∀ p ∈ ps, Well flt a olca p (name p) (v p) (ol p)) :
    getUnit flt a uri olca = .ok ⟨ps.flatMap ol,
      (ps.filter fun p => p.internalId = main).map fun p => (name p, v p),
      (ps.filter fun p => p.internalId ≠ main).map fun p => (name p, v p)⟩ := by
  have key : ∀ (ps : List FlowProp) (u : Units K), (∀ p ∈ ps, Well flt a olca p (name p) (v p) (ol p)) →
      propsUnits flt a olca main u ps = .ok ⟨u.olca ++ ps.flatMap ol,
        u.main ++ (ps.filter fun p => p.internalId = main).map fun p => (name p, v p),
        u.sec ++ (ps.filter fun p => p.internalId ≠ main).map fun p => (name p, v p)⟩ := by
    intro ps
    induction ps with
    | nil => intro u _; simp [propsUnits]
    | cons p ps ih =>
      intro u h
      rw [propsUnits, propUnits_ok flt a olca main u p _ _ _ (h p List.mem_cons_self), bind_ok,
        ih _ (fun q hq => h q (List.mem_cons_of_mem _ hq))]
      unfold Units.add
      by_cases hm : p.internalId = main
      · simp [hm]
      · simp [hm]
  unfold getUnit
  rw [readFile_eq hf, bind_ok]
  cases ps with
  | nil => exact absurd rfl hne
  | cons p ps =>
    simp only
    rw [key _ _ h]
    simp

/-! ## Reading an exchange -/

theorem read_iff (env : Env K) (s : St K) (x : Exch K) (u : Units K) (a : K) (unit main : Str) :
    Read env s x u a unit main ↔ ∃ path, getUri s.arch c!"flows/" x.ref = .ok path ∧
      getUnit env.flt s.arch path x.unitId = .ok u ∧ amountOf env.flt x u = .ok (a, unit, main) := by
  unfold Read
  simp only [getUri_iff]

/-- Without fields of openLCA the amount is the resulting amount, in the unit of the flow. -/
theorem read_plain (env : Env K) (s : St K) (x : Exch K) (path main : Str) (at3 : Option Str) (ps : List FlowProp)
    (hp : Leads s.arch c!"flows/" x.ref path)
    (hf : s.arch path = some (.flow true main ps at3)) (name : FlowProp → Str) (v : FlowProp → K)
    (h : ∀ p ∈ ps, Well env.flt s.arch x.unitId p (name p) (v p) []) (l : List FlowProp) (p : FlowProp) (r : List FlowProp)
    (hps : ps = l ++ p :: r) (hm : p.internalId = main) (hl : ∀ q ∈ l, q.internalId ≠ main) (a : K)
    (ha : Value env.flt x.resulting a) :
    Read env s x ⟨[], (ps.filter fun p => p.internalId = main).map fun p => (name p, v p),
      (ps.filter fun p => p.internalId ≠ main).map fun p => (name p, v p)⟩ a (lowBq (name p)) (lowBq (name p)) := by
  refine ⟨path, hp, ?_, ?_⟩
  · rw [units_exact env.flt s.arch path main at3 x.unitId ps hf (by rw [hps]; simp) name v (fun _ => []) h]
    simp
  · obtain ⟨n, hn, hfl⟩ := ha
    have : (ps.filter fun p => p.internalId = main).map (fun p => (name p, v p)) =
        (name p, v p) :: (r.filter fun p => p.internalId = main).map (fun p => (name p, v p)) := by
      rw [hps, List.filter_append, List.filter_eq_nil_iff.2 (by simpa using hl), List.filter_cons_of_pos (by simpa using hm)]
      rfl
    unfold amountOf
    simp only [this, hn, floatOf, hfl, bind_ok]

/-! ## Amounts -/

theorem given_iff (x : Option Str) : given x = true ↔ ∃ c l, x = some (c :: l) := by
  unfold given
  split
  · simp
  · rename_i h
    simp only [Bool.false_eq_true, false_iff, not_exists]
    intro c l hx
    exact h c l hx

theorem aget_firstSec (u : Units K) (n : Str) (v : K) : aget n u.sec = some v ↔ FirstSec u n v := by
  unfold FirstSec
  induction u.sec with
  | nil => simp [aget]
  | cons w l ih =>
    obtain ⟨k, x⟩ := w
    unfold aget
    by_cases h : k = n
    · subst h
      simp only [if_true, Option.some.injEq]
      constructor
      · rintro rfl; exact ⟨[], l, rfl, by simp⟩
      · rintro ⟨l', r, h1, h2⟩
        cases l' with
        | nil => cases h1; rfl
        | cons y l' => cases h1; exact absurd rfl (h2 _ List.mem_cons_self)
    · rw [if_neg h, ih]
      constructor
      · rintro ⟨l', r, rfl, h2⟩
        refine ⟨(k, x) :: l', r, rfl, ?_⟩
        intro w hw
        rcases List.mem_cons.1 hw with rfl | hw
        · exact h
        · exact h2 w hw
      · rintro ⟨l', r, h1, h2⟩
        cases l' with
        | nil => cases h1; exact absurd rfl h
        | cons y l' => cases h1; exact ⟨l', r, rfl, fun w hw => h2 w (List.mem_cons_of_mem _ hw)⟩

theorem factor_iff (flt : Str → Py K) (n : Row) (cf : K) : rowFactor flt n = .ok cf ↔ Factor flt n cf := by
  unfold rowFactor Factor
  by_cases h : n.factor = [] ∨ n.factor = c!"n/a"
  · rw [if_pos h]
    have h' : ¬ (n.factor ≠ [] ∧ n.factor ≠ c!"n/a") := by
      rintro ⟨h1, h2⟩
      rcases h with h | h
      · exact h1 h
      · exact h2 h
    simp only [h, h', true_and, false_and, or_false, Except.ok.injEq]
    exact eq_comm
  · rw [if_neg h]
    have h' : n.factor ≠ [] ∧ n.factor ≠ c!"n/a" := ⟨fun e => h (.inl e), fun e => h (.inr e)⟩
    simp [h']

/-- The conversion of one exchange once its amount has been read. -/
theorem convert_read {env : Env K} {s : St K} {x : Exch K} {u : Units K} {a : K} {unit main : Str}
    (hR : Read env s x u a unit main) : ∃ path, getUri s.arch c!"flows/" x.ref = .ok path ∧ convert env s x =
      match aget x.ref.id env.table with
      | some n =>
        if n.mapType = c!"NO_MATCH_MAPPING" ∨ n.mapType = c!"NO MATCH" then
          .ok (x, saveFile path s, some .noMatch)
        else matched env s x n u a unit
      | none => unmapped env s x a main >>= fun (y, s) => .ok (y, s, none) := by
  obtain ⟨path, h1, h2, h3⟩ := (read_iff ..).1 hR
  refine ⟨path, h1, ?_⟩
  unfold convert
  simp only [h1, bind_ok, h2, h3]
  rfl

theorem convert_reads {env : Env K} {s : St K} {x : Exch K} {z : Exch K × St K × Option Report}
    (h : convert env s x = .ok z) : ∃ u a unit main, Read env s x u a unit main := by
  unfold convert at h
  obtain ⟨path, h1, h⟩ := (bind_ok_iff _ _ _).1 h
  obtain ⟨u, h2, h⟩ := (bind_ok_iff _ _ _).1 h
  obtain ⟨⟨a, unit, main⟩, h3, h⟩ := (bind_ok_iff _ _ _).1 h
  exact ⟨u, a, unit, main, (read_iff ..).2 ⟨path, h1, h2, h3⟩⟩

theorem convert_mapped {env : Env K} {s : St K} {x : Exch K} {n : Row} {u : Units K} {a : K} {unit main : Str}
    (hR : Read env s x u a unit main) (hn : Mapped env x n) : convert env s x = matched env s x n u a unit := by
  obtain ⟨path, -, h⟩ := convert_read hR
  rw [h, hn.1]
  simp only
  rw [if_neg]
  rintro (e | e)
  · exact hn.2.1 e
  · exact hn.2.2 e

theorem matched_ok {env : Env K} {s : St K} {x : Exch K} {n : Row} {u : Units K} {a : K} {unit : Str}
    {z : Exch K × St K × Option Report} (h : matched env s x n u a unit = .ok z) :
    ∃ t cf info, x.short = .one t ∧ Factor env.flt n cf ∧ aget n.targetUnit Units.ilcdUnitToFp = some info ∧
      byUnit env { s with saved := s.saved ++ [(c!"flows", n.target ++ c!".xml"),
          (c!"flowproperties", info.1 ++ c!".xml"), (c!"unitgroups", info.2.1 ++ c!".xml")] } x
        { x with ref := ⟨n.target, some (c!"../flows/" ++ n.target ++ c!".xml"), none⟩, short := .one n.name } n u a unit cf
        = .ok z := by
  unfold matched at h
  obtain ⟨s1, h1, h⟩ := (bind_ok_iff _ _ _).1 h
  obtain ⟨y, h2, h⟩ := (bind_ok_iff _ _ _).1 h
  obtain ⟨cf, h3, h⟩ := (bind_ok_iff _ _ _).1 h
  obtain ⟨s2, h4, h⟩ := (bind_ok_iff _ _ _).1 h
  have e1 : ∀ {dir kind name : Str} {s s' : St K}, saveOriginal env dir kind name s = .ok s' →
      s' = { s with saved := s.saved ++ [(dir, name)] } := by
    intro dir kind name s s' h
    unfold saveOriginal at h
    split at h
    · cases h
    · exact (Except.ok.inj h).symm
  unfold saveUnit at h4
  cases hi : aget n.targetUnit Units.ilcdUnitToFp with
  | none => rw [hi] at h4; cases h4
  | some info =>
    rw [hi] at h4
    simp only at h4
    obtain ⟨s3, h5, h6⟩ := (bind_ok_iff _ _ _).1 h4
    have g1 := e1 h1
    have g2 := e1 h5
    have g3 := e1 h6
    subst g1; subst g2; subst g3
    unfold retarget at h2
    cases hs : x.short with
    | one t =>
      rw [hs] at h2
      simp only [Except.ok.injEq] at h2
      refine ⟨t, cf, info, rfl, (factor_iff ..).1 h3, rfl, ?_⟩
      subst h2
      simpa using h
    | absent => rw [hs] at h2; cases h2
    | plain t => rw [hs] at h2; cases h2
    | many l => rw [hs] at h2; cases h2

theorem scaleAttr_ok {nunit : Str} {r : K} {x y : Exch K} (h : scaleAttr nunit r x = .ok y) :
    ∃ am ui pi, y = { x with amount := am, unitId := ui, propertyId := pi } ∧
      (amountGiven x = false → am = x.amount ∧ ui = x.unitId ∧ pi = x.propertyId) ∧
      (amountGiven x = true → ∃ info, aget nunit Units.olcaUnitToFp = some info ∧
        am = some (.num r) ∧ ui = some info.2.1 ∧ pi = some info.1) := by
  unfold scaleAttr at h
  cases hg : amountGiven x with
  | false =>
    rw [hg] at h
    cases h
    exact ⟨x.amount, x.unitId, x.propertyId, rfl, by simp, by simp⟩
  | true =>
    rw [hg] at h
    simp only [if_true] at h
    cases hi : aget nunit Units.olcaUnitToFp with
    | none => rw [hi] at h; cases h
    | some info =>
      rw [hi] at h
      simp only [Except.ok.injEq] at h
      exact ⟨_, _, _, h.symm, by simp, fun _ => ⟨info, rfl, rfl, rfl, rfl⟩⟩

theorem scaled_ok {env : Env K} {s s' : St K} {x y : Exch K} {unit nunit : Str} {a f : K}
    (h : scaled env s x unit nunit a f = .ok (y, s')) :
    y.ref = x.ref ∧ y.short = x.short ∧ y.resulting = some (.num (a * f)) ∧ y.mean = x.mean ∧ s'.arch = s.arch ∧
      s'.saved = s.saved ∧
      (amountGiven x = true → ∃ info, aget nunit Units.olcaUnitToFp = some info ∧
        y.amount = some (.num (a * f)) ∧ y.unitId = some info.2.1 ∧ y.propertyId = some info.1) ∧
      (amountGiven x = false → y.amount = x.amount ∧ y.unitId = x.unitId ∧ y.propertyId = x.propertyId) ∧
      (given x.unc.typ = true → getUnc env.flt x.unc (a * f) f = .ok y.unc) ∧
      (given x.unc.typ = false → y.unc = x.unc) ∧
      (given x.var = false → y.var = x.var ∧ s'.vars = s.vars) ∧
      (∀ c l, x.var = some (c :: l) → ∃ nm, y.var = some nm ∧
        getVar env.flt s.vars (c :: l) unit nunit f a = .ok (nm, s'.vars)) := by
  unfold scaled at h
  obtain ⟨y1, h1, h⟩ := (bind_ok_iff _ _ _).1 h
  obtain ⟨am, ui, pi, rfl, e1, e2⟩ := scaleAttr_ok h1
  obtain ⟨y2, h2, h⟩ := (bind_ok_iff _ _ _).1 h
  have hu : ∃ uu, y2 = ({ x with resulting := some (.num (a * f)), amount := am, unitId := ui, propertyId := pi, unc := uu } : Exch K) ∧
      (given x.unc.typ = true → getUnc env.flt x.unc (a * f) f = .ok uu) ∧ (given x.unc.typ = false → uu = x.unc) := by
    unfold scaleUnc at h2
    cases hg : given x.unc.typ with
    | false =>
      simp only [hg, Bool.false_eq_true, if_false, Except.ok.injEq] at h2
      exact ⟨x.unc, h2.symm, by simp, fun _ => rfl⟩
    | true =>
      simp only [hg, if_true] at h2
      obtain ⟨uu, h3, h4⟩ := (bind_ok_iff _ _ _).1 h2
      exact ⟨uu, (Except.ok.inj h4).symm, fun _ => h3, by simp⟩
  obtain ⟨uu, rfl, e3, e4⟩ := hu
  have ha : amountGiven ({ x with resulting := some (.num (a * f)) } : Exch K) = amountGiven x := rfl
  rw [ha] at e1 e2
  unfold scaleVar at h
  simp only at h
  rcases hv : x.var with _ | (_ | ⟨c, l⟩)
  · rw [hv] at h
    cases h
    exact ⟨rfl, rfl, rfl, rfl, rfl, rfl, e2, e1, e3, e4, fun _ => ⟨rfl, rfl⟩, by simp⟩
  · rw [hv] at h
    cases h
    exact ⟨rfl, rfl, rfl, rfl, rfl, rfl, e2, e1, e3, e4, fun _ => ⟨rfl, rfl⟩, by simp⟩
  · rw [hv] at h
    simp only at h
    obtain ⟨⟨nm, vars⟩, h5, h6⟩ := (bind_ok_iff _ _ _).1 h
    cases h6
    refine ⟨rfl, rfl, rfl, rfl, rfl, rfl, e2, e1, e3, e4, by simp [given], ?_⟩
    rintro c' l' h7
    cases h7
    exact ⟨nm, rfl, h5⟩

theorem kept_ok {s s' : St K} {x y : Exch K} {a : K} (h : kept s x a = .ok (y, s')) :
    ∃ v, y = { x with resulting := some (.num a), var := v } ∧ s'.arch = s.arch ∧ s'.saved = s.saved ∧
      (given x.var = false → v = x.var ∧ s'.vars = s.vars) ∧
      (∀ c l, x.var = some (c :: l) → ∃ nm, v = some nm ∧ keepVar s.vars (c :: l) = .ok (nm, s'.vars)) := by
  unfold kept at h
  simp only at h
  rcases hv : x.var with _ | (_ | ⟨c, l⟩)
  · rw [hv] at h
    cases h
    exact ⟨none, rfl, rfl, rfl, fun _ => ⟨rfl, rfl⟩, by simp⟩
  · rw [hv] at h
    cases h
    exact ⟨some [], rfl, rfl, rfl, fun _ => ⟨rfl, rfl⟩, by simp⟩
  · rw [hv] at h
    simp only at h
    obtain ⟨⟨nm, vars⟩, h5, h6⟩ := (bind_ok_iff _ _ _).1 h
    cases h6
    refine ⟨some nm, rfl, rfl, rfl, by simp [given], ?_⟩
    rintro c' l' h7
    cases h7
    exact ⟨nm, rfl, h5⟩

theorem rate_unique {flt : Str → Py K} {u : Units K} {n : Row} {unit : Str} {f cf : K} (hr : Rate flt u n unit f)
    (hc : Factor flt n cf) : (n.sourceUnit = unit ∧ f = cf) ∨ (n.sourceUnit ≠ unit ∧ ∃ v, aget n.sourceUnit u.sec = some v ∧ f = cf * v) := by
  obtain ⟨cf', h1, h2⟩ := hr
  rw [← factor_iff] at h1 hc
  rw [h1] at hc
  cases hc
  rcases h2 with h2 | ⟨h2, v, h3, h4⟩
  · exact .inl h2
  · exact .inr ⟨h2, v, (aget_firstSec ..).2 h3, h4⟩

/-- All that happens to an exchange of which the amount is multiplied. -/
theorem convert_scaled {env : Env K} {s s' : St K} {x y : Exch K} {r : Option Report} {n : Row} {u : Units K} {a f : K}
    {unit main : Str} (hR : Read env s x u a unit main) (hn : Mapped env x n) (ht : n.targetUnit ≠ unit)
    (hr : Rate env.flt u n unit f) (h : convert env s x = .ok (y, s', r)) :
    r = none ∧ ∃ t info, x.short = .one t ∧ aget n.targetUnit Units.ilcdUnitToFp = some info ∧
      scaled env { s with saved := s.saved ++ [(c!"flows", n.target ++ c!".xml"),
          (c!"flowproperties", info.1 ++ c!".xml"), (c!"unitgroups", info.2.1 ++ c!".xml")] }
        { x with ref := ⟨n.target, some (c!"../flows/" ++ n.target ++ c!".xml"), none⟩, short := .one n.name }
        unit n.targetUnit a f = .ok (y, s') := by
  rw [convert_mapped hR hn] at h
  obtain ⟨t, cf, info, h1, h2, h3, h4⟩ := matched_ok h
  unfold byUnit at h4
  rw [if_neg ht] at h4
  rcases rate_unique hr h2 with ⟨h5, rfl⟩ | ⟨h5, v, h6, rfl⟩
  · rw [if_pos h5] at h4
    obtain ⟨⟨y', s''⟩, h7, h8⟩ := (bind_ok_iff _ _ _).1 h4
    cases h8
    exact ⟨rfl, t, info, h1, h3, h7⟩
  · rw [if_neg h5, h6] at h4
    simp only at h4
    obtain ⟨⟨y', s''⟩, h7, h8⟩ := (bind_ok_iff _ _ _).1 h4
    cases h8
    exact ⟨rfl, t, info, h1, h3, h7⟩

/-- The exchange of a flow with a counterpart in another unit refers to the counterpart, and its resulting amount is the
amount times the factor of the table and of the flow property. -/
theorem amount_scaled {env : Env K} {s s' : St K} {x y : Exch K} {r : Option Report} {n : Row} {u : Units K} {a f : K}
    {unit main : Str} (hR : Read env s x u a unit main) (hn : Mapped env x n) (ht : n.targetUnit ≠ unit)
    (hr : Rate env.flt u n unit f) (h : convert env s x = .ok (y, s', r)) :
    Value env.flt y.resulting (a * f) ∧ y.ref = ⟨n.target, some (c!"../flows/" ++ n.target ++ c!".xml"), none⟩ ∧
      y.short = .one n.name ∧ r = none ∧ (amountGiven x = true → Value env.flt y.amount (a * f)) := by
  obtain ⟨rfl, t, info, h1, h2, h3⟩ := convert_scaled hR hn ht hr h
  obtain ⟨e1, e2, e3, -, -, -, e7, -⟩ := scaled_ok h3
  refine ⟨⟨_, e3, rfl⟩, e1, e2, rfl, fun hg => ?_⟩
  obtain ⟨i, -, h4, -⟩ := e7 hg
  exact ⟨_, h4, rfl⟩

/-- The identifier of the unit of openLCA becomes that of a unit group. -/
theorem unit_is_group {env : Env K} {s s' : St K} {x y : Exch K} {r : Option Report} {n : Row} {u : Units K} {a f : K}
    {unit main : Str} (hR : Read env s x u a unit main) (hn : Mapped env x n) (ht : n.targetUnit ≠ unit)
    (hr : Rate env.flt u n unit f) (hg : amountGiven x = true) (h : convert env s x = .ok (y, s', r)) :
    ∃ info, aget n.targetUnit Units.olcaUnitToFp = some info ∧ y.unitId = some info.2.1 ∧ y.propertyId = some info.1 := by
  obtain ⟨rfl, t, info, h1, h2, h3⟩ := convert_scaled hR hn ht hr h
  obtain ⟨i, h4, -, h5, h6⟩ := (scaled_ok h3).2.2.2.2.2.2.1 hg
  exact ⟨i, h4, h5, h6⟩

theorem value_num (flt : Str → Py K) (k v : K) : Value flt (some (.num k)) v ↔ v = k := by
  constructor
  · rintro ⟨n, h, h'⟩
    cases h
    exact (Except.ok.inj h').symm
  · rintro rfl
    exact ⟨_, rfl, rfl⟩

theorem floatOf_iff (flt : Str → Py K) (o : Option (Num K)) (v : K) : floatOf flt o = .ok v ↔ Value flt o v := by
  unfold floatOf Value
  cases o with
  | none => simp
  | some n => simp

theorem value_unique {flt : Str → Py K} {o : Option (Num K)} {v w : K} (h : Value flt o v) (h' : Value flt o w) : v = w := by
  rw [← floatOf_iff] at h h'
  rw [h] at h'
  exact Except.ok.inj h'

/-- The uncertainty of an exchange of which the amount is multiplied. -/
theorem unc_exact {env : Env K} {s s' : St K} {x y : Exch K} {r : Option Report} {n : Row} {u : Units K} {a f : K}
    {unit main : Str} (hR : Read env s x u a unit main) (hn : Mapped env x n) (ht : n.targetUnit ≠ unit)
    (hr : Rate env.flt u n unit f) (h : convert env s x = .ok (y, s', r)) :
    (given x.unc.typ = false → y.unc = x.unc) ∧ (given x.unc.typ = true → getUnc env.flt x.unc (a * f) f = .ok y.unc) := by
  obtain ⟨rfl, t, info, h1, h2, h3⟩ := convert_scaled hR hn ht hr h
  obtain ⟨-, -, -, -, -, -, -, -, e9, e10, -⟩ := scaled_ok h3
  exact ⟨e10, e9⟩

/-- The bounds of triangular and uniform distributions are multiplied by the factor. -/
theorem bounds_scaled {env : Env K} {s s' : St K} {x y : Exch K} {r : Option Report} {n : Row} {u : Units K} {a f : K}
    {unit main : Str} (hR : Read env s x u a unit main) (hn : Mapped env x n) (ht : n.targetUnit ≠ unit)
    (hr : Rate env.flt u n unit f) (h : convert env s x = .ok (y, s', r))
    (hd : x.unc.typ = some c!"triangular" ∨ x.unc.typ = some c!"uniform") :
    UncTimes env.flt f x.unc y.unc ∧ (∃ lo, Value env.flt x.unc.lo lo) ∧ ∃ hi, Value env.flt x.unc.hi hi := by
  have hg : given x.unc.typ = true := by rcases hd with hd | hd <;> rw [hd] <;> rfl
  have hu := (unc_exact hR hn ht hr h).2 hg
  have : ∃ lo hi, Value env.flt x.unc.lo lo ∧ Value env.flt x.unc.hi hi ∧
      y.unc = { x.unc with lo := some (.num (lo * f)), hi := some (.num (hi * f)) } := by
    unfold getUnc at hu
    rcases hd with hd | hd
    all_goals
      rw [hd] at hu
      simp only at hu
      rw [if_neg (by decide), if_neg (by decide), if_pos (by decide)] at hu
      obtain ⟨lo, h1, hu⟩ := (bind_ok_iff _ _ _).1 hu
      obtain ⟨hi, h2, hu⟩ := (bind_ok_iff _ _ _).1 hu
      refine ⟨lo, hi, (floatOf_iff ..).1 h1, (floatOf_iff ..).1 h2, ?_⟩
      rw [← Except.ok.inj hu]
      simp only [hd]
  obtain ⟨lo, hi, h1, h2, h3⟩ := this
  refine ⟨⟨by rw [h3], ?_, ?_, .inr (by rw [h3])⟩, ⟨lo, h1⟩, hi, h2⟩
  · intro v hv
    rw [h3, value_num, value_unique hv h1]
  · intro v hv
    rw [h3, value_num, value_unique hv h2]

/-- The deviation of a normal distribution is divided by two, and the bounds are that half away from the amount. -/
theorem normal_halved {env : Env K} {s s' : St K} {x y : Exch K} {r : Option Report} {n : Row} {u : Units K} {a f : K}
    {unit main : Str} (hR : Read env s x u a unit main) (hn : Mapped env x n) (ht : n.targetUnit ≠ unit)
    (hr : Rate env.flt u n unit f) (h : convert env s x = .ok (y, s', r)) (hd : x.unc.typ = some c!"normal") :
    ∃ d, Value env.flt x.unc.rsd d ∧ Value env.flt y.unc.rsd (d / 2 * f) ∧ Value env.flt y.unc.lo (a * f - d / 2 * f) ∧
      Value env.flt y.unc.hi (a * f + d / 2 * f) := by
  have hu := (unc_exact hR hn ht hr h).2 (by rw [hd]; rfl)
  unfold getUnc at hu
  rw [hd] at hu
  simp only at hu
  rw [if_neg (by decide), if_pos trivial] at hu
  obtain ⟨d, h1, hu⟩ := (bind_ok_iff _ _ _).1 hu
  refine ⟨d, (floatOf_iff ..).1 h1, ?_⟩
  rw [← Except.ok.inj hu]
  simp [value_num]

/-- So the deviation is the one expected only if it is nothing, or the factor is two or nothing. -/
theorem normal_wrong [CharZero K] {env : Env K} {s s' : St K} {x y : Exch K} {r : Option Report} {n : Row} {u : Units K} {a f : K}
    {unit main : Str} (hR : Read env s x u a unit main) (hn : Mapped env x n) (ht : n.targetUnit ≠ unit)
    (hr : Rate env.flt u n unit f) (h : convert env s x = .ok (y, s', r)) (hd : x.unc.typ = some c!"normal")
    (d : K) (hv : Value env.flt x.unc.rsd d) (h0 : d ≠ 0) (hf : f ≠ 0) (h2 : f ≠ 2) : ¬ UncTimes env.flt f x.unc y.unc := by
  obtain ⟨d', h3, h4, -⟩ := normal_halved hR hn ht hr h hd
  cases value_unique hv h3
  rintro ⟨-, -, -, h5 | h5⟩
  · have h6 := value_unique (h5 d hv) h4
    have h7 : d = d / 2 := mul_right_cancel₀ hf h6
    have two : (2 : K) ≠ 0 := by
      have h9 : ((2 : Nat) : K) ≠ ((0 : Nat) : K) := fun e => by have := Nat.cast_injective e; cases this
      simpa using h9
    have h8 : d / 2 + d / 2 = d := by field_simp; ring
    rw [← h7] at h8
    exact h0 (by simpa using h8)
  · rw [h5] at h4
    have h6 := value_unique hv h4
    have h7 : d * f = d * 2 := by
      calc d * f = d / 2 * f * 2 := by field_simp
        _ = d * 2 := by rw [← h6]
    exact h2 (mul_left_cancel₀ h0 h7)

/-- The maximum of an undefined distribution is computed from the new minimum. -/
theorem undefined_mixed {env : Env K} {s s' : St K} {x y : Exch K} {r : Option Report} {n : Row} {u : Units K} {a f : K}
    {unit main : Str} (hR : Read env s x u a unit main) (hn : Mapped env x n) (ht : n.targetUnit ≠ unit)
    (hr : Rate env.flt u n unit f) (h : convert env s x = .ok (y, s', r)) (hd : x.unc.typ = some c!"undefined") :
    ∃ d lo hi, Value env.flt x.unc.rsd d ∧ Value env.flt x.unc.lo lo ∧ Value env.flt x.unc.hi hi ∧
      Value env.flt y.unc.rsd (d * f) ∧ Value env.flt y.unc.lo ((lo + hi) / 2 * f - d * f) ∧
      Value env.flt y.unc.hi (((lo + hi) / 2 * f - d * f + hi) / 2 * f + d * f) := by
  have hu := (unc_exact hR hn ht hr h).2 (by rw [hd]; rfl)
  unfold getUnc at hu
  rw [hd] at hu
  simp only at hu
  rw [if_neg (by decide), if_neg (by decide), if_neg (by decide), if_pos trivial] at hu
  obtain ⟨d, h1, hu⟩ := (bind_ok_iff _ _ _).1 hu
  obtain ⟨lo, h2, hu⟩ := (bind_ok_iff _ _ _).1 hu
  obtain ⟨hi, h3, hu⟩ := (bind_ok_iff _ _ _).1 hu
  refine ⟨d, lo, hi, (floatOf_iff ..).1 h1, (floatOf_iff ..).1 h2, (floatOf_iff ..).1 h3, ?_⟩
  rw [← Except.ok.inj hu]
  simp only [value_num]
  refine ⟨trivial, ?_, ?_⟩ <;> ring

/-- Any other distribution, log-normal ones among them, keeps its bounds as they are. -/
theorem others_unscaled {env : Env K} {s s' : St K} {x y : Exch K} {r : Option Report} {n : Row} {u : Units K} {a f : K}
    {unit main : Str} (hR : Read env s x u a unit main) (hn : Mapped env x n) (ht : n.targetUnit ≠ unit)
    (hr : Rate env.flt u n unit f) (h : convert env s x = .ok (y, s', r))
    (hd : ∀ t ∈ [c!"normal", c!"triangular", c!"uniform", c!"undefined"], x.unc.typ ≠ some t) : y.unc = x.unc := by
  have hu := unc_exact hR hn ht hr h
  cases hg : given x.unc.typ with
  | false => exact hu.1 hg
  | true =>
    have h1 := hu.2 hg
    unfold getUnc at h1
    cases hx : x.unc.typ with
    | none => rw [hx] at hg; cases hg
    | some t =>
      have hd' : t ≠ c!"normal" ∧ t ≠ c!"triangular" ∧ t ≠ c!"uniform" ∧ t ≠ c!"undefined" := by
        simp only [List.mem_cons, List.not_mem_nil, or_false, forall_eq_or_imp, forall_eq, hx, ne_eq, Option.some.injEq] at hd
        exact hd
      rw [hx] at h1
      simp only at h1
      have hor : ¬ (t = c!"triangular" ∨ t = c!"uniform") := by
        rintro (e | e)
        · exact hd'.2.1 e
        · exact hd'.2.2.1 e
      rw [if_neg hd'.1, if_neg hor, if_neg hd'.2.2.2, ite_self] at h1
      exact (Except.ok.inj h1).symm

/-- Which is not what is expected of an interval. -/
theorem others_wrong {env : Env K} {s s' : St K} {x y : Exch K} {r : Option Report} {n : Row} {u : Units K} {a f : K}
    {unit main : Str} (hR : Read env s x u a unit main) (hn : Mapped env x n) (ht : n.targetUnit ≠ unit)
    (hr : Rate env.flt u n unit f) (h : convert env s x = .ok (y, s', r))
    (hd : ∀ t ∈ [c!"normal", c!"triangular", c!"uniform", c!"undefined"], x.unc.typ ≠ some t)
    (lo : K) (hlo : Value env.flt x.unc.lo lo) (h0 : lo ≠ 0) (hf : f ≠ 1) : ¬ UncTimes env.flt f x.unc y.unc := by
  rw [others_unscaled hR hn ht hr h hd]
  rintro ⟨-, h1, -⟩
  have h2 := value_unique (h1 lo hlo) hlo
  exact hf (mul_left_cancel₀ h0 (by rw [h2, mul_one]))

/-- With the unit of the target the factor of the table does not count. -/
theorem same_unit {env : Env K} {s s' : St K} {x y : Exch K} {r : Option Report} {n : Row} {u : Units K} {a : K}
    {unit main : Str} (hR : Read env s x u a unit main) (hn : Mapped env x n) (ht : n.targetUnit = unit)
    (h : convert env s x = .ok (y, s', r)) :
    r = none ∧ y.ref = ⟨n.target, some (c!"../flows/" ++ n.target ++ c!".xml"), none⟩ ∧ y.short = .one n.name ∧
      Value env.flt y.resulting a ∧ y.unc = x.unc ∧ y.amount = x.amount ∧ y.unitId = x.unitId ∧ y.propertyId = x.propertyId := by
  rw [convert_mapped hR hn] at h
  obtain ⟨t, cf, info, h1, h2, h3, h4⟩ := matched_ok h
  unfold byUnit at h4
  rw [if_pos ht] at h4
  obtain ⟨⟨y', s''⟩, h7, h8⟩ := (bind_ok_iff _ _ _).1 h4
  cases h8
  obtain ⟨v, rfl, -⟩ := kept_ok h7
  exact ⟨rfl, rfl, rfl, ⟨_, rfl, rfl⟩, rfl, rfl, rfl, rfl⟩

/-- So the result is right with the factor one only. -/
theorem same_unit_right_iff {env : Env K} {s s' : St K} {x y : Exch K} {r : Option Report} {n : Row} {u : Units K} {a cf : K}
    {unit main : Str} (hR : Read env s x u a unit main) (hn : Mapped env x n) (ht : n.targetUnit = unit)
    (_hc : Factor env.flt n cf) (h0 : a ≠ 0) (h : convert env s x = .ok (y, s', r)) :
    Value env.flt y.resulting (a * cf) ↔ cf = 1 := by
  have h1 := (same_unit hR hn ht h).2.2.2.1
  constructor
  · intro h2
    have h3 := value_unique h1 h2
    exact (mul_left_cancel₀ h0 (by rw [mul_one]; exact h3)).symm
  · rintro rfl
    rwa [mul_one]

/-- Where no unit fits, the exchange is reported as not converted, but refers to the target with the amount it had. -/
theorem no_unit_retargeted {env : Env K} {s s' : St K} {x y : Exch K} {n : Row} {u : Units K} {a : K} {unit main : Str}
    (hR : Read env s x u a unit main) (hn : Mapped env x n) (h : convert env s x = .ok (y, s', some .noUnit)) :
    y = { x with ref := ⟨n.target, some (c!"../flows/" ++ n.target ++ c!".xml"), none⟩, short := .one n.name } ∧
      n.targetUnit ≠ unit ∧ n.sourceUnit ≠ unit ∧ ∀ v, ¬ FirstSec u n.sourceUnit v := by
  rw [convert_mapped hR hn] at h
  obtain ⟨t, cf, info, h1, h2, h3, h4⟩ := matched_ok h
  unfold byUnit at h4
  by_cases e1 : n.targetUnit = unit
  · rw [if_pos e1] at h4
    obtain ⟨⟨y', s''⟩, -, h8⟩ := (bind_ok_iff _ _ _).1 h4
    cases h8
  · rw [if_neg e1] at h4
    by_cases e2 : n.sourceUnit = unit
    · rw [if_pos e2] at h4
      obtain ⟨⟨y', s''⟩, -, h8⟩ := (bind_ok_iff _ _ _).1 h4
      cases h8
    · rw [if_neg e2] at h4
      cases e3 : aget n.sourceUnit u.sec with
      | some v =>
        rw [e3] at h4
        simp only at h4
        obtain ⟨⟨y', s''⟩, -, h8⟩ := (bind_ok_iff _ _ _).1 h4
        cases h8
      | none =>
        rw [e3] at h4
        simp only at h4
        obtain ⟨p, -, h8⟩ := (bind_ok_iff _ _ _).1 h4
        cases h8
        refine ⟨rfl, e1, e2, fun v hv => ?_⟩
        rw [← aget_firstSec, e3] at hv
        cases hv

/-- A flow of the table is reported for its unit exactly if no unit fits. -/
theorem no_unit_iff {env : Env K} {s s' : St K} {x y : Exch K} {r : Option Report} {n : Row} {u : Units K} {a : K}
    {unit main : Str} (hR : Read env s x u a unit main) (hn : Mapped env x n) (h : convert env s x = .ok (y, s', r)) :
    (r = some .noUnit ↔ n.targetUnit ≠ unit ∧ ∀ f, ¬ Rate env.flt u n unit f) ∧ r ≠ some .noMatch := by
  have h' := h
  rw [convert_mapped hR hn] at h'
  obtain ⟨t, cf, info, h1, h2, h3, h4⟩ := matched_ok h'
  have hfac : ∀ f, Rate env.flt u n unit f → n.targetUnit ≠ unit → r = none := fun f hf ht =>
    (convert_scaled hR hn ht hf h).1
  constructor
  · constructor
    · rintro rfl
      obtain ⟨-, h5, h6, h7⟩ := no_unit_retargeted hR hn h
      refine ⟨h5, ?_⟩
      rintro f ⟨cf', -, ⟨h8, -⟩ | ⟨-, v, h8, -⟩⟩
      · exact h6 h8
      · exact h7 v h8
    · rintro ⟨h5, h6⟩
      unfold byUnit at h4
      rw [if_neg h5] at h4
      by_cases e2 : n.sourceUnit = unit
      · exact absurd ⟨cf, h2, .inl ⟨e2, rfl⟩⟩ (h6 cf)
      · rw [if_neg e2] at h4
        cases e3 : aget n.sourceUnit u.sec with
        | some v => exact absurd ⟨cf, h2, .inr ⟨e2, v, (aget_firstSec ..).1 e3, rfl⟩⟩ (h6 (cf * v))
        | none =>
          rw [e3] at h4
          simp only at h4
          obtain ⟨p, -, h8⟩ := (bind_ok_iff _ _ _).1 h4
          cases h8
          rfl
  · rintro rfl
    by_cases e1 : n.targetUnit = unit
    · have := (same_unit hR hn e1 h).1
      cases this
    · by_cases e4 : ∃ f, Rate env.flt u n unit f
      · obtain ⟨f, hf⟩ := e4
        have := hfac f hf e1
        cases this
      · unfold byUnit at h4
        rw [if_neg e1] at h4
        by_cases e2 : n.sourceUnit = unit
        · exact e4 ⟨cf, cf, h2, .inl ⟨e2, rfl⟩⟩
        · rw [if_neg e2] at h4
          cases e3 : aget n.sourceUnit u.sec with
          | some v => exact e4 ⟨cf * v, cf, h2, .inr ⟨e2, v, (aget_firstSec ..).1 e3, rfl⟩⟩
          | none =>
            rw [e3] at h4
            simp only at h4
            obtain ⟨p, -, h8⟩ := (bind_ok_iff _ _ _).1 h4
            cases h8

/-- A flow without a counterpart stays as it is and is reported; its file is saved, its flow property is not. -/
theorem no_match_kept {env : Env K} {s s' : St K} {x y : Exch K} {r : Option Report} (hn : NoMatch env x)
    (h : convert env s x = .ok (y, s', r)) :
    y = x ∧ r = some .noMatch ∧ s'.vars = s.vars ∧ s'.arch = s.arch ∧
      ∃ path, Leads s.arch c!"flows/" x.ref path ∧ s'.saved = s.saved ++ [(c!"flows", Refs.lastSegment path)] := by
  obtain ⟨u, a, unit, main, hR⟩ := convert_reads h
  obtain ⟨path, h1, h2⟩ := convert_read hR
  obtain ⟨n, h3, h4⟩ := hn
  rw [h2, h3] at h
  simp only at h
  rw [if_pos h4] at h
  cases h
  exact ⟨rfl, rfl, rfl, rfl, path, (getUri_iff ..).1 h1, rfl⟩

theorem redirect_ok {env : Env K} {info : Str × Str × Str} {uri : Str} {s s' : St K} (h : redirect env info uri s = .ok s') :
    s'.vars = s.vars ∧ s'.saved = s.saved := by
  unfold redirect at h
  split at h
  · split at h
    · cases h; exact ⟨rfl, rfl⟩
    · cases h; exact ⟨rfl, rfl⟩
  · cases h

/-- A flow that is not in the table keeps its reference and uncertainty, and nothing is reported. -/
theorem unmapped_silent {env : Env K} {s s' : St K} {x y : Exch K} {r : Option Report} {u : Units K} {a : K}
    {unit main : Str} (hR : Read env s x u a unit main) (hn : aget x.ref.id env.table = none)
    (h : convert env s x = .ok (y, s', r)) :
    r = none ∧ y.ref = x.ref ∧ y.short = x.short ∧ y.unc = x.unc ∧ Value env.flt y.resulting a ∧
      ∃ info path, aget (lookupUnit main) Units.olcaUnitToFp = some info ∧ Leads s.arch c!"flows/" x.ref path ∧
        s'.saved = s.saved ++ [(c!"flowproperties", info.1 ++ c!".xml"), (c!"unitgroups", info.2.1 ++ c!".xml"),
          (c!"flows", Refs.lastSegment path)] := by
  obtain ⟨path, h1, h2⟩ := convert_read hR
  rw [h2, hn] at h
  simp only at h
  obtain ⟨⟨y', s1⟩, h3, h4⟩ := (bind_ok_iff _ _ _).1 h
  cases h4
  unfold unmapped at h3
  obtain ⟨⟨y1, s2⟩, h5, h6⟩ := (bind_ok_iff _ _ _).1 h3
  obtain ⟨v, rfl, e1, e2, -⟩ := kept_ok h5
  simp only at h6
  cases hi : aget (lookupUnit main) Units.olcaUnitToFp with
  | none => rw [hi] at h6; cases h6
  | some info =>
    rw [hi] at h6
    simp only at h6
    obtain ⟨s3, g1, h6⟩ := (bind_ok_iff _ _ _).1 h6
    obtain ⟨s4, g2, h6⟩ := (bind_ok_iff _ _ _).1 h6
    obtain ⟨p, g3, h6⟩ := (bind_ok_iff _ _ _).1 h6
    obtain ⟨s5, g4, h10⟩ := (bind_ok_iff _ _ _).1 h6
    clear h6
    have f1 : ∀ {dir kind name : Str} {s s' : St K}, saveOriginal env dir kind name s = .ok s' →
        s' = { s with saved := s.saved ++ [(dir, name)] } := by
      intro dir kind name s s' h
      unfold saveOriginal at h
      split at h
      · cases h
      · exact (Except.ok.inj h).symm
    have k1 := f1 g1
    have k2 := f1 g2
    subst k1; subst k2
    have k3 := (redirect_ok g4).2
    simp only [e1, h1, Except.ok.injEq] at g3
    subst g3
    cases h10
    refine ⟨rfl, ?_, ?_, ?_, ?_, info, path, rfl, (getUri_iff ..).1 h1, ?_⟩
    · split <;> rfl
    · split <;> rfl
    · split <;> rfl
    · split <;> exact ⟨_, rfl, rfl⟩
    · simp [saveFile, k3, e2]

/-- The cases of a conversion that succeeds. -/
theorem cases_of {env : Env K} {s s' : St K} {x y : Exch K} {r : Option Report} (h : convert env s x = .ok (y, s', r)) :
    ∃ u a unit main, Read env s x u a unit main ∧ (NoMatch env x ∨ aget x.ref.id env.table = none ∨
      ∃ n, Mapped env x n ∧ (n.targetUnit = unit ∨ r = some .noUnit ∨ (n.targetUnit ≠ unit ∧ ∃ f, Rate env.flt u n unit f))) := by
  obtain ⟨u, a, unit, main, hR⟩ := convert_reads h
  refine ⟨u, a, unit, main, hR, ?_⟩
  cases hn : aget x.ref.id env.table with
  | none => exact .inr (.inl rfl)
  | some n =>
    by_cases hm : n.mapType = c!"NO_MATCH_MAPPING" ∨ n.mapType = c!"NO MATCH"
    · exact .inl ⟨n, hn, hm⟩
    · have hM : Mapped env x n := ⟨hn, fun e => hm (.inl e), fun e => hm (.inr e)⟩
      refine .inr (.inr ⟨n, hM, ?_⟩)
      by_cases e1 : n.targetUnit = unit
      · exact .inl e1
      · by_cases e2 : ∃ f, Rate env.flt u n unit f
        · exact .inr (.inr ⟨e1, e2⟩)
        · exact .inr (.inl ((no_unit_iff hR hM h).1.2 ⟨e1, fun f hf => e2 ⟨f, hf⟩⟩))

/-- The mean amount of an exchange is never changed. -/
theorem mean_kept {env : Env K} {s s' : St K} {x y : Exch K} {r : Option Report} (h : convert env s x = .ok (y, s', r)) :
    y.mean = x.mean := by
  obtain ⟨u, a, unit, main, hR, h1 | h1 | ⟨n, hn, h1 | rfl | ⟨h1, f, h2⟩⟩⟩ := cases_of h
  · rw [(no_match_kept h1 h).1]
  · obtain ⟨path, -, h2⟩ := convert_read hR
    rw [h2, h1] at h
    simp only at h
    obtain ⟨⟨y', s1⟩, h3, h4⟩ := (bind_ok_iff _ _ _).1 h
    cases h4
    unfold unmapped at h3
    obtain ⟨⟨y1, s2⟩, h5, h6⟩ := (bind_ok_iff _ _ _).1 h3
    obtain ⟨v, rfl, -⟩ := kept_ok h5
    simp only at h6
    cases hi : aget (lookupUnit main) Units.olcaUnitToFp with
    | none => rw [hi] at h6; cases h6
    | some info =>
      rw [hi] at h6
      simp only at h6
      obtain ⟨s3, -, h6⟩ := (bind_ok_iff _ _ _).1 h6
      obtain ⟨s4, -, h6⟩ := (bind_ok_iff _ _ _).1 h6
      obtain ⟨p, -, h6⟩ := (bind_ok_iff _ _ _).1 h6
      obtain ⟨s5, -, h6⟩ := (bind_ok_iff _ _ _).1 h6
      cases h6
      split <;> rfl
  · rw [convert_mapped hR hn] at h
    obtain ⟨t, cf, info, -, -, -, h4⟩ := matched_ok h
    unfold byUnit at h4
    rw [if_pos h1] at h4
    obtain ⟨⟨y', s''⟩, h7, h8⟩ := (bind_ok_iff _ _ _).1 h4
    cases h8
    obtain ⟨v, rfl, -⟩ := kept_ok h7
    rfl
  · rw [(no_unit_retargeted hR hn h).1]
  · obtain ⟨-, t, info, -, -, h3⟩ := convert_scaled hR hn h1 h2 h
    exact (scaled_ok h3).2.2.2.1

/-- An exchange is reported exactly if its flow has no counterpart or no unit fits; of flows that are not in the table
there is no report. -/
theorem reported_iff {env : Env K} {s s' : St K} {x y : Exch K} {r : Option Report} (h : convert env s x = .ok (y, s', r)) :
    (r = some .noMatch ↔ NoMatch env x) ∧
      (r = some .noUnit ↔ ∃ u a unit main n, Read env s x u a unit main ∧ Mapped env x n ∧ n.targetUnit ≠ unit ∧
        ∀ f, ¬ Rate env.flt u n unit f) := by
  have excl : ∀ {n}, NoMatch env x → Mapped env x n → False := by
    rintro n ⟨n', h1, h2⟩ ⟨h3, h4, h5⟩
    rw [h1] at h3
    cases h3
    rcases h2 with h2 | h2
    · exact h4 h2
    · exact h5 h2
  obtain ⟨u, a, unit, main, hR, h1 | h1 | ⟨n, hn, h1⟩⟩ := cases_of h
  · have h2 := (no_match_kept h1 h).2.1
    refine ⟨⟨fun _ => h1, fun _ => h2⟩, ⟨fun e => (by rw [h2] at e; cases e), ?_⟩⟩
    rintro ⟨-, -, -, -, n, -, h3, -⟩
    exact (excl h1 h3).elim
  · have h2 := (unmapped_silent hR h1 h).1
    refine ⟨⟨fun e => (by rw [h2] at e; cases e), ?_⟩, ⟨fun e => (by rw [h2] at e; cases e), ?_⟩⟩
    · rintro ⟨n, h3, -⟩
      rw [h1] at h3; cases h3
    · rintro ⟨-, -, -, -, n, -, ⟨h3, -⟩, -⟩
      rw [h1] at h3; cases h3
  · refine ⟨⟨fun e => absurd e (no_unit_iff hR hn h).2, fun h3 => (excl h3 hn).elim⟩, ?_, ?_⟩
    · rintro rfl
      exact ⟨u, a, unit, main, n, hR, hn, (no_unit_iff hR hn h).1.1 rfl⟩
    · rintro ⟨u', a', unit', main', n', hR', hn', h3⟩
      exact (no_unit_iff hR' hn' h).1.2 h3

/-! ## What stops the conversion -/

theorem olca_none {flt : Str → Py K} {olca : Option Str} (hg : given olca = false) {a : Archive} {uri : Str} {u : Units K}
    (h : getUnit flt a uri olca = .ok u) : u.olca = [] := by
  have hadd : ∀ (u : Units K) (m : Bool) (w : Str × K), (u.add m w).olca = u.olca := by
    intro u m w
    unfold Units.add
    split <;> rfl
  have href : ∀ {ref : Str} {m : Bool} {mv : Str} {u u' : Units K} {g : GUnit}, refUnit flt ref m mv u g = .ok u' →
      u'.olca = u.olca := by
    intro ref m mv u u' g h
    unfold refUnit at h
    split at h
    · obtain ⟨f, -, h⟩ := (bind_ok_iff _ _ _).1 h
      cases h
      exact hadd ..
    · cases h; rfl
  have hloop : ∀ {ref : Str} {m : Bool} {mv : Str} (l : List GUnit) {u u' : Units K},
      loopUnits flt olca ref m mv u l = .ok u' → u'.olca = u.olca := by
    intro ref m mv l
    induction l with
    | nil => intro u u' h; cases h; rfl
    | cons g l ih =>
      intro u u' h
      unfold loopUnits at h
      obtain ⟨u1, h1, h3⟩ := (bind_ok_iff _ _ _).1 h
      obtain ⟨u2, h2, h4⟩ := (bind_ok_iff _ _ _).1 h3
      unfold olcaUnit at h1
      rw [hg] at h1
      have h5 : u = u1 := Except.ok.inj h1
      rw [ih h4, href h2, h5]
  have hgroup : ∀ {m : Bool} {mv : Str} {u u' : Units K} {f : File}, groupUnits flt olca m mv u f = .ok u' → u'.olca = u.olca := by
    intro m mv u u' f h
    unfold groupUnits at h
    split at h
    · split at h
      · cases h
      · cases h
      · split at h
        · rename_i h1
          cases h
          exact hloop _ h1
        · cases h
    · split at h
      · cases h
      · exact href h
      · cases h
    · cases h
  have hprops : ∀ {mainId : Str} (l : List FlowProp) {u u' : Units K}, propsUnits flt a olca mainId u l = .ok u' → u'.olca = u.olca := by
    intro mainId l
    induction l with
    | nil => intro u u' h; cases h; rfl
    | cons g l ih =>
      intro u u' h
      unfold propsUnits at h
      obtain ⟨u1, h1, h⟩ := (bind_ok_iff _ _ _).1 h
      rw [ih h]
      unfold propUnits at h1
      obtain ⟨_, -, h1⟩ := (bind_ok_iff _ _ _).1 h1
      obtain ⟨_, -, h1⟩ := (bind_ok_iff _ _ _).1 h1
      obtain ⟨_, -, h1⟩ := (bind_ok_iff _ _ _).1 h1
      obtain ⟨_, -, h1⟩ := (bind_ok_iff _ _ _).1 h1
      obtain ⟨u2, h2, h1⟩ := (bind_ok_iff _ _ _).1 h1
      split at h1
      · cases h1
      · cases h1
        exact hgroup h2
  unfold getUnit at h
  obtain ⟨f, -, h⟩ := (bind_ok_iff _ _ _).1 h
  split at h
  · split at h
    · cases h
    · exact hprops _ h
  · cases h
  · cases h

/-- An exchange with neither a resulting amount nor a unit of openLCA stops the conversion, whatever its mean amount. -/
theorem no_result_stops (env : Env K) (s : St K) (x : Exch K) (hg : given x.unitId = false) (hx : x.resulting = none) :
    ∀ z, convert env s x ≠ .ok z := by
  intro z h
  obtain ⟨u, a, unit, main, path, -, h1, h2⟩ := convert_reads h
  unfold amountOf at h2
  rw [olca_none hg h1, hx] at h2
  cases h2

/-- So does an exchange of which the flow is not in the archive. -/
theorem no_file_stops (env : Env K) (s : St K) (x : Exch K) (hx : ∀ p, ¬ Leads s.arch c!"flows/" x.ref p) :
    ∀ z, convert env s x ≠ .ok z := by
  intro z h
  obtain ⟨u, a, unit, main, path, h1, -⟩ := convert_reads h
  exact hx path h1

/-- So does a flow with a unit group of a single unit, in a file with a prefix. -/
theorem single_unit_stops (env : Env K) (s : St K) (x : Exch K) (path main : Str) (at3 : Option Str) (l r : List FlowProp)
    (p : FlowProp) (hp : Leads s.arch c!"flows/" x.ref path) (hf : s.arch path = some (.flow true main (l ++ p :: r) at3))
    (pp gp ref : Str) (pre : Bool) (g : FRef) (w : GUnit) (h1 : Leads s.arch c!"flowproperties/" p.ref pp)
    (h2 : s.arch pp = some (.property pre g)) (h3 : Leads s.arch c!"unitgroups/" g gp)
    (h4 : s.arch gp = some (.group true ref [w])) : ∀ z, convert env s x ≠ .ok z := by
  intro z h
  obtain ⟨u, a, unit, main', path', h5, h6, -⟩ := convert_reads h
  cases leads_unique hp h5
  have key : ∀ (l : List FlowProp) (u u' : Units K), propsUnits env.flt s.arch x.unitId main u (l ++ p :: r) ≠ .ok u' := by
    intro l
    induction l with
    | nil =>
      intro u u' h
      rw [List.nil_append, propsUnits] at h
      obtain ⟨u1, h, -⟩ := (bind_ok_iff _ _ _).1 h
      rw [← getUri_iff] at h1 h3
      have hg : groupUri s.arch (.property pre g) = .ok gp := by
        cases pre with
        | true => simp only [groupUri, h3]
        | false => simp only [groupUri, h3]
      unfold propUnits at h
      simp only [h1, bind_ok, readFile_eq h2, hg, readFile_eq h4] at h
      cases h
    | cons q l ih =>
      intro u u' h
      rw [List.cons_append, propsUnits] at h
      obtain ⟨u1, -, h⟩ := (bind_ok_iff _ _ _).1 h
      exact ih _ _ h
  unfold getUnit at h6
  rw [readFile_eq hf, bind_ok] at h6
  simp only at h6
  split at h6
  · rename_i h; simp at h
  · exact key l _ _ h6

/-- So does a flow with a counterpart of which the description is given in several languages, in none, or not at all. -/
theorem texts_stop (env : Env K) (s : St K) (x : Exch K) (n : Row) (hn : Mapped env x n) (hx : ∀ t, x.short ≠ .one t) :
    ∀ z, convert env s x ≠ .ok z := by
  intro z h
  obtain ⟨u, a, unit, main, hR⟩ := convert_reads h
  rw [convert_mapped hR hn] at h
  obtain ⟨t, cf, info, h1, -⟩ := matched_ok h
  exact hx t h1

/-- So does a flow that is not in the table, if its unit is none of those of openLCA. -/
theorem unknown_unit_stops (env : Env K) (s : St K) (x : Exch K) (u : Units K) (a : K) (unit main : Str)
    (hR : Read env s x u a unit main) (hn : aget x.ref.id env.table = none)
    (hu : aget (lookupUnit main) Units.olcaUnitToFp = none) : ∀ z, convert env s x ≠ .ok z := by
  rintro ⟨y, s', r⟩ h
  obtain ⟨-, -, -, -, -, info, path, h1, -⟩ := unmapped_silent hR hn h
  rw [hu] at h1
  cases h1

/-! ## Variables -/

omit [Field K] in
theorem replaceVar_iff (n : Str) (f : Var K → Py (Var K)) (l l' : List (Var K)) : replaceVar n f l = .ok l' ↔
    ∃ p v q v', l = p ++ v :: q ∧ v.name = n ∧ (∀ w ∈ p, w.name ≠ n) ∧ f v = .ok v' ∧ l' = p ++ v' :: q := by
  induction l generalizing l' with
  | nil => simp [replaceVar]
  | cons w l ih =>
    unfold replaceVar
    by_cases h : w.name = n
    · rw [if_pos h, bind_ok_iff]
      constructor
      · rintro ⟨v', h1, h2⟩
        cases h2
        exact ⟨[], w, l, v', rfl, h, by simp, h1, rfl⟩
      · rintro ⟨p, v, q, v', h1, h2, h3, h4, rfl⟩
        cases p with
        | nil => cases h1; exact ⟨v', h4, rfl⟩
        | cons y p => cases h1; exact absurd h (h3 _ List.mem_cons_self)
    · rw [if_neg h, bind_ok_iff]
      constructor
      · rintro ⟨m, h1, h2⟩
        cases h2
        obtain ⟨p, v, q, v', rfl, h3, h4, h5, rfl⟩ := (ih _).1 h1
        refine ⟨w :: p, v, q, v', rfl, h3, ?_, h5, rfl⟩
        intro y hy
        rcases List.mem_cons.1 hy with rfl | hy
        · exact h
        · exact h4 y hy
      · rintro ⟨p, v, q, v', h1, h2, h3, h4, rfl⟩
        cases p with
        | nil => cases h1; exact absurd h2 h
        | cons y p =>
          cases h1
          exact ⟨p ++ v' :: q, (ih _).2 ⟨p, v, q, v', rfl, h2, fun y hy => h3 y (List.mem_cons_of_mem _ hy), h4, rfl⟩, rfl⟩

/-- The variable of an exchange of which the amount is multiplied: the first of its name gets another name, and as its
formula the old one times a new variable, the factor; its mean value is the amount before the multiplication. -/
theorem variable_exact {env : Env K} {s s' : St K} {x y : Exch K} {r : Option Report} {n : Row} {u : Units K} {a f : K}
    {unit main : Str} (hR : Read env s x u a unit main) (hn : Mapped env x n) (ht : n.targetUnit ≠ unit)
    (hr : Rate env.flt u n unit f) (h : convert env s x = .ok (y, s', r)) (nm : Str) (hv : x.var = some nm) (hne : nm ≠ []) :
    ∃ p v q w e, s.vars ++ [⟨c!"__" ++ unit ++ c!"_to_" ++ n.targetUnit ++ c!"__", none, some (.num f), ⟨none, none, none, none⟩⟩] =
        p ++ v :: q ∧ v.name = nm ∧ (∀ w ∈ p, w.name ≠ nm) ∧ s'.vars = p ++ w :: q ∧ v.formula = some e ∧
      w.name = paramName nm ++ c!"_from_" ++ unit ++ c!"_to_" ++ n.targetUnit ∧
      w.formula = some (c!"(" ++ e ++ c!")*__" ++ unit ++ c!"_to_" ++ n.targetUnit ++ c!"__") ∧
      w.mean = some (.num a) ∧ y.var = some w.name := by
  obtain ⟨rfl, t, info, h1, h2, h3⟩ := convert_scaled hR hn ht hr h
  obtain ⟨c, l, rfl⟩ := List.exists_cons_of_ne_nil hne
  obtain ⟨nm', h4, h5⟩ := (scaled_ok h3).2.2.2.2.2.2.2.2.2.2.2 c l hv
  unfold getVar at h5
  obtain ⟨vars, h6, h7⟩ := (bind_ok_iff _ _ _).1 h5
  cases h7
  obtain ⟨p, v, q, v', e1, e2, e3, e4, e5⟩ := (replaceVar_iff ..).1 h6
  cases hf : v.formula with
  | none => rw [hf] at e4; cases e4
  | some e =>
    rw [hf] at e4
    simp only at e4
    have : ∃ uu, v' = ⟨paramName (c :: l) ++ c!"_from_" ++ unit ++ c!"_to_" ++ n.targetUnit,
        some (c!"(" ++ e ++ c!")*" ++ factorName unit n.targetUnit), some (.num a), uu⟩ := by
      split at e4
      · obtain ⟨uu, -, e6⟩ := (bind_ok_iff _ _ _).1 e4
        exact ⟨uu, (Except.ok.inj e6).symm⟩
      · exact ⟨v.unc, (Except.ok.inj e4).symm⟩
    obtain ⟨uu, rfl⟩ := this
    exact ⟨p, v, q, _, e, e1, e2, e3, e5, hf, rfl, by simp [factorName], rfl, h4⟩

/-- So the mean value is the value of the new formula with the factor one only, or where it is nothing. -/
theorem variable_mean_right_iff {env : Env K} {s s' : St K} {x y : Exch K} {r : Option Report} {n : Row} {u : Units K} {a f : K}
    {unit main : Str} (hR : Read env s x u a unit main) (hn : Mapped env x n) (ht : n.targetUnit ≠ unit)
    (hr : Rate env.flt u n unit f) (h : convert env s x = .ok (y, s', r)) (nm : Str) (hv : x.var = some nm) (hne : nm ≠ []) :
    ∃ w ∈ s'.vars, y.var = some w.name ∧ (Value env.flt w.mean (a * f) ↔ a = 0 ∨ f = 1) := by
  obtain ⟨p, v, q, w, e, -, -, -, h1, -, -, -, h2, h3⟩ := variable_exact hR hn ht hr h nm hv hne
  refine ⟨w, by rw [h1]; simp, h3, ?_⟩
  rw [h2, value_num]
  constructor
  · intro h4
    by_cases h0 : a = 0
    · exact .inl h0
    · exact .inr (mul_left_cancel₀ h0 (by rw [mul_one]; exact h4))
  · rintro (rfl | rfl)
    · simp
    · simp

/-- A variable without a formula stops the conversion. -/
theorem no_formula_stops {env : Env K} {s : St K} {x : Exch K} {n : Row} {u : Units K} {a f : K}
    {unit main : Str} (hR : Read env s x u a unit main) (hn : Mapped env x n) (ht : n.targetUnit ≠ unit)
    (hr : Rate env.flt u n unit f) (nm : Str) (hv : x.var = some nm) (hne : nm ≠ [])
    (hf : ∀ v ∈ s.vars, v.name = nm → v.formula = none) : ∀ z, convert env s x ≠ .ok z := by
  rintro ⟨y, s', r⟩ h
  obtain ⟨p, v, q, w, e, h1, h2, -, -, h3, -⟩ := variable_exact hR hn ht hr h nm hv hne
  have hm : v ∈ s.vars ++ [⟨c!"__" ++ unit ++ c!"_to_" ++ n.targetUnit ++ c!"__", none, some (.num f), ⟨none, none, none, none⟩⟩] := by
    rw [h1]; simp
  rcases List.mem_append.1 hm with hm | hm
  · rw [hf v hm h2] at h3; cases h3
  · rw [List.mem_singleton.1 hm] at h3; cases h3

theorem paramName_self {n : Str} (h : isInfix c!"temp_olca_param" n = false) : paramName n = n := by
  unfold paramName IlcdVars.replaceAll
  rw [if_neg (by decide)]
  induction n with
  | nil => rfl
  | cons c n ih =>
    unfold isInfix at h
    rw [Bool.or_eq_false_iff] at h
    unfold IlcdVars.replaceAux
    simp only [h.1]
    simpa using ih h.2

/-- After a conversion nothing has the name of the variable any more. -/
theorem variable_renamed {env : Env K} {s s' : St K} {x y : Exch K} {r : Option Report} {n : Row} {u : Units K} {a f : K}
    {unit main : Str} (hR : Read env s x u a unit main) (hn : Mapped env x n) (ht : n.targetUnit ≠ unit)
    (hr : Rate env.flt u n unit f) (h : convert env s x = .ok (y, s', r)) (nm : Str) (hv : x.var = some nm) (hne : nm ≠ [])
    (hu : nm.head? ≠ some '_') (hi : isInfix c!"temp_olca_param" nm = false)
    (h1 : (s.vars.filter fun v => v.name = nm).length ≤ 1) : ∀ v ∈ s'.vars, v.name ≠ nm := by
  obtain ⟨p, v, q, w, e, e1, e2, e3, e4, -, e5, -⟩ := variable_exact hR hn ht hr h nm hv hne
  have hfn : (c!"__" ++ unit ++ c!"_to_" ++ n.targetUnit ++ c!"__" : Str) ≠ nm := by
    rintro rfl
    exact hu rfl
  have hq : ∀ w ∈ q, w.name ≠ nm := by
    intro w hw hwn
    have h2 := congrArg (fun l : List (Var K) => (l.filter fun v => v.name = nm).length) e1
    simp only [List.filter_append, List.length_append] at h2
    rw [List.filter_cons_of_neg (by simpa using hfn), List.filter_cons_of_pos (by simpa using e2)] at h2
    have h3 : 1 ≤ (q.filter fun v => v.name = nm).length :=
      List.length_pos_of_mem (List.mem_filter.2 ⟨hw, by simpa using hwn⟩)
    simp only [List.filter_nil, List.length_nil, List.length_cons] at h2
    omega
  intro z hz
  rw [e4] at hz
  rcases List.mem_append.1 hz with hz | hz
  · exact e3 z hz
  · rcases List.mem_cons.1 hz with rfl | hz
    · intro hz
      rw [e5, paramName_self hi] at hz
      have := congrArg List.length hz
      simp at this
    · exact hq z hz

/-- So a second exchange with the same variable is not converted: the conversion stops, or reports it. -/
theorem variable_used_twice {env : Env K} {s s' : St K} {x y : Exch K} {r : Option Report} {n : Row} {u : Units K} {a f : K}
    {unit main : Str} (hR : Read env s x u a unit main) (hn : Mapped env x n) (ht : n.targetUnit ≠ unit)
    (hr : Rate env.flt u n unit f) (h : convert env s x = .ok (y, s', r)) (nm : Str) (hv : x.var = some nm) (hne : nm ≠ [])
    (hu : nm.head? ≠ some '_') (hi : isInfix c!"temp_olca_param" nm = false)
    (h1 : (s.vars.filter fun v => v.name = nm).length ≤ 1) (x2 : Exch K) (hv2 : x2.var = some nm) :
    ∀ y2 s2, convert env s' x2 ≠ .ok (y2, s2, none) := by
  have hno := variable_renamed hR hn ht hr h nm hv hne hu hi h1
  obtain ⟨c, l, rfl⟩ := List.exists_cons_of_ne_nil hne
  have hkeep : ∀ {s1 s2 : St K} {x1 y1 : Exch K} {b : K}, s1.vars = s'.vars → x1.var = some (c :: l) → kept s1 x1 b ≠ .ok (y1, s2) := by
    intro s1 s2 x1 y1 b hs hx hk
    obtain ⟨v, -, -, -, -, h3⟩ := kept_ok hk
    obtain ⟨nm, -, h4⟩ := h3 c l hx
    unfold keepVar at h4
    obtain ⟨vars, h5, -⟩ := (bind_ok_iff _ _ _).1 h4
    obtain ⟨p, v, q, v', e1, e2, -⟩ := (replaceVar_iff ..).1 h5
    refine hno v ?_ e2
    rw [← hs, e1]; simp
  intro y2 s2 h2
  obtain ⟨u2, a2, unit2, main2, hR2, h3 | h3 | ⟨n2, hn2, h3 | h3 | ⟨h3, f2, h4⟩⟩⟩ := cases_of h2
  · have := (no_match_kept h3 h2).2.1
    cases this
  · obtain ⟨path, -, h4⟩ := convert_read hR2
    rw [h4, h3] at h2
    simp only at h2
    obtain ⟨⟨y', s1⟩, h5, -⟩ := (bind_ok_iff _ _ _).1 h2
    unfold unmapped at h5
    obtain ⟨⟨y1, s3⟩, h6, -⟩ := (bind_ok_iff _ _ _).1 h5
    exact hkeep rfl hv2 h6
  · rw [convert_mapped hR2 hn2] at h2
    obtain ⟨t, cf, info, -, -, -, h4⟩ := matched_ok h2
    unfold byUnit at h4
    rw [if_pos h3] at h4
    obtain ⟨⟨y', s''⟩, h7, -⟩ := (bind_ok_iff _ _ _).1 h4
    refine hkeep ?_ ?_ h7
    · rfl
    · exact hv2
  · cases h3
  · obtain ⟨p, v, q, w, e, e1, e2, -⟩ := variable_exact hR2 hn2 h3 h4 h2 _ hv2 hne
    have hm : v ∈ s'.vars ++ [⟨c!"__" ++ unit2 ++ c!"_to_" ++ n2.targetUnit ++ c!"__", none, some (.num f2), ⟨none, none, none, none⟩⟩] := by
      rw [e1]; simp
    rcases List.mem_append.1 hm with hm | hm
    · exact hno v hm e2
    · rw [List.mem_singleton.1 hm] at e2
      simp only at e2
      rw [← e2] at hu
      exact hu rfl

/-- Every conversion with a variable adds a variable for the factor between the two units, also if there is one. -/
theorem factor_added {env : Env K} {s s' : St K} {x y : Exch K} {r : Option Report} {n : Row} {u : Units K} {a f : K}
    {unit main : Str} (hR : Read env s x u a unit main) (hn : Mapped env x n) (ht : n.targetUnit ≠ unit)
    (hr : Rate env.flt u n unit f) (h : convert env s x = .ok (y, s', r)) (nm : Str) (hv : x.var = some nm) (hne : nm ≠ [])
    (hu : nm.head? ≠ some '_') (hi : isInfix c!"temp_olca_param" nm = false) :
    (s'.vars.filter fun v => v.name = c!"__" ++ unit ++ c!"_to_" ++ n.targetUnit ++ c!"__").length =
      (s.vars.filter fun v => v.name = c!"__" ++ unit ++ c!"_to_" ++ n.targetUnit ++ c!"__").length + 1 := by
  obtain ⟨p, v, q, w, e, e1, e2, e3, e4, -, e5, -⟩ := variable_exact hR hn ht hr h nm hv hne
  generalize hg : (c!"__" ++ unit ++ c!"_to_" ++ n.targetUnit ++ c!"__" : Str) = g at *
  have hgh : g.head? = some '_' := by rw [← hg]; rfl
  have h2 := congrArg (fun l : List (Var K) => (l.filter fun v => v.name = g).length) e1
  have hvn : v.name ≠ g := by
    intro e
    rw [e2] at e
    rw [e] at hu
    exact hu hgh
  have hwn : w.name ≠ g := by
    intro e
    rw [e5, paramName_self hi] at e
    obtain ⟨c, l, rfl⟩ := List.exists_cons_of_ne_nil hne
    rw [← e] at hgh
    exact hu hgh
  simp only [List.filter_append, List.length_append] at h2
  rw [List.filter_cons_of_pos (by simp), List.filter_cons_of_neg (by simpa using hvn)] at h2
  rw [e4, List.filter_append, List.length_append, List.filter_cons_of_neg (by simpa using hwn)]
  simpa using h2.symm

/-- The name of a factor can be referred to by a formula only if both units can. -/
theorem factor_identifier_iff (unit nunit : Str) : Identifier (factorName unit nunit) ↔ Identifier unit ∧ Identifier nunit := by
  unfold Identifier factorName
  simp only [List.mem_append]
  constructor
  · intro h
    exact ⟨fun c hc => h c (by simp [hc]), fun c hc => h c (by simp [hc])⟩
  · rintro ⟨h1, h2⟩ c ((((hc | hc) | hc) | hc) | hc)
    · simp at hc; exact .inr hc
    · exact h1 c hc
    · simp only [List.mem_cons, List.not_mem_nil, or_false] at hc
      rcases hc with rfl | rfl | rfl | rfl
      · exact .inr rfl
      · exact .inl (by decide)
      · exact .inl (by decide)
      · exact .inr rfl
    · exact h2 c hc
    · simp at hc; exact .inr hc

/-! ## The files that are saved -/

/-- What was saved stays saved. -/
theorem saved_grows {env : Env K} {s s' : St K} {x y : Exch K} {r : Option Report} (h : convert env s x = .ok (y, s', r)) :
    ∃ l, s'.saved = s.saved ++ l := by
  obtain ⟨u, a, unit, main, hR, h1 | h1 | ⟨n, hn, h1⟩⟩ := cases_of h
  · obtain ⟨-, -, -, -, p, -, h2⟩ := no_match_kept h1 h
    exact ⟨_, h2⟩
  · obtain ⟨-, -, -, -, -, info, p, -, -, h2⟩ := unmapped_silent hR h1 h
    exact ⟨_, h2⟩
  · rw [convert_mapped hR hn] at h
    obtain ⟨t, cf, info, -, -, -, h4⟩ := matched_ok h
    unfold byUnit at h4
    split at h4
    · obtain ⟨⟨y', s''⟩, h7, h8⟩ := (bind_ok_iff _ _ _).1 h4
      cases h8
      obtain ⟨v, -, -, h9, -⟩ := kept_ok h7
      exact ⟨_, h9⟩
    · split at h4
      · obtain ⟨⟨y', s''⟩, h7, h8⟩ := (bind_ok_iff _ _ _).1 h4
        cases h8
        exact ⟨_, (scaled_ok h7).2.2.2.2.2.1⟩
      · split at h4
        · obtain ⟨⟨y', s''⟩, h7, h8⟩ := (bind_ok_iff _ _ _).1 h4
          cases h8
          exact ⟨_, (scaled_ok h7).2.2.2.2.2.1⟩
        · obtain ⟨p, -, h8⟩ := (bind_ok_iff _ _ _).1 h4
          cases h8
          exact ⟨_, List.append_assoc ..⟩

/-- A converted flow is saved with the flow property and the unit group of its unit. -/
theorem target_saved {env : Env K} {s s' : St K} {x y : Exch K} {r : Option Report} {n : Row} (hn : Mapped env x n)
    (h : convert env s x = .ok (y, s', r)) :
    y.ref.id = n.target ∧ y.ref.uri = some (c!"../flows/" ++ n.target ++ c!".xml") ∧
      (c!"flows", n.target ++ c!".xml") ∈ s'.saved ∧
      ∃ info, aget n.targetUnit Units.ilcdUnitToFp = some info ∧ (c!"flowproperties", info.1 ++ c!".xml") ∈ s'.saved ∧
        (c!"unitgroups", info.2.1 ++ c!".xml") ∈ s'.saved := by
  obtain ⟨u, a, unit, main, hR⟩ := convert_reads h
  rw [convert_mapped hR hn] at h
  obtain ⟨t, cf, info, -, -, hi, h4⟩ := matched_ok h
  have key : y.ref = ⟨n.target, some (c!"../flows/" ++ n.target ++ c!".xml"), none⟩ ∧
      ∃ l, s'.saved = s.saved ++ [(c!"flows", n.target ++ c!".xml"),
          (c!"flowproperties", info.1 ++ c!".xml"), (c!"unitgroups", info.2.1 ++ c!".xml")] ++ l := by
    unfold byUnit at h4
    split at h4
    · obtain ⟨⟨y', s''⟩, h7, h8⟩ := (bind_ok_iff _ _ _).1 h4
      cases h8
      obtain ⟨v, rfl, -, h9, -⟩ := kept_ok h7
      exact ⟨rfl, [], by rw [h9, List.append_nil]⟩
    · split at h4
      · obtain ⟨⟨y', s''⟩, h7, h8⟩ := (bind_ok_iff _ _ _).1 h4
        cases h8
        exact ⟨(scaled_ok h7).1, [], by rw [(scaled_ok h7).2.2.2.2.2.1, List.append_nil]⟩
      · split at h4
        · obtain ⟨⟨y', s''⟩, h7, h8⟩ := (bind_ok_iff _ _ _).1 h4
          cases h8
          exact ⟨(scaled_ok h7).1, [], by rw [(scaled_ok h7).2.2.2.2.2.1, List.append_nil]⟩
        · obtain ⟨p, -, h8⟩ := (bind_ok_iff _ _ _).1 h4
          cases h8
          exact ⟨rfl, _, rfl⟩
  obtain ⟨h5, l, h6⟩ := key
  rw [h5, h6]
  exact ⟨rfl, rfl, by simp, info, hi, by simp, by simp⟩

/-- The flow of every exchange is saved, converted or not. -/
theorem flow_saved {env : Env K} {s s' : St K} {x y : Exch K} {r : Option Report} (h : convert env s x = .ok (y, s', r)) :
    (y.ref.uri = some (c!"../flows/" ++ y.ref.id ++ c!".xml") ∧ (c!"flows", y.ref.id ++ c!".xml") ∈ s'.saved) ∨
      (y.ref = x.ref ∧ ∃ path, Leads s.arch c!"flows/" y.ref path ∧ (c!"flows", Refs.lastSegment path) ∈ s'.saved) := by
  obtain ⟨u, a, unit, main, hR, h1 | h1 | ⟨n, hn, h1⟩⟩ := cases_of h
  · obtain ⟨rfl, -, -, -, p, h2, h3⟩ := no_match_kept h1 h
    exact .inr ⟨rfl, p, h2, by rw [h3]; simp⟩
  · obtain ⟨-, h4, -, -, -, info, p, -, h2, h3⟩ := unmapped_silent hR h1 h
    exact .inr ⟨h4, p, by rw [h4]; exact h2, by rw [h3]; simp⟩
  · obtain ⟨h2, h3, h4, -⟩ := target_saved hn h
    rw [h2]
    exact .inl ⟨h3, h4⟩

/-- The flow property of a flow without a counterpart is saved only if it was already. -/
theorem no_match_property_missing {env : Env K} {s s' : St K} {x y : Exch K} {r : Option Report} (hn : NoMatch env x)
    (h : convert env s x = .ok (y, s', r)) (name : Str) :
    ((c!"flowproperties", name) ∈ s'.saved ↔ (c!"flowproperties", name) ∈ s.saved) ∧
      ((c!"unitgroups", name) ∈ s'.saved ↔ (c!"unitgroups", name) ∈ s.saved) := by
  obtain ⟨-, -, -, -, p, -, h3⟩ := no_match_kept hn h
  rw [h3]
  constructor
  · rw [List.mem_append, List.mem_singleton, Prod.mk.injEq]
    exact ⟨fun h => h.resolve_right fun e => absurd e.1 (by decide), .inl⟩
  · rw [List.mem_append, List.mem_singleton, Prod.mk.injEq]
    exact ⟨fun h => h.resolve_right fun e => absurd e.1 (by decide), .inl⟩

/-- The file of a flow that is not in the table, afterwards: its first flow property is that of the table of units. -/
theorem unmapped_file {env : Env K} {s s' : St K} {x y : Exch K} {r : Option Report} {u : Units K} {a : K}
    {unit main : Str} (hR : Read env s x u a unit main) (hn : aget x.ref.id env.table = none)
    (h : convert env s x = .ok (y, s', r)) (path : Str) (hp : Leads s.arch c!"flows/" x.ref path) (pre : Bool) (mainId : Str)
    (p : FlowProp) (ps : List FlowProp) (hf : s.arch path = some (.flow pre mainId (p :: ps) (some p.ref.id))) :
    ∃ info p', aget (lookupUnit main) Units.olcaUnitToFp = some info ∧
      s'.arch path = some (.flow pre mainId (p' :: ps) (some p'.ref.id)) ∧ p'.ref.id = info.1 ∧
      p'.internalId = p.internalId ∧ p'.mean = p.mean ∧ (p.ref.id = info.1 → p' = p) ∧
      (c!"flowproperties", p'.ref.id ++ c!".xml") ∈ s'.saved := by
  obtain ⟨-, -, -, -, -, info', path0, hi', -, hsaved⟩ := unmapped_silent hR hn h
  obtain ⟨path', h1, h2⟩ := convert_read hR
  have : path' = path := leads_unique ((getUri_iff ..).1 h1) hp
  subst this
  rw [h2, hn] at h
  simp only at h
  obtain ⟨⟨y', s1⟩, h3, h4⟩ := (bind_ok_iff _ _ _).1 h
  cases h4
  unfold unmapped at h3
  obtain ⟨⟨y1, s2⟩, h5, h6⟩ := (bind_ok_iff _ _ _).1 h3
  obtain ⟨v, rfl, e1, e2, -⟩ := kept_ok h5
  simp only [hi'] at h6
  obtain ⟨s3, g1, h7⟩ := (bind_ok_iff _ _ _).1 h6
  obtain ⟨s4, g2, h8⟩ := (bind_ok_iff _ _ _).1 h7
  obtain ⟨q, g3, h9⟩ := (bind_ok_iff _ _ _).1 h8
  obtain ⟨s5, g4, h10⟩ := (bind_ok_iff _ _ _).1 h9
  have f1 : ∀ {dir kind name : Str} {s s' : St K}, saveOriginal env dir kind name s = .ok s' → s'.arch = s.arch := by
    intro dir kind name s s' h
    unfold saveOriginal at h
    split at h
    · cases h
    · rw [← Except.ok.inj h]
  have ha : s4.arch = s.arch := by rw [f1 g2, f1 g1, e1]
  rw [ha, h1] at g3
  have hq : path' = q := Except.ok.inj g3
  subst hq
  have h11 : saveFile path' s5 = s1 := congrArg Prod.snd (Except.ok.inj h10)
  have h12 : s1.arch = s5.arch := by rw [← h11]; rfl
  rw [h12]
  unfold redirect at g4
  rw [ha, hf] at g4
  simp only at g4
  by_cases hid : p.ref.id = info'.1
  · rw [if_pos hid] at g4
    have h13 : s4 = s5 := Except.ok.inj g4
    refine ⟨info', p, hi', by rw [← h13, ha, hf], hid, rfl, rfl, fun _ => rfl, ?_⟩
    rw [hsaved, hid]
    simp
  · rw [if_neg hid] at g4
    have h13 := Except.ok.inj g4
    refine ⟨info', { p with ref := ⟨info'.1, some (c!"../flowproperties/" ++ info'.1 ++ c!".xml"), p.ref.version⟩ }, hi',
      ?_, rfl, rfl, rfl, fun e => absurd e hid, ?_⟩
    · rw [← h13]
      simp
    · rw [hsaved]
      simp

/-- Its other flow properties are not saved, unless they were or the table of units gives them. -/
theorem unmapped_others_missing {env : Env K} {s s' : St K} {x y : Exch K} {r : Option Report} {u : Units K} {a : K}
    {unit main : Str} (hR : Read env s x u a unit main) (hn : aget x.ref.id env.table = none)
    (h : convert env s x = .ok (y, s', r)) (id : Str) (h0 : (c!"flowproperties", id ++ c!".xml") ∉ s.saved)
    (h1 : ∀ info, aget (lookupUnit main) Units.olcaUnitToFp = some info → info.1 ≠ id) :
    (c!"flowproperties", id ++ c!".xml") ∉ s'.saved := by
  obtain ⟨-, -, -, -, -, info, path, hi, -, h2⟩ := unmapped_silent hR hn h
  rw [h2]
  simp only [List.mem_append, List.mem_cons, List.not_mem_nil, or_false, Prod.mk.injEq]
  rintro (h3 | ⟨-, h3⟩ | ⟨h3, -⟩ | ⟨h3, -⟩)
  · exact h0 h3
  · exact h1 info hi (List.append_cancel_right h3).symm
  · exact absurd h3 (by decide)
  · exact absurd h3 (by decide)

/-! ## The exchanges of a data set -/

/-- The exchanges stay in their order, each with its own result, and the files saved for each remain. -/
theorem all_exact {env : Env K} : ∀ {xs : List (Exch K)} {s s' : St K} {ys : List (Exch K × Option Report)},
    convertAll env s xs = .ok (ys, s') → ys.length = xs.length ∧ (∃ l, s'.saved = s.saved ++ l) ∧
      ∀ (i : Nat) (x : Exch K), xs[i]? = some x → ∃ y r s1 s2 l, ys[i]? = some (y, r) ∧ convert env s1 x = .ok (y, s2, r) ∧
        s'.saved = s2.saved ++ l
  | [], s, s', ys, h => by
    cases h
    exact ⟨rfl, ⟨[], by simp⟩, by simp⟩
  | x :: xs, s, s', ys, h => by
    unfold convertAll at h
    obtain ⟨⟨y, s1, r⟩, h1, h⟩ := (bind_ok_iff _ _ _).1 h
    obtain ⟨⟨zs, s2⟩, h2, h⟩ := (bind_ok_iff _ _ _).1 h
    cases h
    obtain ⟨e1, ⟨l, e2⟩, e3⟩ := all_exact h2
    obtain ⟨l', e4⟩ := saved_grows h1
    refine ⟨by simp [e1], ⟨l' ++ l, by rw [e2, e4, List.append_assoc]⟩, ?_⟩
    intro i z hz
    cases i with
    | zero =>
      cases hz
      exact ⟨y, r, s, s1, l, rfl, h1, e2⟩
    | succ i => exact e3 i z hz

/-- A single exchange that stops the conversion stops that of the data set, whatever comes before or after. -/
theorem one_stops_all {env : Env K} (x : Exch K) (hx : ∀ s z, convert env s x ≠ .ok z) (l r : List (Exch K)) (s : St K) :
    ∀ z, convertAll env s (l ++ x :: r) ≠ .ok z := by
  rintro ⟨ys, s'⟩ h
  obtain ⟨-, -, h1⟩ := all_exact h
  obtain ⟨y, rep, s1, s2, -, -, h2, -⟩ := h1 l.length x (by simp)
  exact hx _ _ h2

/-- In particular one exchange without a resulting amount. -/
theorem no_result_stops_all {env : Env K} (x : Exch K) (hg : given x.unitId = false) (hx : x.resulting = none)
    (l r : List (Exch K)) (s : St K) : ∀ z, convertAll env s (l ++ x :: r) ≠ .ok z :=
  one_stops_all x (fun s => no_result_stops env s x hg hx) l r s

/-- The flow of every exchange of the result is among the files saved at the end. -/
theorem all_flows_saved {env : Env K} {xs : List (Exch K)} {s s' : St K} {ys : List (Exch K × Option Report)}
    (h : convertAll env s xs = .ok (ys, s')) (i : Nat) (x y : Exch K) (r : Option Report) (hx : xs[i]? = some x)
    (hy : ys[i]? = some (y, r)) :
    (y.ref.uri = some (c!"../flows/" ++ y.ref.id ++ c!".xml") ∧ (c!"flows", y.ref.id ++ c!".xml") ∈ s'.saved) ∨
      (y.ref = x.ref ∧ ∃ (a : Archive) (path : Str), Leads a c!"flows/" y.ref path ∧ (c!"flows", Refs.lastSegment path) ∈ s'.saved) := by
  obtain ⟨-, -, h1⟩ := all_exact h
  obtain ⟨y', r', s1, s2, l, h2, h3, h4⟩ := h1 i x hx
  rw [hy] at h2
  cases h2
  rcases flow_saved h3 with ⟨h5, h6⟩ | ⟨h5, p, h6, h7⟩
  · exact .inl ⟨h5, by rw [h4]; simp [h6]⟩
  · exact .inr ⟨h5, s1.arch, p, h6, by rw [h4]; simp [h7]⟩

end

/-! ## A concrete archive -/

namespace Ex

def flt (s : Str) : Py ℚ :=
  if s = c!"1" then .ok 1 else if s = c!"0.5" then .ok (1/2) else if s = c!"3" then .ok 3 else if s = c!"4" then .ok 4
  else if s = c!"0.001" then .ok (1/1000) else .error .valueError

def ref (id : Str) (uri : Option Str) : FRef := ⟨id, uri, none⟩

def arch (p : Str) : Option File :=
  if p = c!"flows/f.xml" then some (.flow true c!"0" [⟨c!"0", ref c!"energy" none, c!"1"⟩, ⟨c!"1", ref c!"mass" none, c!"0.5"⟩] (some c!"energy"))
  else if p = c!"flowproperties/energy.xml" then some (.property true (ref c!"ue" none))
  else if p = c!"flowproperties/mass.xml" then some (.property false (ref c!"um" none))
  else if p = c!"unitgroups/ue.xml" then some (.group true c!"1" [⟨c!"0", some c!"kj", c!"kJ", c!"0.001"⟩, ⟨c!"1", some c!"mj", c!"mj", c!"1"⟩])
  else if p = c!"unitgroups/um.xml" then some (.group true c!"0" [⟨c!"0", some c!"kg", c!"kg", c!"1"⟩, ⟨c!"1", some c!"g", c!"g", c!"0.001"⟩])
  else none

def row (src tgt : Str) : Row := ⟨c!"A", c!"t", c!"target", c!"3", src, tgt⟩

def env (rows : List (Str × Row)) : Env ℚ := ⟨flt, rows, fun _ _ => some (.property true (ref [] none))⟩

def st : St ℚ := ⟨[⟨c!"v", some c!"2*w", none, ⟨none, none, none, none⟩⟩], arch, []⟩

def noUnc : Unc ℚ := ⟨none, none, none, none⟩

def exch (unc : Unc ℚ) (var : Option Str) : Exch ℚ :=
  ⟨ref c!"f" none, .one c!"source", none, none, none, some (.text c!"4"), some (.text c!"4"), unc, var⟩

def units : Units ℚ := ⟨[], [(c!"mj", 1)], [(c!"kg", 1/2)]⟩

theorem read (rows : List (Str × Row)) (vars : List (Var ℚ)) (saved : List (Str × Str)) (unc : Unc ℚ) (var : Option Str) :
    Read (env rows) ⟨vars, arch, saved⟩ (exch unc var) units 4 c!"mj" c!"mj" :=
  (read_iff ..).2 ⟨c!"flows/f.xml", by rfl, by rfl, by rfl⟩

theorem mapped (src tgt : Str) (unc : Unc ℚ) (var : Option Str) :
    Mapped (env [(c!"f", row src tgt)]) (exch unc var) (row src tgt) := ⟨rfl, by show c!"A" ≠ _; decide, by show c!"A" ≠ _; decide⟩

/-- From the unit of the row, and from another unit of the flow. -/
theorem rate_source : Rate flt units (row c!"mj" c!"kg") c!"mj" 3 :=
  ⟨3, .inr ⟨⟨by decide, by decide⟩, rfl⟩, .inl ⟨rfl, rfl⟩⟩

theorem rate_second : Rate flt units (row c!"kg" c!"m3") c!"mj" (3 * (1/2)) :=
  ⟨3, .inr ⟨⟨by decide, by decide⟩, rfl⟩, .inr ⟨by decide, 1/2, ⟨[], [], rfl, by simp⟩, rfl⟩⟩

structure Result where
  id : Str
  resulting : Option (Num ℚ)
  unc : Unc ℚ
  var : Option Str
  vars : List (Var ℚ)
  report : Option Report
  deriving DecidableEq

def result (z : Py (Exch ℚ × St ℚ × Option Report)) : Option Result :=
  match z with
  | .ok (y, s, r) => some ⟨y.ref.id, y.resulting, y.unc, y.var, s.vars, r⟩
  | .error _ => none

/-- The hypotheses of `amount_scaled`, `bounds_scaled`, `variable_exact`, `variable_used_twice` and `factor_added`. -/
example : result (convert (env [(c!"f", row c!"mj" c!"kg")]) st
      (exch ⟨some c!"uniform", none, some (.text c!"3"), some (.text c!"4")⟩ (some c!"v"))) =
    some ⟨c!"t", some (.num 12), ⟨some c!"uniform", none, some (.num 9), some (.num 12)⟩, some c!"v_from_mj_to_kg",
      [⟨c!"v_from_mj_to_kg", some c!"(2*w)*__mj_to_kg__", some (.num 4), noUnc⟩, ⟨c!"__mj_to_kg__", none, some (.num 3), noUnc⟩],
      none⟩ := by decide +kernel

example : result (convert (env [(c!"f", row c!"kg" c!"m3")]) st (exch noUnc none)) =
    some ⟨c!"t", some (.num 6), noUnc, none, st.vars, none⟩ := by decide +kernel

/-- `normal_halved`, `normal_wrong` -/
example : result (convert (env [(c!"f", row c!"mj" c!"kg")]) st (exch ⟨some c!"normal", some (.text c!"1"), none, none⟩ none)) =
    some ⟨c!"t", some (.num 12), ⟨some c!"normal", some (.num (3/2)), some (.num (21/2)), some (.num (27/2))⟩, none, st.vars, none⟩ := by
  decide +kernel

/-- `undefined_mixed`: 3 to 4 with 1 becomes 15/2 to 81/4, not 9 to 12. -/
example : result (convert (env [(c!"f", row c!"mj" c!"kg")]) st
      (exch ⟨some c!"undefined", some (.text c!"1"), some (.text c!"3"), some (.text c!"4")⟩ none)) =
    some ⟨c!"t", some (.num 12), ⟨some c!"undefined", some (.num 3), some (.num (15/2)), some (.num (81/4))⟩, none, st.vars, none⟩ := by
  decide +kernel

/-- `others_unscaled`, `others_wrong` -/
example : result (convert (env [(c!"f", row c!"mj" c!"kg")]) st
      (exch ⟨some c!"lognormal", none, some (.text c!"3"), some (.text c!"4")⟩ none)) =
    some ⟨c!"t", some (.num 12), ⟨some c!"lognormal", none, some (.text c!"3"), some (.text c!"4")⟩, none, st.vars, none⟩ := by
  decide +kernel

/-- `same_unit`: the factor 3 is dropped. -/
example : result (convert (env [(c!"f", row c!"kg" c!"mj")]) st (exch noUnc (some c!"v"))) =
    some ⟨c!"t", some (.num 4), noUnc, some c!"v", st.vars, none⟩ := by decide +kernel

/-- `no_unit_retargeted` -/
example : result (convert (env [(c!"f", row c!"m2" c!"m3")]) st (exch noUnc none)) =
    some ⟨c!"t", some (.text c!"4"), noUnc, none, st.vars, some .noUnit⟩ := by decide +kernel

/-- `no_match_kept` -/
example : result (convert (env [(c!"f", ⟨c!"NO MATCH", [], [], [], [], []⟩)]) st (exch noUnc (some c!"v"))) =
    some ⟨c!"f", some (.text c!"4"), noUnc, some c!"v", st.vars, some .noMatch⟩ := by decide +kernel

/-- `unmapped_silent`, `unmapped_file` -/
example : result (convert (env []) st (exch noUnc (some c!"v"))) =
    some ⟨c!"f", some (.num 4), noUnc, some c!"v", st.vars, none⟩ := by decide +kernel

/-- With the fields of openLCA: 4 kJ are read as 0.004, and still called kJ. -/
example : (getUri arch c!"flows/" (ref c!"f" none) >>= fun p => getUnit flt arch p (some c!"kj") >>= fun u =>
    amountOf flt { exch noUnc none with amount := some (.text c!"4"), unitId := some c!"kj" } u) =
    .ok (4 * (1/1000), c!"kJ", c!"mj") := by rfl

/-- `no_result_stops`, `texts_stop` -/
example : result (convert (env [(c!"f", row c!"mj" c!"kg")]) st { exch noUnc none with resulting := none }) = none ∧
    result (convert (env [(c!"f", row c!"mj" c!"kg")]) st { exch noUnc none with short := .many [c!"a", c!"b"] }) = none := by
  decide +kernel

/-- The second exchange with the same variable stops, the second with another one repeats the factor. -/
example : (match convertAll (env [(c!"f", row c!"mj" c!"kg")]) st [exch noUnc (some c!"v"), exch noUnc (some c!"v")] with
    | .ok _ => true | .error _ => false) = false := by decide +kernel

example : (match convertAll (env [(c!"f", row c!"mj" c!"kg")])
      { st with vars := st.vars ++ [⟨c!"w", some c!"5", none, noUnc⟩] } [exch noUnc (some c!"v"), exch noUnc (some c!"w")] with
    | .ok (_, s) => s.vars.map (·.name) | .error _ => []) =
    [c!"v_from_mj_to_kg", c!"w_from_mj_to_kg", c!"__mj_to_kg__", c!"__mj_to_kg__"] := by decide +kernel

/-- A flow with a property that is proper in the sense of `units_exact`. -/
example : Well flt arch none ⟨c!"1", ref c!"mass" none, c!"0.5"⟩ c!"kg" (1/2) [] :=
  ⟨c!"flowproperties/mass.xml", c!"unitgroups/um.xml", false, ref c!"um" none, _, c!"0", (getUri_iff ..).1 (by rfl), rfl,
    (getUri_iff ..).1 (by rfl), rfl, by decide, rfl, ⟨[], _, [⟨c!"1", some c!"g", c!"g", c!"0.001"⟩], rfl, rfl, rfl, by simp⟩, fun _ => rfl, fun h => by cases h⟩

example : ¬ Identifier (factorName c!"m2" c!"m2*a") := by
  rw [factor_identifier_iff]
  rintro ⟨-, h⟩
  have := h '*' (by decide)
  revert this
  decide

end Ex

/-! ## Further details -/

/-- Whatever is wrong in a unit group with a prefix, the error is that of the missing field without a prefix. -/
theorem group_error (flt : Str → Py K) (olca : Option Str) (main : Bool) (mv : Str) (u : Units K) (ref : Str)
    (us : List GUnit) (e : PyErr) (h : groupUnits flt olca main mv u (.group true ref us) = .error e) :
    e = .keyError := by
  unfold groupUnits at h
  simp only at h
  split at h
  · exact (Except.error.inj h).symm
  · exact (Except.error.inj h).symm
  · split at h
    · cases h
    · exact (Except.error.inj h).symm

/-- Only the spelling of kBq is changed. -/
theorem lowBq_spelling (s b : Str) : (¬ c!"kBq" <:+: s → lowBq s = s) ∧
    (¬ c!"kBq" <:+: b → lowBq (c!"kBq" ++ b) = c!"kbq" ++ b) := by
  have none : ∀ s : Str, ¬ c!"kBq" <:+: s → lowBq s = s := by
    intro s h
    refine IlcdVars.replaceAux_none ?_
    rintro ⟨a, b, e⟩
    exact h ⟨a, b, e.symm⟩
  refine ⟨none s, fun h => ?_⟩
  have : lowBq (c!"kBq" ++ b) = c!"kbq" ++ lowBq b := by
    simp [lowBq, IlcdVars.replaceAll, IlcdVars.replaceAux, startsWith]
  rw [this, none b h]

example : lowBq c!"kBq" = c!"kbq" := (lowBq_spelling [] []).2 (by decide)

/-- The variable of an exchange whose unit is kept gets the name of the parameter in the exchange and in the list of
variables alike; its formula and its amount stay. -/
theorem kept_variable (vars vars' : List (Var K)) (n m : Str) : keepVar vars n = .ok (m, vars') ↔
    ∃ p v q, vars = p ++ v :: q ∧ v.name = n ∧ (∀ w ∈ p, w.name ≠ n) ∧ m = paramName n ∧
      vars' = p ++ { v with name := m } :: q := by
  unfold keepVar
  rw [bind_ok_iff]
  simp only [replaceVar_iff]
  constructor
  · rintro ⟨l, ⟨p, v, q, v', h1, h2, h3, h4, h5⟩, h6⟩
    cases h4; cases h6
    exact ⟨p, v, q, h1, h2, h3, rfl, h5⟩
  · rintro ⟨p, v, q, h1, h2, h3, rfl, h5⟩
    exact ⟨vars', ⟨p, v, q, _, h1, h2, h3, rfl, h5⟩, rfl⟩

/-- Capitals in the name of a unit do not matter, except in EUR and in items. -/
theorem unit_any_case (u k : Str) (hk : k = u.map Char.toLower) (h1 : u ≠ c!"EUR") (h2 : ¬ c!"Item" <:+: u) :
    lookupUnit u = k := by
  have : isInfix c!"Item" u = false := by
    cases h : isInfix c!"Item" u with
    | false => rfl
    | true =>
      obtain ⟨a, b, e⟩ := IlcdVars.isInfix_iff.1 h
      exact absurd ⟨a, b, e.symm⟩ h2
  rw [lookupUnit, if_pos ⟨h1, this⟩, hk]

theorem unit_exact_case (u : Str) (h : u = c!"EUR" ∨ c!"Item" <:+: u) : lookupUnit u = u := by
  rw [lookupUnit, if_neg]
  rintro ⟨h1, h2⟩
  rcases h with h | ⟨a, b, e⟩
  · exact h1 h
  · have := IlcdVars.isInfix_iff.2 ⟨a, b, e.symm⟩
    rw [this] at h2; cases h2

example : aget (lookupUnit c!"MJ") Units.olcaUnitToFp = aget (lookupUnit c!"mj") Units.olcaUnitToFp := by
  rw [unit_any_case c!"MJ" c!"mj" (by decide) (by decide) (by decide),
    unit_any_case c!"mj" c!"mj" (by decide) (by decide) (by decide)]

/-- The amount of openLCA is taken as given unless it is absent or empty; a zero is given. -/
theorem amountGiven_iff (x : Exch K) : amountGiven x = true ↔ ∃ v, x.amount = some v ∧ v ≠ .text [] := by
  unfold amountGiven
  cases x.amount with
  | none => simp
  | some v =>
    cases v with
    | text s => cases s <;> simp
    | num k => simp

/-- A flow property of openLCA without its unit group stops the conversion with a `KeyError`. -/
theorem no_group (a : Archive) (g : FRef) (h : ∀ p, ¬ Leads a c!"unitgroups/" g p) :
    groupUri a (.property true g) = .error .keyError := by
  unfold groupUri
  cases hu : getUri a c!"unitgroups/" g with
  | error e => simp only [hu]
  | ok p => exact absurd ((getUri_iff _ _ _ _).1 hu) (h p)

/-- A parameter that openLCA has named is renamed, in the exchange as in the list of parameters. -/
theorem parameter_renamed (d : Str) (hd : 't' ∉ d) (l r : List (Var K)) (v : Var K)
    (hv : v.name = c!"temp_olca_param" ++ d) (hl : ∀ w ∈ l, w.name ≠ v.name) :
    keepVar (l ++ v :: r) (c!"temp_olca_param" ++ d) =
      .ok (c!"p_" ++ d, l ++ { v with name := c!"p_" ++ d } :: r) := by
  have hm : ∀ d : Str, 't' ∉ d → IlcdVars.replaceAux c!"temp_olca_param" c!"p_" 0 d = d := by
    intro d
    induction d with
    | nil => intro _; rfl
    | cons c d ih =>
      intro h
      rw [IlcdVars.replaceAux_miss, ih fun hm => h (List.mem_cons_of_mem _ hm)]
      rintro ⟨s, hs⟩
      exact h (by rw [← (List.cons.inj hs).1]; simp)
  have hp : paramName (c!"temp_olca_param" ++ d) = c!"p_" ++ d := by
    unfold paramName IlcdVars.replaceAll
    rw [if_neg (by decide), IlcdVars.replaceAux_hit (by decide), hm d hd]
  have hr : ∀ (nm : Str) (l : List (Var K)), (∀ w ∈ l, w.name ≠ v.name) →
      replaceVar v.name (fun v => .ok { v with name := nm }) (l ++ v :: r) =
        .ok (l ++ { v with name := nm } :: r) := by
    intro nm l
    induction l with
    | nil => intro _; simp only [List.nil_append, replaceVar, if_true]; rfl
    | cons w l ih =>
      intro h
      have hw : w.name ≠ v.name := h w (by simp)
      have ih := ih fun x hx => h x (List.mem_cons_of_mem _ hx)
      simp only [List.cons_append, replaceVar, hw, if_false, ih]
      rfl
  unfold keepVar
  rw [hp, ← hv, hr _ l hl]
  rfl

example : 't' ∉ c!"12" := by decide

end Verif.IlcdList
