/-
Lemmas about the data sets of an archive: what is kept by every operation.
-/
import Verif.Spec.Archive
import Verif.Props.RefUnits
import Verif.Lemmas.Assoc

namespace Verif.Archive

open Verif Verif.Archive.Spec

/-! ### Flow properties and unit groups -/

/-- What holds of the folders of flow properties and unit groups. -/
structure UInv (u : RefUnits.St) : Prop where
  seen : ∀ id ∈ u.seenFp, id ∈ u.outFp
  group : ∀ id ∈ u.outFp, ∃ f, aget id RefUnits.fpFiles = some f ∧ f.group ∈ u.outUg

structure UGrows (u u' : RefUnits.St) : Prop where
  fp : ∀ x ∈ u.outFp, x ∈ u'.outFp
  ug : ∀ x ∈ u.outUg, x ∈ u'.outUg

theorem UGrows.refl (u : RefUnits.St) : UGrows u u := ⟨fun _ h => h, fun _ h => h⟩

theorem UGrows.trans {a b c : RefUnits.St} (h : UGrows a b) (h' : UGrows b c) : UGrows a c :=
  ⟨fun x hx => h'.fp x (h.fp x hx), fun x hx => h'.ug x (h.ug x hx)⟩

theorem make_units {k : Str} {w : Units.Ilcd} (hw : (k, w) ∈ Units.pintToIlcdFp) {u u' : RefUnits.St} (hi : UInv u)
    (h : RefUnits.makeDataset w.fp w.group u = .ok u') :
    UInv u' ∧ UGrows u u' ∧ ∀ x, x ∈ u'.outFp ↔ x ∈ u.outFp ∨ x = w.fp := by
  obtain ⟨f, hf, -, hfg, hg⟩ := RefUnits.row_file hw
  unfold RefUnits.makeDataset at h
  split at h
  · rename_i hs
    injection h with h
    subst h
    exact ⟨hi, .refl _, fun x => ⟨.inl, fun hx => hx.elim id fun e => e ▸ hi.seen _ hs⟩⟩
  · simp only [RefUnits.copyFile, hf, hg, bind, Except.bind, Option.isSome_some, if_true, Except.ok.injEq] at h
    subst h
    refine ⟨⟨?_, ?_⟩, ⟨fun x hx => by simp [hx], fun x hx => by simp [hx]⟩, by simp⟩
    · intro id hid
      simp only [List.mem_append, List.mem_singleton] at hid ⊢
      exact hid.imp_left (hi.seen _)
    · intro id hid
      simp only [List.mem_append, List.mem_singleton] at hid ⊢
      rcases hid with hid | rfl
      · obtain ⟨g, a, b⟩ := hi.group _ hid
        exact ⟨g, a, .inl b⟩
      · exact ⟨f, hf, .inr hfg⟩

theorem property_units {id : Str} {b : Bool} {u u' : RefUnits.St} {r : Option RefUnits.Ref} (hi : UInv u)
    (h : RefUnits.propertyRef id b u = .ok (r, u')) :
    UInv u' ∧ UGrows u u' ∧ (∀ x, x ∈ u'.outFp ↔ x ∈ u.outFp ∨
      b = true ∧ ∃ w, aget id Units.pintToIlcdFp = some w ∧ w.fp = x) ∧ ∀ x ∈ r.toList, x.id ∈ u'.outFp := by
  unfold RefUnits.propertyRef at h
  split at h
  · rename_i hn
    injection h with h
    injection h with h1 h2
    subst h1 h2
    exact ⟨hi, .refl _, by simp [hn], by simp⟩
  · rename_i w hw
    split at h
    · rename_i hb
      simp only [bind, Except.bind] at h
      split at h
      · cases h
      · rename_i p hp
        obtain ⟨r1, u1⟩ := p
        injection h with h
        injection h with h1 h2
        subst h1 h2
        obtain ⟨e, -, -, hm⟩ := RefUnits.refer_ref hp
        obtain ⟨a, g, o⟩ := make_units (aget_mem hw) hi hm
        refine ⟨a, g, fun x => ?_, ?_⟩
        · rw [o, hw]
          simp [hb, eq_comm]
        · intro x hx
          simp only [Option.toList_some, List.mem_singleton] at hx
          rw [hx, e, o]
          exact .inr rfl
    · rename_i hb
      injection h with h
      injection h with h1 h2
      subst h1 h2
      exact ⟨hi, .refl _, by simp [hb], by simp⟩

theorem unit_units {hash : Str → Str} {e : Option Str} {d : Str} {u u' : RefUnits.St} {r : RefUnits.Ref} (hi : UInv u)
    (h : RefUnits.unitProperty hash e d u = .ok (r, u')) :
    UInv u' ∧ UGrows u u' ∧ (∀ x, x ∈ u'.outFp ↔ x ∈ u.outFp ∨ AsksUnit hash e d x) ∧ r.id ∈ u'.outFp := by
  obtain ⟨k, w, hk, hw, hr⟩ := RefUnits.unitProperty_row h
  obtain ⟨e1, -, -, hm⟩ := RefUnits.refer_ref hr
  obtain ⟨a, g, o⟩ := make_units (aget_mem hw) hi hm
  refine ⟨a, g, fun x => ?_, by rw [e1, o]; exact .inr rfl⟩
  rw [o]
  constructor
  · rintro (h | rfl)
    · exact .inl h
    · exact .inr ⟨k, w, hk, hw, rfl⟩
  · rintro (h | ⟨k', w', hk', hw', rfl⟩)
    · exact .inl h
    · rw [hk] at hk'
      injection hk' with hk'
      subst hk'
      rw [hw] at hw'
      injection hw' with hw'
      exact .inr (by rw [hw'])

theorem properties_units {ps : List Property} {u u' : RefUnits.St} {fp : List (Str × Str)} (hi : UInv u)
    (h : properties ps u = .ok (fp, u')) :
    UInv u' ∧ UGrows u u' ∧ (∀ x, x ∈ u'.outFp ↔ x ∈ u.outFp ∨ AsksProps ps x) ∧ ∀ x ∈ fp, x.1 ∈ u'.outFp := by
  induction ps generalizing u fp with
  | nil =>
    unfold properties at h
    injection h with h
    injection h with h1 h2
    subst h1 h2
    exact ⟨hi, .refl _, by simp [AsksProps], by simp⟩
  | cons p l ih =>
    unfold properties at h
    simp only [bind, Except.bind] at h
    split at h
    · cases h
    · rename_i q hq
      obtain ⟨r, u1⟩ := q
      simp only at h
      split at h
      · cases h
      · rename_i q2 hq2
        obtain ⟨rs, u2⟩ := q2
        injection h with h
        injection h with h1 h2
        subst h1 h2
        obtain ⟨i1, g1, o1, l1⟩ := property_units hi hq
        obtain ⟨i2, g2, o2, l2⟩ := ih i1 hq2
        refine ⟨i2, g1.trans g2, fun x => ?_, ?_⟩
        · rw [o2, o1]
          unfold AsksProps
          simp only [List.mem_cons, exists_eq_or_imp]
          exact or_assoc
        · intro x hx
          rcases List.mem_append.1 hx with hx | hx
          · split at hx
            · obtain ⟨y, hy, rfl⟩ := List.mem_map.1 hx
              exact g2.fp _ (l1 y hy)
            · simp at hx
          · exact l2 x hx

theorem flowProperties_units {env : Env} {e : Option Str} {d : Str} {ps : List Property} {u u' : RefUnits.St}
    {fp : List (Str × Str)} (hi : UInv u) (h : flowProperties env e d ps u = .ok (fp, u')) :
    UInv u' ∧ UGrows u u' ∧ (∀ x, x ∈ u'.outFp ↔ x ∈ u.outFp ∨ (AsksProps ps x ∨ AsksUnit env.hash e d x)) ∧
      ∀ x ∈ fp, x.1 ∈ u'.outFp := by
  unfold flowProperties at h
  simp only [bind, Except.bind] at h
  split at h
  · cases h
  · rename_i q hq
    obtain ⟨rs, u1⟩ := q
    simp only at h
    split at h
    · cases h
    · rename_i q2 hq2
      obtain ⟨r, u2⟩ := q2
      injection h with h
      injection h with h1 h2
      subst h1 h2
      obtain ⟨i1, g1, o1, l1⟩ := properties_units hi hq
      obtain ⟨i2, g2, o2, l2⟩ := unit_units i1 hq2
      refine ⟨i2, g1.trans g2, fun x => by rw [o2, o1, or_assoc], ?_⟩
      intro x hx
      rcases List.mem_cons.1 hx with rfl | hx
      · exact l2
      · exact g2.fp _ (l1 x hx)

/-! ### The other files -/

/-- What the name of a file says about the data set in it. -/
def keyRef (k : Kind × Str) : Ref := ⟨k.1, if k.1 = .flow then k.2.take 36 else k.2⟩

/-- A data set is in the archive. -/
def Has (s : St) (r : Ref) : Prop :=
  (∃ k ∈ s.files.map Prod.fst, keyRef k = r) ∨ (r.kind = .flowProperty ∧ r.id ∈ s.units.outFp) ∨
    (r.kind = .unitGroup ∧ r.id ∈ s.units.outUg)

/-- Archives only grow. -/
structure Grows (s s' : St) : Prop where
  files : ∀ k ∈ s.files.map Prod.fst, k ∈ s'.files.map Prod.fst
  units : UGrows s.units s'.units

theorem Grows.refl (s : St) : Grows s s := ⟨fun _ h => h, .refl _⟩

theorem Grows.trans {a b c : St} (h : Grows a b) (h' : Grows b c) : Grows a c :=
  ⟨fun x hx => h'.files x (h.files x hx), h.units.trans h'.units⟩

theorem Has.mono {s s' : St} {r : Ref} (h : Has s r) (g : Grows s s') : Has s' r := by
  rcases h with ⟨k, hk, e⟩ | ⟨h, h'⟩ | ⟨h, h'⟩
  · exact .inl ⟨k, g.files k hk, e⟩
  · exact .inr (.inl ⟨h, g.units.fp _ h'⟩)
  · exact .inr (.inr ⟨h, g.units.ug _ h'⟩)

theorem mem_aset {κ α : Type} [DecidableEq κ] {k : κ} {v : α} {d : List (κ × α)} {x : κ × α} (h : x ∈ aset k v d) :
    x ∈ d ∨ x = (k, v) := by
  induction d with
  | nil => simp [aset] at h; exact .inr h
  | cons p d ih =>
    unfold aset at h
    split at h
    · rcases List.mem_cons.1 h with h | h
      · exact .inr h
      · exact .inl (by simp [h])
    · rcases List.mem_cons.1 h with h | h
      · exact .inl (by simp [h])
      · exact (ih h).imp_left (by simp +contextual)

theorem key_aset {κ α : Type} [DecidableEq κ] (k : κ) (v : α) (d : List (κ × α)) (x : κ) :
    x ∈ (aset k v d).map Prod.fst ↔ x ∈ d.map Prod.fst ∨ x = k := by
  rw [aset_keys]
  split
  · rename_i h
    exact ⟨.inl, fun h' => h'.elim id fun e => e ▸ h⟩
  · simp

/-- What a file of the folders holds: references that lead somewhere, or a copy of an elementary flow. -/
def Good (env : Env) (T : Str → Prop) (s : St) (k : Kind × Str) (f : File) : Prop :=
  (∀ r ∈ f.refs, Has s r) ∨ ∃ e, env.elem f.id = some e ∧ T f.id ∧ k = (.flow, f.id) ∧ f.refs = e.refs f.id

/-- What holds throughout. `T` are the elementary flows of the conversion. -/
structure Inv (env : Env) (T : Str → Prop) (s : St) : Prop where
  units : UInv s.units
  named : ∀ p ∈ s.files, Ref.mk p.2.kind p.2.id = keyRef p.1
  nodup : (s.files.map Prod.fst).Nodup
  kinds : ∀ k ∈ s.files.map Prod.fst, k.1 ≠ .flowProperty
  defaults : ∀ f ∈ defaultFiles, Has s ⟨f.kind, f.id⟩
  sources : ∀ id ∈ s.sources, Has s ⟨.source, id⟩
  contacts : ∀ id ∈ s.contacts, Has s ⟨.contact, id⟩
  values : ∀ fid vs id, aget fid s.values = some vs → env.conv fid = .ok id → Has s ⟨.flow, id⟩
  refs : ∀ r ∈ s.refs, Has s r
  processes : ∀ p ∈ s.processes, ∀ r ∈ p.2, Has s r
  good : ∀ p ∈ s.files, Good env T s p.1 p.2

theorem Good.mono {env : Env} {T : Str → Prop} {s s' : St} {k : Kind × Str} {f : File} (h : Good env T s k f)
    (g : Grows s s') : Good env T s' k f :=
  h.imp_left fun h r hr => (h r hr).mono g

theorem has_format {env : Env} {T : Str → Prop} {s : St} (h : Inv env T s) : Has s ⟨.source, ilcdFormat⟩ :=
  h.defaults ⟨.source, ilcdFormat, [⟨.contact, c!"d0d5f8bb-9311-49d1-9e30-2f20a6977f4f"⟩, ⟨.source, ilcdFormat⟩,
    ⟨.source, ilcdFormat⟩]⟩ (by simp [defaultFiles])

theorem start_inv (env : Env) (T : Str → Prop) : Inv env T St.start where
  units := ⟨by simp [St.start, RefUnits.St.start], by simp [St.start, RefUnits.St.start]⟩
  named := by
    intro p hp
    have : ((St.start).files.all fun p => Ref.mk p.2.kind p.2.id = keyRef p.1) = true := by decide +kernel
    simpa using List.all_eq_true.1 this _ hp
  nodup := by decide +kernel
  kinds := by decide +kernel
  defaults := by
    intro f hf
    refine .inl ⟨(f.kind, f.id), ?_, ?_⟩
    · simp only [St.start, List.map_map, List.mem_map]
      exact ⟨f, hf, rfl⟩
    · have : (defaultFiles.all fun f => keyRef (f.kind, f.id) = ⟨f.kind, f.id⟩) = true := by decide +kernel
      simpa using List.all_eq_true.1 this _ hf
  sources := by simp [St.start]
  contacts := by simp [St.start]
  values := by simp [St.start, aget]
  refs := by simp [St.start]
  processes := by simp [St.start]
  good := by
    intro p hp
    refine .inl fun r hr => .inl ?_
    have : ((St.start).files.all fun p => p.2.refs.all fun r =>
      (St.start.files.map Prod.fst).any fun k => keyRef k = r) = true := by decide +kernel
    simpa using List.all_eq_true.1 (List.all_eq_true.1 this _ hp) _ hr

/-- One file more, or written anew. -/
theorem Inv.put {env : Env} {T : Str → Prop} {s : St} (h : Inv env T s) {k : Kind × Str} {f : File}
    (hk : Ref.mk f.kind f.id = keyRef k) (hkk : k.1 ≠ .flowProperty) (hf : Good env T { s with files := aset k f s.files } k f) :
    Inv env T { s with files := aset k f s.files } := by
  have g : Grows s { s with files := aset k f s.files } := ⟨fun x hx => by rw [key_aset]; exact .inl hx, .refl _⟩
  exact
    { units := h.units
      named := fun p hp => (mem_aset hp).elim (h.named p) (by rintro rfl; exact hk)
      nodup := aset_nodup h.nodup
      kinds := fun x hx => ((key_aset _ _ _ _).1 hx).elim (h.kinds x) (by rintro rfl; exact hkk)
      defaults := fun f hf => (h.defaults f hf).mono g
      sources := fun i hi => (h.sources i hi).mono g
      contacts := fun i hi => (h.contacts i hi).mono g
      values := fun a b c d e => (h.values a b c d e).mono g
      refs := fun r hr => (h.refs r hr).mono g
      processes := fun p hp r hr => (h.processes p hp r hr).mono g
      good := fun p hp => (mem_aset hp).elim (fun hp => (h.good p hp).mono g) (by rintro rfl; exact hf) }

theorem grows_put (s : St) (k : Kind × Str) (f : File) : Grows s { s with files := aset k f s.files } :=
  ⟨fun x hx => by rw [key_aset]; exact .inl hx, .refl _⟩

/-- The folders of flow properties and unit groups after more has been copied. -/
theorem Inv.more {env : Env} {T : Str → Prop} {s : St} (h : Inv env T s) {u : RefUnits.St} (hu : UInv u)
    (g : UGrows s.units u) : Inv env T { s with units := u } := by
  have g : Grows s { s with units := u } := ⟨fun _ hx => hx, g⟩
  exact
    { units := hu
      named := h.named
      nodup := h.nodup
      kinds := h.kinds
      defaults := fun f hf => (h.defaults f hf).mono g
      sources := fun i hi => (h.sources i hi).mono g
      contacts := fun i hi => (h.contacts i hi).mono g
      values := fun a b c d e => (h.values a b c d e).mono g
      refs := fun r hr => (h.refs r hr).mono g
      processes := fun p hp r hr => (h.processes p hp r hr).mono g
      good := fun p hp => (h.good p hp).mono g }

/-- The parts that do not bear on what is in the archive. -/
theorem Inv.change {env : Env} {T : Str → Prop} {s : St} (h : Inv env T s) {so co : List Str} {va} {re : List Ref} {pr}
    (h1 : ∀ id ∈ so, Has s ⟨.source, id⟩) (h2 : ∀ id ∈ co, Has s ⟨.contact, id⟩)
    (h3 : ∀ fid vs id, aget fid va = some vs → env.conv fid = .ok id → Has s ⟨.flow, id⟩) (h4 : ∀ r ∈ re, Has s r)
    (h5 : ∀ p ∈ pr, ∀ r ∈ p.2, Has s r) : Inv env T ⟨s.units, s.files, so, co, va, re, pr⟩ :=
  { units := h.units, named := h.named, nodup := h.nodup, kinds := h.kinds, defaults := h.defaults, sources := h1, contacts := h2,
    values := h3, refs := h4, processes := h5, good := h.good }

theorem has_put (s : St) {k : Kind × Str} {f : File} {r : Ref} (hk : keyRef k = r) :
    Has { s with files := aset k f s.files } r :=
  .inl ⟨k, by rw [key_aset]; exact .inr rfl, hk⟩

theorem makeSource_inv {env : Env} {T : Str → Prop} {s : St} (h : Inv env T s) (id : Str) :
    Inv env T (makeSource id s) ∧ Grows s (makeSource id s) := by
  unfold makeSource
  split
  · rename_i hs
    refine ⟨h.change h.sources h.contacts h.values ?_ h.processes, ⟨fun _ h => h, .refl _⟩⟩
    intro r hr
    rcases List.mem_append.1 hr with hr | hr
    · exact h.refs r hr
    · simp at hr; rw [hr]; exact h.sources _ hs
  · have hk : keyRef (.source, id) = ⟨.source, id⟩ := by simp [keyRef]
    have g := grows_put s (.source, id) ⟨.source, id, [⟨.source, ilcdFormat⟩]⟩
    have hp : Has _ ⟨.source, id⟩ := has_put s (f := ⟨.source, id, [⟨.source, ilcdFormat⟩]⟩) hk
    have hi := h.put (k := (.source, id)) (f := ⟨.source, id, [⟨.source, ilcdFormat⟩]⟩) hk.symm
      (by simp) (.inl fun r hr => by simp at hr; rw [hr]; exact (has_format h).mono g)
    refine ⟨hi.change ?_ hi.contacts hi.values ?_ hi.processes, ⟨g.files, g.units⟩⟩
    · intro i hi'
      rcases List.mem_append.1 hi' with hi' | hi'
      · exact hi.sources i hi'
      · simp at hi'; rw [hi']; exact hp
    · intro r hr
      rcases List.mem_append.1 hr with hr | hr
      · exact hi.refs r hr
      · simp at hr; rw [hr]; exact hp

theorem makeContact_inv {env : Env} {T : Str → Prop} {s : St} (h : Inv env T s) (id : Str) :
    Inv env T (makeContact id s) ∧ Grows s (makeContact id s) := by
  unfold makeContact
  split
  · rename_i hs
    refine ⟨h.change h.sources h.contacts h.values ?_ h.processes, ⟨fun _ h => h, .refl _⟩⟩
    intro r hr
    rcases List.mem_append.1 hr with hr | hr
    · exact h.refs r hr
    · simp at hr; rw [hr]; exact h.contacts _ hs
  · have hk : keyRef (.contact, id) = ⟨.contact, id⟩ := by simp [keyRef]
    have g := grows_put s (.contact, id) ⟨.contact, id, [⟨.source, ilcdFormat⟩]⟩
    have hp : Has _ ⟨.contact, id⟩ := has_put s (f := ⟨.contact, id, [⟨.source, ilcdFormat⟩]⟩) hk
    have hi := h.put (k := (.contact, id)) (f := ⟨.contact, id, [⟨.source, ilcdFormat⟩]⟩) hk.symm
      (by simp) (.inl fun r hr => by simp at hr; rw [hr]; exact (has_format h).mono g)
    refine ⟨hi.change hi.sources ?_ hi.values ?_ hi.processes, ⟨g.files, g.units⟩⟩
    · intro i hi'
      rcases List.mem_append.1 hi' with hi' | hi'
      · exact hi.contacts i hi'
      · simp at hi'; rw [hi']; exact hp
    · intro r hr
      rcases List.mem_append.1 hr with hr | hr
      · exact hi.refs r hr
      · simp at hr; rw [hr]; exact hp

theorem sendFlow_inv {env : Env} {T : Str → Prop} {s : St} (h : Inv env T s) {id : Str} (hid : id.length = 36) (n : Nat)
    {fp : List (Str × Str)} (hfp : ∀ x ∈ fp, x.1 ∈ s.units.outFp) :
    Inv env T (sendFlow id n fp s) ∧ Grows s (sendFlow id n fp s) ∧ Has (sendFlow id n fp s) ⟨.flow, id⟩ := by
  have hk : keyRef (.flow, id ++ c!"_" ++ FlowFiles.versionText n) = ⟨.flow, id⟩ := by
    simp [keyRef, ← hid]
  have g := grows_put s (.flow, id ++ c!"_" ++ FlowFiles.versionText n)
    ⟨.flow, id, ⟨.source, ilcdFormat⟩ :: fp.map fun p => ⟨.flowProperty, p.1⟩⟩
  refine ⟨h.put hk.symm (by simp) (.inl ?_), g, has_put s hk⟩
  intro r hr
  rcases List.mem_cons.1 hr with rfl | hr
  · exact (has_format h).mono g
  · obtain ⟨p, hp, rfl⟩ := List.mem_map.1 hr
    exact .inr (.inl ⟨rfl, hfp p hp⟩)

theorem writeFlow_inv {env : Env} {T : Str → Prop} {s : St} (h : Inv env T s) {fid id : Str}
    (hc : env.conv fid = .ok id) (hid : id.length = 36) {fp : List (Str × Str)} (hfp : ∀ x ∈ fp, x.1 ∈ s.units.outFp) :
    Inv env T (writeFlow fid id fp s) ∧ Grows s (writeFlow fid id fp s) ∧ Has (writeFlow fid id fp s) ⟨.flow, id⟩ := by
  have key : ∀ (n : Nat) (vs : List (Nat × List (Str × Str))),
      Inv env T (sendFlow id n fp { s with values := aset fid vs s.values }) ∧
        Grows s (sendFlow id n fp { s with values := aset fid vs s.values }) ∧
        Has (sendFlow id n fp { s with values := aset fid vs s.values }) ⟨.flow, id⟩ := by
    intro n vs
    obtain ⟨a, b, c⟩ := sendFlow_inv h hid n hfp
    refine ⟨a.change (va := aset fid vs s.values) a.sources a.contacts ?_ a.refs a.processes, ⟨b.files, b.units⟩, c⟩
    intro f v i hf hi
    rw [aget_aset] at hf
    split at hf
    · rename_i e
      rw [e, hc] at hi
      injection hi with hi
      rw [← hi]
      exact c
    · exact a.values f v i hf hi
  unfold writeFlow
  split
  · exact key 1 _
  · rename_i vs hv
    split
    · exact ⟨h, .refl _, h.values _ _ _ hv hc⟩
    · exact key _ _

theorem step_inv {env : Env} (hr : Real env) {T : Str → Prop} {s s' : St} (h : Inv env T s) {o : Op}
    (ho : ∀ t e d ps, o = .elementary t e d ps → T t) (hs : step env s o = .ok s') : Inv env T s' ∧ Grows s s' := by
  cases o with
  | source id =>
    injection hs with hs
    subst hs
    exact makeSource_inv h id
  | contact id =>
    injection hs with hs
    subst hs
    exact makeContact_inv h id
  | product fid e d ps =>
    simp only [step, product, bind, Except.bind] at hs
    split at hs
    · cases hs
    · rename_i q hq
      obtain ⟨fp, u⟩ := q
      simp only at hs
      split at hs
      · cases hs
      · rename_i id hid
        injection hs with hs
        subst hs
        obtain ⟨i1, g1, -, l1⟩ := flowProperties_units h.units hq
        have h1 := h.more i1 g1
        obtain ⟨a, b, c⟩ := writeFlow_inv h1 hid (hr.conv _ _ hid) l1
        refine ⟨a.change a.sources a.contacts a.values ?_ a.processes, ⟨b.files, g1.trans b.units⟩⟩
        intro r hr
        rcases List.mem_append.1 hr with hr | hr
        · exact a.refs r hr
        · simp at hr; rw [hr]; exact c
  | elementary t e d ps =>
    simp only [step, elementary, bind, Except.bind] at hs
    split at hs
    · cases hs
    · rename_i q hq
      obtain ⟨fp, u⟩ := q
      simp only at hs
      split at hs
      · cases hs
      · rename_i f hf
        injection hs with hs
        subst hs
        obtain ⟨i1, g1, -, -⟩ := flowProperties_units h.units hq
        have h1 := h.more i1 g1
        have hk : keyRef (.flow, t) = ⟨.flow, t⟩ := by
          simp [keyRef, ← hr.elem _ _ hf]
        have g2 := grows_put { s with units := u } (.flow, t) ⟨.flow, t, f.refs t⟩
        have h2 := h1.put (k := (.flow, t)) (f := ⟨.flow, t, f.refs t⟩) hk.symm (by simp) (.inr ⟨f, hf, ho _ _ _ _ rfl, rfl, rfl⟩)
        refine ⟨h2.change h2.sources h2.contacts h2.values ?_ h2.processes,
          ⟨g2.files, g1.trans g2.units⟩⟩
        intro r hr
        rcases List.mem_append.1 hr with hr | hr
        · exact h2.refs r hr
        · simp at hr; rw [hr]; exact has_put { s with units := u } hk
  | unmapped ps =>
    simp only [step, bind, Except.bind] at hs
    split at hs
    · cases hs
    · rename_i q hq
      obtain ⟨fp, u⟩ := q
      injection hs with hs
      subst hs
      obtain ⟨i1, g1, -, -⟩ := properties_units h.units hq
      exact ⟨h.more i1 g1, ⟨fun _ h => h, g1⟩⟩

theorem steps_inv {env : Env} (hr : Real env) {T : Str → Prop} {l : List Op} {s s' : St} (h : Inv env T s)
    (ho : ∀ t e d ps, Op.elementary t e d ps ∈ l → T t) (hs : steps env l s = .ok s') : Inv env T s' ∧ Grows s s' := by
  induction l generalizing s with
  | nil =>
    injection hs with hs
    subst hs
    exact ⟨h, .refl _⟩
  | cons o l ih =>
    simp only [steps, bind, Except.bind] at hs
    split at hs
    · cases hs
    · rename_i s1 h1
      obtain ⟨i1, g1⟩ := step_inv hr h (fun t e d ps he => ho t e d ps (by simp [he])) h1
      obtain ⟨i2, g2⟩ := ih i1 (fun t e d ps he => ho t e d ps (by simp [he])) hs
      exact ⟨i2, g1.trans g2⟩

/-- The state in which the operations of a data set begin. -/
def begin' (s : St) : St := { s with refs := [⟨.source, ilcdFormat⟩, ⟨.source, ecospoldFormat⟩], values := [] }

theorem begin_inv {env : Env} {T : Str → Prop} {s : St} (h : Inv env T s) : Inv env T (begin' s) := by
  refine h.change h.sources h.contacts (by simp [aget]) ?_ h.processes
  intro r hr
  simp only [List.mem_cons, List.not_mem_nil, or_false] at hr
  rcases hr with rfl | rfl
  · exact has_format h
  · exact h.defaults ⟨.source, ecospoldFormat, [⟨.contact, c!"631b917e-eb39-4d0f-aae6-98c805513b2f"⟩,
      ⟨.source, ilcdFormat⟩]⟩ (by simp [defaultFiles])

/-- A data set, step by step. -/
theorem dataSet_steps {env : Env} {uuid : Str} {ops : List Op} {s s' : St} (hs : dataSet env uuid ops s = .ok s') :
    ∃ s1, steps env ops (makeSource (database env) (begin' s)) = .ok s1 ∧
      s' = { s1 with processes := aset uuid s1.refs s1.processes } := by
  simp only [dataSet, bind, Except.bind] at hs
  split at hs
  · cases hs
  · rename_i s1 h1
    injection hs with hs
    exact ⟨s1, h1, hs.symm⟩

theorem dataSet_inv {env : Env} (hr : Real env) {T : Str → Prop} {uuid : Str} {ops : List Op} {s s' : St}
    (h : Inv env T s) (ho : ∀ t e d ps, Op.elementary t e d ps ∈ ops → T t) (hs : dataSet env uuid ops s = .ok s') :
    Inv env T s' ∧ Grows s s' := by
  obtain ⟨s1, h1, rfl⟩ := dataSet_steps hs
  obtain ⟨i1, g1⟩ := makeSource_inv (begin_inv h) (database env)
  obtain ⟨i2, g2⟩ := steps_inv hr i1 ho h1
  refine ⟨i2.change i2.sources i2.contacts i2.values i2.refs ?_,
    ⟨fun k hk => g2.files k (g1.files k hk), g1.units.trans g2.units⟩⟩
  intro p hp r hr
  rcases mem_aset hp with hp | rfl
  · exact i2.processes p hp r hr
  · exact i2.refs r hr

theorem archive_inv {env : Env} (hr : Real env) {T : Str → Prop} {l : List (Str × List Op)} {s s' : St}
    (h : Inv env T s) (ho : ∀ t, Target l t → T t) (hs : archive env l s = .ok s') : Inv env T s' ∧ Grows s s' := by
  induction l generalizing s with
  | nil =>
    injection hs with hs
    subst hs
    exact ⟨h, .refl _⟩
  | cons d l ih =>
    obtain ⟨uuid, ops⟩ := d
    simp only [archive, bind, Except.bind] at hs
    split at hs
    · cases hs
    · rename_i s1 h1
      obtain ⟨i1, g1⟩ := dataSet_inv hr h (fun t e d ps he => ho t ⟨e, d, ps, by simp [allOps, he]⟩) h1
      obtain ⟨i2, g2⟩ := ih i1 (fun t ⟨e, d, ps, he⟩ => ho t ⟨e, d, ps, by
        simp only [allOps, List.flatMap_cons, List.mem_append]; exact .inr he⟩) hs
      exact ⟨i2, g1.trans g2⟩

/-! ### What is in the archive exactly -/

/-- One operation: the flow properties copied. -/
theorem step_fp {env : Env} {s s' : St} {o : Op} (hu : UInv s.units) (hs : step env s o = .ok s') :
    ∀ x, x ∈ s'.units.outFp ↔ x ∈ s.units.outFp ∨ Asks env.hash x o := by
  intro x
  cases o with
  | source id =>
    injection hs with hs
    subst hs
    unfold makeSource
    split <;> simp [Asks]
  | contact id =>
    injection hs with hs
    subst hs
    unfold makeContact
    split <;> simp [Asks]
  | product fid e d ps =>
    simp only [step, product, bind, Except.bind] at hs
    split at hs
    · cases hs
    · rename_i q hq
      obtain ⟨fp, u⟩ := q
      simp only at hs
      split at hs
      · cases hs
      · injection hs with hs
        subst hs
        obtain ⟨-, -, o1, -⟩ := flowProperties_units hu hq
        have : ∀ id, (writeFlow fid id fp { s with units := u }).units = u := by
          intro id
          unfold writeFlow sendFlow
          split
          · rfl
          · split <;> rfl
        simp only [this, Asks]
        exact o1 x
  | elementary t e d ps =>
    simp only [step, elementary, bind, Except.bind] at hs
    split at hs
    · cases hs
    · rename_i q hq
      obtain ⟨fp, u⟩ := q
      simp only at hs
      split at hs
      · cases hs
      · injection hs with hs
        subst hs
        obtain ⟨-, -, o1, -⟩ := flowProperties_units hu hq
        exact o1 x
  | unmapped ps =>
    simp only [step, bind, Except.bind] at hs
    split at hs
    · cases hs
    · rename_i q hq
      obtain ⟨fp, u⟩ := q
      injection hs with hs
      subst hs
      obtain ⟨-, -, o1, -⟩ := properties_units hu hq
      exact o1 x

/-- One operation: the contacts. -/
theorem step_contact {env : Env} {T : Str → Prop} {s s' : St} {o : Op} (h : Inv env T s) (hs : step env s o = .ok s')
    (c : Str) : (Kind.contact, c) ∈ s'.files.map Prod.fst ↔ (Kind.contact, c) ∈ s.files.map Prod.fst ∨ o = .contact c := by
  cases o with
  | source id =>
    injection hs with hs
    subst hs
    unfold makeSource
    split <;> simp only [key_aset] <;> simp
  | contact id =>
    injection hs with hs
    subst hs
    unfold makeContact
    split
    · rename_i hc
      rcases h.contacts _ hc with ⟨k, hk, e⟩ | ⟨e, -⟩ | ⟨e, -⟩
      · have : k = (.contact, id) := by
          obtain ⟨a, b⟩ := k
          simp only [keyRef, Ref.mk.injEq] at e
          obtain ⟨rfl, e⟩ := e
          simpa using e
        subst this
        simp only [Op.contact.injEq]
        exact ⟨.inl, fun h => h.elim (fun h => h) fun e => e ▸ hk⟩
      · cases e
      · cases e
    · simp only [key_aset, Op.contact.injEq, Prod.mk.injEq, true_and]
      rw [eq_comm (a := c)]
  | product fid e d ps =>
    simp only [step, product, bind, Except.bind] at hs
    split at hs
    · cases hs
    · rename_i q hq
      obtain ⟨fp, u⟩ := q
      simp only at hs
      split at hs
      · cases hs
      · injection hs with hs
        subst hs
        unfold writeFlow sendFlow
        split
        · simp only [key_aset]; simp
        · split
          · simp
          · simp only [key_aset]; simp
  | elementary t e d ps =>
    simp only [step, elementary, bind, Except.bind] at hs
    split at hs
    · cases hs
    · rename_i q hq
      obtain ⟨fp, u⟩ := q
      simp only at hs
      split at hs
      · cases hs
      · injection hs with hs
        subst hs
        simp only [key_aset]; simp
  | unmapped ps =>
    simp only [step, bind, Except.bind] at hs
    split at hs
    · cases hs
    · injection hs with hs
      subst hs
      simp

/-- The elementary flow is in the archive as it is in the package. -/
def Copied (env : Env) (t : Str) (s : St) : Prop :=
  ∃ e, env.elem t = some e ∧ aget (Kind.flow, t) s.files = some ⟨.flow, t, e.refs t⟩

theorem version_ne {id t : Str} (hi : id.length = 36) (ht : t.length = 36) (n : Nat) :
    t ≠ id ++ c!"_" ++ FlowFiles.versionText n := by
  intro e
  have := congrArg List.length e
  simp only [List.length_append, List.length_cons, List.length_nil, hi, ht] at this
  omega

theorem step_copied {env : Env} (hr : Real env) {s s' : St} {o : Op} (hs : step env s o = .ok s') {t : Str}
    (h : Copied env t s ∨ ∃ e d ps, o = .elementary t e d ps) : Copied env t s' := by
  cases o with
  | source id =>
    injection hs with hs
    subst hs
    obtain ⟨e, h1, h2⟩ := h.resolve_right (by simp)
    refine ⟨e, h1, ?_⟩
    unfold makeSource
    split
    · exact h2
    · simp only [aget_aset]; simpa using h2
  | contact id =>
    injection hs with hs
    subst hs
    obtain ⟨e, h1, h2⟩ := h.resolve_right (by simp)
    refine ⟨e, h1, ?_⟩
    unfold makeContact
    split
    · exact h2
    · simp only [aget_aset]; simpa using h2
  | product fid en d ps =>
    obtain ⟨e, h1, h2⟩ := h.resolve_right (by simp)
    refine ⟨e, h1, ?_⟩
    simp only [step, product, bind, Except.bind] at hs
    split at hs
    · cases hs
    · rename_i q hq
      obtain ⟨fp, u⟩ := q
      simp only at hs
      split at hs
      · cases hs
      · rename_i id hid
        injection hs with hs
        subst hs
        have hne := fun n => version_ne (hr.conv _ _ hid) (hr.elem _ _ h1) n
        unfold writeFlow sendFlow
        split
        · simp only [aget_aset, Prod.mk.injEq, true_and, if_neg (hne _)]; exact h2
        · split
          · exact h2
          · simp only [aget_aset, Prod.mk.injEq, true_and, if_neg (hne _)]; exact h2
  | elementary t' en d ps =>
    simp only [step, elementary, bind, Except.bind] at hs
    split at hs
    · cases hs
    · rename_i q hq
      obtain ⟨fp, u⟩ := q
      simp only at hs
      split at hs
      · cases hs
      · rename_i f hf
        injection hs with hs
        subst hs
        by_cases ht : t = t'
        · subst ht
          exact ⟨f, hf, by simp⟩
        · obtain ⟨e, h1, h2⟩ := h.resolve_right (by rintro ⟨_, _, _, h⟩; injection h with h; exact ht h.symm)
          refine ⟨e, h1, ?_⟩
          simp only [aget_aset, Prod.mk.injEq, true_and, if_neg ht]
          exact h2
  | unmapped ps =>
    obtain ⟨e, h1, h2⟩ := h.resolve_right (by simp)
    refine ⟨e, h1, ?_⟩
    simp only [step, bind, Except.bind] at hs
    split at hs
    · cases hs
    · injection hs with hs
      subst hs
      exact h2

theorem steps_exact {env : Env} (hr : Real env) {T : Str → Prop} {l : List Op} {s s' : St} (h : Inv env T s)
    (ho : ∀ t e d ps, Op.elementary t e d ps ∈ l → T t) (hs : steps env l s = .ok s') :
    (∀ x, x ∈ s'.units.outFp ↔ x ∈ s.units.outFp ∨ ∃ o ∈ l, Asks env.hash x o) ∧
    (∀ c, (Kind.contact, c) ∈ s'.files.map Prod.fst ↔ (Kind.contact, c) ∈ s.files.map Prod.fst ∨ Op.contact c ∈ l) ∧
    ∀ t, (Copied env t s ∨ ∃ e d ps, Op.elementary t e d ps ∈ l) → Copied env t s' := by
  induction l generalizing s with
  | nil =>
    injection hs with hs
    subst hs
    simp
  | cons o l ih =>
    simp only [steps, bind, Except.bind] at hs
    split at hs
    · cases hs
    · rename_i s1 h1
      obtain ⟨i1, -⟩ := step_inv hr h (fun t e d ps he => ho t e d ps (by simp [he])) h1
      obtain ⟨a, b, c⟩ := ih i1 (fun t e d ps he => ho t e d ps (by simp [he])) hs
      refine ⟨fun x => ?_, fun x => ?_, fun t ht => c t ?_⟩
      · rw [a, step_fp h.units h1]
        simp only [List.mem_cons, exists_eq_or_imp, or_assoc]
      · rw [b, step_contact h h1]
        simp only [List.mem_cons, or_assoc, eq_comm (a := o)]
      · rcases ht with ht | ⟨e, d, ps, ht⟩
        · exact .inl (step_copied hr h1 (.inl ht))
        · rcases List.mem_cons.1 ht with ht | ht
          · exact .inl (step_copied hr h1 (.inr ⟨e, d, ps, ht.symm⟩))
          · exact .inr ⟨e, d, ps, ht⟩

theorem archive_exact {env : Env} (hr : Real env) {T : Str → Prop} {l : List (Str × List Op)} {s s' : St}
    (h : Inv env T s) (ho : ∀ t, Target l t → T t) (hs : archive env l s = .ok s') :
    (∀ x, x ∈ s'.units.outFp ↔ x ∈ s.units.outFp ∨ ∃ o ∈ allOps l, Asks env.hash x o) ∧
    (∀ c, (Kind.contact, c) ∈ s'.files.map Prod.fst ↔
      (Kind.contact, c) ∈ s.files.map Prod.fst ∨ Op.contact c ∈ allOps l) ∧
    ∀ t, (Copied env t s ∨ Target l t) → Copied env t s' := by
  induction l generalizing s with
  | nil =>
    injection hs with hs
    subst hs
    simp [allOps, Target]
  | cons d l ih =>
    obtain ⟨uuid, ops⟩ := d
    simp only [archive, bind, Except.bind] at hs
    split at hs
    · cases hs
    · rename_i s1 h1
      have ho1 : ∀ t e d ps, Op.elementary t e d ps ∈ ops → T t :=
        fun t e d ps he => ho t ⟨e, d, ps, by simp [allOps, he]⟩
      obtain ⟨i1, -⟩ := dataSet_inv hr h ho1 h1
      obtain ⟨a, b, c⟩ := ih i1 (fun t ⟨e, d, ps, he⟩ => ho t ⟨e, d, ps, by
        simp only [allOps, List.flatMap_cons, List.mem_append]; exact .inr he⟩) hs
      obtain ⟨s2, h2, rfl⟩ := dataSet_steps h1
      obtain ⟨i2, -⟩ := makeSource_inv (begin_inv h) (database env)
      obtain ⟨a2, b2, c2⟩ := steps_exact hr i2 ho1 h2
      have hall : ∀ o, o ∈ allOps ((uuid, ops) :: l) ↔ o ∈ ops ∨ o ∈ allOps l := by
        intro o
        simp only [allOps, List.flatMap_cons, List.mem_append]
      have e1 : (makeSource (database env) (begin' s)).units = s.units := by
        unfold makeSource
        split <;> rfl
      have e2 : ∀ c, (Kind.contact, c) ∈ (makeSource (database env) (begin' s)).files.map Prod.fst ↔
          (Kind.contact, c) ∈ s.files.map Prod.fst := by
        intro c
        unfold makeSource
        split
        · rfl
        · simp only [key_aset]; simp [begin']
      have e3 : ∀ t, Copied env t s → Copied env t (makeSource (database env) (begin' s)) := by
        rintro t ⟨e, h1, h2⟩
        refine ⟨e, h1, ?_⟩
        unfold makeSource
        split
        · exact h2
        · simp only [aget_aset]; simpa [begin'] using h2
      refine ⟨fun x => ?_, fun x => ?_, fun t ht => c t ?_⟩
      · rw [a, a2, e1]
        simp only [hall, or_and_right, exists_or, or_assoc]
      · rw [b, hall]
        simp only [b2, e2, or_assoc]
      · rcases ht with ht | ⟨e, d, ps, ht⟩
        · obtain ⟨e, p, q⟩ := c2 t (.inl (e3 t ht))
          exact .inl ⟨e, p, q⟩
        · rcases (hall _).1 ht with ht | ht
          · obtain ⟨e, p, q⟩ := c2 t (.inr ⟨_, _, _, ht⟩)
            exact .inl ⟨e, p, q⟩
          · exact .inr ⟨e, d, ps, ht⟩

end Verif.Archive
