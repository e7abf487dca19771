/-
Sample values for the examples beside the theorems about the mappings: every value is accepted, and the
instances assigned to fields for instances are dicts with the mandatory fields of the class.
-/
import Verif.Lemmas.Assign
import Verif.Lemmas.DotDict

namespace Verif.Assign

open Verif.DotDict Verif.Schema Verif.Mapping

/-- Validators that accept everything. -/
def vsU : Validators Str Unit Unit Unit := ⟨fun _ => (), fun _ _ _ => .ok (), fun _ => .ok (), id⟩

/-- The input of a validator. -/
def rawU : Arg Unit Unit → Unit := fun _ => ()

/-- A dict with the mandatory fields of a class. -/
def fullArg (S : Schema Str) : Nat → Cls → Arg Unit Unit
  | 0, _ => .absent
  | n + 1, d => .dict ((S d).filterMap fun kf =>
      if kf.2.mandatory then
        some (kf.1, [match kf.2.type with
          | .leaf _ => .raw ()
          | .sub c => fullArg S n c])
      else none)

theorem fullArg_ok (S : Schema Str) (P : Node Unit → Prop) : ∀ n d, ArgOk P (fullArg S n d)
  | 0, d => .absent
  | n + 1, d => by
    refine .dict _ ?_
    intro k as h a ha
    rw [List.mem_filterMap] at h
    obtain ⟨kf, _, h⟩ := h
    split at h
    · cases h
      rw [List.mem_singleton] at ha
      subst ha
      split
      · exact .raw ()
      · exact fullArg_ok S P n _
    · cases h

/-- A value for a field: an input of the validator, or a dict with the mandatory fields. -/
def sampleVal (t : Conv) (p : List Key) (k : Key) : Arg Unit Unit :=
  match classAt t.schema t.root p with
  | none => .raw ()
  | some c =>
    match lookup k (t.schema c) with
    | none => .raw ()
    | some f =>
      match f.type with
      | .leaf _ => .raw ()
      | .sub d => fullArg t.schema 3 d

/-- An element with the conditions that hold for it. -/
def sampleEv (t : Conv) (key : MKey) (conds : List Str) : Ev Unit Unit :=
  ⟨key, fun c => conds.contains c, sampleVal t, fun _ _ => []⟩

/-- The values of an operation are accepted and complete. -/
def checkB (t : Conv) (op : Op Unit Unit) : Bool :=
  match op with
  | .read _ => true
  | .set p k v =>
    match classAt t.schema t.root p with
    | none => true
    | some c =>
      match lookup k (t.schema c) with
      | none => true
      | some f =>
        match f.type with
        | .leaf _ => true
        | .sub d => v.all fun a =>
          match construct t.schema vsU rawU d a with
          | .ok m =>
            match getDict t.schema vsU m with
            | .ok _ => true
            | .error _ => false
          | .error _ => false

theorem sampleVal_ok (t : Conv) (P : Node Unit → Prop) (p : List Key) (k : Key) :
    ArgOk P (sampleVal t p k) := by
  unfold sampleVal
  split
  · exact .raw ()
  · split
    · exact .raw ()
    · split
      · exact .raw ()
      · exact fullArg_ok ..

/-- Elements with sample values. -/
def IsSample (t : Conv) (e : Ev Unit Unit) : Prop := e.val = sampleVal t ∧ e.more = fun _ _ => []

theorem sample_opOk {t : Conv} {first last : Ev Unit Unit} {es : List (Ev Unit Unit)}
    (hf : IsSample t first) (hl : IsSample t last) (he : ∀ e ∈ es, IsSample t e) (P : Node Unit → Prop) :
    ∀ op ∈ t.ops first last es, OpOk P op := by
  have row : ∀ e, IsSample t e → ∀ r, ∀ op ∈ Row.ops e r, OpOk P op := by
    intro e h r op hop
    cases r with
    | read p => simp only [Row.ops, List.mem_singleton] at hop; subst hop; exact trivial
    | set c p k many =>
      simp only [Row.ops] at hop
      split at hop
      · rw [List.mem_singleton] at hop
        subst hop
        intro a ha
        have : a = sampleVal t p k := by
          rw [h.1, h.2] at ha
          simpa using ha
        rw [this]; exact sampleVal_ok ..
      · cases hop
  intro op hop
  simp only [Conv.ops, List.mem_append, List.mem_flatMap] at hop
  rcases hop with ((⟨r, _, h⟩ | h) | ⟨e, hm, r, _, h⟩) | ⟨r, _, h⟩
  · exact row _ hf r op h
  · split at h
    · cases h
    · rw [List.mem_flatMap] at h
      obtain ⟨r, _, h⟩ := h
      exact row _ hf r op h
  · exact row _ (he e hm) r op h
  · exact row _ hl r op h

theorem sample_values {t : Conv} {first last : Ev Unit Unit} {es : List (Ev Unit Unit)}
    (hf : IsSample t first) (hl : IsSample t last) (he : ∀ e ∈ es, IsSample t e)
    (h : (t.ops first last es).all (checkB t) = true) :
    ValuesOk t vsU rawU (t.ops first last es) ∧ ValuesComplete t vsU rawU (t.ops first last es) := by
  rw [List.all_eq_true] at h
  have ho := sample_opOk hf hl he (WF t.schema)
  have key : ∀ p k v, Op.set p k v ∈ t.ops first last es → ∀ c f d, classAt t.schema t.root p = some c →
      lookup k (t.schema c) = some f → f.type = .sub d → ∀ a ∈ v,
      ∃ m, construct t.schema vsU rawU d a = .ok m ∧ Complete t.schema vsU m := by
    intro p k v hm c f d hc hf ht a ha
    have hb := h _ hm
    simp only [checkB, hc, hf, ht, List.all_eq_true] at hb
    have hb := hb a ha
    split at hb
    · rename_i m hcm
      split at hb
      · rename_i o hg
        have hw := (construct_stable (wf_stable t.schema) vsU rawU d a m (ho _ hm a ha) hcm).1
        exact ⟨m, hcm, (getDict_ok_iff t.schema vsU hw).1 ⟨o, hg⟩⟩
      · cases hb
    · cases hb
  refine ⟨?_, ?_⟩
  · intro p k v hm c f hc hf a ha
    unfold Accepted
    split
    · intro s; exact ⟨(), rfl⟩
    · rename_i d ht
      obtain ⟨m, hm, _⟩ := key p k v hm c f d hc hf ht a ha
      exact ⟨m, hm⟩
  · intro op hop
    refine ⟨?_, ho op hop⟩
    cases op with
    | read p => exact trivial
    | set p k v =>
      intro c f d hc hf ht a ha m hm
      obtain ⟨m', hm', hcm⟩ := key p k v hop c f d hc hf ht a ha
      rw [hm'] at hm
      cases hm
      exact hcm

end Verif.Assign
