/-
C122: the references of a process, in order.
-/
import Verif.Props.Archive

namespace Verif.Archive

open Verif Verif.Archive.Spec

/-- The reference an operation adds to the process. -/
def Spec.RefsOf (env : Env) : Op → List Ref → Prop
  | .source id, r => r = [⟨.source, id⟩]
  | .contact id, r => r = [⟨.contact, id⟩]
  | .product fid _ _ _, r => ∃ id, env.conv fid = .ok id ∧ r = [⟨.flow, id⟩]
  | .elementary t _ _ _, r => r = [⟨.flow, t⟩]
  | .unmapped _, r => r = []

theorem makeSource_refs (id : Str) (s : St) :
    (makeSource id s).refs = s.refs ++ [⟨.source, id⟩] ∧ (makeSource id s).processes = s.processes := by
  unfold makeSource; split <;> exact ⟨rfl, rfl⟩

theorem makeContact_refs (id : Str) (s : St) :
    (makeContact id s).refs = s.refs ++ [⟨.contact, id⟩] ∧ (makeContact id s).processes = s.processes := by
  unfold makeContact; split <;> exact ⟨rfl, rfl⟩

theorem writeFlow_refs (fid id : Str) (fp : List (Str × Str)) (s : St) :
    (writeFlow fid id fp s).refs = s.refs ∧ (writeFlow fid id fp s).processes = s.processes := by
  unfold writeFlow
  split
  · exact ⟨rfl, rfl⟩
  · split <;> exact ⟨rfl, rfl⟩

theorem step_refs {env : Env} {s s' : St} {o : Op} (h : step env s o = .ok s') :
    ∃ r, RefsOf env o r ∧ s'.refs = s.refs ++ r ∧ s'.processes = s.processes := by
  cases o with
  | source id => cases h; exact ⟨_, rfl, makeSource_refs id s⟩
  | contact id => cases h; exact ⟨_, rfl, makeContact_refs id s⟩
  | product fid e d ps =>
    simp only [step, product, bind, Except.bind] at h
    split at h
    · cases h
    · split at h
      · cases h
      · rename_i id hid
        cases h
        refine ⟨_, ⟨id, hid, rfl⟩, ?_, (writeFlow_refs _ _ _ _).2⟩
        simp only
        rw [(writeFlow_refs _ _ _ _).1]
  | elementary t e d ps =>
    simp only [step, elementary, bind, Except.bind] at h
    split at h
    · cases h
    · split at h
      · cases h
      · cases h
        exact ⟨_, rfl, rfl, rfl⟩
  | unmapped ps =>
    simp only [step, bind, Except.bind] at h
    split at h
    · cases h
    · cases h
      exact ⟨[], rfl, by simp, rfl⟩

theorem steps_refs {env : Env} {l : List Op} {s s' : St} (h : steps env l s = .ok s') :
    ∃ rs, List.Forall₂ (RefsOf env) l rs ∧ s'.refs = s.refs ++ rs.flatten ∧ s'.processes = s.processes := by
  induction l generalizing s with
  | nil => cases h; exact ⟨[], .nil, by simp, rfl⟩
  | cons o l ih =>
    simp only [steps, bind, Except.bind] at h
    split at h
    · cases h
    · rename_i s1 h1
      obtain ⟨r, hr, e1, p1⟩ := step_refs h1
      obtain ⟨rs, hrs, e2, p2⟩ := ih h
      exact ⟨r :: rs, .cons hr hrs, by rw [e2, e1]; simp, by rw [p2, p1]⟩

theorem aget_aset_other {α : Type} {k k' : Str} (h : k ≠ k') (v : α) (d : List (Str × α)) :
    aget k (aset k' v d) = aget k d := by
  induction d with
  | nil => simp [aset, aget, Ne.symm h]
  | cons x d ih =>
    obtain ⟨a, b⟩ := x
    by_cases ha : a = k'
    · subst ha; simp [aset, aget, Ne.symm h]
    · by_cases hk : a = k
      · subst hk; simp [aset, aget, ha]
      · simp [aset, aget, ha, hk, ih]

theorem aget_aset_same {α : Type} (k : Str) (v : α) (d : List (Str × α)) : aget k (aset k v d) = some v := by
  induction d with
  | nil => simp [aset, aget]
  | cons x d ih =>
    obtain ⟨a, b⟩ := x
    by_cases ha : a = k
    · subst ha; simp [aset, aget]
    · simp [aset, aget, ha, ih]

theorem archive_other {env : Env} {l : List (Str × List Op)} {s s' : St} (h : archive env l s = .ok s') {u : Str}
    (hu : u ∉ l.map Prod.fst) : aget u s'.processes = aget u s.processes := by
  induction l generalizing s with
  | nil => cases h; rfl
  | cons d l ih =>
    obtain ⟨uuid, ops⟩ := d
    simp only [archive, bind, Except.bind] at h
    split at h
    · cases h
    · rename_i s1 h1
      simp only [List.map_cons, List.mem_cons, not_or] at hu
      rw [ih h hu.2]
      obtain ⟨s2, h2, rfl⟩ := dataSet_steps h1
      obtain ⟨rs, -, -, p⟩ := steps_refs h2
      simp only
      rw [aget_aset_other hu.1, p, (makeSource_refs _ _).2]
      rfl

/-- C122. The references of a process are those to the two formats and to the database, followed by one for every source,
contact and flow of the data set, in the order in which they are converted. -/
theorem process_references {env : Env} {pre post : List (Str × List Op)} {uuid : Str} {ops : List Op} {s0 s : St}
    (h : archive env (pre ++ (uuid, ops) :: post) s0 = .ok s) (hu : uuid ∉ post.map Prod.fst) :
    ∃ rs, List.Forall₂ (RefsOf env) ops rs ∧ aget uuid s.processes = some
      (⟨.source, c!"a97a0155-0234-4b87-b4ce-a45da52f2a40"⟩ :: ⟨.source, c!"cada7914-53c3-47ec-ac27-659b21240a99"⟩ ::
        ⟨.source, env.hash c!"ecoinvent Database"⟩ :: rs.flatten) := by
  induction pre generalizing s0 with
  | nil =>
    simp only [List.nil_append, archive, bind, Except.bind] at h
    split at h
    · cases h
    · rename_i s1 h1
      rw [archive_other h hu]
      obtain ⟨s2, h2, rfl⟩ := dataSet_steps h1
      obtain ⟨rs, hrs, e, -⟩ := steps_refs h2
      refine ⟨rs, hrs, ?_⟩
      simp only
      rw [aget_aset_same, e, (makeSource_refs _ _).1]
      rfl
  | cons d pre ih =>
    obtain ⟨u, o⟩ := d
    simp only [List.cons_append, archive, bind, Except.bind] at h
    split at h
    · cases h
    · exact ih h

example : ∃ env : Env, ∃ s : St, archive env ([] ++ (c!"p", [Op.source c!"a", Op.contact c!"b"]) :: []) St.start = .ok s :=
  ⟨⟨id, .ok, fun _ => none⟩, _, rfl⟩

/-- C122. The file of a flow property refers to a source other than the format, its compliance system, unless it is the
flow property of the identifier below. -/
theorem property_compliance_iff (id : Str) :
    (∃ i, i ≠ c!"a97a0155-0234-4b87-b4ce-a45da52f2a40" ∧ (⟨.source, i⟩ : Ref) ∈ fpRefs id) ↔
      id ≠ c!"f6811440-ee37-11de-8a39-0800200c9a66" := by
  have hp : plainProperty = c!"f6811440-ee37-11de-8a39-0800200c9a66" := rfl
  rw [← hp]
  constructor
  · rintro ⟨i, hi, hm⟩ rfl
    apply hi
    simp only [fpRefs, List.mem_append, List.mem_map, List.mem_singleton, if_true, List.not_mem_nil] at hm
    rcases hm with (((⟨f, -, hf⟩ | hf) | hf) | hf) | hf
    · cases hf
    · injection hf
    · cases hf
    · split at hf
      · cases hf
      · simp at hf
    · split at hf
      · simp at hf
      · cases hf
  · intro h
    refine ⟨if id ∈ draftProperties then complianceDraft else entryLevel, ?_, ?_⟩
    · split <;> decide
    · simp [fpRefs, h]

example : ∃ id : Str, id ≠ c!"f6811440-ee37-11de-8a39-0800200c9a66" := ⟨[], by decide⟩

end Verif.Archive
