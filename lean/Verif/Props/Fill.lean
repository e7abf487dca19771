/-
A conversion as a list of assignments to a data set: when it goes through and when its result can be
written, in terms of the assignments alone.
-/
import Verif.Lemmas.Fill
import Verif.Lemmas.DotDict
import Verif.Model.Schema

namespace Verif.DotDict

variable {K V R O : Type}

theorem length_le_sum {ops : List (Op V R)} {op : Op V R} (h : op ∈ ops) :
    op.path.length ≤ (ops.map fun o => o.path.length).sum := by
  induction ops with
  | nil => cases h
  | cons o ops ih =>
    rw [List.map_cons, List.sum_cons]
    rcases List.mem_cons.1 h with rfl | h
    · omega
    · have := ih h; omega

/-- **C159.** Assignments of accepted values to fields of the format, made to a new data set, all go
through just when no field for one value gets two; otherwise they stop with a ValueError. -/
theorem fills_iff_once_each (S : Schema K) (vs : Validators K V R O) (asRaw : Arg V R → R) (c : Cls)
    (ops : List (Op V R)) (hf : ∀ op ∈ ops, Fits S vs asRaw c op) (hn : NoClash ops)
    (hg : ∀ op ∈ ops, GoodValues S vs asRaw c op) :
    (OnceEach S c ops ∧ ∃ n, exec S vs asRaw ops (.mk c []) = .ok n) ∨
      (¬ OnceEach S c ops ∧ exec S vs asRaw ops (.mk c []) = .error .valueError) := by
  have := exec_result S vs asRaw (ops.map fun o => o.path.length).sum c ops [] (.mk c [])
    (shape_nil S vs _ c) (by simp [OnceEach]) (fun op h => length_le_sum h) (by simpa using hn) hg hf
  simpa using this

/-- **C157, C158.** The data set they make can be written just when every group they touch gets its mandatory
fields. -/
theorem written_iff_mandatory (S : Schema K) (vs : Validators K V R O) (asRaw : Arg V R → R) (c : Cls)
    (hfin : ∀ v, ∃ o, vs.fin v = .ok o) (ops : List (Op V R))
    (hf : ∀ op ∈ ops, Fits S vs asRaw c op) (hn : NoClash ops)
    (hg : ∀ op ∈ ops, GoodValues S vs asRaw c op) (hw : ∀ op ∈ ops, OpOk (WF S) op) (n : Node V)
    (h : exec S vs asRaw ops (.mk c []) = .ok n) :
    (∃ o, getDict S vs n = .ok o) ↔ AllMandatory S c ops := by
  have hwf := exec_wf ops _ n hw (wf_empty S c) h
  have hs := shape_exec S vs asRaw (ops.map fun o => o.path.length).sum c ops [] (.mk c []) n
    (shape_nil S vs _ c) (fun op h => length_le_sum h) (by simpa using hn) hg
    (fun op h => fits_plain (hf op h)) h
  rw [getDict_ok_iff S vs hwf]
  exact shape_complete S vs hfin _ c n ops (by simpa using hs) hwf

/-- The hypotheses hold for the identifier and a name assigned to the data set information of ILCD. -/
example : let vs : Validators Str Unit Unit Unit := ⟨fun _ => (), fun _ _ _ => .ok (), fun _ => .ok (), id⟩
    let ops : List (Op Unit Unit) :=
      [.set [] c!"UUID" [.raw ()], .read [c!"name"], .set [c!"name"] c!"baseName" [.raw (), .raw ()]]
    (∀ op ∈ ops, Fits Schema.ilcd vs (fun _ => ()) c!"DataSetInformation" op) ∧ NoClash ops ∧
    (∀ op ∈ ops, GoodValues Schema.ilcd vs (fun _ => ()) c!"DataSetInformation" op) ∧
    ∀ op ∈ ops, OpOk (WF Schema.ilcd) op := by
  refine ⟨?_, ?_, ?_, ?_⟩
  · simp only [List.forall_mem_cons, List.not_mem_nil, false_implies, implies_true, and_true]
    exact ⟨⟨rfl, _, _, rfl, rfl, fun a _ _ => ⟨(), rfl⟩⟩, ⟨_, rfl⟩, ⟨rfl, _, _, rfl, rfl, fun a _ _ => ⟨(), rfl⟩⟩⟩
  · intro p k v h op hop hpre
    simp only [List.mem_cons, List.not_mem_nil, or_false, reduceCtorEq, false_or, Op.set.injEq] at h
    simp only [List.mem_cons, List.not_mem_nil, or_false] at hop
    rcases h with ⟨rfl, rfl, rfl⟩ | ⟨rfl, rfl, rfl⟩ <;> rcases hop with rfl | rfl | rfl <;>
      exact absurd hpre (by decide)
  · simp only [List.forall_mem_cons, List.not_mem_nil, false_implies, implies_true, and_true]
    refine ⟨?_, trivial, ?_⟩
    · intro c f d hc hf ht
      cases hc; cases hf; cases ht
    · intro c f d hc hf ht
      cases hc; cases hf; cases ht
  · simp only [List.forall_mem_cons, List.not_mem_nil, false_implies, implies_true, and_true]
    refine ⟨?_, trivial, ?_⟩
    · intro a ha; rw [List.mem_singleton] at ha; subst ha; exact .raw ()
    · intro a ha; simp only [List.mem_cons, List.not_mem_nil, or_false, or_self] at ha; subst ha; exact .raw ()

end Verif.DotDict
