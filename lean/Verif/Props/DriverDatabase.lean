/-
Property C26 exactly: when a database has the data set of every file, and which data set it has when
several files have the same identifier.
-/
import Verif.Props.Driver

namespace Verif.Driver
open Spec

variable {F V I P M S O : Type} [DecidableEq V]

theorem written_aget (l entries : List (Str × O)) (k : Str) :
    aget k (written l entries) = ((entries.reverse.find? fun p => p.1 = k).map Prod.snd).or (aget k l) := by
  induction entries generalizing l with
  | nil => simp [written]
  | cons p es ih =>
    show aget k (written (aset p.1 p.2 l) es) = _
    rw [ih, List.reverse_cons, List.find?_append, aget_aset]
    cases h : es.reverse.find? fun p => decide (p.1 = k) with
    | some q => simp
    | none =>
      by_cases hk : k = p.1
      · subst hk; simp
      · have : ¬ p.1 = k := fun e => hk e.symm
        simp [hk, this]

/-- C26, exactly: the archive of a database has as many processes as there are files if and only if
the identifiers of their data sets differ; and for each identifier it has the data set of the last file
with that identifier. -/
theorem database_complete_iff {ops : Ops F V I P M S O} {s s' : St V I P M S O} {files : List F}
    {names : List Str} (hk : ops.kind = .ilcd) (hne : files ≠ []) (hc : Clean ops s)
    (h : convert ops false s (yieldFiles files) = (s', .ok names)) :
    ∃ name entries l, List.Forall₂ (EntryOf ops) files entries ∧
      s'.dir = s.dir ++ [(name, .archive l)] ∧
      (l.length = files.length ↔ (entries.map Prod.fst).Nodup) ∧
      (∀ k, k ∈ l.map Prod.fst ↔ k ∈ entries.map Prod.fst) ∧ (l.map Prod.fst).Nodup ∧
      ∀ a p b, entries = a ++ p :: b → p.1 ∉ b.map Prod.fst → p ∈ l := by
  obtain ⟨name, entries, _, _, he, hd, _⟩ := database_archive_partial hk hne hc h
  refine ⟨name, entries, _, he, hd, ?_, ?_, written_nodup (by simp), ?_⟩
  · rw [he.length_eq]
    constructor
    · intro hl
      by_contra hn
      have := written_fewer hn
      omega
    · intro hn
      rw [written_append (by simpa using hn)]
      simp
  · intro k
    simpa using written_keys [] entries k
  · rintro a p b rfl hb
    have hg := written_aget [] (a ++ p :: b) p.1
    have hnone : b.reverse.find? (fun q => decide (q.1 = p.1)) = none := by
      rw [List.find?_eq_none]
      intro q hq
      simp only [List.mem_reverse] at hq
      simp only [decide_eq_true_eq]
      intro e
      exact hb (e ▸ List.mem_map_of_mem hq)
    rw [List.reverse_append, List.reverse_cons, List.append_assoc, List.find?_append, hnone] at hg
    simp at hg
    exact aget_mem hg

example : (toy .ilcd).kind = .ilcd ∧ [toyFile c!"x", toyFile c!"x"] ≠ [] ∧ Clean (toy .ilcd) toyNew ∧
    (convert (toy .ilcd) false toyNew (yieldFiles [toyFile c!"x", toyFile c!"x"])).2 = .ok [c!"ILCD#a.zip"] :=
  ⟨rfl, by simp, by intro d h; simp [toyNew, fresh] at h, by decide⟩

end Verif.Driver
