/-
Versions, file names and the sets of properties of a flow.
-/
import Verif.Spec.FlowFiles
import Verif.Lemmas.Assoc
import Verif.Lemmas.Num
import Verif.Lemmas.Validators
import Verif.Props.Validators

namespace Verif.FlowFiles

open Verif.FlowFiles.Spec
open Verif.Validators (firstOccurrences_snoc mem_firstOccurrences firstOccurrences_nodup CharClasses patternValidate
  versionRe uuidRe)
open Verif.Validators.Spec (firstOccurrences)

/-! ## Versions -/

theorem pad3_digit {n : Nat} {c : Char} (h : c ∈ pad3 (natStr n)) : c.isDigit = true := by
  rw [pad3, List.mem_append] at h
  rcases h with h | h
  · rw [List.eq_of_mem_replicate h]; decide
  · exact natStr_digit h

private theorem digit_ne {c : Char} (h : c.isDigit = true) : c ≠ '_' := by rintro rfl; simp at h

theorem parseNat_zero {s : Str} (hs : s ≠ []) (hd : ∀ c ∈ s, c.isDigit = true) :
    parseNat ('0' :: s) = parseNat s := by
  cases s with
  | nil => exact absurd rfl hs
  | cons c l =>
    have hc := digit_ne (hd c (by simp))
    have h0 : digitVal '0' = some 0 := by decide
    simp only [parseNat, h0]
    rw [parseDigits]
    · simp
    · intro d l' e _; exact hc e

theorem parseNat_pad3 (n : Nat) : parseNat (pad3 (natStr n)) = some n := by
  have key : ∀ k, parseNat (List.replicate k '0' ++ natStr n) = some n := by
    intro k
    induction k with
    | zero => simp [parseNat_natStr]
    | succ k ih =>
      rw [List.replicate_succ, List.cons_append, parseNat_zero, ih]
      · simp [natStr_ne_nil]
      · intro c hc
        rw [List.mem_append] at hc
        rcases hc with h | h
        · rw [List.eq_of_mem_replicate h]; decide
        · exact natStr_digit h
  exact key _

theorem pad3_inj {m n : Nat} (h : pad3 (natStr m) = pad3 (natStr n)) : m = n := by
  have := parseNat_pad3 m
  rw [h, parseNat_pad3] at this
  injection this with h; exact h.symm

theorem versionText_inj {m n : Nat} (h : versionText m = versionText n) : m = n :=
  pad3_inj (List.append_cancel_left h)

theorem versionText_one : versionText 1 = c!"01.00.001" := by decide +kernel

/-! ## Names -/

theorem split_first {c : Char} {a b x y : Str} (ha : c ∉ a) (hb : c ∉ b) (h : a ++ c :: x = b ++ c :: y) :
    a = b ∧ x = y := by
  induction a generalizing b with
  | nil =>
    cases b with
    | nil => simpa using h
    | cons d b => simp only [List.nil_append, List.cons_append, List.cons.injEq] at h; simp [h.1] at hb
  | cons d a ih =>
    cases b with
    | nil => simp only [List.nil_append, List.cons_append, List.cons.injEq] at h; simp [h.1] at ha
    | cons e b =>
      simp only [List.cons_append, List.cons.injEq] at h
      simp only [List.mem_cons, not_or] at ha hb
      obtain ⟨rfl, rfl⟩ := ih ha.2 hb.2 h.2
      exact ⟨by rw [h.1], rfl⟩

theorem fileOf_inj {a b v w : Str} (ha : '_' ∉ a) (hb : '_' ∉ b) (h : fileOf a v = fileOf b w) : a = b ∧ v = w := by
  simp only [fileOf, List.append_assoc, List.cons_append, List.nil_append] at h
  obtain ⟨h1, h2⟩ := split_first ha hb h
  exact ⟨h1, List.append_cancel_right h2⟩

theorem fileOf_ne {id v t : Str} (ht : '_' ∉ t) : fileOf id v ≠ t ++ c!".xml" := by
  intro h
  have h1 : '_' ∈ fileOf id v := by simp [fileOf]
  rw [h, List.mem_append] at h1
  rcases h1 with h1 | h1
  · exact ht h1
  · simp at h1

/-! ## Numbered lists -/

def numbered {α : Type} (l : List α) : List (Nat × α) := (l.zipIdx 1).map fun p => (p.2, p.1)

theorem numbered_snoc {α : Type} (l : List α) (a : α) : numbered (l ++ [a]) = numbered l ++ [(l.length + 1, a)] := by
  simp [numbered, List.zipIdx_append, Nat.add_comm]

theorem maxKey_snoc {P : Type} (vs : List (Nat × P)) (n : Nat) (a : P) : maxKey (vs ++ [(n, a)]) = max (maxKey vs) n := by
  induction vs with
  | nil => simp [maxKey]
  | cons p vs ih =>
    simp only [maxKey, List.cons_append, List.map_cons, List.foldr_cons] at ih ⊢
    rw [ih, Nat.max_assoc]

theorem maxKey_numbered {P : Type} (l : List P) : maxKey (numbered l) = l.length := by
  induction l using List.reverseRecOn with
  | nil => rfl
  | append_singleton l a ih => rw [numbered_snoc, maxKey_snoc, ih]; simp

theorem find_numbered {P : Type} [DecidableEq P] (l : List P) (fp : P) :
    (numbered l).find? (fun p => p.2 = fp) = if fp ∈ l then some (l.idxOf fp + 1, fp) else none := by
  have key : ∀ k, ((l.zipIdx k).map fun p => (p.2, p.1)).find? (fun p => p.2 = fp) =
      if fp ∈ l then some (l.idxOf fp + k, fp) else none := by
    induction l with
    | nil => intro k; simp
    | cons a l ih =>
      intro k
      rw [List.zipIdx_cons, List.map_cons, List.find?_cons]
      by_cases h : a = fp
      · simp [h]
      · simp only [h, decide_false, ih, List.mem_cons]
        by_cases hm : fp ∈ l
        · simp only [hm, or_true, if_true]
          rw [List.idxOf_cons_ne _ h]
          simp; omega
        · simp [hm, Ne.symm h]
  exact key 1

/-! ## The sets of properties -/

section

variable {P I : Type} [DecidableEq P]

omit [DecidableEq P] in
theorem propsOf_append (fid : Str) (l l' : List (Exchange P I)) :
    propsOf fid (l ++ l') = propsOf fid l ++ propsOf fid l' := by simp [propsOf]

omit [DecidableEq P] in
theorem mem_propsOf {fid : Str} {fp : P} {l : List (Exchange P I)} :
    fp ∈ propsOf fid l ↔ ∃ i, Exchange.intermediate fid fp i ∈ l := by
  rw [propsOf, List.mem_filterMap]
  constructor
  · rintro ⟨x, hx, h⟩
    cases x with
    | intermediate f fp' i =>
      simp only at h
      split at h
      · injection h with h; subst h; subst_vars; exact ⟨i, hx⟩
      · simp at h
    | elementary f t fp' => simp at h
  · rintro ⟨i, h⟩
    exact ⟨_, h, by simp⟩

theorem mem_sets {fid : Str} {fp : P} {l : List (Exchange P I)} :
    fp ∈ sets fid l ↔ ∃ i, Exchange.intermediate fid fp i ∈ l := by
  rw [sets, mem_firstOccurrences, mem_propsOf]

theorem sets_nodup (fid : Str) (l : List (Exchange P I)) : (sets fid l).Nodup := firstOccurrences_nodup _

theorem sets_snoc_same (fid : Str) (l : List (Exchange P I)) (fp : P) (i : I) :
    sets fid (l ++ [.intermediate fid fp i]) = if fp ∈ sets fid l then sets fid l else sets fid l ++ [fp] := by
  simp only [sets, propsOf_append, mem_firstOccurrences]
  rw [← firstOccurrences_snoc]
  simp [propsOf]

theorem sets_snoc_other {fid f : Str} (h : f ≠ fid) (l : List (Exchange P I)) (fp : P) (i : I) :
    sets fid (l ++ [.intermediate f fp i]) = sets fid l := by
  simp [sets, propsOf_append, propsOf, h]

theorem sets_snoc_elementary (fid f t : Str) (l : List (Exchange P I)) (fp : P) :
    sets fid (l ++ [.elementary f t fp]) = sets fid l := by
  simp [sets, propsOf_append, propsOf]

theorem sets_prefix (fid : Str) (l l' : List (Exchange P I)) : sets fid l <+: sets fid (l ++ l') := by
  induction l' using List.reverseRecOn with
  | nil => simp
  | append_singleton l' x ih =>
    rw [← List.append_assoc]
    refine ih.trans ?_
    cases x with
    | intermediate f fp i =>
      by_cases h : f = fid
      · subst h
        rw [sets_snoc_same]
        split
        · exact List.prefix_rfl
        · exact List.prefix_append _ _
      · rw [sets_snoc_other h]
    | elementary f t fp => rw [sets_snoc_elementary]

theorem idxOf_prefix {α : Type} [DecidableEq α] {a : α} {l l' : List α} (h : a ∈ l) (hp : l <+: l') :
    l'.idxOf a = l.idxOf a := by
  obtain ⟨m, rfl⟩ := hp
  exact List.idxOf_append_of_mem h

theorem firstInfo_append {fid : Str} {fp : P} {l : List (Exchange P I)} {i : I} (h : firstInfo fid fp l = some i)
    (l' : List (Exchange P I)) : firstInfo fid fp (l ++ l') = some i := by
  rw [firstInfo, List.findSome?_append]
  rw [firstInfo] at h
  rw [h]; rfl

theorem firstInfo_none {fid : Str} {fp : P} {l : List (Exchange P I)} (h : fp ∉ sets fid l) :
    firstInfo fid fp l = none := by
  rw [firstInfo, List.findSome?_eq_none_iff]
  intro x hx
  cases x with
  | intermediate f fp' i =>
    simp only [ite_eq_right_iff, reduceCtorEq, imp_false, not_and]
    rintro rfl rfl
    exact h (mem_sets.2 ⟨i, hx⟩)
  | elementary f t fp' => rfl

theorem firstInfo_new {fid : Str} {fp : P} {l : List (Exchange P I)} (h : fp ∉ sets fid l) (i : I) :
    firstInfo fid fp (l ++ [.intermediate fid fp i]) = some i := by
  have := firstInfo_none h
  rw [firstInfo] at this ⊢
  rw [List.findSome?_append, this]
  simp

theorem firstInfo_some {fid : Str} {fp : P} {l : List (Exchange P I)} (h : fp ∈ sets fid l) :
    ∃ i, firstInfo fid fp l = some i ∧ Exchange.intermediate fid fp i ∈ l := by
  rw [mem_sets] at h
  obtain ⟨j, hj⟩ := h
  cases hf : firstInfo fid fp l with
  | none =>
    rw [firstInfo, List.findSome?_eq_none_iff] at hf
    simpa using hf _ hj
  | some i =>
    refine ⟨i, rfl, ?_⟩
    rw [firstInfo] at hf
    obtain ⟨x, hx, hi⟩ := List.exists_of_findSome?_eq_some hf
    cases x with
    | intermediate f fp' i' =>
      simp only at hi
      split at hi
      · rename_i h'
        injection hi with hi; obtain ⟨rfl, rfl⟩ := h'; subst hi; exact hx
      · simp at hi
    | elementary f t fp' => simp at hi

end

end Verif.FlowFiles
