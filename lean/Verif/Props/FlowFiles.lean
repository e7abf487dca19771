/-
The flow data sets of a conversion from EcoSpold2 to ILCD and the references to them.
-/
import Verif.Lemmas.FlowFiles
import Verif.Props.Uuid
import Verif.Props.Refs
import Mathlib.Tactic.IntervalCases

namespace Verif.FlowFiles

open Verif.FlowFiles.Spec
open Verif.Validators (CharClasses patternValidate versionRe uuidRe)

variable {P I : Type} [DecidableEq P]

/-! ## Single steps -/

theorem patternValidate_ok {r : Validators.Re} {s v : Str} (h : patternValidate r (.str s) = .ok v) : v = s := by
  simp only [patternValidate] at h
  split at h
  · injection h with h; exact h.symm
  · simp at h

/-- The target of a reference in a data set with the exchanges `all`. -/
def RefOf (env : Env) (all : List (Exchange P I)) (r : Ref) : Exchange P I → Prop
  | .intermediate fid fp _ => ∃ id, env.conv fid = .ok id ∧
      r = ⟨id, versionText ((sets fid all).idxOf fp + 1), uriOf id ++ c!"_" ++ versionText ((sets fid all).idxOf fp + 1)⟩
  | .elementary _ t _ => ∃ v w, env.version t = some v ∧ newVersion v 0 = .ok w ∧ r = ⟨t, w, uriOf t⟩

structure Inv (env : Env) (files0 : List (Str × Content P I)) (all done : List (Exchange P I)) (s : State P I) :
    Prop where
  vals : ∀ fid, (∀ t fp, Exchange.elementary fid t fp ∉ all) →
    aget fid s.values = if sets fid done = [] then none else some (numbered (sets fid done))
  made : ∀ (fid : Str) (k : Nat) fp, (sets fid done)[k]? = some fp → ∃ id i, env.conv fid = .ok id ∧ firstInfo fid fp done = some i ∧
    aget (fileOf id (versionText (k + 1))) s.files = some (.made (versionText (k + 1)) fp i)
  copied : ∀ f t fp, Exchange.elementary f t fp ∈ done → aget (t ++ c!".xml") s.files = some (.copied t)
  kept : ∀ name, (∀ (fid : Str) (k : Nat) fp id, (sets fid done)[k]? = some fp → env.conv fid = .ok id →
      name ≠ fileOf id (versionText (k + 1))) →
    (∀ f t fp, Exchange.elementary f t fp ∈ done → name ≠ t ++ c!".xml") → aget name s.files = aget name files0

theorem inv_nil (env : Env) (files : List (Str × Content P I)) (all : List (Exchange P I)) :
    Inv env files all [] ⟨[], files⟩ where
  vals := by intro fid _; simp [aget, sets, propsOf, Validators.Spec.firstOccurrences]
  made := by intro fid k fp h; simp [sets, propsOf, Validators.Spec.firstOccurrences] at h
  copied := by intro f t fp h; simp at h
  kept := by intros; rfl

private theorem send_ok {env : Env} {s s' : State P I} {id v : Str} {fp : P} {i : I} {r : Ref}
    (h : send env s id v fp i = .ok (s', r)) :
    s' = { s with files := aset (fileOf id v) (.made v fp i) s.files } ∧ r = ⟨id, v, uriOf id ++ c!"_" ++ v⟩ := by
  rw [send] at h
  cases hv : setVersion env v with
  | error e => rw [hv] at h; cases h
  | ok v' =>
    rw [hv] at h
    have := patternValidate_ok hv
    subst this
    injection h with h
    injection h with h1 h2
    exact ⟨h1.symm, h2.symm⟩

/-- What an intermediate exchange does. -/
theorem intermediate_ok {env : Env} {s s' : State P I} {fid : Str} {fp : P} {i : I} {r : Ref}
    (h : intermediate env s fid fp i = .ok (s', r)) {l : List P}
    (hv : aget fid s.values = if l = [] then none else some (numbered l)) :
    ∃ id, env.conv fid = .ok id ∧
      ((fp ∈ l ∧ s' = s ∧ r = ⟨id, versionText (l.idxOf fp + 1), uriOf id ++ c!"_" ++ versionText (l.idxOf fp + 1)⟩) ∨
       (fp ∉ l ∧ s' = ⟨aset fid (numbered (l ++ [fp])) s.values,
          aset (fileOf id (versionText (l.length + 1))) (.made (versionText (l.length + 1)) fp i) s.files⟩ ∧
        r = ⟨id, versionText (l.length + 1), uriOf id ++ c!"_" ++ versionText (l.length + 1)⟩)) := by
  rw [intermediate] at h
  cases hc : env.conv fid with
  | error e => rw [hc] at h; cases h
  | ok id0 =>
    rw [hc] at h
    change (setId id0).bind _ = _ at h
    cases hi : setId id0 with
    | error e => rw [hi] at h; cases h
    | ok id =>
      have := patternValidate_ok hi
      subst this
      rw [hi] at h
      refine ⟨id, rfl, ?_⟩
      change (match aget fid s.values with | some vs => _ | none => _) = _ at h
      rw [hv] at h
      by_cases hl : l = []
      · subst hl
        simp only [if_true] at h
        obtain ⟨h1, h2⟩ := send_ok h
        refine .inr ⟨by simp, ?_, ?_⟩
        · rw [h1, ← versionText_one]; rfl
        · rw [h2, ← versionText_one]; rfl
      · simp only [hl, if_false] at h
        rw [find_numbered] at h
        by_cases hm : fp ∈ l
        · simp only [hm, if_true] at h
          cases hv : setVersion env (versionText (l.idxOf fp + 1)) with
          | error e => rw [hv] at h; cases h
          | ok v' =>
            rw [hv] at h
            have := patternValidate_ok hv
            subst this
            injection h with h
            injection h with h1 h2
            exact .inl ⟨hm, h1.symm, h2.symm⟩
        · simp only [hm, if_false] at h
          rw [maxKey_numbered] at h
          obtain ⟨h1, h2⟩ := send_ok h
          refine .inr ⟨hm, ?_, h2⟩
          rw [h1, numbered_snoc]

theorem elementary_ok {env : Env} {s s' : State P I} {fid t : Str} {fp : P} {r : Ref}
    (h : elementary env s fid t fp = .ok (s', r)) :
    ∃ v w, env.version t = some v ∧ newVersion v 0 = .ok w ∧ r = ⟨t, w, uriOf t⟩ ∧
      s' = ⟨aset fid [(0, fp)] s.values, aset (t ++ c!".xml") (.copied t) s.files⟩ := by
  rw [elementary] at h
  cases hi : setId t with
  | error e => rw [hi] at h; cases h
  | ok id =>
    have := patternValidate_ok hi
    subst this
    rw [hi] at h
    change (match env.version id with | none => _ | some t => _) = _ at h
    cases hv : env.version id with
    | none => rw [hv] at h; cases h
    | some v =>
      rw [hv] at h
      simp only at h
      cases hn : newVersion v 0 with
      | error e => rw [hn] at h; cases h
      | ok w =>
        rw [hn] at h
        change (setVersion env w).bind _ = _ at h
        cases hw : setVersion env w with
        | error e => rw [hw] at h; cases h
        | ok w' =>
          have := patternValidate_ok hw
          subst this
          rw [hw] at h
          injection h with h
          injection h with h1 h2
          exact ⟨v, w', rfl, hn, h2.symm, h1.symm⟩

private theorem getElem_snoc {α : Type} {l : List α} {a b : α} {k : Nat} (h : (l ++ [a])[k]? = some b) :
    l[k]? = some b ∨ (k = l.length ∧ b = a) := by
  rw [List.getElem?_append] at h
  split at h
  · exact .inl h
  · rename_i hk
    have : k - l.length = 0 := by
      by_contra hne
      rw [List.getElem?_eq_none (by simp; omega)] at h
      cases h
    rw [this] at h
    simp only [List.getElem?_cons_zero, Option.some.injEq] at h
    exact .inr ⟨by omega, h.symm⟩

theorem step_inv {env : Env} {files0 : List (Str × Content P I)} {all done : List (Exchange P I)} {s s' : State P I}
    {x : Exchange P I} {r : Ref} (hinv : Inv env files0 all done s) (hx : x ∈ all) (hd : ∀ y ∈ done, y ∈ all)
    (ha : Apart all) (hn : Names env all) (h : step env s x = .ok (s', r)) :
    Inv env files0 all (done ++ [x]) s' ∧ RefOf env (done ++ [x]) r x := by
  cases x with
  | intermediate fid fp i =>
    have hne : ∀ t fp', Exchange.elementary fid t fp' ∉ all := fun t fp' => ha _ _ _ t fp' hx
    obtain ⟨id, hc, h⟩ := intermediate_ok h (hinv.vals fid hne)
    rcases h with ⟨hm, rfl, hr⟩ | ⟨hm, hs, hr⟩
    · have hsets : ∀ f, sets f (done ++ [.intermediate fid fp i]) = sets f done := by
        intro f
        by_cases hf : fid = f
        · subst hf; rw [sets_snoc_same, if_pos hm]
        · exact sets_snoc_other hf ..
      refine ⟨⟨?_, ?_, ?_, ?_⟩, id, hc, ?_⟩
      · intro f hf; rw [hsets]; exact hinv.vals f hf
      · intro f k fp' hk
        rw [hsets] at hk
        obtain ⟨id', i', h1, h2, h3⟩ := hinv.made f k fp' hk
        exact ⟨id', i', h1, firstInfo_append h2 _, h3⟩
      · intro f t fp' hmem
        simp only [List.mem_append, List.mem_singleton, reduceCtorEq, or_false] at hmem
        exact hinv.copied f t fp' hmem
      · intro name h1 h2
        refine hinv.kept name ?_ ?_
        · intro f k fp' id' hk; rw [← hsets f] at hk; exact h1 f k fp' id' hk
        · intro f t fp' hmem; exact h2 f t fp' (List.mem_append_left _ hmem)
      · rw [hsets]; exact hr
    · have hsame : sets fid (done ++ [.intermediate fid fp i]) = sets fid done ++ [fp] := by
        rw [sets_snoc_same, if_neg hm]
      have hother : ∀ f, fid ≠ f → sets f (done ++ [.intermediate fid fp i]) = sets f done :=
        fun f hf => sets_snoc_other hf ..
      have hbare : '_' ∉ id := hn.bare _ _ _ _ hx hc
      have hdone : ∀ (f : Str) (k : Nat) fp', (sets f done)[k]? = some fp' → ∃ i', Exchange.intermediate f fp' i' ∈ all := by
        intro f k fp' hk
        obtain ⟨i', hi'⟩ := mem_sets.1 (List.mem_of_getElem? hk)
        exact ⟨i', hd _ hi'⟩
      subst hs
      refine ⟨⟨?_, ?_, ?_, ?_⟩, id, hc, ?_⟩
      · intro f hf
        rw [aget_aset]
        by_cases hff : fid = f
        · subst hff; simp [hsame]
        · rw [hother f hff]
          have := hinv.vals f hf
          simp [Ne.symm hff, hff, this]
      · intro f k fp' hk
        have hold : (sets f done)[k]? = some fp' → ∃ id' i', env.conv f = .ok id' ∧
            firstInfo f fp' (done ++ [.intermediate fid fp i]) = some i' ∧
            aget (fileOf id' (versionText (k + 1))) (aset (fileOf id (versionText ((sets fid done).length + 1)))
              (.made (versionText ((sets fid done).length + 1)) fp i) s.files) =
              some (.made (versionText (k + 1)) fp' i') := by
          intro hk0
          obtain ⟨id', i', h1, h2, h3⟩ := hinv.made f k fp' hk0
          refine ⟨id', i', h1, firstInfo_append h2 _, ?_⟩
          rw [aget_aset]
          split
          · rename_i he
            exfalso
            obtain ⟨j, hj⟩ := hdone f k fp' hk0
            obtain ⟨e1, e2⟩ := fileOf_inj (hn.bare _ _ _ _ hj h1) hbare (by first | exact he | exact he.symm)
            have e3 := versionText_inj e2
            have e4 := hn.inj _ _ _ _ _ _ _ hj hx h1 (e1 ▸ hc)
            subst e4
            have := (List.getElem?_eq_some_iff.1 hk0).1
            omega
          · exact h3
        by_cases hff : fid = f
        · subst hff
          rw [hsame] at hk
          rcases getElem_snoc hk with hk1 | ⟨hk1, hp⟩
          · exact hold hk1
          · subst hp; subst hk1
            exact ⟨id, i, hc, firstInfo_new hm i, by simp⟩
        · rw [hother f hff] at hk
          exact hold hk
      · intro f t fp' hmem
        simp only [List.mem_append, List.mem_singleton, reduceCtorEq, or_false] at hmem
        rw [aget_aset]
        split
        · rename_i he
          exact absurd (by first | exact he | exact he.symm) (fileOf_ne (hn.target _ _ _ (hd _ hmem)))
        · exact hinv.copied f t fp' hmem
      · intro name h1 h2
        rw [aget_aset]
        split
        · rename_i he
          refine absurd (by first | exact he | exact he.symm) (h1 fid (sets fid done).length fp id ?_ hc)
          rw [hsame]; simp
        · refine hinv.kept name ?_ ?_
          · intro f k fp' id' hk
            refine h1 f k fp' id' ?_
            obtain ⟨m, hmm⟩ := sets_prefix f done [.intermediate fid fp i]
            rw [← hmm, List.getElem?_append_left (List.getElem?_eq_some_iff.1 hk).1]; exact hk
          · intro f t fp' hmem; exact h2 f t fp' (List.mem_append_left _ hmem)
      · rw [hsame, List.idxOf_append_of_notMem hm]
        simpa using hr
  | elementary f0 t0 fp0 =>
    obtain ⟨v, w, hv, hw, hr, rfl⟩ := elementary_ok h
    have hsets : ∀ f, sets f (done ++ [.elementary f0 t0 fp0]) = sets f done :=
      fun f => sets_snoc_elementary ..
    refine ⟨⟨?_, ?_, ?_, ?_⟩, v, w, hv, hw, hr⟩
    · intro f hf
      rw [hsets, aget_aset]
      split
      · rename_i he
        have : f = f0 := by first | exact he | exact he.symm
        subst this
        exact absurd hx (hf _ _)
      · exact hinv.vals f hf
    · intro f k fp' hk
      rw [hsets] at hk
      obtain ⟨id', i', h1, h2, h3⟩ := hinv.made f k fp' hk
      refine ⟨id', i', h1, firstInfo_append h2 _, ?_⟩
      rw [aget_aset]
      split
      · rename_i he
        exact absurd (by first | exact he | exact he.symm) (fileOf_ne (hn.target _ _ _ hx))
      · exact h3
    · intro f t fp' hmem
      rw [aget_aset]
      split
      · rename_i he
        have : t = t0 := by first | exact List.append_cancel_right he | exact (List.append_cancel_right he).symm
        rw [this]
      · rename_i he
        simp only [List.mem_append, List.mem_singleton] at hmem
        rcases hmem with hmem | hmem
        · exact hinv.copied f t fp' hmem
        · injection hmem with _ e _
          subst e
          exact absurd rfl he
    · intro name h1 h2
      rw [aget_aset]
      split
      · rename_i he
        exact absurd (by first | exact he | exact he.symm) (h2 f0 t0 fp0 (by simp))
      · refine hinv.kept name ?_ ?_
        · intro f k fp' id' hk; rw [← hsets f] at hk; exact h1 f k fp' id' hk
        · intro f t fp' hmem; exact h2 f t fp' (List.mem_append_left _ hmem)

theorem refOf_append {env : Env} {done : List (Exchange P I)} {x : Exchange P I} {r : Ref} (hx : x ∈ done)
    (h : RefOf env done r x) (l : List (Exchange P I)) : RefOf env (done ++ l) r x := by
  cases x with
  | intermediate fid fp i =>
    obtain ⟨id, h1, h2⟩ := h
    refine ⟨id, h1, ?_⟩
    rw [idxOf_prefix (mem_sets.2 ⟨i, hx⟩) (sets_prefix fid done l)]
    exact h2
  | elementary f t fp => exact h

theorem run_inv {env : Env} {files0 : List (Str × Content P I)} {all : List (Exchange P I)} (ha : Apart all)
    (hn : Names env all) (l : List (Exchange P I)) :
    ∀ (done : List (Exchange P I)) (s s' : State P I) (rs : List Ref), all = done ++ l → Inv env files0 all done s →
      run env s l = .ok (s', rs) → Inv env files0 all all s' ∧ List.Forall₂ (RefOf env all) rs l := by
  induction l with
  | nil =>
    intro done s s' rs he hi h
    simp only [run, Except.ok.injEq, Prod.mk.injEq] at h
    obtain ⟨rfl, rfl⟩ := h
    simp only [List.append_nil] at he
    subst he
    exact ⟨hi, .nil⟩
  | cons x l ih =>
    intro done s s' rs he hi h
    rw [run] at h
    cases h1 : step env s x with
    | error e => rw [h1] at h; cases h
    | ok p =>
      obtain ⟨s1, r⟩ := p
      rw [h1] at h
      change (run env s1 l).bind _ = _ at h
      cases h2 : run env s1 l with
      | error e => rw [h2] at h; cases h
      | ok q =>
        obtain ⟨s2, rs'⟩ := q
        rw [h2] at h
        injection h with h
        injection h with e1 e2
        subst e1; subst e2
        obtain ⟨hi', hr⟩ := step_inv hi (x := x) (by rw [he]; simp) (fun y hy => by rw [he]; simp [hy]) ha hn h1
        have he' : all = (done ++ [x]) ++ l := by rw [he]; simp
        obtain ⟨hi'', hrs⟩ := ih (done ++ [x]) s1 s2 rs' he' hi' h2
        refine ⟨hi'', .cons ?_ hrs⟩
        rw [he']
        exact refOf_append (by simp) hr l

/-! ## C106: the references of a data set -/

section

variable {env : Env} {files0 : List (Str × Content P I)} {l : List (Exchange P I)} {s : State P I} {rs : List Ref}

private theorem whole (ha : Apart l) (hn : Names env l) (h : run env ⟨[], files0⟩ l = .ok (s, rs)) :
    Inv env files0 l l s ∧ List.Forall₂ (RefOf env l) rs l :=
  run_inv ha hn l [] _ _ _ (by simp) (inv_nil env files0 l) h

private theorem finds_of (hi : Inv env files0 l l s) {r : Ref} {x : Exchange P I} (hx : x ∈ l) (h : RefOf env l r x) :
    Finds l s.files r x := by
  cases x with
  | intermediate fid fp i =>
    obtain ⟨id, hc, rfl⟩ := h
    have hm : fp ∈ sets fid l := mem_sets.2 ⟨i, hx⟩
    obtain ⟨id', i', h1, h2, h3⟩ := hi.made fid _ fp (List.getElem?_idxOf hm)
    rw [hc] at h1
    injection h1 with h1
    subst h1
    refine ⟨i', h2, id ++ c!"_" ++ versionText ((sets fid l).idxOf fp + 1), ?_, h3⟩
    simp [uriOf]
  | elementary f t fp =>
    obtain ⟨v, w, _, _, rfl⟩ := h
    exact ⟨t, rfl, hi.copied f t fp hx⟩

private theorem forall₂_mem {α β : Type} {R S : α → β → Prop} {as : List α} {bs : List β}
    (h : List.Forall₂ R as bs) (hs : ∀ a b, b ∈ bs → R a b → S a b) : List.Forall₂ S as bs := by
  induction h with
  | nil => exact .nil
  | cons h1 _ ih => exact .cons (hs _ _ (by simp) h1) (ih fun a b hb => hs a b (List.mem_cons_of_mem _ hb))

/-- C106. After a data set, each of its exchanges finds at its reference a flow data set of the version in the reference
with its own properties (and the description in the first exchange with these), or the default file of its target. -/
theorem flows_found (ha : Apart l) (hn : Names env l) (h : run env ⟨[], files0⟩ l = .ok (s, rs)) :
    List.Forall₂ (Finds l s.files) rs l := by
  obtain ⟨hi, hr⟩ := whole ha hn h
  exact forall₂_mem hr fun r x hx hr => finds_of hi hx hr

/-- The references: the versions of a flow are numbered in the order in which its sets of properties appear. -/
theorem reference_of (ha : Apart l) (hn : Names env l) (h : run env ⟨[], files0⟩ l = .ok (s, rs)) :
    List.Forall₂ (fun r x => match x with
      | .intermediate fid fp _ => ∃ id n, env.conv fid = .ok id ∧ (sets fid l)[n]? = some fp ∧
          r.id = id ∧ r.version = versionText (n + 1)
      | .elementary _ t _ => r.id = t ∧ ∃ v, env.version t = some v ∧ VersionOf v r.version) rs l := by
  obtain ⟨hi, hr⟩ := whole ha hn h
  refine forall₂_mem hr fun r x hx hr => ?_
  cases x with
  | intermediate fid fp i =>
    obtain ⟨id, hc, rfl⟩ := hr
    exact ⟨id, _, hc, List.getElem?_idxOf (mem_sets.2 ⟨i, hx⟩), rfl, rfl⟩
  | elementary f t fp =>
    obtain ⟨v, w, h1, h2, rfl⟩ := hr
    refine ⟨rfl, v, h1, ?_⟩
    rw [newVersion] at h2
    split at h2
    · rename_i a b c rest hs
      split at h2
      · rename_i n hp
        injection h2 with h2
        exact ⟨a, b, c, rest, n, hs, hp, by simp [← h2, join, pad3]⟩
      · cases h2
    · cases h2

/-- Two intermediate exchanges have the same reference exactly if they are of the same flow and have the same
properties. -/
theorem same_reference_iff (ha : Apart l) (hn : Names env l) (h : run env ⟨[], files0⟩ l = .ok (s, rs))
    {a b : Nat} {f f' : Str} {fp fp' : P} {i i' : I} {r r' : Ref} (h1 : l[a]? = some (.intermediate f fp i))
    (h2 : l[b]? = some (.intermediate f' fp' i')) (h3 : rs[a]? = some r) (h4 : rs[b]? = some r') :
    r = r' ↔ f = f' ∧ fp = fp' := by
  obtain ⟨hi, hr⟩ := whole ha hn h
  have get : ∀ {n : Nat} {x : Exchange P I} {r : Ref}, l[n]? = some x → rs[n]? = some r → RefOf env l r x := by
    intro n x r hx hr'
    rw [List.getElem?_eq_some_iff] at hx hr'
    obtain ⟨_, rfl⟩ := hx
    obtain ⟨_, rfl⟩ := hr'
    exact hr.get _ _
  obtain ⟨id, hc, rfl⟩ := get h1 h3
  obtain ⟨id', hc', rfl⟩ := get h2 h4
  have m1 := List.mem_of_getElem? h1
  have m2 := List.mem_of_getElem? h2
  constructor
  · intro he
    injection he with e1 e2 _
    subst e1
    have e3 := hn.inj _ _ _ _ _ _ _ m1 m2 hc hc'
    subst e3
    have e4 := versionText_inj e2
    refine ⟨rfl, ?_⟩
    have g1 := List.getElem?_idxOf (mem_sets.2 ⟨i, m1⟩)
    have g2 := List.getElem?_idxOf (mem_sets.2 ⟨i', m2⟩)
    rw [Nat.succ.inj e4, g2] at g1
    injection g1 with g1
    exact g1.symm
  · rintro ⟨rfl, rfl⟩
    rw [hc] at hc'
    injection hc' with hc'
    subst hc'
    rfl

/-- In a new folder there are the flow data sets of the exchanges and nothing else: one file for each set of properties
of each flow, and one for each target. -/
theorem folder_exact (ha : Apart l) (hn : Names env l) (h : run env ⟨[], []⟩ l = .ok (s, rs)) (name : Str)
    (c : Content P I) :
    aget name s.files = some c ↔
      (∃ (fid : Str) (n : Nat) (fp : P) (id : Str) (i : I), (sets fid l)[n]? = some fp ∧ env.conv fid = .ok id ∧ firstInfo fid fp l = some i ∧
        name = id ++ c!"_" ++ versionText (n + 1) ++ c!".xml" ∧ c = .made (versionText (n + 1)) fp i) ∨
      (∃ f t fp, Exchange.elementary f t fp ∈ l ∧ name = t ++ c!".xml" ∧ c = .copied t) := by
  obtain ⟨hi, _⟩ := whole ha hn h
  have hmade : ∀ (fid : Str) (n : Nat) fp id, (sets fid l)[n]? = some fp → env.conv fid = .ok id →
      ∃ i, firstInfo fid fp l = some i ∧
        aget (fileOf id (versionText (n + 1))) s.files = some (.made (versionText (n + 1)) fp i) := by
    intro fid n fp id h1 h2
    obtain ⟨id', i, h3, h4, h5⟩ := hi.made fid n fp h1
    rw [h2] at h3; injection h3 with h3; subst h3
    exact ⟨i, h4, h5⟩
  constructor
  · intro hg
    by_cases h1 : ∃ (fid : Str) (n : Nat) (fp : P) (id : Str), (sets fid l)[n]? = some fp ∧ env.conv fid = .ok id ∧ name = fileOf id (versionText (n + 1))
    · obtain ⟨fid, n, fp, id, h1, h2, rfl⟩ := h1
      obtain ⟨i, h3, h4⟩ := hmade fid n fp id h1 h2
      rw [h4] at hg; injection hg with hg
      exact .inl ⟨fid, n, fp, id, i, h1, h2, h3, rfl, hg.symm⟩
    · by_cases h2 : ∃ f t fp, Exchange.elementary f t fp ∈ l ∧ name = t ++ c!".xml"
      · obtain ⟨f, t, fp, h2, rfl⟩ := h2
        rw [hi.copied f t fp h2] at hg; injection hg with hg
        exact .inr ⟨f, t, fp, h2, rfl, hg.symm⟩
      · rw [hi.kept name (fun fid n fp id a b e => h1 ⟨fid, n, fp, id, a, b, e⟩)
          (fun f t fp a e => h2 ⟨f, t, fp, a, e⟩)] at hg
        simp [aget] at hg
  · rintro (⟨fid, n, fp, id, i, h1, h2, h3, rfl, rfl⟩ | ⟨f, t, fp, h1, rfl, rfl⟩)
    · obtain ⟨i', h4, h5⟩ := hmade fid n fp id h1 h2
      rw [h3] at h4; injection h4 with h4; subst h4
      exact h5
    · exact hi.copied f t fp h1

end

/-! ## Which data sets are converted -/

theorem newVersion_iff (v w : Str) : newVersion v 0 = .ok w ↔ VersionOf v w := by
  rw [newVersion]
  constructor
  · intro h2
    split at h2
    · rename_i a b c rest hs
      split at h2
      · rename_i n hp
        injection h2 with h2
        exact ⟨a, b, c, rest, n, hs, hp, by simp [← h2, join, pad3]⟩
      · cases h2
    · cases h2
  · rintro ⟨a, b, c, rest, n, hs, hp, rfl⟩
    rw [hs]
    simp only [hp]
    simp [join, pad3]

private theorem setId_iff (id : Str) : (∃ v, setId id = .ok v) ↔ Validators.Spec.UuidText (id.take 36) := by
  rw [← (Validators.uuid_accepts_iff_partial id).1]
  exact ⟨fun ⟨v, h⟩ => by rw [← patternValidate_ok h]; rw [patternValidate_ok h]; rw [setId, patternValidate_ok h] at h; exact h,
    fun h => ⟨_, h⟩⟩

private theorem setVersion_iff (env : Env) (w : Str) : (∃ v, setVersion env w = .ok v) ↔
    ∃ x y, w = x ++ y ∧ Validators.Spec.VersionText (fun c => env.cls.digit c = true) x := by
  rw [← (Validators.version_accepts_iff_partial env.cls w).1]
  exact ⟨fun ⟨v, h⟩ => by rw [setVersion, patternValidate_ok h] at h; exact h, fun h => ⟨_, h⟩⟩

/-- Every number is accepted as the last part of a version. -/
theorem version_accepted {env : Env} (hd : ∀ c : Char, c.isDigit = true → env.cls.digit c = true) (n : Nat) :
    setVersion env (versionText n) = .ok (versionText n) := by
  have : ∃ v, setVersion env (versionText n) = .ok v := by
    rw [setVersion_iff]
    refine ⟨c!"01.00", '.' :: pad3 (natStr n), rfl, ?_⟩
    simp only [Validators.Spec.VersionText, Validators.Spec.followed]
    refine ⟨c!"01", c!".00", rfl, ?_, c!".", c!"00", rfl, ⟨_, rfl, rfl⟩, c!"00", [], rfl, ?_, [], [], rfl, .inr rfl, rfl⟩
    all_goals
      refine ⟨by decide, by decide, ?_⟩
      intro c hc
      refine hd c ?_
      revert c
      decide
  obtain ⟨v, h⟩ := this
  rw [h, patternValidate_ok h]

omit [DecidableEq P] in
private theorem send_total {env : Env} (hd : ∀ c : Char, c.isDigit = true → env.cls.digit c = true) (s : State P I)
    (id : Str) (n : Nat) (fp : P) (i : I) : ∃ r, send env s id (versionText n) fp i = .ok r := by
  rw [send, version_accepted hd]
  exact ⟨_, rfl⟩

private theorem step_iff {env : Env} (hd : ∀ c : Char, c.isDigit = true → env.cls.digit c = true) (s : State P I)
    (x : Exchange P I) : (∃ r, step env s x = .ok r) ↔ Convertible env x := by
  cases x with
  | intermediate fid fp i =>
    simp only [step, intermediate, Convertible]
    cases hc : env.conv fid with
    | error e =>
      refine ⟨?_, ?_⟩
      · rintro ⟨r, h⟩; cases h
      · rintro ⟨id, h, _⟩; cases h
    | ok id0 =>
      have e : (∃ id, (Except.ok id0 : Py Str) = .ok id ∧ Validators.Spec.UuidText (id.take 36)) ↔
          Validators.Spec.UuidText (id0.take 36) :=
        ⟨fun ⟨id, h, h'⟩ => by injection h with h; subst h; exact h', fun h => ⟨_, rfl, h⟩⟩
      rw [e, ← setId_iff]
      change (∃ r, (setId id0).bind _ = _) ↔ _
      cases hi : setId id0 with
      | error e => exact ⟨fun ⟨r, h⟩ => (by cases h), fun ⟨r, h⟩ => (by cases h)⟩
      | ok id =>
        refine ⟨fun _ => ⟨_, rfl⟩, fun _ => ?_⟩
        simp only [Except.bind]
        cases aget fid s.values with
        | none => rw [← versionText_one]; exact send_total hd _ _ _ _ _
        | some vs =>
          simp only
          split
          · rw [version_accepted hd]; exact ⟨_, rfl⟩
          · exact send_total hd _ _ _ _ _
  | elementary f t fp =>
    simp only [step, elementary, Convertible]
    rw [← setId_iff]
    cases hi : setId t with
    | error e =>
      refine ⟨?_, ?_⟩
      · rintro ⟨r, h⟩; cases h
      · rintro ⟨⟨v, h⟩, _⟩; cases h
    | ok id =>
      simp only [bind, Except.bind]
      cases hv : env.version t with
      | none =>
        refine ⟨?_, ?_⟩
        · rintro ⟨r, h⟩; cases h
        · rintro ⟨_, v, w, x, y, h, _⟩; cases h
      | some v =>
        simp only
        cases hn : newVersion v 0 with
        | error e =>
          refine ⟨?_, ?_⟩
          · rintro ⟨r, h⟩; cases h
          · rintro ⟨_, v', w, x, y, h, h', _⟩
            injection h with h; subst h
            rw [← newVersion_iff, hn] at h'
            cases h'
        | ok w =>
          simp only
          have e : (∃ v', setVersion env w = .ok v') ↔ (∃ v', (Except.ok id : Py Str) = .ok v') ∧ ∃ v' w' x y, some v = some v' ∧ VersionOf v' w' ∧
              w' = x ++ y ∧ Validators.Spec.VersionText (fun c => env.cls.digit c = true) x := by
            rw [setVersion_iff]
            constructor
            · rintro ⟨x, y, h, h'⟩
              exact ⟨⟨_, rfl⟩, v, w, x, y, rfl, (newVersion_iff _ _).1 hn, h, h'⟩
            · rintro ⟨_, v', w', x, y, h, h1, h2, h3⟩
              injection h with h; subst h
              rw [← newVersion_iff, hn] at h1
              injection h1 with h1; subst h1
              exact ⟨x, y, h2, h3⟩
          rw [← e]
          cases hw : setVersion env w with
          | error e => exact ⟨fun ⟨r, h⟩ => (by cases h), fun ⟨r, h⟩ => (by cases h)⟩
          | ok w' => exact ⟨fun _ => ⟨_, rfl⟩, fun _ => ⟨_, rfl⟩⟩

/-- A data set is converted exactly if each exchange can be: what came before, and how often the properties change, does
not matter. -/
theorem converted_iff {env : Env} (hd : ∀ c : Char, c.isDigit = true → env.cls.digit c = true) (s : State P I)
    (l : List (Exchange P I)) : (∃ r, run env s l = .ok r) ↔ ∀ x ∈ l, Convertible env x := by
  induction l generalizing s with
  | nil => simp [run]
  | cons x l ih =>
    rw [List.forall_mem_cons, ← step_iff hd s x, run]
    cases h1 : step env s x with
    | error e =>
      refine ⟨?_, ?_⟩
      · rintro ⟨r, h⟩; cases h
      · rintro ⟨⟨v, h⟩, _⟩; cases h
    | ok p =>
      obtain ⟨s1, r⟩ := p
      rw [← ih s1]
      change (∃ q, (run env s1 l).bind _ = _) ↔ _
      cases h2 : run env s1 l with
      | error e =>
        refine ⟨?_, ?_⟩
        · rintro ⟨r, h⟩; cases h
        · rintro ⟨_, v, h⟩; cases h
      | ok q => exact ⟨fun _ => ⟨⟨_, rfl⟩, _, rfl⟩, fun _ => ⟨_, rfl⟩⟩

/-! ## The versions -/

/-- A reference to a default file with a version of the usual form has that version. -/
theorem default_version {v w : Str} (h : ThreeParts v) (hw : VersionOf v w) : w = v := by
  obtain ⟨a, b, c, rfl, ha, hb, hc, hd⟩ := h
  rw [← newVersion_iff, newVersion] at hw
  have nodot : ∀ x ∈ a ++ b ++ c, x ≠ '.' := by
    rintro x hx rfl
    have := hd _ hx
    simp at this
  obtain ⟨a1, a2, rfl⟩ := List.length_eq_two.1 ha
  obtain ⟨b1, b2, rfl⟩ := List.length_eq_two.1 hb
  obtain ⟨c1, c2, c3, rfl⟩ := List.length_eq_three.1 hc
  simp only [List.cons_append, List.nil_append, List.mem_cons, List.not_mem_nil, or_false, forall_eq_or_imp,
    forall_eq] at nodot hd
  obtain ⟨n1, n2, n3, n4, n5, n6, n7⟩ := nodot
  obtain ⟨_, _, _, _, d5, d6, d7⟩ := hd
  have hsplit : splitOn '.' ([a1, a2] ++ c!"." ++ [b1, b2] ++ c!"." ++ [c1, c2, c3]) = [[a1, a2], [b1, b2], [c1, c2, c3]] := by
    simp [splitOn, n1, n2, n3, n4, n5, n6, n7]
  rw [hsplit] at hw
  have digit : ∀ {c : Char}, c.isDigit = true → ∃ d < 10, c = Nat.digitChar d := by
    intro c hc
    simp only [Char.isDigit, Bool.and_eq_true, decide_eq_true_eq] at hc
    obtain ⟨h1, h2⟩ := hc
    have h1' : 48 ≤ c.toNat := h1
    have h2' : c.toNat ≤ 57 := h2
    refine ⟨c.toNat - 48, by omega, ?_⟩
    have hcc : c = Char.ofNat c.toNat := by simp
    rw [hcc]
    generalize c.toNat = m at h1' h2'
    interval_cases m <;> decide
  obtain ⟨e1, l1, rfl⟩ := digit d5
  obtain ⟨e2, l2, rfl⟩ := digit d6
  obtain ⟨e3, l3, rfl⟩ := digit d7
  have key : ∀ e1 < 10, ∀ e2 < 10, ∀ e3 < 10,
      (parseInt [Nat.digitChar e1, Nat.digitChar e2, Nat.digitChar e3]).map (fun n => pad3 (intStr (n + (0 : Nat)))) =
        some [Nat.digitChar e1, Nat.digitChar e2, Nat.digitChar e3] := by decide +kernel
  have k := key e1 l1 e2 l2 e3 l3
  simp only at hw
  cases hp : parseInt [Nat.digitChar e1, Nat.digitChar e2, Nat.digitChar e3] with
  | none => rw [hp] at k; cases k
  | some n =>
    rw [hp] at k hw
    simp only [Option.map_some, Option.some.injEq] at k
    simp only [Except.ok.injEq] at hw
    rw [← hw, k]
    rfl

/-- The number of a set of properties gives a version of the format up to 999 only. Beyond that the version is written
all the same (see `version_accepted`). -/
theorem version_form_iff (n : Nat) : ThreeParts (versionText n) ↔ n < 1000 := by
  constructor
  · rintro ⟨a, b, c, h, ha, hb, hc, _⟩
    have hl := congrArg List.length h
    simp only [versionText, pad3, List.length_append, List.length_cons, List.length_nil, List.length_replicate, ha, hb,
      hc] at hl
    have : (natStr n).length ≤ 3 := by omega
    rw [natStr_length_le_iff (by omega)] at this
    omega
  · intro h
    have hl : (natStr n).length ≤ 3 := by rw [natStr_length_le_iff (by omega)]; omega
    refine ⟨c!"01", c!"00", pad3 (natStr n), rfl, rfl, rfl, ?_, ?_⟩
    · simp [pad3]; omega
    · intro x hx
      simp only [List.mem_append] at hx
      rcases hx with (hx | hx) | hx
      · revert x; decide
      · revert x; decide
      · exact pad3_digit hx

/-! ## Identifiers -/

private theorem uuidText_chars {t : Str} (h : Validators.Spec.UuidText t) :
    (∀ c ∈ t, Validators.Spec.isHex c ∨ c = '-') ∧ t.length = 36 := by
  refine ⟨?_, Validators.uuidText_length h⟩
  simp only [Validators.Spec.UuidText, Validators.Spec.followed, Validators.Spec.single, Validators.Spec.repeated] at h
  obtain ⟨a1, b1, rfl, h1, a2, b2, rfl, ⟨_, rfl, rfl⟩, a3, b3, rfl, h3, a4, b4, rfl, ⟨_, rfl, rfl⟩, a5, b5,
    rfl, h5, a6, b6, rfl, ⟨_, rfl, rfl⟩, a7, b7, rfl, h7, a8, b8, rfl, ⟨_, rfl, rfl⟩, a9, b9, rfl, h9,
    rfl⟩ := h
  intro c hc
  simp only [List.mem_append, List.mem_singleton, List.not_mem_nil, or_false] at hc
  rcases hc with h | h | h | h | h | h | h | h | h
  · exact .inl (h1.2.2 _ h)
  · exact .inr h
  · exact .inl (h3.2.2 _ h)
  · exact .inr h
  · exact .inl (h5.2.2 _ h)
  · exact .inr h
  · exact .inl (h7.2.2 _ h)
  · exact .inr h
  · exact .inl (h9.2.2 _ h)

private theorem uuidText_free {t : Str} (h : Validators.Spec.UuidText t) {c : Char} (hc : c ∉ c!"0123456789abcdef-") :
    c ∉ t := by
  intro hm
  rcases (uuidText_chars h).1 c hm with h | h
  · exact hc (by simp only [Validators.Spec.isHex] at h; simp only [List.mem_cons] at h ⊢; tauto)
  · exact hc (by simp [h])

private theorem isUuid_free {u : Str} (h : Uuid.IsUuid u) : '_' ∉ u := by
  intro hm
  obtain ⟨a, b, c, d, e, h1, h2, h3, h4, h5, hx, rfl⟩ := h
  have h : '_' ∈ a ++ b ++ c ++ d ++ e := by
    simpa using hm
  exact absurd (hx _ h) (by simp [Uuid.IsHex])

omit [DecidableEq P] in
/-- The names are as they should be if the identifiers in the data set are UUIDs in small letters. -/
theorem names_of_uuid (E : Uuid.BlockFn) {env : Env} (hc : env.conv = Uuid.ecsToIlcd E) {l : List (Exchange P I)}
    (hi : ∀ f fp i, Exchange.intermediate f fp i ∈ l → Uuid.IsLowerUuid f)
    (ht : ∀ f t fp, Exchange.elementary f t fp ∈ l → Validators.Spec.UuidText t) : Names env l where
  inj := by
    intro f fp i f' fp' i' id h h' e e'
    rw [hc] at e e'
    have u := hi _ _ _ h
    have u' := hi _ _ _ h'
    have := (Uuid.uuid_injective E f f' id (Uuid.isUuid_of_lower u) (Uuid.isUuid_of_lower u')).1 e e'
    rwa [Uuid.lower_self u, Uuid.lower_self u'] at this
  bare := by
    intro f fp i id h e
    rw [hc] at e
    obtain ⟨v, h1, h2, _⟩ := Uuid.uuid_shape E f (Uuid.isUuid_of_lower (hi _ _ _ h)) _ (.inl rfl)
    rw [e] at h1
    injection h1 with h1
    subst h1
    exact isUuid_free h2
  target := by
    intro f t fp h
    exact uuidText_free (ht _ _ _ h) (by decide)

/-! ## Reading the references again -/

private theorem lastSegment_suffix (u : Str) : Refs.lastSegment u <:+ u := by
  rw [Refs.lastSegment]
  have := List.takeWhile_prefix (fun c => decide (c ≠ '/')) (l := u.reverse)
  have h := List.reverse_suffix.2 this
  simpa using h

private theorem lastSegment_ne {u name : Str} {c : Char} (hu : u.getLast? = some c) (hc : c ≠ 'l') :
    Refs.lastSegment u ≠ name ++ c!".xml" := by
  intro h
  obtain ⟨p, hp⟩ := lastSegment_suffix u
  rw [h] at hp
  rw [← hp, ← List.append_assoc] at hu
  simp at hu
  exact hc hu.symm

/-- When the result is converted back, the file of each reference is found: it is the one the reference stands for. -/
theorem read_again {env : Env} {l : List (Exchange P I)} {s : State P I} {rs : List Ref} (ha : Apart l)
    (hn : Names env l) (ht : ∀ f t fp, Exchange.elementary f t fp ∈ l → Validators.Spec.UuidText t)
    (hti : ∀ f fp i f' t fp', Exchange.intermediate f fp i ∈ l → Exchange.elementary f' t fp' ∈ l → env.conv f ≠ .ok t)
    (h : run env ⟨[], []⟩ l = .ok (s, rs)) (short : Refs.Short) (r : Ref) (hr : r ∈ rs) :
    ∃ name, r.uri = c!"../flows/" ++ name ∧
      Refs.getFile (some (s.files.map fun p => (p.1, true))) ⟨r.uri, r.id, r.version, short⟩ = some (name ++ c!".xml") := by
  obtain ⟨hi, hrs⟩ := whole ha hn h
  have mem : ∀ n, ((n, true) ∈ s.files.map fun p => (p.1, true)) ↔ ∃ c, aget n s.files = some c := by
    intro n
    rw [← Option.isSome_iff_exists, aget_isSome]
    simp [List.mem_map]
  have xml : ∀ n, ((n, true) ∈ s.files.map fun p => (p.1, true)) → ∃ m, n = m ++ c!".xml" := by
    intro n hn'
    obtain ⟨c, hc⟩ := (mem n).1 hn'
    rcases (folder_exact ha hn h n c).1 hc with ⟨_, _, _, _, _, _, _, _, e, _⟩ | ⟨_, _, _, _, e, _⟩
    · exact ⟨_, e⟩
    · exact ⟨_, e⟩
  have hx : ∃ x ∈ l, RefOf env l r x := by
    clear h hi mem xml
    generalize hR : RefOf env l = R at hrs ⊢
    clear hR ha hn ht hti
    induction hrs with
    | nil => simp at hr
    | cons h1 _ ih =>
      rcases List.mem_cons.1 hr with rfl | hr
      · exact ⟨_, by simp, h1⟩
      · obtain ⟨x, hx, h⟩ := ih hr; exact ⟨x, by simp [hx], h⟩
  obtain ⟨x, hx, hrx⟩ := hx
  cases x with
  | intermediate fid fp i =>
    obtain ⟨id, hc, rfl⟩ := hrx
    have hm : fp ∈ sets fid l := mem_sets.2 ⟨i, hx⟩
    obtain ⟨id', i', h1, _, h3⟩ := hi.made fid _ fp (List.getElem?_idxOf hm)
    rw [hc] at h1; injection h1 with h1; subst h1
    generalize (sets fid l).idxOf fp = k at h3 ⊢
    refine ⟨id ++ c!"_" ++ versionText (k + 1), by simp [uriOf], ?_⟩
    have hlast : ∃ c, (uriOf id ++ c!"_" ++ versionText (k + 1)).getLast? = some c ∧ c ≠ 'l' := by
      have hne : pad3 (natStr (k + 1)) ≠ [] := by simp [pad3, natStr_ne_nil]
      refine ⟨(pad3 (natStr (k + 1))).getLast hne, ?_, ?_⟩
      · rw [versionText, ← List.append_assoc, List.getLast?_append, List.getLast?_eq_some_getLast hne]; rfl
      · intro e
        have := pad3_digit (List.getLast_mem hne)
        rw [e] at this
        simp at this
    obtain ⟨c, hc1, hc2⟩ := hlast
    have o1 : (Refs.lastSegment (uriOf id ++ c!"_" ++ versionText (k + 1)), true) ∉ s.files.map fun p => (p.1, true) := by
      intro hmem
      obtain ⟨m, hm⟩ := xml _ hmem
      exact lastSegment_ne hc1 hc2 hm
    have o2 : (id ++ c!"_" ++ versionText (k + 1) ++ c!".xml", true) ∈ s.files.map fun p => (p.1, true) := (mem _).2 ⟨_, h3⟩
    simp only [Refs.getFile, Refs.options, List.find?_cons]
    simp only [o1, decide_false, o2, decide_true]
  | elementary f t fp =>
    obtain ⟨v, w, _, _, rfl⟩ := hrx
    refine ⟨t, rfl, ?_⟩
    have hu := ht _ _ _ hx
    have hlast : ∃ c, (uriOf t).getLast? = some c ∧ c ≠ 'l' := by
      have hne : t ≠ [] := by intro e; have := (uuidText_chars hu).2; rw [e] at this; simp at this
      refine ⟨t.getLast hne, ?_, ?_⟩
      · rw [uriOf, List.getLast?_append, List.getLast?_eq_some_getLast hne]; rfl
      · intro e
        exact uuidText_free hu (c := 'l') (by decide) (e ▸ List.getLast_mem hne)
    obtain ⟨c, hc1, hc2⟩ := hlast
    have o1 : (Refs.lastSegment (uriOf t), true) ∉ s.files.map fun p => (p.1, true) := by
      intro hmem
      obtain ⟨m, hm⟩ := xml _ hmem
      exact lastSegment_ne hc1 hc2 hm
    have o2 : (t ++ c!"_" ++ w ++ c!".xml", true) ∉ s.files.map fun p => (p.1, true) := by
      intro hmem
      obtain ⟨c, hc⟩ := (mem _).1 hmem
      rcases (folder_exact ha hn h _ c).1 hc with ⟨fid, n, fp', id, i', g1, g2, _, g4, _⟩ | ⟨f', t', fp', g1, g2, _⟩
      · obtain ⟨j, hj⟩ := mem_sets.1 (List.mem_of_getElem? g1)
        obtain ⟨e, _⟩ := fileOf_inj (hn.target _ _ _ hx) (hn.bare _ _ _ _ hj g2) g4
        exact hti _ _ _ _ _ _ hj hx (e ▸ g2)
      · exact fileOf_ne (hn.target _ _ _ g1) g2
    have o3 : (t ++ c!".xml", true) ∈ s.files.map fun p => (p.1, true) := (mem _).2 ⟨_, hi.copied f t fp hx⟩
    simp only [Refs.getFile, Refs.options, List.find?_cons]
    simp only [o1, decide_false, o2, o3, decide_true]

/-! ## C107: several data sets -/

omit [DecidableEq P] in
theorem names_mono {env : Env} {l l' : List (Exchange P I)} (h : Names env l) (hs : ∀ x ∈ l', x ∈ l) : Names env l' where
  inj := fun f fp i f' fp' i' id a b => h.inj f fp i f' fp' i' id (hs _ a) (hs _ b)
  bare := fun f fp i id a => h.bare f fp i id (hs _ a)
  target := fun f t fp a => h.target f t fp (hs _ a)

private theorem bind_split {α β : Type} {x : Py α} {f : α → Py β} {b : β} (h : x.bind f = .ok b) :
    ∃ a, x = .ok a ∧ f a = .ok b := by
  cases x with
  | error e => cases h
  | ok a => exact ⟨a, rfl, h⟩

/-- One output for each data set: every exchange finds its own properties. -/
theorem each_file_found {env : Env} {ds : List (List (Exchange P I))} {out : List (List (Str × Content P I) × List Ref)}
    (ha : ∀ d ∈ ds, Apart d) (hn : ∀ d ∈ ds, Names env d) (h : eachFile env ds = .ok out) :
    List.Forall₂ (fun o d => List.Forall₂ (Finds d o.1) o.2 d) out ds := by
  induction ds generalizing out with
  | nil => simp only [eachFile, Except.ok.injEq] at h; subst h; exact .nil
  | cons d ds ih =>
    rw [eachFile] at h
    obtain ⟨⟨s, rs⟩, h1, h⟩ := bind_split h
    obtain ⟨l, h2, h⟩ := bind_split h
    injection h with h
    subst h
    exact .cons (flows_found (ha d (by simp)) (hn d (by simp)) h1)
      (ih (fun d hd => ha d (by simp [hd])) (fun d hd => hn d (by simp [hd])) h2)

private theorem database_inv {env : Env} {all : List (Exchange P I)} (hn : Names env all)
    {ds : List (List (Exchange P I))} (ha : ∀ d ∈ ds, Apart d) (hs : ∀ d ∈ ds, ∀ x ∈ d, x ∈ all)
    {files0 files : List (Str × Content P I)} {rss : List (List Ref)} (h : database env files0 ds = .ok (files, rss)) :
    (∀ f fp i id k, Exchange.intermediate f fp i ∈ all → env.conv f = .ok id →
      aget (fileOf id (versionText (k + 1))) files =
        match lastSet f k ds with
        | some (fp', i') => some (.made (versionText (k + 1)) fp' i')
        | none => aget (fileOf id (versionText (k + 1))) files0) ∧
    (∀ t, '_' ∉ t → (aget (t ++ c!".xml") files0 = some (.copied t) ∨
        ∃ d ∈ ds, ∃ f fp, Exchange.elementary f t fp ∈ d) → aget (t ++ c!".xml") files = some (.copied t)) ∧
    List.Forall₂ (fun rs d => List.Forall₂ (RefOf env d) rs d) rss ds := by
  induction ds generalizing files0 rss with
  | nil =>
    simp only [database, Except.ok.injEq, Prod.mk.injEq] at h
    obtain ⟨rfl, rfl⟩ := h
    refine ⟨?_, ?_, .nil⟩
    · intros; rfl
    · rintro t _ (h | ⟨d, hd, _⟩)
      · exact h
      · simp at hd
  | cons d ds ih =>
    rw [database] at h
    obtain ⟨⟨s, rs⟩, h1, h⟩ := bind_split h
    obtain ⟨⟨files', rss'⟩, h2, h⟩ := bind_split h
    injection h with h
    injection h with e1 e2
    subst e1; subst e2
    have hnd : Names env d := names_mono hn (hs d (by simp))
    obtain ⟨hi, hr⟩ := whole (ha d (by simp)) hnd h1
    obtain ⟨g1, g2, g3⟩ := ih (fun d hd => ha d (by simp [hd])) (fun d hd => hs d (by simp [hd])) h2
    refine ⟨?_, ?_, .cons hr g3⟩
    · intro f fp i id k hf hc
      rw [g1 f fp i id k hf hc, lastSet]
      cases hl : lastSet f k ds with
      | some x => rfl
      | none =>
        simp only
        cases hk : (sets f d)[k]? with
        | some fp' =>
          obtain ⟨id', i', j1, j2, j3⟩ := hi.made f k fp' hk
          rw [hc] at j1; injection j1 with j1; subst j1
          simp [j2, j3]
        | none =>
          simp only [Option.bind_none]
          refine hi.kept _ ?_ ?_
          · intro f' k' fp' id' hk' hc' e
            obtain ⟨j, hj⟩ := mem_sets.1 (List.mem_of_getElem? hk')
            have hj' := hs d (by simp) _ hj
            obtain ⟨e1, e2⟩ := fileOf_inj (hn.bare _ _ _ _ hf hc) (hn.bare _ _ _ _ hj' hc') e
            subst e1
            have e3 := hn.inj _ _ _ _ _ _ _ hf hj' hc hc'
            subst e3
            have e4 := versionText_inj e2
            have e5 : k = k' := by omega
            subst e5
            rw [hk] at hk'; cases hk'
          · intro f' t fp' hm
            exact fileOf_ne (hn.target _ _ _ (hs d (by simp) _ hm))
    · intro t htu hcase
      refine g2 t htu ?_
      by_cases hd : ∃ f fp, Exchange.elementary f t fp ∈ d
      · obtain ⟨f, fp, hm⟩ := hd
        exact .inl (hi.copied f t fp hm)
      · rcases hcase with h0 | ⟨d', hd', hm⟩
        · left
          rw [hi.kept, h0]
          · intro f' k' fp' id' _ _ e
            exact fileOf_ne htu e.symm
          · intro f' t' fp' hm e
            have := List.append_cancel_right e
            subst this
            exact hd ⟨f', fp', hm⟩
        · rcases List.mem_cons.1 hd' with rfl | hd'
          · exact absurd hm hd
          · exact .inr ⟨d', hd', hm⟩

theorem lastSet_some {f : Str} {k : Nat} {ds : List (List (Exchange P I))} {d : List (Exchange P I)} {fp : P}
    (hd : d ∈ ds) (hk : (sets f d)[k]? = some fp) :
    ∃ d' ∈ ds, ∃ fp' i', lastSet f k ds = some (fp', i') ∧ (sets f d')[k]? = some fp' ∧ firstInfo f fp' d' = some i' := by
  induction ds with
  | nil => simp at hd
  | cons e ds ih =>
    rw [lastSet]
    cases hl : lastSet f k ds with
    | some x =>
      have : ∀ (ds : List (List (Exchange P I))) x, lastSet f k ds = some x →
          ∃ d' ∈ ds, (sets f d')[k]? = some x.1 ∧ firstInfo f x.1 d' = some x.2 := by
        intro ds
        induction ds with
        | nil => intro x h; simp [lastSet] at h
        | cons e ds ih =>
          intro x h
          rw [lastSet] at h
          cases hl : lastSet f k ds with
          | some y =>
            rw [hl] at h
            injection h with h; subst h
            obtain ⟨d', hd', h⟩ := ih _ hl
            exact ⟨d', by simp [hd'], h⟩
          | none =>
            rw [hl] at h
            simp only [Option.bind_eq_some_iff, Option.map_eq_some_iff] at h
            obtain ⟨fp', h1, i', h2, rfl⟩ := h
            exact ⟨e, by simp, h1, h2⟩
      obtain ⟨d', hd', h1, h2⟩ := this ds x hl
      exact ⟨d', by simp [hd'], x.1, x.2, rfl, h1, h2⟩
    | none =>
      rcases List.mem_cons.1 hd with rfl | hd
      · obtain ⟨i', h1, _⟩ := firstInfo_some (List.mem_of_getElem? hk)
        exact ⟨d, by simp, fp, i', by simp [hk, h1], hk, h1⟩
      · obtain ⟨d', hd', fp', i', h, _⟩ := ih hd
        rw [h] at hl; cases hl

omit [DecidableEq P] in
theorem leadsTo_unique {files : List (Str × Content P I)} {r : Ref} {c c' : Content P I} (h : LeadsTo files r c)
    (h' : LeadsTo files r c') : c = c' := by
  obtain ⟨n, h1, h2⟩ := h
  obtain ⟨n', h1', h2'⟩ := h'
  rw [h1] at h1'
  have := List.append_cancel_left h1'
  subst this
  rw [h2] at h2'
  injection h2'

private theorem forall₂_get {α β : Type} {R : α → β → Prop} {as : List α} {bs : List β} (h : List.Forall₂ R as bs)
    {n : Nat} {a : α} {b : β} (ha : as[n]? = some a) (hb : bs[n]? = some b) : R a b := by
  rw [List.getElem?_eq_some_iff] at ha hb
  obtain ⟨_, rfl⟩ := ha
  obtain ⟨_, rfl⟩ := hb
  exact h.get _ _

section

variable {env : Env} {ds : List (List (Exchange P I))} {files : List (Str × Content P I)} {rss : List (List Ref)}
  (ha : ∀ d ∈ ds, Apart d) (hn : Names env ds.flatten) (h : database env [] ds = .ok (files, rss))
include ha hn h

/-- One output for all data sets: an exchange with the `n`th set of properties of its flow finds the `n`th set of
properties of this flow in the last data set that has so many. -/
theorem database_exact {a b : Nat} {d : List (Exchange P I)} {rs : List Ref} {f : Str} {fp : P} {i : I} {r : Ref}
    (hd : ds[a]? = some d) (hrs : rss[a]? = some rs) (hx : d[b]? = some (.intermediate f fp i)) (hr : rs[b]? = some r) :
    ∃ n fp' i', (sets f d)[n]? = some fp ∧ lastSet f n ds = some (fp', i') ∧ LeadsTo files r (.made r.version fp' i') := by
  have hsub : ∀ d ∈ ds, ∀ x ∈ d, x ∈ ds.flatten := fun d hd x hx => List.mem_flatten.2 ⟨d, hd, hx⟩
  obtain ⟨g1, _, g3⟩ := database_inv hn ha hsub h
  have hmd := List.mem_of_getElem? hd
  have hmx := List.mem_of_getElem? hx
  obtain ⟨id, hc, rfl⟩ := forall₂_get (forall₂_get g3 hrs hd) hr hx
  have hk := List.getElem?_idxOf (mem_sets.2 ⟨i, hmx⟩)
  obtain ⟨_, _, fp', i', hl, _⟩ := lastSet_some hmd hk
  have hg := g1 f fp i id ((sets f d).idxOf fp) (hsub d hmd _ hmx) hc
  rw [hl] at hg
  exact ⟨_, fp', i', hk, hl, id ++ c!"_" ++ versionText ((sets f d).idxOf fp + 1), by simp [uriOf], hg⟩

/-- It finds its own properties exactly if the last such data set has the same there. -/
theorem database_finds_iff {a b : Nat} {d : List (Exchange P I)} {rs : List Ref} {f : Str} {fp : P} {i : I} {r : Ref}
    (hd : ds[a]? = some d) (hrs : rss[a]? = some rs) (hx : d[b]? = some (.intermediate f fp i)) (hr : rs[b]? = some r) :
    (∃ j, LeadsTo files r (.made r.version fp j)) ↔
      ∃ n j, (sets f d)[n]? = some fp ∧ lastSet f n ds = some (fp, j) := by
  obtain ⟨n, fp', i', h1, h2, h3⟩ := database_exact ha hn h hd hrs hx hr
  constructor
  · rintro ⟨j, hj⟩
    have := leadsTo_unique h3 hj
    injection this with _ e1 e2
    subst e1; subst e2
    exact ⟨n, _, h1, h2⟩
  · rintro ⟨m, j, h1', h2'⟩
    have : m = n := by
      have hnd := sets_nodup f d
      obtain ⟨l1, e1⟩ := List.getElem?_eq_some_iff.1 h1
      obtain ⟨l2, e2⟩ := List.getElem?_eq_some_iff.1 h1'
      exact (hnd.getElem_inj_iff).1 (e2.trans e1.symm)
    subst this
    rw [h2] at h2'
    injection h2' with e
    injection e with e1 e2
    subst e1; subst e2
    exact ⟨_, h3⟩

/-- C107 (partial: see `database_overwritten`). If the sets of properties of each flow come in the same order in all
data sets, every exchange finds its own properties. -/
theorem database_found_partial
    (hsame : ∀ d ∈ ds, ∀ d' ∈ ds, ∀ (f : Str) (n : Nat) (fp fp' : P), (sets f d)[n]? = some fp → (sets f d')[n]? = some fp' → fp = fp')
    {a b : Nat} {d : List (Exchange P I)} {rs : List Ref} {f : Str} {fp : P} {i : I} {r : Ref}
    (hd : ds[a]? = some d) (hrs : rss[a]? = some rs) (hx : d[b]? = some (.intermediate f fp i)) (hr : rs[b]? = some r) :
    ∃ j, LeadsTo files r (.made r.version fp j) := by
  have hmd := List.mem_of_getElem? hd
  have hk := List.getElem?_idxOf (mem_sets.2 ⟨i, List.mem_of_getElem? hx⟩)
  obtain ⟨d', hd', fp', i', hl, hk', _⟩ := lastSet_some hmd hk
  have := hsame d hmd d' hd' f _ _ _ hk hk'
  subst this
  exact (database_finds_iff ha hn h hd hrs hx hr).2 ⟨_, i', hk, hl⟩

/-- Elementary exchanges find the default file of their target. -/
theorem database_elementary {a b : Nat} {d : List (Exchange P I)} {rs : List Ref} {f t : Str} {fp : P} {r : Ref}
    (hd : ds[a]? = some d) (hrs : rss[a]? = some rs) (hx : d[b]? = some (.elementary f t fp)) (hr : rs[b]? = some r) :
    LeadsTo files r (.copied t) := by
  have hsub : ∀ d ∈ ds, ∀ x ∈ d, x ∈ ds.flatten := fun d hd x hx => List.mem_flatten.2 ⟨d, hd, hx⟩
  obtain ⟨_, g2, g3⟩ := database_inv hn ha hsub h
  have hmd := List.mem_of_getElem? hd
  have hmx := List.mem_of_getElem? hx
  obtain ⟨v, w, _, _, rfl⟩ := forall₂_get (forall₂_get g3 hrs hd) hr hx
  exact ⟨t, rfl, g2 t (hn.target _ _ _ (hsub d hmd _ hmx)) (.inr ⟨d, hmd, f, fp, hmx⟩)⟩

end

/-! ## Witnesses -/

def plainEnv : Env := ⟨.ok, fun _ => some c!"03.00.004", Validators.ascii⟩

def someId : Str := c!"0b0fcf7c-f2f4-4b0f-9d0e-e4b2a1f2a001"
def otherId : Str := c!"0b0fcf7c-f2f4-4b0f-9d0e-e4b2a1f2a002"

private theorem plain_names {l : List (Exchange Nat Bool)} (hi : ∀ f fp i, Exchange.intermediate f fp i ∈ l → '_' ∉ f)
    (ht : ∀ f t fp, Exchange.elementary f t fp ∈ l → '_' ∉ t) : Names plainEnv l where
  inj := by
    intro f _ _ f' _ _ id _ _ h h'
    simp only [plainEnv, Except.ok.injEq] at h h'
    rw [h, h']
  bare := by
    intro f fp i id hm h
    simp only [plainEnv, Except.ok.injEq] at h
    rw [← h]; exact hi _ _ _ hm
  target := ht

/-- C107 is false in general: of two data sets with different properties of the same flow, the first refers to the
properties of the second. -/
theorem database_overwritten :
    ∃ (ds : List (List (Exchange Nat Bool))) (files : List (Str × Content Nat Bool)) (r : Ref),
      (∀ d ∈ ds, Apart d) ∧ Names plainEnv ds.flatten ∧
      ds = [[.intermediate someId 1 true], [.intermediate someId 2 true]] ∧
      database plainEnv [] ds = .ok (files, [[r], [r]]) ∧
      LeadsTo files r (.made r.version 2 true) ∧ ∀ j, ¬ LeadsTo files r (.made r.version 1 j) := by
  have hl : LeadsTo [(someId ++ c!"_01.00.001.xml", .made c!"01.00.001" 2 true)]
      ⟨someId, c!"01.00.001", c!"../flows/" ++ someId ++ c!"_01.00.001"⟩ (Content.made c!"01.00.001" 2 true) :=
    ⟨someId ++ c!"_01.00.001", by decide +kernel, by decide +kernel⟩
  refine ⟨_, [(someId ++ c!"_01.00.001.xml", .made c!"01.00.001" 2 true)],
    ⟨someId, c!"01.00.001", c!"../flows/" ++ someId ++ c!"_01.00.001"⟩, ?_, ?_, rfl, ?_, hl, ?_⟩
  · intro d hd f fp i t fp' _ h
    simp at hd
    rcases hd with rfl | rfl <;> simp at h
  · refine plain_names ?_ ?_
    · intro f fp i h
      simp at h
      rcases h with ⟨rfl, _⟩ | ⟨rfl, _⟩ <;> decide
    · intro f t fp h; simp at h
  · decide +kernel
  · intro j h
    have := leadsTo_unique hl h
    injection this with _ e _
    cases e

/-- If an elementary exchange has the identifier of an intermediate one with the same properties, the reference of the
latter is to a file nobody has written. -/
theorem shared_id_dangling :
    ∃ (l : List (Exchange Nat Bool)) (s : State Nat Bool) (r r' : Ref), Names plainEnv l ∧
      l = [.elementary someId otherId 1, .intermediate someId 1 true] ∧
      run plainEnv ⟨[], []⟩ l = .ok (s, [r, r']) ∧ r'.version = c!"01.00.000" ∧ ∀ c, ¬ LeadsTo s.files r' c := by
  refine ⟨_, ⟨[(someId, [(0, 1)])], [(otherId ++ c!".xml", .copied otherId)]⟩,
    ⟨otherId, c!"03.00.004", c!"../flows/" ++ otherId⟩,
    ⟨someId, c!"01.00.000", c!"../flows/" ++ someId ++ c!"_01.00.000"⟩, ?_, rfl, ?_, rfl, ?_⟩
  · refine plain_names ?_ ?_
    · intro f fp i h; simp at h; rw [h.1]; decide
    · intro f t fp h; simp at h; rw [h.2.1]; decide
  · decide +kernel
  · rintro c ⟨n, h1, h2⟩
    have h1' : someId ++ c!"_01.00.000" = n := List.append_cancel_left (as := c!"../flows/") (by simpa using h1)
    subst h1'
    have h3 : aget (someId ++ c!"_01.00.000" ++ c!".xml")
        [(otherId ++ c!".xml", (Content.copied otherId : Content Nat Bool))] = none := by decide +kernel
    exact absurd (h2.symm.trans h3) (by simp)

/-- The description of a flow is that of the first exchange: that of a later one with the same properties is lost. -/
theorem later_description_lost {env : Env} (hd : ∀ c : Char, c.isDigit = true → env.cls.digit c = true) {f id : Str}
    (hc : env.conv f = .ok id) (hu : Validators.Spec.UuidText (id.take 36)) (fp : P) (i j : I) :
    ∃ s r, run env ⟨[], []⟩ [.intermediate f fp i, .intermediate f fp j] = .ok (s, [r, r]) ∧
      s.files = [(id ++ c!"_01.00.001.xml", .made c!"01.00.001" fp i)] := by
  obtain ⟨⟨s, rs⟩, h⟩ := (converted_iff hd ⟨[], []⟩ [.intermediate f fp i, .intermediate f fp j]).2 (by
    intro x hx
    simp only [List.mem_cons, List.not_mem_nil, or_false] at hx
    rcases hx with rfl | rfl <;> exact ⟨id, hc, hu⟩)
  have h0 := h
  rw [run] at h
  obtain ⟨⟨s1, r1⟩, h1, h⟩ := bind_split h
  obtain ⟨⟨s2, rs2⟩, h2, h⟩ := bind_split h
  rw [run] at h2
  obtain ⟨⟨s3, r3⟩, h3, h2⟩ := bind_split h2
  obtain ⟨⟨s4, rs4⟩, h4, h2⟩ := bind_split h2
  simp only [run, Except.ok.injEq, Prod.mk.injEq] at h h2 h4
  obtain ⟨rfl, rfl⟩ := h4
  obtain ⟨rfl, rfl⟩ := h2
  obtain ⟨rfl, rfl⟩ := h
  obtain ⟨id1, hc1, h1⟩ := intermediate_ok (s := ⟨[], []⟩) (fp := fp) (i := i) (l := []) h1 (by simp [aget])
  rw [hc] at hc1; injection hc1 with hc1; subst hc1
  rcases h1 with ⟨hm, _⟩ | ⟨_, hs1, hr1⟩
  · simp at hm
  · obtain ⟨id2, hc2, h3⟩ := intermediate_ok (fp := fp) (i := j) (l := [fp]) h3 (by rw [hs1]; simp [aget, aset])
    rw [hc] at hc2; injection hc2 with hc2; subst hc2
    rcases h3 with ⟨_, hs3, hr3⟩ | ⟨hm, _⟩
    · have e : r3 = r1 := by rw [hr1, hr3]; simp
      rw [e] at h0
      exact ⟨_, r1, h0, by rw [hs3, hs1]; simp [aset, fileOf, versionText_one]⟩
    · simp at hm

/-! ## Examples -/

private def three : List (Exchange Nat Bool) :=
  [.intermediate someId 1 true, .intermediate someId 2 false, .elementary c!"e" otherId 7, .intermediate someId 1 false]

example : Apart three ∧ Names plainEnv three ∧ ∃ s rs, run plainEnv ⟨[], []⟩ three = .ok (s, rs) ∧
    rs.map (·.version) = [c!"01.00.001", c!"01.00.002", c!"03.00.004", c!"01.00.001"] ∧ s.files.length = 3 := by
  refine ⟨?_, plain_names ?_ ?_, ?_⟩
  · intro f fp i t fp' h h'
    simp [three] at h h'
    rcases h with h | h | h
    all_goals
      rw [h'.1] at h
      exact absurd h.1 (by decide)
  · intro f fp i h
    simp [three] at h
    rcases h with h | h | h
    all_goals
      rw [h.1]
      decide
  · intro f t fp h
    simp [three] at h
    rw [h.2.1]
    decide
  · refine ⟨⟨[(someId, [(1, 1), (2, 2)]), (c!"e", [(0, 7)])], [(someId ++ c!"_01.00.001.xml", .made c!"01.00.001" 1 true),
        (someId ++ c!"_01.00.002.xml", .made c!"01.00.002" 2 false), (otherId ++ c!".xml", .copied otherId)]⟩,
      [⟨someId, c!"01.00.001", c!"../flows/" ++ someId ++ c!"_01.00.001"⟩,
       ⟨someId, c!"01.00.002", c!"../flows/" ++ someId ++ c!"_01.00.002"⟩,
       ⟨otherId, c!"03.00.004", c!"../flows/" ++ otherId⟩,
       ⟨someId, c!"01.00.001", c!"../flows/" ++ someId ++ c!"_01.00.001"⟩], ?_, rfl, rfl⟩
    decide +kernel

example : ∀ c : Char, c.isDigit = true → plainEnv.cls.digit c = true := by
  intro c h
  simp only [plainEnv, Validators.ascii, Validators.asciiDigit, Char.isDigit] at h ⊢
  exact h

example : ThreeParts c!"03.00.004" ∧ VersionOf c!"03.00.004" c!"03.00.004" :=
  ⟨⟨c!"03", c!"00", c!"004", rfl, rfl, rfl, rfl, by decide⟩,
    ⟨c!"03", c!"00", c!"004", [], 4, by decide, by decide, by decide⟩⟩

/-- Two data sets with the same properties of a flow. -/
example : let ds : List (List (Exchange Nat Bool)) := [[.intermediate someId 1 true], [.intermediate someId 1 false]]
    (∀ d ∈ ds, ∀ d' ∈ ds, ∀ (f : Str) (n : Nat) (fp fp' : Nat), (sets f d)[n]? = some fp → (sets f d')[n]? = some fp' → fp = fp') ∧
      ∃ files rss, database plainEnv [] ds = .ok (files, rss) ∧ files.length = 1 := by
  refine ⟨?_, [(someId ++ c!"_01.00.001.xml", .made c!"01.00.001" 1 false)],
    [[⟨someId, c!"01.00.001", c!"../flows/" ++ someId ++ c!"_01.00.001"⟩],
     [⟨someId, c!"01.00.001", c!"../flows/" ++ someId ++ c!"_01.00.001"⟩]], by decide +kernel, rfl⟩
  intro d hd d' hd' f n fp fp' h h'
  have h1 := mem_sets.1 (List.mem_of_getElem? h)
  have h2 := mem_sets.1 (List.mem_of_getElem? h')
  obtain ⟨i, hi⟩ := h1
  obtain ⟨i', hi'⟩ := h2
  simp only [List.mem_cons, List.not_mem_nil, or_false] at hd hd'
  rcases hd with rfl | rfl <;> rcases hd' with rfl | rfl <;> simp at hi hi' <;> omega

example : Uuid.IsLowerUuid someId ∧ Validators.Spec.UuidText otherId := by
  refine ⟨⟨c!"0b0fcf7c", c!"f2f4", c!"4b0f", c!"9d0e", c!"e4b2a1f2a001", rfl, rfl, rfl, rfl, rfl, ?_, rfl⟩, ?_⟩
  · intro x hx
    revert x
    unfold Uuid.IsLowerHex
    decide +kernel
  · refine ⟨c!"0b0fcf7c", _, rfl, ⟨by decide, by decide, by unfold Validators.Spec.isHex; decide⟩, c!"-", _, rfl, ⟨_, rfl, rfl⟩,
      c!"f2f4", _, rfl, ⟨by decide, by decide, by unfold Validators.Spec.isHex; decide⟩, c!"-", _, rfl, ⟨_, rfl, rfl⟩,
      c!"4b0f", _, rfl, ⟨by decide, by decide, by unfold Validators.Spec.isHex; decide⟩, c!"-", _, rfl, ⟨_, rfl, rfl⟩,
      c!"9d0e", _, rfl, ⟨by decide, by decide, by unfold Validators.Spec.isHex; decide⟩, c!"-", _, rfl, ⟨_, rfl, rfl⟩,
      c!"e4b2a1f2a002", _, rfl, ⟨by decide, by decide, by unfold Validators.Spec.isHex; decide⟩, rfl⟩

end Verif.FlowFiles
