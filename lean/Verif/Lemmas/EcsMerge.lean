/-
Lemmas on the grouping and the sums of equal elementary flows.
-/
import Verif.Lemmas.EcsFlows

namespace Verif.EcsFlows
open Uncertainty Spec

/-- The elementary exchanges with a key. -/
def withKey (k : Str × Dir) (flows : List Flow) : List Flow :=
  flows.filter fun f => f.isElementary && decide (f.key = k)

theorem groups_append (flows : List Flow) (f : Flow) : groups (flows ++ [f]) = addGroup (groups flows) f := by
  simp [groups, List.foldl_append]

theorem groups_get (k : Str × Dir) (flows : List Flow) :
    aget k (groups flows) = if withKey k flows = [] then none else some (withKey k flows) := by
  induction flows using List.reverseRecOn with
  | nil => simp [groups, aget, withKey]
  | append_singleton l f ih =>
    rw [groups_append, addGroup]
    by_cases he : f.isElementary = true
    · rw [if_pos he, aget_aset]
      by_cases hk : k = f.key
      · subst hk
        have : withKey f.key (l ++ [f]) = withKey f.key l ++ [f] := by
          simp [withKey, List.filter_append, he]
        rw [if_pos rfl, this, ih]
        by_cases hl : withKey f.key l = []
        · simp [hl]
        · simp [hl]
      · have : withKey k (l ++ [f]) = withKey k l := by
          simp [withKey, List.filter_append, Ne.symm hk]
        rw [if_neg hk, this, ih]
    · have : withKey k (l ++ [f]) = withKey k l := by
        simp [withKey, List.filter_append, he]
      rw [if_neg he, this, ih]

theorem groups_nodup (flows : List Flow) : ((groups flows).map Prod.fst).Nodup := by
  induction flows using List.reverseRecOn with
  | nil => simp [groups]
  | append_singleton l f ih =>
    rw [groups_append, addGroup]
    split
    · exact aset_nodup ih
    · exact ih

/-- What merging changes: everything else is that of the first exchange. -/
structure SameBut (f g : Flow) : Prop where
  src : g.src = f.src
  target : g.target = f.target
  version : g.version = f.version
  id : g.internalId = f.internalId
  dir : g.dir = f.dir
  ftype : g.ftype = f.ftype

theorem mergeOne_ok {f0 f m : Flow} (h : mergeOne f0 f = .ok m) :
    SameBut f0 m ∧ m.amount.m = f0.amount.m + f.amount.m ∧ m.amount.f = f0.amount.f + f.amount.m ∧
      sumUnc f0.amount f.amount = .ok m.amount.unc ∧ mergeSources f0.sources f.sources = .ok m.sources ∧
      m.bounds = mergeBounds f0.bounds m.amount := by
  unfold mergeOne at h
  split at h
  · simp at h
  · rename_i src hsrc
    split at h
    · simp at h
    · rename_i a ha
      simp only [Except.ok.injEq] at h
      subst h
      simp only [Amt.add] at ha
      cases hu : sumUnc f0.amount f.amount with
      | error e => rw [hu] at ha; simp [Except.map] at ha
      | ok u =>
        rw [hu] at ha
        simp only [Except.map, Except.ok.injEq] at ha
        subst ha
        exact ⟨⟨rfl, rfl, rfl, rfl, rfl, rfl⟩, rfl, rfl, rfl, hsrc, rfl⟩

theorem SameBut.trans {f g h : Flow} (a : SameBut f g) (b : SameBut g h) : SameBut f h :=
  ⟨b.src.trans a.src, b.target.trans a.target, b.version.trans a.version, b.id.trans a.id, b.dir.trans a.dir,
    b.ftype.trans a.ftype⟩

theorem mergeRest_ok : ∀ {l : List Flow} {f0 m : Flow}, mergeRest f0 l = .ok m →
    SameBut f0 m ∧ m.mean = some ((f0 :: l).map fun f => f.amount.m).sum ∧
      m.amount.m = ((f0 :: l).map fun f => f.amount.m).sum
  | [], f0, m, h => by
    simp only [mergeRest, Except.ok.injEq] at h
    subst h
    exact ⟨⟨rfl, rfl, rfl, rfl, rfl, rfl⟩, by simp, by simp⟩
  | f :: l, f0, m, h => by
    simp only [mergeRest] at h
    split at h
    · simp at h
    · rename_i f1 h1
      obtain ⟨s1, a1, -⟩ := mergeOne_ok h1
      obtain ⟨s2, a2, a3⟩ := mergeRest_ok h
      refine ⟨s1.trans s2, ?_, ?_⟩
      · rw [a2]; simp [a1, add_assoc]
      · rw [a3]; simp [a1, add_assoc]

theorem mergeGroups_ok : ∀ {g : List ((Str × Dir) × List Flow)} {r : List ((Str × Dir) × Flow)},
    mergeGroups g = .ok r → (g.map Prod.fst).Nodup → ∀ k,
    match aget k g with
    | some (f0 :: f1 :: l) => ∃ m, aget k r = some m ∧ mergeRest f0 (f1 :: l) = .ok m
    | _ => aget k r = none
  | [], r, h, _, k => by
    simp only [mergeGroups, Except.ok.injEq] at h
    subst h
    simp [aget]
  | (k0, []) :: g, r, h, hn, k => by
    simp only [mergeGroups] at h
    have hn' : (g.map Prod.fst).Nodup := (List.nodup_cons.1 hn).2
    have hk0 : k0 ∉ g.map Prod.fst := (List.nodup_cons.1 hn).1
    have ih := mergeGroups_ok h hn' k
    by_cases e : k0 = k
    · subst e
      have : aget k0 g = none := (aget_none _ _).2 hk0
      rw [this] at ih
      simpa [aget] using ih
    · simpa [aget, e] using ih
  | (k0, [f0]) :: g, r, h, hn, k => by
    simp only [mergeGroups] at h
    have hn' : (g.map Prod.fst).Nodup := (List.nodup_cons.1 hn).2
    have hk0 : k0 ∉ g.map Prod.fst := (List.nodup_cons.1 hn).1
    have ih := mergeGroups_ok h hn' k
    by_cases e : k0 = k
    · subst e
      have : aget k0 g = none := (aget_none _ _).2 hk0
      rw [this] at ih
      simpa [aget] using ih
    · simpa [aget, e] using ih
  | (k0, f0 :: f1 :: l) :: g, r, h, hn, k => by
    simp only [mergeGroups] at h
    have hn' : (g.map Prod.fst).Nodup := (List.nodup_cons.1 hn).2
    split at h
    · simp at h
    · rename_i m hm
      split at h
      · simp at h
      · rename_i r' hr'
        simp only [Except.ok.injEq] at h
        subst h
        have ih := mergeGroups_ok hr' hn' k
        by_cases e : k0 = k
        · subst e
          simp only [aget, if_true]
          exact ⟨m, rfl, hm⟩
        · simpa [aget, e] using ih

theorem allocate_nil (skip : List (Str × Dir)) : ∀ l : List Flow, allocate [] skip l = .ok ()
  | [] => rfl
  | f :: l => by
    simp only [allocate]
    split
    · exact allocate_nil skip l
    · simp [getAllocation, aget, allocate_nil skip l]

theorem finish_true {flows out : List Flow} (h : finish true [] flows = .ok out) :
    ∃ r, mergeGroups (groups flows) = .ok r ∧ out = flows.filterMap (place r) := by
  simp only [finish, allocate_nil, if_true] at h
  split at h
  · simp at h
  · rename_i r hr
    simp only [Except.ok.injEq] at h
    exact ⟨r, hr, h.symm⟩

theorem place_ok {flows : List Flow} {r : List ((Str × Dir) × Flow)} (h : mergeGroups (groups flows) = .ok r)
    (k : Str × Dir) :
    (aget k r = none ∧ (withKey k flows).length ≤ 1) ∨
    ∃ f0 f1 l m, withKey k flows = f0 :: f1 :: l ∧ aget k r = some m ∧ mergeRest f0 (f1 :: l) = .ok m := by
  have := mergeGroups_ok h (groups_nodup flows) k
  rw [groups_get] at this
  match hw : withKey k flows with
  | [] => rw [hw] at this; exact .inl ⟨by simpa using this, by simp⟩
  | [f] => rw [hw] at this; exact .inl ⟨by simpa using this, by simp⟩
  | f0 :: f1 :: l =>
    rw [hw] at this
    obtain ⟨m, h1, h2⟩ := this
    exact .inr ⟨f0, f1, l, m, rfl, h1, h2⟩

theorem mem_withKey {k : Str × Dir} {flows : List Flow} {f : Flow} :
    f ∈ withKey k flows ↔ f ∈ flows ∧ f.isElementary = true ∧ f.key = k := by
  simp [withKey]

end Verif.EcsFlows
