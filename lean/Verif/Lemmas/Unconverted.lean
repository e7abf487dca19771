/-
Assignments of several attributes to a record.
-/
import Verif.Model.Unconverted
import Verif.Spec.Unconverted
import Verif.Lemmas.Assoc

namespace Verif.Unconverted

open Spec (Has IsBool Bools)

theorem aget_find (k : Str) (x : Attrs) : aget k x = (x.find? (fun p => p.1 == k)).map Prod.snd := by
  induction x with
  | nil => rfl
  | cons p l ih =>
    obtain ⟨k', v⟩ := p
    by_cases h : k' = k
    · simp [aget, h]
    · rw [aget, if_neg h, List.find?_cons_of_neg (by simpa using h), ih]

theorem aget_aset_ne {α : Type} {k j : Str} (v : α) (d : List (Str × α)) (h : j ≠ k) :
    aget j (aset k v d) = aget j d := by
  rw [aget_aset]
  simp [h, Ne.symm h]

theorem given_iff {a v : Str} {x : Attrs} : given a x = some v ↔ Has x a v := by
  unfold given Has
  rw [← aget_find, Option.filter_eq_some_iff]
  constructor
  · rintro ⟨h1, h2⟩
    exact ⟨by rintro rfl; simp at h2, h1⟩
  · rintro ⟨h1, h2⟩
    exact ⟨h2, by cases v <;> simp_all⟩

/-- What a validator accepts among texts. -/
def Fits (num : Str → Bool) : Ty → Str → Prop
  | .text, _ => True
  | .real, s => num s = true
  | .bool, s => s ∈ boolTexts
  | .list, _ => True

theorem put_ok {num : Str → Bool} {c : Cls} {k s : Str} {r : Rec} :
    (∃ r', put num c k (.text s) r = .ok r') ↔ ∃ t, aget k c = some t ∧ Fits num t s := by
  unfold put
  cases h : aget k c with
  | none => simp
  | some t =>
    cases t
    · simp [Fits]
    · by_cases hn : num s = true <;> simp [Fits, hn]
    · by_cases hn : s ∈ boolTexts <;> simp [Fits, hn]
    · simp [Fits]

/-- What an assignment leaves behind. -/
theorem put_eq {num : Str → Bool} {c : Cls} {k : Str} {v : Val} {r r' : Rec} (h : put num c k v r = .ok r') :
    ∃ l, r' = aset k (l ++ [v]) r := by
  unfold put at h
  cases hc : aget k c with
  | none => simp [hc] at h
  | some t =>
    cases t <;> cases v <;> simp only [hc] at h
    · exact ⟨[], (Except.ok.inj h).symm⟩
    · simp at h
    · split at h
      · exact ⟨[], (Except.ok.inj h).symm⟩
      · simp at h
    · simp at h
    · split at h
      · exact ⟨[], (Except.ok.inj h).symm⟩
      · simp at h
    · simp at h
    · exact ⟨_, (Except.ok.inj h).symm⟩
    · exact ⟨_, (Except.ok.inj h).symm⟩

theorem put_get {num : Str → Bool} {c : Cls} {k : Str} {v : Val} {r r' : Rec} (h : put num c k v r = .ok r') :
    ∃ l, aget k r' = some (l ++ [v]) := by
  obtain ⟨l, rfl⟩ := put_eq h
  exact ⟨l, aget_aset_self _ _ _⟩

theorem put_other {num : Str → Bool} {c : Cls} {k j : Str} {v : Val} {r r' : Rec} (h : put num c k v r = .ok r')
    (hj : j ≠ k) : aget j r' = aget j r := by
  obtain ⟨l, rfl⟩ := put_eq h
  exact aget_aset_ne _ _ hj

/-- Whether several lines succeed does not depend on the record. -/
theorem putAll_ok {num : Str → Bool} {c : Cls} {x : Attrs} {l : List (Str × Str)} {r : Rec} :
    (∃ r', putAll num c x l r = .ok r') ↔
      ∀ p ∈ l, ∀ s, Has x p.1 s → ∃ t, aget p.2 c = some t ∧ Fits num t s := by
  induction l generalizing r with
  | nil => simp [putAll]
  | cons p l ih =>
    simp only [putAll, List.forall_mem_cons]
    cases hg : given p.1 x with
    | none =>
      simp only [putGiven, hg, ih]
      constructor
      · exact fun h => ⟨fun s hs => by rw [given_iff.mpr hs] at hg; simp at hg, h⟩
      · exact fun h => h.2
    | some s =>
      have hs := given_iff.mp hg
      cases hp : put num c p.2 (.text s) r with
      | error e =>
        simp only [putGiven, hg, hp]
        constructor
        · rintro ⟨_, h⟩
          simp at h
        · rintro ⟨h, _⟩
          obtain ⟨r', hr⟩ := (put_ok (num := num) (r := r)).mpr (h s hs)
          rw [hp] at hr
          simp at hr
      | ok r1 =>
        simp only [putGiven, hg, hp, ih]
        constructor
        · intro h
          refine ⟨fun s' hs' => ?_, h⟩
          have := given_iff.mpr hs'
          rw [hg] at this
          obtain rfl := Option.some.inj this
          exact put_ok.mp ⟨r1, hp⟩
        · exact fun h => h.2

theorem putAll_other {num : Str → Bool} {c : Cls} {x : Attrs} {l : List (Str × Str)} {r r' : Rec} {j : Str}
    (h : putAll num c x l r = .ok r') (hj : j ∉ l.map Prod.snd) : aget j r' = aget j r := by
  induction l generalizing r with
  | nil =>
    simp only [putAll, Except.ok.injEq] at h
    rw [h]
  | cons p l ih =>
    simp only [List.map_cons, List.mem_cons, not_or] at hj
    simp only [putAll] at h
    cases hg : given p.1 x with
    | none =>
      simp only [putGiven, hg] at h
      exact ih h hj.2
    | some s =>
      simp only [putGiven, hg] at h
      cases hp : put num c p.2 (.text s) r with
      | error e => simp [hp] at h
      | ok r1 =>
        simp only [hp] at h
        rw [ih h hj.2, put_other hp hj.1]

theorem putAll_get {num : Str → Bool} {c : Cls} {x : Attrs} {l : List (Str × Str)} {r r' : Rec}
    (h : putAll num c x l r = .ok r') (hd : (l.map Prod.snd).Nodup) {p : Str × Str} (hp : p ∈ l) {s : Str}
    (hs : Has x p.1 s) : ∃ q, aget p.2 r' = some (q ++ [.text s]) := by
  induction l generalizing r with
  | nil => simp at hp
  | cons p' l ih =>
    simp only [List.map_cons, List.nodup_cons] at hd
    simp only [putAll] at h
    cases hg : putGiven num c p' x r with
    | error e => simp [hg] at h
    | ok r1 =>
      simp only [hg] at h
      rcases List.mem_cons.mp hp with rfl | hp
      · rw [putAll_other h hd.1]
        simp only [putGiven, given_iff.mpr hs] at hg
        exact put_get hg
      · exact ih h hd.2 hp

theorem putEach_ok {num : Str → Bool} {c : Cls} {k : Str} (hk : aget k c = some .list) (l : List Val) (r : Rec) :
    ∃ r', putEach num c k l r = .ok r' ∧ (∀ j, j ≠ k → aget j r' = aget j r) ∧
      (aget k r').getD [] = (aget k r).getD [] ++ l := by
  induction l generalizing r with
  | nil => exact ⟨r, rfl, fun _ _ => rfl, by simp⟩
  | cons v l ih =>
    have hp : put num c k v r = .ok (aset k ((aget k r).getD [] ++ [v]) r) := by
      unfold put
      rw [hk]
    obtain ⟨r', h1, h2, h3⟩ := ih (aset k ((aget k r).getD [] ++ [v]) r)
    refine ⟨r', by simp only [putEach, hp, h1], fun j hj => ?_, ?_⟩
    · rw [h2 j hj, aget_aset_ne _ _ hj]
    · rw [h3, aget_aset_self]
      simp

end Verif.Unconverted
