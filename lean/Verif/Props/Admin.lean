/-
Version, time period, type, status and access of a data set.
-/
import Verif.Model.Admin
import Verif.Spec.Admin
import Verif.Spec.Validators
import Verif.Lemmas.Assoc
import Verif.Lemmas.Num
import Verif.Lemmas.EcsVars
import Verif.Props.Validators
import Verif.Props.Refs

namespace Verif.Admin

open Verif.Admin.Spec

/-! ## Codes -/

theorem put_ok_iff (values : List Str) (table : List (Str × Str)) (x v : Str) :
    put values table x = .ok v ↔ aget x table = some v ∧ v ∈ values := by
  unfold put
  cases h : aget x table with
  | none => simp
  | some w =>
    by_cases hw : w ∈ values
    · simp only [if_pos hw, Except.ok.injEq, Option.some.injEq]
      constructor
      · rintro rfl; exact ⟨rfl, hw⟩
      · exact fun h => h.1
    · simp only [if_neg hw, reduceCtorEq, Option.some.injEq, false_iff, not_and]
      rintro rfl; exact hw

/-- A code of the type comes back; there are two. -/
theorem type_back (c v : Str) (h : typeToIlcd c = .ok v) : ∃ i : Int, typeToEcs v = .ok i ∧ intStr i = c := by
  obtain ⟨h1, -⟩ := (put_ok_iff _ _ _ _).1 h
  have : ∀ p ∈ Tables.typeProcess, (∃ i ∈ ([1, 2] : List Int), typeToEcs p.2 = .ok i ∧ intStr i = p.1) := by
    decide +kernel
  obtain ⟨i, -, hi⟩ := this _ (aget_mem h1)
  exact ⟨i, hi⟩

/-- Any other code stops the conversion, although 3 is a code of EcoSpold2. -/
theorem type_stops (c : Str) (h : c ≠ c!"1" ∧ c ≠ c!"2") : typeToIlcd c = .error .typeError := by
  have : aget c Tables.typeProcess = none := by
    rw [aget_none]
    simp [Tables.typeProcess, h.1, h.2]
  unfold typeToIlcd put
  rw [this]

/-- Of the types of ILCD two come back; every other one becomes a black box. -/
theorem type_round (t : Str) (ht : t ∈ ilcdTypes) : ∃ i : Int, typeToEcs t = .ok i ∧
    typeToIlcd (intStr i) = .ok (if t = c!"LCI result" then t else c!"Unit process, black box") := by
  have : ∀ t ∈ ilcdTypes, ∃ i ∈ ([1, 2] : List Int), typeToEcs t = .ok i ∧
    typeToIlcd (intStr i) = .ok (if t = c!"LCI result" then t else c!"Unit process, black box") := by
    decide +kernel
  obtain ⟨i, -, hi⟩ := this t ht
  exact ⟨i, hi⟩

theorem type_kept_iff (t : Str) (ht : t ∈ ilcdTypes) : (∃ i : Int, typeToEcs t = .ok i ∧ typeToIlcd (intStr i) = .ok t) ↔
    t = c!"LCI result" ∨ t = c!"Unit process, black box" := by
  obtain ⟨i, h1, h2⟩ := type_round t ht
  constructor
  · rintro ⟨j, h3, h4⟩
    rw [h1] at h3
    cases h3
    rw [h2] at h4
    simp only [Except.ok.injEq] at h4
    split at h4
    · rename_i h; exact .inl h
    · exact .inr h4.symm
  · intro h
    refine ⟨i, h1, ?_⟩
    rw [h2]
    rcases h with rfl | rfl <;> rfl

/-- The three codes of the status are written. If the status were read (it is not, see `Verif.Mapping.misspelt_mapped`),
0 and 1 would come back and 2 would stop the conversion. -/
theorem status_written_iff (c : Str) : (∃ v, statusToIlcd c = .ok v) ↔ c = c!"0" ∨ c = c!"1" ∨ c = c!"2" := by
  constructor
  · rintro ⟨v, h⟩
    have := aget_mem ((put_ok_iff _ _ _ _).1 h).1
    simp only [Tables.statusPublication, List.mem_cons, Prod.mk.injEq, List.not_mem_nil, or_false] at this
    rcases this with ⟨h, -⟩ | ⟨h, -⟩ | ⟨h, -⟩
    · exact .inl h
    · exact .inr (.inl h)
    · exact .inr (.inr h)
  · rintro (rfl | rfl | rfl)
    · exact ⟨c!"Data set finalised; unpublished", by decide +kernel⟩
    · exact ⟨c!"Data set finalised; subsystems published", by decide +kernel⟩
    · exact ⟨c!"Data set finalised; entirely published", by decide +kernel⟩

theorem status_back (c v : Str) (h : statusToIlcd c = .ok v) :
    statusToEcs v = if c = c!"2" then .error .valueError else .ok (if c = c!"0" then 0 else 1) := by
  obtain ⟨h1, -⟩ := (put_ok_iff _ _ _ _).1 h
  have : ∀ p ∈ Tables.statusPublication,
      statusToEcs p.2 = if p.1 = c!"2" then .error .valueError else .ok (if p.1 = c!"0" then 0 else 1) := by
    decide +kernel
  exact this _ (aget_mem h1)

/-! ## Access -/

theorem head_exists : ∀ t : Str, Head t ((splitOn ';' t).headD [])
  | [] => ⟨by simp [splitOn], .inl (by simp [splitOn])⟩
  | c :: t => by
    obtain ⟨h1, h2⟩ := head_exists t
    rw [splitOn]
    by_cases hc : c = ';'
    · rw [if_pos hc]
      exact ⟨by simp, .inr ⟨t, by simp [hc]⟩⟩
    · rw [if_neg hc]
      split
      · rename_i h0
        rw [h0] at h1 h2
        refine ⟨by simp [Ne.symm hc], ?_⟩
        rcases h2 with h2 | ⟨r, h2⟩
        · left; rw [h2]; rfl
        · right; exact ⟨r, by rw [h2]; rfl⟩
      · rename_i w ws h0
        rw [h0] at h1 h2
        refine ⟨by simpa [Ne.symm hc] using h1, ?_⟩
        rcases h2 with h2 | ⟨r, h2⟩
        · left; rw [h2]; rfl
        · right; exact ⟨r, by rw [h2]; rfl⟩

theorem head_unique {t h h' : Str} (a : Head t h) (b : Head t h') : h = h' := by
  obtain ⟨a1, a2⟩ := a
  obtain ⟨b1, b2⟩ := b
  have key : ∀ {h t : Str}, ';' ∉ h → (t = h ∨ ∃ r, t = h ++ ';' :: r) → t.takeWhile (· ≠ ';') = h := by
    intro h t h1 h2
    have hp : ∀ c ∈ h, (decide (c ≠ ';')) = true := by
      intro c hc; simp; rintro rfl; exact h1 hc
    rcases h2 with rfl | ⟨r, rfl⟩
    · have := List.takeWhile_append_of_pos (p := fun c => decide (c ≠ ';')) (l₁ := t) (l₂ := []) hp
      simpa using this
    · rw [List.takeWhile_append_of_pos hp]; simp
  rw [← key a1 a2, ← key b1 b2]

theorem says_iff (t : Str) (i : Nat) : Says t i ↔ names[i]? = some ((splitOn ';' t).headD []) := by
  constructor
  · rintro ⟨h, h1, h2⟩
    rw [head_unique h1 (head_exists t)] at h2
    exact h2
  · exact fun h => ⟨_, head_exists t, h⟩

theorem says_unique {t : Str} {i j : Nat} (a : Says t i) (b : Says t j) : i = j := by
  rw [says_iff] at a b
  obtain ⟨hi, a⟩ := List.getElem?_eq_some_iff.1 a
  obtain ⟨hj, b⟩ := List.getElem?_eq_some_iff.1 b
  have hn : names.Nodup := by decide
  exact (hn.getElem_inj_iff (hi := hi) (hj := hj)).1 (a.trans b.symm)

theorem access_code (x : Str) : (aget x (Tables.inverse Tables.access)) =
    if x = c!"Public" then some c!"0" else if x = c!"Licensees" then some c!"1" else if x = c!"Results only" then some c!"2"
    else if x = c!"Restricted to " then some c!"3" else none := by
  have : Tables.inverse Tables.access = [(c!"Public", c!"0"), (c!"Licensees", c!"1"), (c!"Results only", c!"2"),
      (c!"Restricted to ", c!"3")] := by decide +kernel
  rw [this]
  simp only [aget, eq_comm]

theorem step_restricted (s : St) (t : Str) (h : Says t 3) : step s (.restriction t) = .error .valueError := by
  rw [says_iff] at h
  unfold step
  simp only [← Option.some.inj h]
  rw [show aget c!"Restricted to " (Tables.inverse Tables.access) = some c!"3" by decide +kernel]
  rfl

theorem step_said (s : St) (t : Str) (i : Nat) (h : Says t i) (hi : i < 3) :
    step s (.restriction t) = .ok ⟨some i, s.later⟩ := by
  rw [says_iff] at h
  unfold step
  have : ∀ i < 3, ∃ c, aget (names.getD i []) (Tables.inverse Tables.access) = some c ∧
      Validators.collectionValidate accessCodes false (.str c) = .ok (i : Int) := by
    intro i hi
    refine ⟨natStr i, ?_⟩
    revert i
    decide +kernel
  obtain ⟨c, h1, h2⟩ := this i hi
  have hn : names.getD i [] = (splitOn ';' t).headD [] := by simp [List.getD, h]
  rw [hn] at h1
  simp only [h1, h2]

theorem step_unsaid (s : St) (t : Str) (h : ∀ i, ¬ Says t i) : step s (.restriction t) = .ok s := by
  have e : ∀ i : Nat, names[i]? ≠ some ((splitOn ';' t).headD []) := fun i => by rw [ne_eq, ← says_iff]; exact h i
  unfold step
  simp only [access_code]
  have h0 := e 0
  have h1 := e 1
  have h2 := e 2
  have h3 := e 3
  simp only [names, List.getElem?_cons_zero, List.getElem?_cons_succ, ne_eq, Option.some.injEq] at h0 h1 h2 h3
  rw [if_neg (Ne.symm h0), if_neg (Ne.symm h1), if_neg (Ne.symm h2), if_neg (Ne.symm h3)]

theorem says_lt {t : Str} {i : Nat} (h : Says t i) : i < 4 := by
  obtain ⟨_, _, h⟩ := h
  exact (List.getElem?_eq_some_iff.1 h).1

/-- What is kept for later. -/
def laterOf : Ev → Option PyVal
  | .exclusive => some (.int 3)
  | .license l => (aget l Tables.restrictionsBack).map .str
  | .restriction _ => none

theorem step_decisive (s : St) (e : Ev) (h : decisive e = true) : step s e = .ok ⟨s.field, laterOf e⟩ := by
  cases e with
  | exclusive => rfl
  | license l => rfl
  | restriction t => cases h

theorem steps_restricted : ∀ (l : List Ev) (s : St), ¬ Unrestricted l → steps s l = .error .valueError
  | [], _, h => absurd (fun t ht => by cases ht) h
  | e :: l, s, h => by
    unfold steps
    by_cases he : ∃ t, e = .restriction t ∧ Says t 3
    · obtain ⟨t, rfl, ht⟩ := he
      rw [step_restricted s t ht]
    · have hl : ¬ Unrestricted l := by
        intro hl
        apply h
        intro t ht hs
        rcases List.mem_cons.1 ht with h' | h'
        · exact he ⟨t, h'.symm, hs⟩
        · exact hl t h' hs
      cases e with
      | exclusive => rw [step_decisive _ _ rfl]; exact steps_restricted l _ hl
      | license x => rw [step_decisive _ _ rfl]; exact steps_restricted l _ hl
      | restriction t =>
        by_cases hs : ∃ i, Says t i
        · obtain ⟨i, hi⟩ := hs
          have := says_lt hi
          have h3 : i ≠ 3 := by rintro rfl; exact he ⟨t, rfl, hi⟩
          rw [step_said s t i hi (by omega)]
          exact steps_restricted l _ hl
        · rw [step_unsaid s t (fun i hi => hs ⟨i, hi⟩)]
          exact steps_restricted l _ hl

theorem lastText_cons {e : Ev} {l : List Ev} {i : Nat} (h : LastText (e :: l) i) :
    LastText l i ∨ ((∃ t, e = .restriction t ∧ Says t i) ∧ ∀ t' j, .restriction t' ∈ l → ¬ Says t' j) := by
  obtain ⟨a, t, b, h1, h2, h3⟩ := h
  cases a with
  | nil => cases h1; exact .inr ⟨⟨t, rfl, h2⟩, h3⟩
  | cons x a => cases h1; exact .inl ⟨a, t, b, rfl, h2, h3⟩

theorem lastDecisive_cons {e d : Ev} {l : List Ev} (h : LastDecisive (e :: l) d) :
    LastDecisive l d ∨ (e = d ∧ decisive d = true ∧ ∀ x ∈ l, decisive x = false) := by
  obtain ⟨hd, a, b, h1, h2⟩ := h
  cases a with
  | nil => cases h1; exact .inr ⟨rfl, hd, h2⟩
  | cons x a => cases h1; exact .inl ⟨hd, a, b, rfl, h2⟩

theorem steps_ok : ∀ (l : List Ev) (s : St), Unrestricted l → ∃ s', steps s l = .ok s' ∧
    (∀ i, LastText l i → s'.field = some (i : Int)) ∧
    ((∀ t i, .restriction t ∈ l → ¬ Says t i) → s'.field = s.field) ∧
    (∀ e, LastDecisive l e → s'.later = laterOf e) ∧
    ((∀ x ∈ l, decisive x = false) → s'.later = s.later)
  | [], s, _ => by
    refine ⟨s, rfl, ?_, fun _ => rfl, ?_, fun _ => rfl⟩
    · rintro i ⟨a, t, b, h, -⟩; simp at h
    · rintro e ⟨-, a, b, h, -⟩; simp at h
  | e :: l, s, h => by
    have hl : Unrestricted l := fun t ht => h t (List.mem_cons_of_mem _ ht)
    have main : ∀ s1, step s e = .ok s1 →
        (∀ t i, e = .restriction t → Says t i → s1.field = some (i : Int)) →
        ((∀ t i, e = .restriction t → ¬ Says t i) → s1.field = s.field) →
        (decisive e = true → s1.later = laterOf e) → (decisive e = false → s1.later = s.later) → ∃ s', steps s (e :: l) = .ok s' ∧
        (∀ i, LastText (e :: l) i → s'.field = some (i : Int)) ∧
        ((∀ t i, .restriction t ∈ e :: l → ¬ Says t i) → s'.field = s.field) ∧
        (∀ d, LastDecisive (e :: l) d → s'.later = laterOf d) ∧
        ((∀ x ∈ e :: l, decisive x = false) → s'.later = s.later) := by
      intro s1 hs1 a1 a2 a3 a4
      obtain ⟨s', h1, h2, h3, h4, h5⟩ := steps_ok l s1 hl
      refine ⟨s', by rw [steps, hs1]; exact h1, ?_, ?_, ?_, ?_⟩
      · intro i hi
        rcases lastText_cons hi with hi | ⟨⟨t, he, ht⟩, hn⟩
        · exact h2 i hi
        · rw [h3 hn, a1 t i he ht]
      · intro hn
        rw [h3 (fun t i ht => hn t i (List.mem_cons_of_mem _ ht)), a2 (fun t i he => hn t i (by simp [he]))]
      · intro d hd
        rcases lastDecisive_cons hd with hd | ⟨rfl, hd, hn⟩
        · exact h4 d hd
        · rw [h5 hn, a3 hd]
      · intro hn
        rw [h5 (fun x hx => hn x (List.mem_cons_of_mem _ hx)), a4 (hn e List.mem_cons_self)]
    cases e with
    | exclusive => exact main _ (step_decisive _ _ rfl) (by simp) (fun _ => rfl) (fun _ => rfl) (by simp [decisive])
    | license x => exact main _ (step_decisive _ _ rfl) (by simp) (fun _ => rfl) (fun _ => rfl) (by simp [decisive])
    | restriction t =>
      by_cases hs : ∃ i, Says t i
      · obtain ⟨i, hi⟩ := hs
        have := says_lt hi
        have h3 : i ≠ 3 := by rintro rfl; exact h t List.mem_cons_self hi
        refine main _ (step_said s t i hi (by omega)) ?_ ?_ (by simp [decisive]) (fun _ => rfl)
        · rintro t' j ht hj
          cases ht
          rw [says_unique hi hj]
        · intro hn
          exact absurd hi (hn t i rfl)
      · refine main _ (step_unsaid s t (fun i hi => hs ⟨i, hi⟩)) ?_ (fun _ => rfl) (by simp [decisive]) (fun _ => rfl)
        rintro t' j ht hj
        cases ht
        exact absurd ⟨j, hj⟩ hs

/-- A text that begins with the name of the last code stops the conversion. -/
theorem restricted_stops (l : List Ev) (h : ¬ Unrestricted l) : accessToEcs l = .error .valueError := by
  unfold accessToEcs
  rw [steps_restricted l _ h]

/-- A reference to a company that is not followed by a license stops the conversion. -/
theorem exclusive_stops (l : List Ev) (h : LastDecisive l .exclusive) : accessToEcs l = .error .valueError := by
  by_cases hu : Unrestricted l
  · obtain ⟨s', h1, -, -, h4, -⟩ := steps_ok l ⟨none, none⟩ hu
    unfold accessToEcs
    rw [h1]
    simp only [h4 _ h, laterOf]
    decide
  · exact restricted_stops l hu

theorem license_code (x : Str) : (∃ i, licenseCode x = some i ∧ aget x Tables.restrictionsBack = some (intStr i) ∧
      Validators.collectionValidate accessCodes false (.str (intStr i)) = .ok i) ∨
    (licenseCode x = none ∧ aget x Tables.restrictionsBack = none) := by
  cases h : aget x Tables.restrictionsBack with
  | none =>
    right
    rw [aget_none] at h
    refine ⟨?_, rfl⟩
    simp only [Tables.restrictionsBack, List.map_cons, List.map_nil, List.mem_cons, List.not_mem_nil, not_or] at h
    simp [licenseCode, ilcdLicenses, h]
  | some c =>
    left
    have : ∀ p ∈ Tables.restrictionsBack, ∃ i ∈ ([0, 1] : List Int), licenseCode p.1 = some i ∧ p.2 = intStr i ∧
        Validators.collectionValidate accessCodes false (.str (intStr i)) = .ok i := by
      decide +kernel
    obtain ⟨i, -, h1, h2, h3⟩ := this _ (aget_mem h)
    exact ⟨i, h1, by rw [← h2], h3⟩

/-- The last license decides, whatever the texts say. -/
theorem license_decides (l : List Ev) (hu : Unrestricted l) (x : Str) (h : LastDecisive l (.license x)) (i : Int)
    (hi : licenseCode x = some i) : accessToEcs l = .ok (some i) := by
  obtain ⟨s', h1, -, -, h4, -⟩ := steps_ok l ⟨none, none⟩ hu
  rcases license_code x with ⟨j, h5, h6, h7⟩ | ⟨h5, -⟩
  · rw [hi] at h5
    cases h5
    unfold accessToEcs
    rw [h1]
    simp only [h4 _ h, laterOf, h6, Option.map_some, h7]
  · rw [hi] at h5; cases h5

/-- Without a license, or with an unknown one, the last text that begins with the name of a code decides. -/
theorem text_decides (l : List Ev) (hu : Unrestricted l)
    (h : (∀ e ∈ l, decisive e = false) ∨ ∃ x, LastDecisive l (.license x) ∧ licenseCode x = none) (i : Nat)
    (hi : LastText l i) : accessToEcs l = .ok (some (i : Int)) := by
  obtain ⟨s', h1, h2, h3, h4, h5⟩ := steps_ok l ⟨none, none⟩ hu
  have hn : s'.later = none := by
    rcases h with h | ⟨x, hx, hc⟩
    · exact h5 h
    · rcases license_code x with ⟨j, h6, -⟩ | ⟨-, h7⟩
      · rw [hc] at h6; cases h6
      · rw [h4 _ hx, laterOf, h7]; rfl
  unfold accessToEcs
  rw [h1]
  simp only [hn, h2 i hi]

/-- Without either, nothing is said. -/
theorem nothing_said (l : List Ev)
    (h : (∀ e ∈ l, decisive e = false) ∨ ∃ x, LastDecisive l (.license x) ∧ licenseCode x = none)
    (hi : ∀ t i, .restriction t ∈ l → ¬ Says t i) : accessToEcs l = .ok none := by
  have hu : Unrestricted l := fun t ht => hi t 3 ht
  obtain ⟨s', h1, h2, h3, h4, h5⟩ := steps_ok l ⟨none, none⟩ hu
  have hn : s'.later = none := by
    rcases h with h | ⟨x, hx, hc⟩
    · exact h5 h
    · rcases license_code x with ⟨j, h6, -⟩ | ⟨-, h7⟩
      · rw [hc] at h6; cases h6
      · rw [h4 _ hx, laterOf, h7]; rfl
  unfold accessToEcs
  rw [h1]
  simp only [hn, h3 hi]

/-- An ILCD data set by others with a company, a text and no license: the conversion stops. -/
example : LastDecisive [.exclusive, .restriction c!"Licensees"] .exclusive :=
  ⟨rfl, [], [.restriction c!"Licensees"], rfl, by simp [decisive]⟩

example : Unrestricted [.restriction c!"Public; for all", .license c!"Other"] ∧
    LastDecisive [.restriction c!"Public; for all", .license c!"Other"] (.license c!"Other") ∧
    licenseCode c!"Other" = some 1 := by
  refine ⟨?_, ⟨rfl, [.restriction c!"Public; for all"], [], rfl, by simp⟩, by decide⟩
  intro t ht
  simp at ht
  subst ht
  rw [says_iff]
  decide

/-- The codes that are written. -/
theorem access_written_iff (access : Option Str) (company : Company) :
    (∃ a, accessToIlcd access company = .ok a) ↔
      ∀ x ∈ access, x = c!"0" ∨ x = c!"1" ∨ x = c!"2" ∨ x = c!"3" := by
  cases access with
  | none => simp [accessToIlcd]
  | some x =>
    simp only [Option.mem_def, Option.some.injEq, forall_eq']
    constructor
    · rintro ⟨a, h⟩
      unfold accessToIlcd at h
      simp only at h
      cases hp : put licenseValues Tables.restrictions x with
      | error e => rw [hp] at h; cases h
      | ok v =>
        have := aget_mem ((put_ok_iff _ _ _ _).1 hp).1
        simp only [Tables.restrictions, List.mem_cons, Prod.mk.injEq, List.not_mem_nil, or_false] at this
        rcases this with ⟨h, -⟩ | ⟨h, -⟩ | ⟨h, -⟩ | ⟨h, -⟩
        · exact .inl h
        · exact .inr (.inl h)
        · exact .inr (.inr (.inl h))
        · exact .inr (.inr (.inr h))
    · rintro (rfl | rfl | rfl | rfl) <;> exact ⟨_, rfl⟩

/-- Without a code the data set is written as one with the code 1: under a license fee, for licensees. -/
theorem access_unstated (company : Company) (a : Access) (h : accessToIlcd none company = .ok a) :
    ∃ b, accessToIlcd (some c!"1") company = .ok b ∧ a.license = b.license ∧ a.exclusive = b.exclusive ∧
      c!"Licensees" <+: a.text ∧ c!"Licensees" <+: b.text := by
  obtain ⟨b, hb⟩ := (access_written_iff (some c!"1") company).2 (by simp)
  refine ⟨b, hb, ?_⟩
  unfold accessToIlcd at h hb
  simp only [Except.ok.injEq] at h
  have h1 : put licenseValues Tables.restrictions c!"1" = .ok c!"License fee" := by decide
  have h2 : aget c!"1" Tables.access = some c!"Licensees" := by decide
  simp only [h1, h2, Except.ok.injEq] at hb
  subst h hb
  exact ⟨rfl, rfl, ⟨_, rfl⟩, ⟨_, rfl⟩⟩

/-- There and back: the code 0 is kept, everything else, including no code at all, becomes 1. -/
theorem access_back (access : Option Str) (company : Company) (a : Access) (h : accessToIlcd access company = .ok a) :
    accessToEcs (events a) = .ok (some (if access = some c!"0" then 0 else 1)) := by
  have htext : ∃ r, a.text = 'L' :: r := by
    unfold accessToIlcd at h
    cases access with
    | none => simp only [Except.ok.injEq] at h; rw [← h]; exact ⟨_, rfl⟩
    | some x =>
      simp only at h
      split at h
      · cases h
      · split at h
        · cases h
        · simp only [Except.ok.injEq] at h; rw [← h]; exact ⟨_, rfl⟩
  have hu : Unrestricted (events a) := by
    intro t ht hs
    have : t = a.text := by
      unfold events at ht
      split at ht <;> simpa using ht
    subst this
    obtain ⟨r, hr⟩ := htext
    obtain ⟨hd, ⟨-, h1⟩, h2⟩ := hs
    have h2 : c!"Restricted to " = hd := by simpa [names] using h2
    subst h2
    rw [hr] at h1
    rcases h1 with h1 | ⟨_, h1⟩ <;> simp at h1
  have hl : LastDecisive (events a) (.license a.license) :=
    ⟨rfl, if a.exclusive then [.exclusive] else [], [.restriction a.text], rfl, by simp [decisive]⟩
  refine license_decides _ hu _ hl _ ?_
  unfold accessToIlcd at h
  cases access with
  | none =>
    simp only [Except.ok.injEq] at h
    rw [← h]
    show licenseCode c!"License fee" = _
    decide
  | some x =>
    simp only at h
    split at h
    · cases h
    · rename_i v hp
      have hm := aget_mem ((put_ok_iff _ _ _ _).1 hp).1
      split at h
      · cases h
      · simp only [Except.ok.injEq] at h
        rw [← h]
        have : ∀ p ∈ Tables.restrictions, licenseCode p.2 = some (if some p.1 = some c!"0" then 0 else 1) := by
          decide +kernel
        exact this _ hm

/-- So of the codes exactly 0 and 1 are kept. -/
theorem access_kept_iff (i : Nat) (hi : i < 4) (company : Company) :
    (∃ a, accessToIlcd (some (natStr i)) company = .ok a ∧ accessToEcs (events a) = .ok (some (i : Int))) ↔ i < 2 := by
  obtain ⟨a, ha⟩ := (access_written_iff (some (natStr i)) company).2 (by
    simp only [Option.mem_def, Option.some.injEq, forall_eq']
    revert i
    decide +kernel)
  have hb := access_back _ _ _ ha
  constructor
  · rintro ⟨a', h1, h2⟩
    rw [ha] at h1
    cases h1
    rw [hb] at h2
    simp only [Except.ok.injEq, Option.some.injEq] at h2
    split at h2 <;> omega
  · intro h2
    refine ⟨a, ha, ?_⟩
    rw [hb]
    have : i = 0 ∨ i = 1 := by omega
    rcases this with rfl | rfl <;> decide +kernel

/-! ## Version -/

/-- The classes of characters agree with the ASCII digits and the point. -/
def Classes (u : Validators.CharClasses) : Prop := (∀ c : Char, c.isDigit = true → u.digit c = true) ∧ u.digit '.' = false

theorem repeated_two (D : Char → Prop) (x : Str) : Validators.Spec.repeated D 2 2 x ↔ ∃ a b, D a ∧ D b ∧ x = [a, b] := by
  unfold Validators.Spec.repeated
  constructor
  · rintro ⟨h1, h2, h3⟩
    match x, h1, h2, h3 with
    | [a, b], _, _, h3 => exact ⟨a, b, h3 a (by simp), h3 b (by simp), rfl⟩
  · rintro ⟨a, b, ha, hb, rfl⟩
    refine ⟨by simp, by simp, ?_⟩
    simp [ha, hb]

theorem repeated_three (D : Char → Prop) (x : Str) :
    Validators.Spec.repeated D 3 3 x ↔ ∃ a b c, D a ∧ D b ∧ D c ∧ x = [a, b, c] := by
  unfold Validators.Spec.repeated
  constructor
  · rintro ⟨h1, h2, h3⟩
    match x, h1, h2, h3 with
    | [a, b, c], _, _, h3 => exact ⟨a, b, c, h3 a (by simp), h3 b (by simp), h3 c (by simp), rfl⟩
  · rintro ⟨a, b, c, ha, hb, hc, rfl⟩
    refine ⟨by simp, by simp, ?_⟩
    simp [ha, hb, hc]

theorem versionText_iff (D : Char → Prop) (x : Str) : Validators.Spec.VersionText D x ↔
    ∃ a b c d, D a ∧ D b ∧ D c ∧ D d ∧ (x = [a, b, '.', c, d] ∨
      ∃ e f g, D e ∧ D f ∧ D g ∧ x = [a, b, '.', c, d, '.', e, f, g]) := by
  simp only [Validators.Spec.VersionText, Validators.Spec.followed, Validators.Spec.optional, Validators.Spec.single,
    repeated_two, repeated_three]
  constructor
  · rintro ⟨_, _, rfl, ⟨a, b, ha, hb, rfl⟩, _, _, rfl, ⟨_, rfl, rfl⟩, _, _, rfl, ⟨c, d, hc, hd, rfl⟩, _, _, rfl, ht, rfl⟩
    refine ⟨a, b, c, d, ha, hb, hc, hd, ?_⟩
    rcases ht with ⟨_, _, rfl, ⟨_, rfl, rfl⟩, _, _, rfl, ⟨e, f, g, he, hf, hg, rfl⟩, rfl⟩ | rfl
    · exact .inr ⟨e, f, g, he, hf, hg, rfl⟩
    · exact .inl rfl
  · rintro ⟨a, b, c, d, ha, hb, hc, hd, h⟩
    refine ⟨[a, b], '.' :: c :: d :: x.drop 5, ?_, ⟨a, b, ha, hb, rfl⟩, ['.'], c :: d :: x.drop 5, rfl, ⟨_, rfl, rfl⟩,
      [c, d], x.drop 5, rfl, ⟨c, d, hc, hd, rfl⟩, x.drop 5, [], by simp, ?_, rfl⟩
    · rcases h with rfl | ⟨e, f, g, he, hf, hg, rfl⟩ <;> simp
    · rcases h with rfl | ⟨e, f, g, he, hf, hg, rfl⟩
      · right; rfl
      · left; exact ⟨['.'], [e, f, g], rfl, ⟨_, rfl, rfl⟩, [e, f, g], [], by simp, ⟨e, f, g, he, hf, hg, rfl⟩, rfl⟩

/-- The text of a version. -/
def versionOf (a b : Nat) : Str := c!"0" ++ natStr a ++ c!".0" ++ natStr b ++ c!".000"

/-- A version is written exactly if the major release has one digit; any other stops the conversion. -/
theorem version_written (u : Validators.CharClasses) (hu : Classes u) (a b : Nat) :
    versionToIlcd u (some (natStr a)) (some (natStr b)) =
      if a < 10 then .ok (versionOf a b) else .error .valueError := by
  have hd : u.digit '0' = true := hu.1 _ (by decide)
  obtain ⟨e, r, hb⟩ := List.exists_cons_of_ne_nil (natStr_ne_nil b)
  have he : u.digit e = true := hu.1 _ (natStr_digit (n := b) (by rw [hb]; simp))
  unfold versionToIlcd
  simp only [Option.getD_some]
  by_cases h : a < 10
  · rw [if_pos h]
    refine (Validators.version_accepts_iff_partial u _).1.2 ?_
    refine ⟨['0', a.digitChar, '.', '0', e], r ++ c!".000", ?_, ?_⟩
    · rw [natStr_lt h, hb]; simp
    · exact (versionText_iff _ _).2 ⟨'0', a.digitChar, '0', e, hd,
        hu.1 _ (natStr_digit (n := a) (by rw [natStr_lt h]; simp)), hd, he, .inl rfl⟩
  · rw [if_neg h]
    refine (Validators.version_accepts_iff_partial u _).2.2 ?_
    rintro ⟨x, y, hxy, hx⟩
    have hlen : 1 < (natStr a).length := by
      have := (natStr_length_le_iff (n := a) (k := 1) (by omega)).not.2 (by simpa using h)
      omega
    match ha : natStr a, hlen with
    | p :: q :: t, _ =>
      rw [ha] at hxy
      obtain ⟨a', b', c', d', -, -, -, -, h1⟩ := (versionText_iff _ _).1 hx
      have hq : q = '.' := by
        rcases h1 with rfl | ⟨e, f, g, -, -, -, rfl⟩ <;>
        · simp only [List.cons_append, List.nil_append, List.cons.injEq] at hxy
          exact hxy.2.2.1
      have : q.isDigit = true := natStr_digit (n := a) (by rw [ha]; simp)
      rw [hq] at this
      cases this

/-- The text that is written is a version of ILCD exactly if both numbers have one digit. -/
theorem version_valid_iff (u : Validators.CharClasses) (hu : Classes u) (a b : Nat) :
    Validators.Spec.VersionText (fun c => u.digit c = true) (versionOf a b) ↔ a < 10 ∧ b < 10 := by
  have hd : u.digit '0' = true := hu.1 _ (by decide)
  have dig : ∀ {n : Nat}, n < 10 → u.digit n.digitChar = true := fun {n} h =>
    hu.1 _ (natStr_digit (n := n) (by rw [natStr_lt h]; simp))
  constructor
  · intro h
    obtain ⟨a', b', c', d', ha', hb', hc', hd', h1⟩ := (versionText_iff _ _).1 h
    have hl : (versionOf a b).length = (natStr a).length + (natStr b).length + 7 := by
      simp [versionOf]; omega
    have := natStr_length_pos a
    have := natStr_length_pos b
    have hle : (versionOf a b).length ≤ 9 := by
      rcases h1 with h1 | ⟨_, _, _, -, -, -, h1⟩ <;> rw [h1] <;> simp
    have h2 : (natStr a).length ≤ 1 := by omega
    have h3 : (natStr b).length ≤ 1 := by omega
    exact ⟨by simpa using (natStr_length_le_iff (by omega)).1 h2, by simpa using (natStr_length_le_iff (by omega)).1 h3⟩
  · rintro ⟨h1, h2⟩
    exact (versionText_iff _ _).2 ⟨'0', a.digitChar, '0', b.digitChar, hd, dig h1, hd, dig h2,
      .inr ⟨'0', '0', '0', hd, hd, hd, by simp [versionOf, natStr_lt h1, natStr_lt h2]⟩⟩

theorem noPoint {s : Str} (h : ∀ c ∈ s, c.isDigit = true) : '.' ∉ s := fun hm => absurd (h _ hm) (by decide)

theorem strip_digits {s : Str} (h : ∀ c ∈ s, c.isDigit = true) : strip s = s :=
  strip_eq_self (fun c hc => pySpace_digit (h c (List.mem_of_mem_head? hc)))
    (fun c hc => pySpace_digit (h c (List.mem_of_mem_getLast? hc)))

theorem parseNat_zero {s : Str} {n : Nat} (h : parseNat s = some n) : parseNat ('0' :: s) = some n := by
  cases s with
  | nil => cases h
  | cons c s =>
    have h : (match digitVal c with
      | some d => parseDigits d s
      | none => none) = some n := h
    show (match digitVal '0' with
      | some d => parseDigits d (c :: s)
      | none => none) = some n
    have h0 : digitVal '0' = some 0 := by decide
    simp only [h0]
    cases hc : digitVal c with
    | none => rw [hc] at h; cases h
    | some d =>
      rw [hc] at h
      have hne : c ≠ '_' := by
        rintro rfl
        rw [show digitVal '_' = none by decide] at hc
        cases hc
      rw [parseDigits]
      · simp only [hc, Nat.zero_mul, Nat.zero_add]; exact h
      · intro c' l' he
        exact absurd he hne

theorem putInt_digits {s : Str} {n : Nat} (hd : ∀ c ∈ s, c.isDigit = true) (h : parseNat s = some n) :
    putInt s = .ok (n : Int) := by
  have hp : parseInt s = some (n : Int) := by
    unfold parseInt
    rw [strip_digits hd]
    split
    · have := hd '-' (by simp)
      simp at this
    · have := hd '+' (by simp)
      simp at this
    · rw [h]; rfl
  unfold putInt
  rw [hp]
  show Validators.intValidate false (.int (n : Int)) = _
  have hn : ¬ ((n : Int) < 0) := by omega
  simp [Validators.intValidate, PyVal.toInt, hn]

theorem putInt_zero (n : Nat) : putInt ('0' :: natStr n) = .ok (n : Int) := by
  refine putInt_digits ?_ (parseNat_zero (parseNat_natStr n))
  intro c hc
  rcases List.mem_cons.1 hc with rfl | h
  · decide
  · exact natStr_digit h

/-- The major release and the minor revision come back, however many digits they have; the other two numbers are 0. -/
theorem version_back (a b : Nat) : versionToEcs (versionOf a b) = .ok ⟨a, 0, 0, b⟩ := by
  have h : splitOn '.' (versionOf a b) = ['0' :: natStr a, '0' :: natStr b, c!"000"] := by
    have e : versionOf a b = ('0' :: natStr a) ++ '.' :: (('0' :: natStr b) ++ '.' :: c!"000") := by
      simp [versionOf]
    have hz : ∀ n, '.' ∉ '0' :: natStr n := by
      intro n
      refine noPoint ?_
      intro c hc
      rcases List.mem_cons.1 hc with rfl | h
      · decide
      · exact natStr_digit h
    rw [e, EcsVars.splitOn_cons (hz a), EcsVars.splitOn_cons (hz b), EcsVars.splitOn_none (by decide)]
  unfold versionToEcs
  simp only [h, List.headD_cons, putInt_zero, Refs.bind_ok']

/-- A number that is not given is written as 0. -/
theorem version_unstated (u : Validators.CharClasses) (x : Option Str) :
    versionToIlcd u none x = versionToIlcd u (some (natStr 0)) x ∧
      versionToIlcd u x none = versionToIlcd u x (some (natStr 0)) := ⟨rfl, rfl⟩

/-- There and back: with a major release below ten the version is kept if its two middle numbers are 0; otherwise these are
lost. With a major release of ten or more there is no data set. -/
theorem version_round (u : Validators.CharClasses) (hu : Classes u) (a m r b : Nat) :
    (∃ x, versionToIlcd u (some (natStr a)) (some (natStr b)) = .ok x ∧
      versionToEcs x = .ok ⟨a, m, r, b⟩) ↔ a < 10 ∧ m = 0 ∧ r = 0 := by
  rw [version_written u hu]
  by_cases h : a < 10
  · simp only [if_pos h, Except.ok.injEq, exists_eq_left', version_back, Version.mk.injEq, true_and, and_true]
    omega
  · simp [h]

/-- A version of ILCD of two or three numbers as the numbers say. -/
def ilcdVersion (v r : Nat) (t : Option Str) : Str :=
  two v ++ c!"." ++ two r ++ (match t with
    | none => []
    | some t => c!"." ++ t)

theorem putInt_two (n : Nat) : putInt (two n) = .ok (n : Int) := by
  unfold two
  split
  · exact putInt_zero n
  · exact putInt_digits (fun c hc => natStr_digit hc) (parseNat_natStr n)

theorem two_digits (n : Nat) : ∀ c ∈ two n, c.isDigit = true := by
  unfold two
  split
  · intro c hc
    simp only [List.mem_append, List.mem_cons, List.not_mem_nil, or_false] at hc
    rcases hc with rfl | h
    · decide
    · exact natStr_digit h
  · exact fun c hc => natStr_digit hc

/-- A version of ILCD is read; its third number is lost. -/
theorem ilcd_version_read (v r : Nat) (t : Option Str) : versionToEcs (ilcdVersion v r t) = .ok ⟨v, 0, 0, r⟩ := by
  unfold versionToEcs ilcdVersion
  have h : ∃ rest, splitOn '.' (two v ++ c!"." ++ two r ++ (match t with
      | none => []
      | some t => c!"." ++ t)) = two v :: two r :: rest := by
    cases t with
    | none =>
      refine ⟨[], ?_⟩
      rw [show two v ++ c!"." ++ two r ++ [] = two v ++ '.' :: two r by simp,
        EcsVars.splitOn_cons (noPoint (two_digits v)), EcsVars.splitOn_none (noPoint (two_digits r))]
    | some t =>
      refine ⟨splitOn '.' t, ?_⟩
      rw [show two v ++ c!"." ++ two r ++ (c!"." ++ t) = two v ++ '.' :: (two r ++ '.' :: t) by simp,
        EcsVars.splitOn_cons (noPoint (two_digits v)), EcsVars.splitOn_cons (noPoint (two_digits r))]
  obtain ⟨rest, h⟩ := h
  simp only [h, List.headD_cons, putInt_two, Refs.bind_ok']

/-- The way from ILCD and back: kept are the versions below ten with the third number 000. -/
theorem ilcd_version_round (u : Validators.CharClasses) (hu : Classes u) (v r : Nat) (t : Option Str) :
    (∃ x, versionToEcs (ilcdVersion v r t) = .ok x ∧
      versionToIlcd u (some (intStr x.majorRelease)) (some (intStr x.minorRevision)) = .ok (ilcdVersion v r t)) ↔
    v < 10 ∧ r < 10 ∧ t = some c!"000" := by
  have hi : ∀ n : Nat, intStr (n : Int) = natStr n := fun n => rfl
  simp only [ilcd_version_read, Except.ok.injEq, exists_eq_left', hi, version_written u hu]
  by_cases h : v < 10
  · simp only [if_pos h, Except.ok.injEq]
    have e : versionOf v r = two v ++ '.' :: ('0' :: natStr r ++ '.' :: c!"000") := by
      simp [versionOf, two, h]
    constructor
    · intro heq
      have hs := congrArg (splitOn '.') heq
      have hz : '.' ∉ '0' :: natStr r := by
        refine noPoint ?_
        intro c hc
        rcases List.mem_cons.1 hc with rfl | h
        · decide
        · exact natStr_digit h
      rw [e, EcsVars.splitOn_cons (noPoint (two_digits v)), EcsVars.splitOn_cons hz, EcsVars.splitOn_none (by decide)] at hs
      cases t with
      | none =>
        rw [show ilcdVersion v r none = two v ++ '.' :: two r by simp [ilcdVersion],
          EcsVars.splitOn_cons (noPoint (two_digits v)), EcsVars.splitOn_none (noPoint (two_digits r))] at hs
        simp at hs
      | some t =>
        have e2 : ilcdVersion v r (some t) = two v ++ '.' :: (two r ++ '.' :: t) := by simp [ilcdVersion]
        rw [e2, EcsVars.splitOn_cons (noPoint (two_digits v)), EcsVars.splitOn_cons (noPoint (two_digits r))] at hs
        simp only [List.cons.injEq, true_and] at hs
        have hr : r < 10 := by
          by_contra hr
          have := hs.1
          simp only [two, if_neg hr] at this
          have := congrArg List.length this
          simp at this
        refine ⟨h, hr, ?_⟩
        rw [e, e2] at heq
        have h2 := List.append_cancel_left heq
        rw [← hs.1] at h2
        have h3 := List.append_cancel_left (List.cons.inj h2).2
        rw [← (List.cons.inj h3).2]
    · rintro ⟨-, hr, rfl⟩
      simp [versionOf, ilcdVersion, two, h, hr]
  · simp [h]

/-- A version without a point stops the conversion. -/
theorem version_without_point (x : Str) (h : '.' ∉ x) : ∃ e, versionToEcs x = .error e := by
  unfold versionToEcs
  rw [EcsVars.splitOn_none h]
  simp only [List.headD_cons]
  cases putInt x with
  | error e => exact ⟨e, rfl⟩
  | ok i => exact ⟨.indexError, rfl⟩

theorem ascii_classes : Classes Validators.ascii := by
  refine ⟨?_, by decide⟩
  intro c hc
  show Validators.asciiDigit c = true
  unfold Validators.asciiDigit
  unfold Char.isDigit at hc
  simp only [Bool.and_eq_true, decide_eq_true_eq] at hc
  simpa [Char.le_def] using hc

example : versionToIlcd Validators.ascii (some c!"3") (some c!"12") = .ok c!"03.012.000" := by decide +kernel

/-! ## Time period -/

/-- The years are written exactly if they have four digits. -/
theorem years_written (d : Day) : referenceYear d = (if 1000 ≤ d.year ∧ d.year ≤ 9999 then .ok (d.year : Int) else .error .valueError) ∧
    validUntil d = (if 1000 ≤ d.year ∧ d.year ≤ 9999 then .ok (d.year : Int) else .error .valueError) := by
  have hlen : ((natStr d.year).length != 4) = !decide (1000 ≤ d.year ∧ d.year ≤ 9999) := by
    have h4 := natStr_length_le_iff (n := d.year) (k := 4) (by omega)
    have h3 := natStr_length_le_iff (n := d.year) (k := 3) (by omega)
    by_cases h : 1000 ≤ d.year ∧ d.year ≤ 9999
    · simp only [h, and_self, decide_true, Bool.not_true, bne_eq_false_iff_eq]
      have a := h4.2 (by omega)
      have b := h3.not.2 (by omega)
      omega
    · simp only [h, decide_false, Bool.not_false, bne_iff_ne, ne_eq]
      intro he
      have a := h4.1 (by omega)
      have b := h3.not.1 (by omega)
      apply h
      omega
  have key : ∀ x : PyVal, x.toInt = some (d.year : Int) → Validators.yearValidate x =
      if 1000 ≤ d.year ∧ d.year ≤ 9999 then .ok (d.year : Int) else .error .valueError := by
    intro x hx
    unfold Validators.yearValidate Validators.limitedIntValidate Validators.intValidate
    rw [hx]
    have hn : ¬ ((d.year : Int) < 0) := by omega
    simp only [hn, decide_false, Bool.and_false, Bool.false_eq_true, if_false, Bool.or_false]
    rw [show intStr (d.year : Int) = natStr d.year from rfl, hlen]
    by_cases h : 1000 ≤ d.year ∧ d.year ≤ 9999 <;> simp [h]
  exact ⟨key _ (parseInt_intStr (d.year : Int)), key _ rfl⟩

/-- The period that comes back reaches from the first day of the first year to the last day of the last year. -/
theorem period_back (s e : Day) (i j : Int) (hs : referenceYear s = .ok i) (he : validUntil e = .ok j) :
    startDate (intStr i) = dayText ⟨s.year, 1, 1⟩ ∧ endDate (intStr j) = dayText ⟨e.year, 12, 31⟩ := by
  rw [(years_written s).1] at hs
  rw [(years_written e).2] at he
  split at hs
  · split at he
    · cases hs
      cases he
      constructor
      · rw [show intStr (s.year : Int) = natStr s.year from rfl]
        unfold startDate dayText
        rw [show two 1 = c!"01" by decide +kernel]
        simp
      · rw [show intStr (e.year : Int) = natStr e.year from rfl]
        unfold endDate dayText
        rw [show two 12 = c!"12" by decide +kernel, show two 31 = c!"31" by decide +kernel]
        simp
    · cases he
  · cases hs

/-- So it is never shorter. -/
theorem period_not_shortened (s e : Day) (hs : IsDay s) (he : IsDay e) :
    NotAfter ⟨s.year, 1, 1⟩ s ∧ NotAfter e ⟨e.year, 12, 31⟩ := by
  unfold IsDay NotAfter at *
  constructor
  · right; refine ⟨rfl, ?_⟩; dsimp only; omega
  · right; refine ⟨rfl, ?_⟩; dsimp only; omega

/-- And it is kept exactly if it already began and ended with a year. -/
theorem period_kept_iff (s e : Day) (hs : IsDay s) (he : IsDay e) (i j : Int) (hi : referenceYear s = .ok i)
    (hj : validUntil e = .ok j) : (startDate (intStr i) = dayText s ∧ endDate (intStr j) = dayText e) ↔
      (s.month = 1 ∧ s.day = 1) ∧ e.month = 12 ∧ e.day = 31 := by
  obtain ⟨h1, h2⟩ := period_back s e i j hi hj
  rw [h1, h2]
  constructor
  swap
  · rintro ⟨⟨a, b⟩, c, d⟩
    simp [dayText, a, b, c, d]
  rintro ⟨h1, h2⟩
  have two_inj : ∀ m < 32, ∀ n < 32, two m = two n → m = n := by decide +kernel
  have hlen : ∀ m < 32, (two m).length = 2 := by decide +kernel
  have key : ∀ (y m d m' d' : Nat), m < 32 → d < 32 → m' < 32 → d' < 32 →
      dayText ⟨y, m, d⟩ = dayText ⟨y, m', d'⟩ → m = m' ∧ d = d' := by
    intro y m d m' d' hm hd hm' hd' h
    unfold dayText at h
    simp only [List.append_assoc] at h
    have h := List.append_cancel_left (List.append_cancel_left h)
    obtain ⟨ha, hb⟩ := List.append_inj h (by rw [hlen m hm, hlen m' hm'])
    exact ⟨two_inj _ hm _ hm' ha, two_inj _ hd _ hd' (List.append_cancel_left hb)⟩
  obtain ⟨s1, s2, s3, s4⟩ := hs
  obtain ⟨e1, e2, e3, e4⟩ := he
  have a := key s.year 1 1 s.month s.day (by omega) (by omega) (by omega) (by omega) h1
  have b := key e.year 12 31 e.month e.day (by omega) (by omega) (by omega) (by omega) h2
  exact ⟨⟨a.1.symm, a.2.symm⟩, b.1.symm, b.2.symm⟩

example : referenceYear ⟨2005, 7, 1⟩ = .ok 2005 ∧ validUntil ⟨2010, 6, 30⟩ = .ok 2010 := by decide +kernel

/-- A type or a status that is not in the tables stops the conversion; it is not taken for the first code. -/
theorem unknown_stops (x : Str) :
    (x ∉ Tables.typeProcessBack.map Prod.fst → typeToEcs x = .error .typeError) ∧
    (x ∉ Tables.statusPublicationBack.map Prod.fst → statusToEcs x = .error .typeError) := by
  constructor
  · intro h
    unfold typeToEcs putCode
    rw [(aget_none _ _).2 h]
    rfl
  · intro h
    unfold statusToEcs putCode
    rw [(aget_none _ _).2 h]
    rfl

example : c!"Draft" ∉ Tables.typeProcessBack.map Prod.fst ∧ c!"Draft" ∉ Tables.statusPublicationBack.map Prod.fst := by
  decide

/-- A version that begins with a letter stops the conversion, whatever follows it. -/
theorem version_letter (c : Char) (s : Str) (h : c.isAlpha = true) : versionToEcs (c :: s) = .error .valueError := by
  have hdot : c ≠ '.' := by rintro rfl; revert h; decide
  have hm : c ≠ '-' := by rintro rfl; revert h; decide
  have hp : c ≠ '+' := by rintro rfl; revert h; decide
  have hr : (97 ≤ c.toNat ∧ c.toNat ≤ 122) ∨ (65 ≤ c.toNat ∧ c.toNat ≤ 90) := by
    simp only [Char.isAlpha, Char.isUpper, Char.isLower, Bool.or_eq_true, Bool.and_eq_true, decide_eq_true_eq,
      ge_iff_le, UInt32.le_iff_toNat_le] at h
    have : c.val.toNat = c.toNat := rfl
    rw [this] at h
    rcases h with ⟨a, b⟩ | ⟨a, b⟩
    · right; exact ⟨a, b⟩
    · left; exact ⟨a, b⟩
  have hsp : pySpace c = false := by
    unfold pySpace
    simp only [Bool.or_eq_false_iff, Bool.and_eq_false_iff, decide_eq_false_iff_not, beq_eq_false_iff_ne]
    omega
  have hd : digitVal c = none := by
    unfold digitVal
    rw [if_neg]
    rintro ⟨h1, h2⟩
    have h3 : c.toNat ≤ 57 := h2
    omega
  have hs : ∃ w, (splitOn '.' (c :: s)).headD [] = c :: w := by
    rw [splitOn, if_neg hdot]
    cases splitOn '.' s with
    | nil => exact ⟨[], rfl⟩
    | cons w ws => exact ⟨w, rfl⟩
  obtain ⟨w, hw⟩ := hs
  have hst : ∃ w', strip (c :: w) = c :: w' := by
    unfold strip lstrip rstrip
    rw [List.dropWhile_cons_of_neg (by simp [hsp]), List.reverse_cons, List.dropWhile_append]
    split
    · exact ⟨[], by simp [hsp]⟩
    · exact ⟨((w.reverse).dropWhile pySpace).reverse, by simp⟩
  obtain ⟨w', hw'⟩ := hst
  have hi : parseInt (c :: w) = none := by
    unfold parseInt
    rw [hw']
    split
    · rename_i e; exact absurd (List.cons.inj e).1 hm
    · rename_i e; exact absurd (List.cons.inj e).1 hp
    · simp [parseNat, hd]
  unfold versionToEcs
  simp only [hw]
  unfold putInt
  rw [hi]
  rfl

end Verif.Admin
