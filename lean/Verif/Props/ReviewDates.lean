/-
Property C11 exactly: which of the dates of review is kept, and when that does not depend on the order.
-/
import Verif.Props.Validators

namespace Verif.Validators

/-- No date added has a later clock reading than `d`. -/
def LatestClock (ds : List DateTime) (d : DateTime) : Prop := ∀ e ∈ ds, e.wall ≤ d.wall

/-- A date is replaced only by one with a later clock reading. -/
theorem reviewDate_stays (parse : PyVal → Py DateTime) (os : List PyVal) (d : DateTime)
    (h : LatestClock (dates parse os) d) : adds (reviewDateAdd parse) (some d) os = some d := by
  induction os with
  | nil => rfl
  | cons o os ih =>
    show adds (reviewDateAdd parse) (caught (reviewDateAdd parse) (some d) o) os = some d
    cases hp : parse o with
    | error e =>
      have hd : dates parse (o :: os) = dates parse os := by simp [dates, hp, Except.toOption]
      rw [hd] at h
      simpa [caught, reviewDateAdd, addCompare, hp] using ih h
    | ok v =>
      have hd : dates parse (o :: os) = v :: dates parse os := by simp [dates, hp, Except.toOption]
      rw [hd] at h
      have hv : ¬ v.wall > d.wall := by
        have := h v (by simp)
        omega
      simpa [caught, reviewDateAdd, addCompare, hp, hv] using ih fun e he => h e (by simp [he])

/-- Each of the dates with the latest clock reading is kept in some order of reading. -/
theorem reviewDate_reachable (parse : PyVal → Py DateTime) (os : List PyVal) (d : DateTime)
    (hd : d ∈ dates parse os) (h : LatestClock (dates parse os) d) :
    ∃ os', os.Perm os' ∧ adds (reviewDateAdd parse) none os' = some d := by
  obtain ⟨o, ho, hp⟩ := List.mem_filterMap.1 hd
  obtain ⟨a, b, rfl⟩ := List.append_of_mem ho
  refine ⟨o :: (a ++ b), List.perm_middle, ?_⟩
  have hok : parse o = .ok d := by
    cases hq : parse o with
    | error e => rw [hq] at hp; cases hp
    | ok v => rw [hq] at hp; cases hp; rfl
  show adds (reviewDateAdd parse) (caught (reviewDateAdd parse) none o) (a ++ b) = some d
  have : caught (reviewDateAdd parse) none o = some d := by
    simp [caught, reviewDateAdd, addCompare, hok]
  rw [this]
  apply reviewDate_stays
  intro e he
  apply h
  obtain ⟨q, hq, hqe⟩ := List.mem_filterMap.1 he
  refine List.mem_filterMap.2 ⟨q, ?_, hqe⟩
  simp only [List.mem_append, List.mem_cons] at hq ⊢
  tauto

/-- The date kept is the first of those with the latest clock reading. -/
theorem review_date_first (parse : PyVal → Py DateTime) (os : List PyVal) (a b : List DateTime)
    (d : DateTime) (hs : dates parse os = a ++ d :: b) (ha : ∀ e ∈ a, e.wall < d.wall)
    (hb : ∀ e ∈ b, e.wall ≤ d.wall) : adds (reviewDateAdd parse) none os = some d := by
  have gen : ∀ (os : List PyVal) (x : Option DateTime) (a : List DateTime), (∀ y, x = some y → y.wall < d.wall) →
      dates parse os = a ++ d :: b → (∀ e ∈ a, e.wall < d.wall) →
      adds (reviewDateAdd parse) x os = some d := by
    intro os
    induction os with
    | nil => intro x a _ h _; simp [dates] at h
    | cons o os ih =>
      intro x a hx hs ha
      show adds (reviewDateAdd parse) (caught (reviewDateAdd parse) x o) os = some d
      cases hp : parse o with
      | error e =>
        have hd : dates parse (o :: os) = dates parse os := by simp [dates, hp, Except.toOption]
        rw [hd] at hs
        have hc : caught (reviewDateAdd parse) x o = x := by
          cases x <;> simp [caught, reviewDateAdd, addCompare, hp]
        rw [hc]
        exact ih x a hx hs ha
      | ok v =>
        have hd : dates parse (o :: os) = v :: dates parse os := by simp [dates, hp, Except.toOption]
        rw [hd] at hs
        cases a with
        | nil =>
          simp only [List.nil_append, List.cons.injEq] at hs
          obtain ⟨rfl, hs'⟩ := hs
          have hc : caught (reviewDateAdd parse) x o = some v := by
            cases x with
            | none => simp [caught, reviewDateAdd, addCompare, hp]
            | some y => simp [caught, reviewDateAdd, addCompare, hp, hx y rfl]
          rw [hc]
          apply reviewDate_stays
          rw [hs']
          exact hb
        | cons w a =>
          simp only [List.cons_append, List.cons.injEq] at hs
          obtain ⟨rfl, hs⟩ := hs
          refine ih _ a ?_ hs fun e he => ha e (by simp [he])
          intro y hy
          have hv := ha v (by simp)
          cases x with
          | none =>
            simp [caught, reviewDateAdd, addCompare, hp] at hy
            rw [← hy]; exact hv
          | some z =>
            have hz := hx z rfl
            by_cases hgt : v.wall > z.wall
            · simp [caught, reviewDateAdd, addCompare, hp, hgt] at hy
              rw [← hy]; exact hv
            · simp [caught, reviewDateAdd, addCompare, hp, hgt] at hy
              rw [← hy]; exact hz
  exact gen os none a (by simp) hs ha

example : ∃ parse : PyVal → Py DateTime, ∃ os, dates parse os = [⟨3, none⟩] ++ ⟨7, none⟩ :: [⟨7, some 2⟩] :=
  ⟨fun | .int 7 => .ok ⟨7, some 2⟩ | .int i => .ok ⟨i - 1, none⟩ | _ => .error .valueError,
    [.int 4, .int 8, .int 7], rfl⟩

/-- C11, exactly: every order of reading keeps the same date if and only if the dates with the
latest clock reading are one and the same. -/
theorem review_date_order_iff (parse : PyVal → Py DateTime) (os : List PyVal)
    (h : dates parse os ≠ []) :
    (∀ os', os.Perm os' → adds (reviewDateAdd parse) none os' = adds (reviewDateAdd parse) none os) ↔
      ∀ d ∈ dates parse os, ∀ e ∈ dates parse os, LatestClock (dates parse os) d →
        LatestClock (dates parse os) e → d = e := by
  constructor
  · intro hall d hd e he hld hle
    obtain ⟨p, hp, hpd⟩ := reviewDate_reachable parse os d hd hld
    obtain ⟨q, hq, hqe⟩ := reviewDate_reachable parse os e he hle
    have := (hall p hp).trans (hall q hq).symm
    rw [hpd, hqe] at this
    exact Option.some.inj this
  · intro hone os' hperm
    have hp : (dates parse os).Perm (dates parse os') := hperm.filterMap _
    obtain ⟨d, h1, h2, h3⟩ := review_date_latest_clock parse os h
    obtain ⟨d', h1', h2', h3'⟩ := review_date_latest_clock parse os'
      (fun e => h (by rw [e] at hp; exact hp.eq_nil))
    rw [h1, h1', hone d' (hp.mem_iff.2 h2') d h2 (fun e he => h3' e (hp.mem_iff.1 he)) h3]

/-- C11, exactly: every order of reading keeps a latest date if and only if every date with the
latest clock reading is one. -/
theorem review_date_latest_iff (parse : PyVal → Py DateTime) (os : List PyVal)
    (h : dates parse os ≠ []) :
    (∀ os', os.Perm os' → ∃ d, adds (reviewDateAdd parse) none os' = some d ∧
      ∀ e ∈ dates parse os, e.instant ≤ d.instant) ↔
      ∀ d ∈ dates parse os, LatestClock (dates parse os) d →
        ∀ e ∈ dates parse os, e.instant ≤ d.instant := by
  constructor
  · intro hall d hd hl
    obtain ⟨p, hp, hpd⟩ := reviewDate_reachable parse os d hd hl
    obtain ⟨d', h1, h2⟩ := hall p hp
    rw [hpd] at h1
    cases h1
    exact h2
  · intro hone os' hperm
    have hp : (dates parse os).Perm (dates parse os') := hperm.filterMap _
    obtain ⟨d', h1', h2', h3'⟩ := review_date_latest_clock parse os'
      (fun e => h (by rw [e] at hp; exact hp.eq_nil))
    exact ⟨d', h1', hone d' (hp.mem_iff.2 h2') fun e he => h3' e (hp.mem_iff.1 he)⟩

example : ∃ parse : PyVal → Py DateTime, ∃ os, dates parse os ≠ [] ∧
    ¬ ∀ d ∈ dates parse os, LatestClock (dates parse os) d → ∀ e ∈ dates parse os, e.instant ≤ d.instant := by
  refine ⟨fun | .int 0 => .ok ⟨12, some 0⟩ | _ => .ok ⟨11, some (-2)⟩, [.int 0, .int 1], by decide, ?_⟩
  intro hall
  have := hall ⟨12, some 0⟩ (by decide) (by unfold LatestClock; decide) ⟨11, some (-2)⟩ (by decide)
  exact absurd this (by decide)

end Verif.Validators
