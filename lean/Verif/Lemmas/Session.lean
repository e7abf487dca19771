/-
Lemmas on the passes at the end of a conversion.
-/
import Verif.Spec.Session

namespace Verif.Session

/-! ## The passes -/

/-- What an exchange is, apart from what the passes set. -/
def core (f : Flow) : Flow := { f with var := false, refVar := false }

theorem construct_core : ∀ l, (construct l).1.map core = l.map core
  | [] => rfl
  | f :: l => by
    unfold construct
    cases hb : f.broken with
    | some e => rfl
    | none => simp [construct_core l, core, hb]

theorem setVars_core (skip) : ∀ l, (setVars skip l).1.map core = l.map core
  | [] => rfl
  | f :: l => by
    unfold setVars
    split_ifs <;> simp [setVars_core skip l, core]

theorem doubled_core (l l' : List Flow) (h : l.map core = l'.map core) : doubled l = doubled l' := by
  have key : ∀ l : List Flow, (l.filter (·.elementary)).map (·.key) =
      ((l.map core).filter (·.elementary)).map (·.key) := by
    intro l
    induction l with
    | nil => rfl
    | cons f l ih =>
      simp only [List.map_cons, List.filter_cons]
      have : (core f).elementary = f.elementary := rfl
      rw [this]
      cases f.elementary <;> simp [ih, core]
  unfold doubled
  rw [key l, key l', h]

theorem count_group (l : List Flow) (k : Str × Str) :
    ((l.filter (·.elementary)).map (·.key)).count k = (l.filter fun f => f.elementary && f.key = k).length := by
  induction l with
  | nil => rfl
  | cons f l ih =>
    simp only [List.filter_cons]
    cases hf : f.elementary with
    | false => simpa using ih
    | true =>
      by_cases hk : f.key = k
      · simp [hk, ih]
      · simp [hk, ih]

theorem mem_doubled (l : List Flow) (k : Str × Str) : k ∈ doubled l ↔ Shares l k := by
  have h1 : k ∈ doubled l ↔ 1 < ((l.filter (·.elementary)).map (·.key)).count k := by
    simp only [doubled, List.mem_dedup, List.mem_filter, decide_eq_true_eq]
    refine ⟨fun h => h.2, fun h => ⟨?_, h⟩⟩
    exact List.count_pos_iff.1 (by omega)
  rw [h1, count_group]
  constructor
  · intro h
    match hg : l.filter fun f => f.elementary && f.key = k, h with
    | [], h => exact absurd h (by rw [hg]; simp)
    | [_], h => exact absurd h (by rw [hg]; simp)
    | x :: y :: t, _ =>
      obtain ⟨a, r, rfl, -, hx, hr⟩ := List.filter_eq_cons_iff.1 hg
      obtain ⟨b, c, rfl, -, hy, -⟩ := List.filter_eq_cons_iff.1 hr
      simp only [Bool.and_eq_true, decide_eq_true_eq] at hx hy
      exact ⟨a, b, c, x, y, by simp, hx.1, hy.1, hx.2, hy.2⟩
  · rintro ⟨a, b, c, x, y, rfl, hx, hy, hxk, hyk⟩
    simp [hx, hy, hxk, hyk]
    omega

theorem sumGroup_iff (h : Flow) : ∀ l, sumGroup h l ≠ none ↔
    ∃ f ∈ l, (f.source = true ∧ h.source = false) ∨ f.bad ≠ none
  | [] => by simp [sumGroup]
  | f :: l => by
    unfold sumGroup
    by_cases hs : (f.source && !h.source) = true
    · simp only [hs, if_true]
      simp only [Bool.and_eq_true, Bool.not_eq_true'] at hs
      simp [hs]
    · rw [if_neg hs]
      simp only [Bool.and_eq_true, Bool.not_eq_true'] at hs
      cases hb : f.bad with
      | some e => simp [hb]
      | none =>
        simp only
        rw [sumGroup_iff h l]
        simp [hb, hs]

theorem sumAll_iff (l : List Flow) : ∀ ks, sumAll l ks ≠ none ↔
    ∃ k ∈ ks, ∃ h t, (l.filter fun f => f.elementary && f.key = k) = h :: t ∧ sumGroup h t ≠ none
  | [] => by simp [sumAll]
  | k :: ks => by
    unfold sumAll
    have ih := sumAll_iff l ks
    cases hg : l.filter fun f => f.elementary && f.key = k with
    | nil =>
      simp only
      rw [ih]
      simp [hg]
    | cons h t =>
      simp only
      cases hs : sumGroup h t with
      | some e =>
        simp only [List.mem_cons, exists_eq_or_imp]
        simp [hg, hs]
      | none =>
        simp only
        rw [ih]
        simp [hg, hs]

theorem sumStops_iff (l : List Flow) : sumAll l (doubled l) ≠ none ↔ SumStops l := by
  rw [sumAll_iff]
  constructor
  · rintro ⟨k, -, h, t, hg, hs⟩
    obtain ⟨a, r, rfl, ha, hh, hr⟩ := List.filter_eq_cons_iff.1 hg
    obtain ⟨f, hf, hbad⟩ := (sumGroup_iff h t).1 hs
    rw [← hr, List.mem_filter] at hf
    obtain ⟨m, b, rfl⟩ := List.append_of_mem hf.1
    simp only [Bool.and_eq_true, decide_eq_true_eq] at hh hf ha
    refine ⟨a, h, m, f, b, by simp, hh.1, hf.2.1, by rw [hf.2.2, hh.2], ?_, hbad⟩
    intro x hx he hxk
    exact ha x hx ⟨he, by rw [hxk, hh.2]⟩
  · rintro ⟨a, h, m, f, b, rfl, hh, hf, hk, ha, hbad⟩
    refine ⟨h.key, (mem_doubled _ _).2 ⟨a, m, b, h, f, by simp, hh, hf, rfl, hk⟩, h,
      (m ++ f :: b).filter (fun g => g.elementary && g.key = h.key), ?_, ?_⟩
    · rw [List.filter_eq_cons_iff]
      exact ⟨a, m ++ f :: b, by simp, by simpa using ha, by simp [hh], rfl⟩
    · exact (sumGroup_iff _ _).2 ⟨f, by simp [List.mem_filter, hf, hk], hbad⟩

/-- What the passes set does not matter to the sums. -/
theorem sumStops_core (l l' : List Flow) (h : l.map core = l'.map core) : SumStops l → SumStops l' := by
  have hp : ∀ (f g : Flow), core f = core g → f.elementary = g.elementary ∧ f.key = g.key ∧ f.source = g.source ∧
      f.bad = g.bad := by
    intro f g e
    simp only [core, Flow.mk.injEq] at e
    exact ⟨e.2.1, e.1, e.2.2.2.2.1, e.2.2.2.2.2.1⟩
  rintro ⟨a, x, m, f, b, rfl, hh, hf, hk, ha, hbad⟩
  rw [List.append_assoc, List.cons_append, List.map_append, List.map_cons, List.map_append, List.map_cons] at h
  obtain ⟨a', r, rfl, ha', hr⟩ := List.map_eq_append_iff.1 h.symm
  obtain ⟨x', r, rfl, hx', hr⟩ := List.map_eq_cons_iff.1 hr
  obtain ⟨m', r, rfl, hm', hr⟩ := List.map_eq_append_iff.1 hr
  obtain ⟨f', b', rfl, hf', hb'⟩ := List.map_eq_cons_iff.1 hr
  obtain ⟨x1, x2, x3, x4⟩ := hp _ _ hx'
  obtain ⟨f1, f2, f3, f4⟩ := hp _ _ hf'
  refine ⟨a', x', m', f', b', by simp, by rw [x1, hh], by rw [f1, hf], by rw [f2, x2, hk], ?_, ?_⟩
  · intro y hy he hyk
    have : core y ∈ a.map core := by rw [← ha']; exact List.mem_map_of_mem hy
    obtain ⟨z, hz, hzy⟩ := List.mem_map.1 this
    obtain ⟨z1, z2, -, -⟩ := hp _ _ hzy
    exact ha z hz (by rw [z1, he]) (by rw [z2, hyk, x2])
  · rw [f3, x3, f4]
    exact hbad

theorem setVars_none (skip) : ∀ l, (∀ f ∈ l, f.var = true → f.refVar = true → f.key ∈ skip) →
    (setVars skip l).2 = none
  | [], _ => rfl
  | f :: l, h => by
    have ih := setVars_none skip l fun g hg => h g (List.mem_cons_of_mem _ hg)
    unfold setVars
    split_ifs with h1 h2 h3
    · exact ih
    · exact absurd (h f List.mem_cons_self h2 h3) h1
    · exact ih
    · exact ih

theorem setVars_some (skip) : ∀ l, (∃ f ∈ l, f.var = true ∧ f.refVar = true ∧ f.key ∉ skip) →
    (setVars skip l).2 = some .valueError
  | [], ⟨f, hf, _⟩ => by simp at hf
  | f :: l, ⟨g, hg, hv, hr, hk⟩ => by
    unfold setVars
    rcases List.mem_cons.1 hg with rfl | hg
    · rw [if_neg hk, if_pos hv, if_pos hr]
    · have ih := setVars_some skip l ⟨g, hg, hv, hr, hk⟩
      split_ifs
      · exact ih
      · rfl
      · exact ih
      · exact ih

/-- What is set stays set. -/
theorem setVars_keeps (skip) (g : Flow) (hr : g.refVar = true) : ∀ l, g ∈ l → g ∈ (setVars skip l).1
  | [], hg => by simp at hg
  | f :: l, hg => by
    unfold setVars
    rcases List.mem_cons.1 hg with rfl | hg
    · split_ifs <;> simp_all
    · have ih := setVars_keeps skip g hr l hg
      split_ifs <;> simp [ih, hg]

/-- An exchange with a variable that is not summed refers to it. -/
theorem setVars_sets (skip) : ∀ l, (setVars skip l).2 = none → ∀ f ∈ l, f.var = true → f.key ∉ skip →
    { f with refVar := true } ∈ (setVars skip l).1
  | [], _, f, hf, _, _ => by simp at hf
  | f :: l, hn, g, hg, hv, hk => by
    unfold setVars at hn ⊢
    rcases List.mem_cons.1 hg with rfl | hg
    · rw [if_neg hk, if_pos hv] at hn ⊢
      split_ifs at hn ⊢
      exact List.mem_cons_self
    · split_ifs at hn ⊢
      all_goals exact List.mem_cons_of_mem _ (setVars_sets skip l hn g hg hv hk)

/-- Nothing else refers to a variable. -/
theorem setVars_only (skip) : ∀ l, ∀ f ∈ (setVars skip l).1, f ∈ l ∨
    ∃ g ∈ l, f = { g with refVar := true } ∧ g.var = true ∧ g.key ∉ skip
  | [], f, hf => by simp [setVars] at hf
  | g :: l, f, hf => by
    unfold setVars at hf
    have ih : f ∈ (setVars skip l).1 → f ∈ g :: l ∨
        ∃ x ∈ g :: l, f = { x with refVar := true } ∧ x.var = true ∧ x.key ∉ skip := fun h =>
      (setVars_only skip l f h).imp (List.mem_cons_of_mem _)
        fun ⟨x, hx, h⟩ => ⟨x, List.mem_cons_of_mem _ hx, h⟩
    split_ifs at hf with h1 h2 h3
    · rcases List.mem_cons.1 hf with rfl | hf
      · exact .inl List.mem_cons_self
      · exact ih hf
    · exact .inl hf
    · rcases List.mem_cons.1 hf with rfl | hf
      · exact .inr ⟨g, List.mem_cons_self, rfl, h2, h1⟩
      · exact ih hf
    · rcases List.mem_cons.1 hf with rfl | hf
      · exact .inl List.mem_cons_self
      · exact ih hf

end Verif.Session
