/-
The loops over the properties of an exchange, name by name.
-/
import Mathlib.Algebra.Field.Basic
import Mathlib.Algebra.Order.Ring.Abs
import Mathlib.Tactic.Ring
import Verif.Lemmas.Assoc
import Verif.Lemmas.IlcdVars
import Verif.Lemmas.IlcdFlows
import Verif.Spec.EcsProps

namespace Verif.EcsProps
open Verif.Units

theorem aset_mem_keys {κ α : Type} [DecidableEq κ] {k : κ} {v : α} {d : List (κ × α)} (h : (aget k d).isSome) :
    (aset k v d).map Prod.fst = d.map Prod.fst := by
  rw [aset_keys, if_pos ((aget_isSome k d).mp h)]

theorem aget_adel {κ α : Type} [DecidableEq κ] (k k' : κ) (d : List (κ × α)) :
    aget k' (adel k d) = if k' = k then none else aget k' d := by
  induction d with
  | nil => simp [adel, aget]
  | cons p d ih =>
    obtain ⟨j, v⟩ := p
    simp only [adel] at ih ⊢
    by_cases hj : j = k
    · subst hj
      simp only [List.filter_cons, decide_true, Bool.not_true, Bool.false_eq_true, if_false, ih, aget]
      split_ifs with h1 h2 <;> simp_all
    · simp only [List.filter_cons, hj, decide_false, Bool.not_false, if_true, aget, ih]
      split_ifs with h1 h2 <;> simp_all

theorem adel_nodup {κ α : Type} [DecidableEq κ] {k : κ} {d : List (κ × α)} (h : (d.map Prod.fst).Nodup) :
    ((adel k d).map Prod.fst).Nodup := by
  have : (adel k d).map Prod.fst = (d.map Prod.fst).filter fun j => !decide (j = k) := by
    simp [adel, List.filter_map, Function.comp_def]
  rw [this]
  exact h.filter _

section
variable {K : Type} [Field K] [LinearOrder K]

omit [LinearOrder K] in
theorem hasUnit_iff (x : EProp) : hasUnit x = true ↔ Spec.HasUnit x := by
  obtain ⟨n, i, a, us, ui⟩ := x
  cases ui with
  | none => simp [hasUnit, Spec.HasUnit]
  | some w => cases w <;> cases us <;> simp [hasUnit, Spec.HasUnit]

/-- A property read from the source. -/
structure ReadAs (env : Env K) (x : EProp) (p : Pr K) : Prop where
  unit : Spec.HasUnit x
  amount : Spec.Amount env x p.m p.o p.u
  equiv : p.equiv = aget x.id pintToIlcdFp
  considered : p.considered = true

omit [LinearOrder K] in
theorem construct_ok {env : Env K} {n n' : Nat} {x : EProp} {p : Pr K} (h : construct env n x = .ok (p, n')) :
    (Spec.HasUnit x ∧ ReadAs env x p) ∨ (¬ Spec.HasUnit x ∧ p.considered = false) := by
  unfold construct at h
  obtain ⟨a, ha, h⟩ := IlcdFlows.Except.bind_ok' h
  obtain ⟨⟨o, u, f⟩, hu, h⟩ := IlcdFlows.Except.bind_ok' h
  simp only at h
  by_cases hx : Spec.HasUnit x
  · have hx' := (hasUnit_iff x).mpr hx
    refine .inl ⟨hx, ?_⟩
    split at h
    · rename_i he
      injection h with h; injection h with h1 h2; subst h1
      exact ⟨hx, ⟨a, f, ha, hu, rfl⟩, he.symm, hx'⟩
    · rename_i e he
      rw [if_pos hx'] at h
      injection h with h; injection h with h1 h2; subst h1
      exact ⟨hx, ⟨a, f, ha, hu, rfl⟩, he.symm, rfl⟩
  · have hx' : hasUnit x = false := by
      cases hq : hasUnit x
      · rfl
      · exact absurd ((hasUnit_iff x).mp hq) hx
    refine .inr ⟨hx, ?_⟩
    split at h
    · injection h with h; injection h with h1 h2; subst h1
      exact hx'
    · rw [if_neg (by simp [hx'])] at h
      injection h with h; injection h with h1 h2; subst h1
      rfl

omit [LinearOrder K] in
theorem amount_unique {env : Env K} {x : EProp} {a a' : K} {o o' u u' : Str} (h : Spec.Amount env x a o u)
    (h' : Spec.Amount env x a' o' u') : a = a' ∧ o = o' ∧ u = u' := by
  obtain ⟨t, f, h1, h2, rfl⟩ := h
  obtain ⟨t', f', h1', h2', rfl⟩ := h'
  rw [h1] at h1'; rw [h2] at h2'
  injection h1' with e; injection h2' with e'; injection e' with e1 e2; injection e2 with e2 e3
  subst e e1 e2 e3
  exact ⟨rfl, rfl, rfl⟩

omit [LinearOrder K] in
theorem readProps_get {env : Env K} : ∀ {xs : List EProp} {d d' : List (Str × Pr K)} {n n' : Nat},
    readProps env (d, n) xs = .ok (d', n') → (d.map Prod.fst).Nodup → (xs.map EProp.name).Nodup →
    (∀ x ∈ xs, aget x.name d = none) →
    (d'.map Prod.fst).Nodup ∧
    (∀ k, k ∉ xs.map EProp.name → aget k d' = aget k d) ∧
    (∀ x ∈ xs, (Spec.HasUnit x ∧ ∃ p, aget x.name d' = some p ∧ ReadAs env x p) ∨
      (¬ Spec.HasUnit x ∧ aget x.name d' = none))
  | [], d, d', n, n', h, hd, _, _ => by
    simp only [readProps] at h
    injection h with h; injection h with h1 h2; subst h1
    exact ⟨hd, fun _ _ => rfl, by simp⟩
  | x :: xs, d, d', n, n', h, hd, hx, hn => by
    simp only [readProps] at h
    obtain ⟨⟨p, n1⟩, hp, h⟩ := IlcdFlows.Except.bind_ok' h
    simp only at h
    simp only [List.map_cons, List.nodup_cons] at hx
    have hxd := hn x (by simp)
    have hne : ∀ y ∈ xs, y.name ≠ x.name := fun y hy e => hx.1 (e ▸ List.mem_map_of_mem hy)
    rcases construct_ok hp with ⟨hu, hr⟩ | ⟨hu, hr⟩
    · rw [if_pos hr.considered] at h
      obtain ⟨h1, h2, h3⟩ := readProps_get h (aset_nodup hd) hx.2 (by
        intro y hy; rw [aget_aset, if_neg (hne y hy)]; exact hn y (by simp [hy]))
      refine ⟨h1, ?_, ?_⟩
      · intro k hk
        simp only [List.map_cons, List.mem_cons, not_or] at hk
        rw [h2 k hk.2, aget_aset, if_neg hk.1]
      · intro y hy
        rcases List.mem_cons.mp hy with rfl | hy
        · refine .inl ⟨hu, p, ?_, hr⟩
          rw [h2 _ hx.1, aget_aset_self]
        · exact h3 y hy
    · rw [if_neg (by simp [hr])] at h
      obtain ⟨h1, h2, h3⟩ := readProps_get h hd hx.2 (fun y hy => hn y (by simp [hy]))
      refine ⟨h1, ?_, ?_⟩
      · intro k hk
        simp only [List.map_cons, List.mem_cons, not_or] at hk
        exact h2 k hk.2
      · intro y hy
        rcases List.mem_cons.mp hy with rfl | hy
        · refine .inr ⟨hu, ?_⟩
          rw [h2 _ hx.1]; exact hxd
        · exact h3 y hy

/-- The amount divided by the factor of the flow. -/
def divided (env : Env K) (p : Pr K) : Pr K := { p with m := p.m / env.factor }

/-- The amount multiplied by the dry mass. -/
def dried (dry : Option (Pr K)) (p : Pr K) : Pr K :=
  match dry with
  | some d => { p with m := p.m * d.m }
  | none => { p with considered := false }

/-- One name treated: the entry of the name is `q`, the others are as before. -/
structure Set1 (s s' : St K) (k : Str) (q : Pr K) : Prop where
  get : ∀ j, aget j s'.props = if j = k then some q else aget j s.props
  keys : s'.props.map Prod.fst = s.props.map Prod.fst

theorem divFactor_ok {env : Env K} {k : Str} {p : Pr K} {s s' : St K} (hp : aget k s.props = some p)
    (h : divFactor env k p s = .ok s') : Set1 s s' k (divided env p) ∧ s'.done = s.done ++ [k] ∧ env.factor ≠ 0 := by
  unfold divFactor at h
  split_ifs at h with h1 h0
  · injection h with h; subst h
    have : divided env p = p := by simp [divided, h1]
    refine ⟨⟨fun j => ?_, rfl⟩, rfl, by simp [h1]⟩
    rw [this]; split_ifs with hj
    · subst hj; exact hp
    · rfl
  · injection h with h; subst h
    exact ⟨⟨fun j => aget_aset _ _ _ _, aset_mem_keys (by simp [hp])⟩, rfl, h0⟩

omit [LinearOrder K] in
theorem mulDry_ok {k : Str} {p : Pr K} {s s' : St K} (hp : aget k s.props = some p)
    (h : mulDry k p s = .ok s') : Set1 s s' k (dried (aget c!"dry mass" s.props) p) ∧ s'.done = s.done ++ [k] := by
  unfold mulDry at h
  unfold dried
  split at h <;> rename_i hd <;> injection h with h <;> subst h <;> simp only [hd] <;>
    exact ⟨⟨fun j => aget_aset _ _ _ _, aset_mem_keys (by simp [hp])⟩, trivial⟩

theorem firstLoop_ok {env : Env K} : ∀ {l : List Str} {s s' : St K}, l.Nodup → firstLoop env s l = .ok s' →
    s'.props.map Prod.fst = s.props.map Prod.fst ∧
    (∀ k, aget k s'.props = if k ∈ l then (aget k s.props).map (divided env) else aget k s.props) ∧
    (∀ k, k ∈ s'.done ↔ k ∈ s.done ∨ (k ∈ l ∧ (aget k s.props).isSome))
  | [], s, s', _, h => by
    simp only [firstLoop] at h; injection h with h; subst h; simp
  | k :: l, s, s', hl, h => by
    simp only [firstLoop] at h
    simp only [List.nodup_cons] at hl
    split at h
    · rename_i hk
      obtain ⟨h1, h2, h3⟩ := firstLoop_ok hl.2 h
      refine ⟨h1, ?_, ?_⟩
      · intro j
        rw [h2 j]
        by_cases hj : j = k
        · subst hj; simp [hk]
        · simp [hj]
      · intro j
        rw [h3 j]
        by_cases hj : j = k
        · subst hj; simp [hk]
        · simp [hj]
    · rename_i p hk
      obtain ⟨s1, hs1, h⟩ := IlcdFlows.Except.bind_ok' h
      obtain ⟨hset, hdone, -⟩ := divFactor_ok hk hs1
      obtain ⟨h1, h2, h3⟩ := firstLoop_ok hl.2 h
      refine ⟨h1.trans hset.keys, ?_, ?_⟩
      · intro j
        rw [h2 j, hset.get j]
        by_cases hj : j = k
        · subst hj; simp [hl.1, hk]
        · simp [hj]
      · intro j
        rw [h3 j, hdone, hset.get j]
        by_cases hj : j = k
        · subst hj; simp [hk]
        · simp [hj]

/-- The water content that follows from the masses. -/
structure IsEstimate (n : Nat) (d w p : Pr K) : Prop where
  num : p.num = n
  equiv : ∃ e, p.equiv = some e ∧ e.fp = c!"7ec8d70e-4ffc-4024-86b7-6141cc0a2bf5" ∧ e.name = c!"water content"
  considered : p.considered = true
  m : p.m = w.m - d.m

omit [LinearOrder K] in
theorem estimated_ok {d w p : Pr K} {n : Nat} (h : estimated w.m d.m n = .ok p) : IsEstimate n d w p := by
  unfold estimated at h
  split at h
  · cases h
  · rename_i e he
    injection h with h; subst h
    refine ⟨rfl, ⟨e, rfl, ?_⟩, rfl, rfl⟩
    have : (aget c!"a9358458-9724-4f03-b622-106eda248916" pintToIlcdFp).map (fun e => (e.fp, e.name)) =
        some (c!"7ec8d70e-4ffc-4024-86b7-6141cc0a2bf5", c!"water content") := by decide +kernel
    rw [he] at this
    simpa using this

/-- What the second loop leaves for a name. -/
def AfterSecond (n : Nat) (s s' : St K) (l : List Str) (k : Str) : Prop :=
  match aget k s.props with
  | some p => aget k s'.props = some (if k ∈ l then dried (aget c!"dry mass" s.props) p else p)
  | none =>
    if k ∈ l ∧ k = c!"water content" ∧ (aget c!"dry mass" s.props).isSome ∧ (aget c!"wet mass" s.props).isSome then
      ∃ d w p, aget c!"dry mass" s.props = some d ∧ aget c!"wet mass" s.props = some w ∧ aget k s'.props = some p ∧
        IsEstimate n d w p
    else aget k s'.props = none

omit [LinearOrder K] in
theorem secondLoop_ok : ∀ {l : List Str} {s s' : St K} {n n' : Nat}, l.Nodup → c!"dry mass" ∉ l → c!"wet mass" ∉ l →
    (s.props.map Prod.fst).Nodup → secondLoop (s, n) l = .ok (s', n') →
    (s'.props.map Prod.fst).Nodup ∧ (∀ k, AfterSecond n s s' l k) ∧
    (∀ k, k ∈ s'.done ↔ k ∈ s.done ∨ (k ∈ l ∧ (aget k s'.props).isSome))
  | [], s, s', n, n', _, _, _, hd, h => by
    simp only [secondLoop] at h; injection h with h; injection h with h _; subst h
    refine ⟨hd, fun k => ?_, by simp⟩
    unfold AfterSecond
    cases hk : aget k s.props <;> simp
  | k :: l, s, s', n, n', hl, hdm, hwm, hnd, h => by
    simp only [List.nodup_cons] at hl
    simp only [List.mem_cons, not_or] at hdm hwm
    have dm : c!"dry mass" ≠ k := hdm.1
    have wm : c!"wet mass" ≠ k := hwm.1
    have key : ∀ {s1 : St K} {q : Pr K} {m : Nat}, (∀ j, aget j s1.props = if j = k then some q else aget j s.props) →
        (s1.props.map Prod.fst).Nodup → s1.done = s.done ++ [k] → secondLoop (s1, m) l = .ok (s', n') →
        (s'.props.map Prod.fst).Nodup ∧ (∀ j, j ≠ k → AfterSecond m s s' (k :: l) j) ∧ aget k s'.props = some q ∧
        (∀ j, j ∈ s'.done ↔ j ∈ s.done ∨ (j ∈ k :: l ∧ (aget j s'.props).isSome)) := by
      intro s1 q m hget hn1 hdone h
      obtain ⟨h1, h2, h3⟩ := secondLoop_ok hl.2 hdm.2 hwm.2 hn1 h
      have hq : aget k s'.props = some q := by
        have := h2 k
        unfold AfterSecond at this
        rw [hget k, if_pos rfl] at this
        simpa [hl.1] using this
      refine ⟨h1, ?_, hq, ?_⟩
      · intro j hj
        have := h2 j
        unfold AfterSecond at this ⊢
        rw [hget j, if_neg hj, hget c!"dry mass", if_neg dm, hget c!"wet mass", if_neg wm] at this
        simpa [hj] using this
      · intro j
        rw [h3 j, hdone]
        by_cases hj : j = k
        · subst hj; simp [hq]
        · simp [hj]
    simp only [secondLoop] at h
    split at h
    · rename_i p hk
      obtain ⟨s1, hs1, h⟩ := IlcdFlows.Except.bind_ok' h
      obtain ⟨hset, hdone⟩ := mulDry_ok hk hs1
      obtain ⟨h1, h2, h3, h4⟩ := key hset.get (by rw [hset.keys]; exact hnd) hdone h
      refine ⟨h1, fun j => ?_, h4⟩
      by_cases hj : j = k
      · subst hj; unfold AfterSecond; simp [hk, h3]
      · exact h2 j hj
    · rename_i hk
      split at h
      · rename_i d w hkw hd hw
        obtain ⟨p, hp, h⟩ := IlcdFlows.Except.bind_ok' h
        obtain ⟨h1, h2, h3, h4⟩ := key (s1 := ⟨aset k p s.props, s.done ++ [k]⟩) (q := p)
          (fun j => aget_aset _ _ _ _) (aset_nodup hnd) rfl h
        refine ⟨h1, fun j => ?_, h4⟩
        by_cases hj : j = k
        · subst hj; unfold AfterSecond
          simp only [hk, hd, hw, Option.isSome_some, List.mem_cons, true_or, true_and, and_true]
          rw [if_pos (of_decide_eq_true hkw)]
          exact ⟨d, w, p, rfl, rfl, h3, estimated_ok hp⟩
        · have := h2 j hj
          have hjw : j ≠ c!"water content" := fun e => hj (e.trans (of_decide_eq_true hkw).symm)
          unfold AfterSecond at this ⊢
          rw [if_neg (fun c => hjw c.2.1)] at this ⊢
          exact this
      · rename_i hno
        obtain ⟨h1, h2, h3⟩ := secondLoop_ok hl.2 hdm.2 hwm.2 hnd h
        have hcond : ¬ (k = c!"water content" ∧ (aget c!"dry mass" s.props).isSome ∧
            (aget c!"wet mass" s.props).isSome) := by
          rintro ⟨hq, hd, hw⟩
          obtain ⟨d, hd⟩ := Option.isSome_iff_exists.mp hd
          obtain ⟨w, hw⟩ := Option.isSome_iff_exists.mp hw
          exact hno d w (decide_eq_true hq) hd hw
        have hknone : aget k s'.props = none := by
          have := h2 k
          unfold AfterSecond at this
          rw [hk] at this
          simpa [hl.1] using this
        refine ⟨h1, fun j => ?_, fun j => ?_⟩
        · by_cases hj : j = k
          · subst hj; unfold AfterSecond; simp only [hk]
            rw [if_neg (fun c => hcond c.2)]
            exact hknone
          · have := h2 j
            unfold AfterSecond at this ⊢
            simpa [hj] using this
        · rw [h3 j]
          by_cases hj : j = k
          · subst hj; simp [hknone]
          · simp [hj]

/-- The amount divided by the factor of the flow, unless it is zero. -/
def genDiv (env : Env K) (p : Pr K) : Py (Pr K) :=
  if env.factor = 0 then .error .zeroDivisionError else .ok (divided env p)

/-- The amount multiplied by the amount of the flow, if the unit is one of the flow. -/
def genAmount (env : Env K) (p : Pr K) (b : Bool) : Pr K :=
  if b then { p with m := p.m * (env.amount * (if env.amount ≥ 0 then 1 else -1)) } else { p with considered := false }

/-- The general correction of one property. -/
def gen (env : Env K) (isDone : Bool) (dry : Option (Pr K)) (k : Str) (p : Pr K) : Py (Pr K) :=
  if isDone then .ok p
  else if isInfix c!"content" k then
    if p.u = c!"kilogram" ∨ p.u = c!"megajoule" then genDiv env p
    else if p.u = c!"dimensionless" then .ok (dried dry p)
    else .ok { p with considered := false }
  else if isInfix c!"concentration, " k ∧ 1 < (unitParts p.o).length then
    (env.check ((unitParts p.o).getLastD [])).bind fun b => .ok (genAmount env p b)
  else if isInfix c!"heating value, " k ∧ p.o = c!"megajoule" then genDiv env p
  else if isInfix c!"lifetime capacity" k then genDiv env p
  else .ok { p with considered := false }

theorem general_ok {env : Env K} {k : Str} {p : Pr K} {s s' : St K} (hp : aget k s.props = some p)
    (h : general env k p s = .ok s') :
    (∃ q, gen env (decide (k ∈ s.done)) (aget c!"dry mass" s.props) k p = .ok q ∧ Set1 s s' k q) ∧
    (∀ j, j ≠ k → (j ∈ s'.done ↔ j ∈ s.done)) := by
  have hdrop : .ok (drop k p s) = (.ok s' : Py (St K)) →
      (∃ q, (.ok { p with considered := false } : Py (Pr K)) = .ok q ∧ Set1 s s' k q) ∧
      (∀ j, j ≠ k → (j ∈ s'.done ↔ j ∈ s.done)) := by
    intro h
    injection h with h; subst h
    exact ⟨⟨_, rfl, fun j => aget_aset _ _ _ _, aset_mem_keys (by simp [hp])⟩, fun _ _ => Iff.rfl⟩
  have hdiv : divFactor env k p s = .ok s' →
      (∃ q, genDiv env p = .ok q ∧ Set1 s s' k q) ∧ (∀ j, j ≠ k → (j ∈ s'.done ↔ j ∈ s.done)) := by
    intro h
    obtain ⟨h1, h2, h3⟩ := divFactor_ok hp h
    refine ⟨⟨_, by unfold genDiv; rw [if_neg h3], h1⟩, fun j hj => by simp [h2, hj]⟩
  unfold general at h
  unfold gen
  by_cases hd : k ∈ s.done
  · rw [if_pos hd] at h
    injection h with h; subst h
    rw [if_pos (decide_eq_true hd)]
    refine ⟨⟨p, rfl, fun j => ?_, rfl⟩, fun _ _ => Iff.rfl⟩
    split_ifs with hj
    · subst hj; exact hp
    · rfl
  rw [if_neg hd] at h
  rw [if_neg (by simpa using hd)]
  by_cases h1 : isInfix c!"content" k = true
  · rw [if_pos h1] at h ⊢
    by_cases h2 : p.u = c!"kilogram" ∨ p.u = c!"megajoule"
    · rw [if_pos h2] at h ⊢; exact hdiv h
    rw [if_neg h2] at h ⊢
    by_cases h3 : p.u = c!"dimensionless"
    · rw [if_pos h3] at h ⊢
      obtain ⟨a, b⟩ := mulDry_ok hp h
      exact ⟨⟨_, rfl, a⟩, fun j hj => by simp [b, hj]⟩
    rw [if_neg h3] at h ⊢
    exact hdrop h
  rw [if_neg h1] at h ⊢
  by_cases h4 : isInfix c!"concentration, " k = true ∧ 1 < (unitParts p.o).length
  · rw [if_pos h4] at h ⊢
    obtain ⟨b, hb, h⟩ := IlcdFlows.Except.bind_ok' h
    rw [hb]
    cases b with
    | true =>
      simp only [if_true, mulAmount] at h
      injection h with h; subst h
      exact ⟨⟨_, rfl, fun j => aget_aset _ _ _ _, aset_mem_keys (by simp [hp])⟩, fun j hj => by simp [hj]⟩
    | false =>
      simp only [Bool.false_eq_true, if_false] at h
      exact hdrop h
  rw [if_neg h4] at h ⊢
  by_cases h5 : isInfix c!"heating value, " k = true ∧ p.o = c!"megajoule"
  · rw [if_pos h5] at h ⊢; exact hdiv h
  rw [if_neg h5] at h ⊢
  by_cases h6 : isInfix c!"lifetime capacity" k = true
  · rw [if_pos h6] at h ⊢; exact hdiv h
  rw [if_neg h6] at h ⊢
  exact hdrop h

theorem thirdLoop_ok {env : Env K} : ∀ {l : List Str} {s s' : St K}, l.Nodup → c!"dry mass" ∈ s.done ∨
    aget c!"dry mass" s.props = none → thirdLoop env s l = .ok s' →
    s'.props.map Prod.fst = s.props.map Prod.fst ∧
    (∀ k, k ∉ l → aget k s'.props = aget k s.props) ∧
    (∀ k ∈ l, ∀ p, aget k s.props = some p → ∃ q,
      gen env (decide (k ∈ s.done)) (aget c!"dry mass" s.props) k p = .ok q ∧ aget k s'.props = some q)
  | [], s, s', _, _, h => by
    simp only [thirdLoop] at h; injection h with h; subst h; simp
  | k :: l, s, s', hl, hdry, h => by
    simp only [thirdLoop] at h
    simp only [List.nodup_cons] at hl
    split at h
    · rename_i hk
      obtain ⟨h1, h2, h3⟩ := thirdLoop_ok hl.2 hdry h
      refine ⟨h1, fun j hj => h2 j (fun c => hj (by simp [c])), ?_⟩
      intro j hj p hp
      rcases List.mem_cons.mp hj with rfl | hj
      · rw [hk] at hp; cases hp
      · exact h3 j hj p hp
    · rename_i p hk
      obtain ⟨s1, hs1, h⟩ := IlcdFlows.Except.bind_ok' h
      obtain ⟨⟨q, hq, hset⟩, hdone⟩ := general_ok hk hs1
      have hdry1 : aget c!"dry mass" s1.props = aget c!"dry mass" s.props := by
        rw [hset.get]
        split_ifs with hc
        · subst hc
          rcases hdry with hd | hd
          · rw [decide_eq_true hd] at hq
            unfold gen at hq
            rw [if_pos rfl] at hq
            injection hq with hq
            rw [hk, hq]
          · rw [hk] at hd; cases hd
        · rfl
      have hd1 : c!"dry mass" ∈ s1.done ∨ aget c!"dry mass" s1.props = none := by
        rw [hdry1]
        rcases hdry with hd | hd
        · by_cases hc : c!"dry mass" = k
          · subst hc
            left
            have : s1.done = s.done := by
              unfold general at hs1
              rw [if_pos hd] at hs1
              injection hs1 with hs1; rw [hs1]
            rw [this]; exact hd
          · exact .inl ((hdone _ hc).mpr hd)
        · exact .inr hd
      obtain ⟨h1, h2, h3⟩ := thirdLoop_ok hl.2 hd1 h
      refine ⟨h1.trans hset.keys, ?_, ?_⟩
      · intro j hj
        simp only [List.mem_cons, not_or] at hj
        rw [h2 j hj.2, hset.get, if_neg hj.1]
      · intro j hj p' hp'
        rcases List.mem_cons.mp hj with rfl | hj
        · rw [hk] at hp'; injection hp' with hp'; subst hp'
          refine ⟨q, hq, ?_⟩
          rw [h2 _ hl.1, hset.get, if_pos rfl]
        · have hne : j ≠ k := fun e => hl.1 (e ▸ hj)
          obtain ⟨q', hq', hg⟩ := h3 j hj p' (by rw [hset.get, if_neg hne]; exact hp')
          refine ⟨q', ?_, hg⟩
          rw [← hq', hdry1]
          congr 1
          simp only [decide_eq_decide]
          exact (hdone j hne).symm

end

end Verif.EcsProps
