/-
The flow properties of a flow of ILCD are those of the exchange of EcoSpold2, each per unit of the flow.
-/
import Mathlib.Algebra.Order.Field.Basic
import Mathlib.Algebra.Order.Field.Rat
import Mathlib.Data.Rat.Defs
import Mathlib.Tactic.FieldSimp
import Verif.Lemmas.EcsProps
import Verif.Lemmas.EcsVars

namespace Verif.EcsProps
open Verif.Units

theorem contains_iff (w k : Str) : Spec.Contains w k ↔ isInfix w k = true := IlcdVars.isInfix_iff.symm

theorem splitOn_last {c : Char} : ∀ {s : Str}, c ∈ s → 1 < (splitOn c s).length ∧
    ∃ num, s = num ++ c :: (splitOn c s).getLastD [] ∧ c ∉ (splitOn c s).getLastD []
  | [], h => by simp at h
  | d :: s, h => by
    by_cases hd : d = c
    · subst hd
      simp only [splitOn, if_true]
      by_cases hs : d ∈ s
      · obtain ⟨h1, num, h2, h3⟩ := splitOn_last hs
        have hl : ([] :: splitOn d s).getLastD [] = (splitOn d s).getLastD [] := by
          cases hq : splitOn d s with
          | nil => simp
          | cons a b => simp [List.getLastD]
        rw [hl]
        refine ⟨by simp only [List.length_cons]; omega, d :: num, ?_, h3⟩
        rw [List.cons_append, ← h2]
      · have : splitOn d s = [s] := EcsVars.splitOn_none hs
        rw [this]
        exact ⟨by simp, [], by simp, by simpa using hs⟩
    · have hs : c ∈ s := by
        rcases List.mem_cons.mp h with e | e
        · exact absurd e.symm hd
        · exact e
      obtain ⟨h1, num, h2, h3⟩ := splitOn_last hs
      simp only [splitOn, if_neg hd]
      cases hq : splitOn c s with
      | nil => rw [hq] at h1; simp at h1
      | cons w ws =>
        rw [hq] at h1 h2 h3
        cases ws with
        | nil => simp at h1
        | cons w' ws =>
          simp only [List.getLastD] at h2 h3 ⊢
          refine ⟨by simp, d :: num, ?_, by simpa using h3⟩
          simpa using h2

theorem last_unique {c : Char} : ∀ {a b x y : Str}, a ++ c :: x = b ++ c :: y → c ∉ x → c ∉ y → x = y
  | [], [], x, y, h, _, _ => by simpa using h
  | [], d :: b, x, y, h, hx, _ => by
    simp only [List.nil_append, List.cons_append, List.cons.injEq] at h
    exact absurd (h.2 ▸ by simp) hx
  | d :: a, [], x, y, h, _, hy => by
    simp only [List.nil_append, List.cons_append, List.cons.injEq] at h
    exact absurd (h.2 ▸ by simp) hy
  | d :: a, e :: b, x, y, h, hx, hy => by
    simp only [List.cons_append, List.cons.injEq] at h
    exact last_unique h.2 hx hy

theorem ratio_iff (o : Str) : Spec.Ratio o ↔ 1 < (unitParts o).length := by
  unfold Spec.Ratio unitParts
  have hm : '/' ∈ o ↔ '/' ∈ o.filter fun c => c ≠ ' ' := by simp
  rw [hm]
  constructor
  · intro h; exact (splitOn_last h).1
  · intro h
    by_contra hc
    rw [EcsVars.splitOn_none hc] at h
    simp at h

section
variable {K : Type} [Field K] [LinearOrder K] [IsStrictOrderedRing K]

omit [Field K] [LinearOrder K] [IsStrictOrderedRing K] in
theorem perFlowUnit_iff (env : Env K) (o : Str) :
    Spec.PerFlowUnit env o ↔ Spec.Ratio o ∧ env.check ((unitParts o).getLastD []) = .ok true := by
  have hm : '/' ∈ o ↔ '/' ∈ o.filter fun c => c ≠ ' ' := by simp
  constructor
  · rintro ⟨num, den, h1, h2, h3⟩
    have hin : '/' ∈ o.filter fun c => c ≠ ' ' := by rw [h1]; simp
    refine ⟨hm.mpr hin, ?_⟩
    obtain ⟨-, num', h4, h5⟩ := splitOn_last hin
    unfold unitParts
    rw [last_unique (h4.symm.trans h1) h5 h2]
    exact h3
  · rintro ⟨h1, h2⟩
    obtain ⟨-, num', h4, h5⟩ := splitOn_last (hm.mp h1)
    exact ⟨num', _, h4, h5, h2⟩

theorem abs_factor (a : K) : a * (if a ≥ 0 then 1 else -1) = |a| := by
  split_ifs with h
  · rw [mul_one, abs_of_nonneg h]
  · rw [mul_neg_one, abs_of_neg (not_le.mp h)]

omit [Field K] [LinearOrder K] [IsStrictOrderedRing K] in
theorem unitNames_plain {k : Str} (h : k ∈ Spec.unitNames) : k ∉ Spec.dryNames ∧ ¬ Spec.Contains c!"content" k ∧
    ¬ Spec.Contains c!"concentration, " k ∧ ¬ Spec.Contains c!"heating value, " k ∧
    ¬ Spec.Contains c!"lifetime capacity" k := by
  simp only [contains_iff]
  revert k
  decide +kernel

omit [Field K] [LinearOrder K] [IsStrictOrderedRing K] in
theorem dryNames_plain {k : Str} (h : k ∈ Spec.dryNames) : k ∉ Spec.unitNames ∧ Spec.Contains c!"content" k := by
  simp only [contains_iff]
  revert k
  decide +kernel

/-- What is left of a property is right: it is considered with the value `v` exactly if it is meant to be. -/
def Right (env : Env K) (xs : List EProp) (k : Str) (p q : Pr K) : Prop :=
  (q.equiv = p.equiv ∧ q.num = p.num) ∧ ∀ v, (q.considered = true ∧ q.m = v) ↔
    ∃ b, Spec.BasisOf env k p.o p.u b ∧ Spec.ValueOf env xs p.m b v

omit [IsStrictOrderedRing K] in
theorem right_of {env : Env K} {xs : List EProp} {k : Str} {p q : Pr K} {b : Spec.Basis} (he : q.equiv = p.equiv ∧ q.num = p.num)
    (hb : Spec.BasisOf env k p.o p.u b) (hu : ∀ b', Spec.BasisOf env k p.o p.u b' → b' = b)
    (hv : ∀ v, (q.considered = true ∧ q.m = v) ↔ Spec.ValueOf env xs p.m b v) : Right env xs k p q := by
  refine ⟨he, fun v => (hv v).trans ⟨fun h => ⟨b, hb, h⟩, ?_⟩⟩
  rintro ⟨b', h1, h2⟩
  rw [hu b' h1] at h2
  exact h2

omit [IsStrictOrderedRing K] in
theorem right_not {env : Env K} {xs : List EProp} {k : Str} {p q : Pr K} (he : q.equiv = p.equiv ∧ q.num = p.num)
    (hc : q.considered = false) (hn : ∀ b, ¬ Spec.BasisOf env k p.o p.u b) : Right env xs k p q := by
  refine ⟨he, fun v => ⟨fun h => ?_, fun ⟨b, h, _⟩ => absurd h (hn b)⟩⟩
  rw [hc] at h; simp at h

theorem dried_value {env : Env K} {xs : List EProp} {dry : Option (Pr K)} {p : Pr K} (hp : p.considered = true)
    (hd1 : ∀ d, dry = some d → ∃ a, Spec.Known env xs c!"dry mass" a ∧ d.m = a / env.factor)
    (hd2 : ∀ a, Spec.Known env xs c!"dry mass" a → ∃ d, dry = some d ∧ d.m = a / env.factor) (v : K) :
    ((dried dry p).considered = true ∧ (dried dry p).m = v) ↔ Spec.ValueOf env xs p.m .dry v := by
  unfold dried Spec.ValueOf
  cases dry with
  | none =>
    simp only [Bool.false_eq_true, false_and, false_iff]
    rintro ⟨d, h, -⟩
    obtain ⟨_, h, -⟩ := hd2 d h
    cases h
  | some d =>
    simp only [hp, true_and]
    constructor
    · rintro rfl
      obtain ⟨a, h, ha⟩ := hd1 d rfl
      exact ⟨a, h, by rw [ha]; ring⟩
    · rintro ⟨a, h, rfl⟩
      obtain ⟨d', h, ha⟩ := hd2 a h
      injection h with h; subst h
      rw [ha]; ring

theorem gen_right {env : Env K} {xs : List EProp} {k : Str} {p q : Pr K} {dry : Option (Pr K)}
    (hp : p.considered = true) (h1 : k ∉ Spec.unitNames) (h2 : k ∉ Spec.dryNames)
    (hd1 : ∀ d, dry = some d → ∃ a, Spec.Known env xs c!"dry mass" a ∧ d.m = a / env.factor)
    (hd2 : ∀ a, Spec.Known env xs c!"dry mass" a → ∃ d, dry = some d ∧ d.m = a / env.factor)
    (h : gen env false dry k p = .ok q) : Right env xs k p q := by
  have hdiv : genDiv env p = .ok q → q = divided env p := by
    intro h
    unfold genDiv at h
    split_ifs at h
    injection h with h; exact h.symm
  have hval : ∀ v, ((divided env p).considered = true ∧ (divided env p).m = v) ↔ Spec.ValueOf env xs p.m .unit v := by
    intro v; simp [divided, Spec.ValueOf, hp, eq_comm]
  unfold gen at h
  rw [if_neg (by simp)] at h
  by_cases c1 : Spec.Contains c!"content" k
  · rw [if_pos ((contains_iff _ _).mp c1)] at h
    by_cases c2 : p.u = c!"kilogram" ∨ p.u = c!"megajoule"
    · rw [if_pos c2] at h
      rw [hdiv h]
      refine right_of ⟨rfl, rfl⟩ (.content c1 h2 c2) ?_ hval
      intro b hb
      cases hb with
      | named h => exact absurd h h1
      | dryNamed h => exact absurd h h2
      | content => rfl
      | contentDry _ _ hu => rcases c2 with e | e <;> (rw [hu] at e; revert e; decide)
      | concentration h => exact absurd c1 h
      | heating h => exact absurd c1 h
      | lifetime h => exact absurd c1 h
    rw [if_neg c2] at h
    by_cases c3 : p.u = c!"dimensionless"
    · rw [if_pos c3] at h
      injection h with h; subst h
      refine right_of (by cases dry <;> exact ⟨rfl, rfl⟩) (.contentDry c1 h2 c3) ?_ (dried_value hp hd1 hd2)
      intro b hb
      cases hb with
      | named h => exact absurd h h1
      | dryNamed h => exact absurd h h2
      | content _ _ hu => exact absurd hu c2
      | contentDry => rfl
      | concentration h => exact absurd c1 h
      | heating h => exact absurd c1 h
      | lifetime h => exact absurd c1 h
    rw [if_neg c3] at h
    injection h with h; subst h
    refine right_not ⟨rfl, rfl⟩ rfl ?_
    intro b hb
    cases hb with
    | named h => exact h1 h
    | dryNamed h => exact h2 h
    | content _ _ hu => exact c2 hu
    | contentDry _ _ hu => exact c3 hu
    | concentration h => exact h c1
    | heating h => exact h c1
    | lifetime h => exact h c1
  rw [if_neg (fun c => c1 ((contains_iff _ _).mpr c))] at h
  by_cases c4 : Spec.Contains c!"concentration, " k ∧ 1 < (unitParts p.o).length
  · rw [if_pos ⟨(contains_iff _ _).mp c4.1, c4.2⟩] at h
    have c4' : Spec.Contains c!"concentration, " k ∧ Spec.Ratio p.o := ⟨c4.1, (ratio_iff _).mpr c4.2⟩
    obtain ⟨b, hb, h⟩ := IlcdFlows.Except.bind_ok' h
    injection h with h; subst h
    cases b with
    | true =>
      refine right_of ⟨rfl, rfl⟩ (.concentration c1 c4.1 ((perFlowUnit_iff _ _).mpr ⟨c4'.2, hb⟩)) ?_ ?_
      · intro b hb
        cases hb with
        | named h => exact absurd h h1
        | dryNamed h => exact absurd h h2
        | content h => exact absurd h c1
        | contentDry h => exact absurd h c1
        | concentration => rfl
        | heating _ hn => exact absurd c4' hn
        | lifetime _ hn => exact absurd c4' hn
      · intro v
        simp only [genAmount, if_true, Spec.ValueOf, abs_factor, hp, true_and]
        exact eq_comm
    | false =>
      refine right_not ⟨rfl, rfl⟩ rfl ?_
      intro b hb'
      cases hb' with
      | named h => exact absurd h h1
      | dryNamed h => exact absurd h h2
      | content h => exact absurd h c1
      | contentDry h => exact absurd h c1
      | concentration _ _ hu =>
        have := ((perFlowUnit_iff _ _).mp hu).2
        rw [hb] at this
        injection this with this
        cases this
      | heating _ hn => exact absurd c4' hn
      | lifetime _ hn => exact absurd c4' hn
  rw [if_neg (fun c => c4 ⟨(contains_iff _ _).mpr c.1, c.2⟩)] at h
  have c4' : ¬ (Spec.Contains c!"concentration, " k ∧ Spec.Ratio p.o) := fun c => c4 ⟨c.1, (ratio_iff _).mp c.2⟩
  have hpf : Spec.Contains c!"concentration, " k → ¬ Spec.PerFlowUnit env p.o :=
    fun hc hu => c4' ⟨hc, ((perFlowUnit_iff _ _).mp hu).1⟩
  have huniq : ∀ b, Spec.BasisOf env k p.o p.u b → b = .unit := by
    intro b hb
    cases hb with
    | named h => rfl
    | dryNamed h => exact absurd h h2
    | content h => rfl
    | contentDry h => exact absurd h c1
    | concentration _ hn hu => exact absurd hu (hpf hn)
    | heating _ hn => rfl
    | lifetime _ hn => rfl
  by_cases c5 : Spec.Contains c!"heating value, " k ∧ p.o = c!"megajoule"
  · rw [if_pos ⟨(contains_iff _ _).mp c5.1, c5.2⟩] at h
    rw [hdiv h]
    exact right_of ⟨rfl, rfl⟩ (.heating c1 c4' c5.1 c5.2) huniq hval
  rw [if_neg (fun c => c5 ⟨(contains_iff _ _).mpr c.1, c.2⟩)] at h
  by_cases c6 : Spec.Contains c!"lifetime capacity" k
  · rw [if_pos ((contains_iff _ _).mp c6)] at h
    rw [hdiv h]
    exact right_of ⟨rfl, rfl⟩ (.lifetime c1 c4' c6) huniq hval
  rw [if_neg (fun c => c6 ((contains_iff _ _).mpr c))] at h
  injection h with h; subst h
  refine right_not ⟨rfl, rfl⟩ rfl ?_
  intro b hb
  cases hb with
  | named h => exact h1 h
  | dryNamed h => exact h2 h
  | content h => exact c1 h
  | contentDry h => exact c1 h
  | concentration _ hn hu => exact hpf hn hu
  | heating _ _ hh hu => exact c5 ⟨hh, hu⟩
  | lifetime _ _ hh => exact c6 hh

/-- The properties that are known, by name. -/
def Reads (env : Env K) (xs : List EProp) (d : List (Str × Pr K)) : Prop :=
  (d.map Prod.fst).Nodup ∧
  (∀ k p, aget k d = some p → ∃ x ∈ xs, x.name = k ∧ ReadAs env x p) ∧
  (∀ x ∈ xs, Spec.HasUnit x → ∃ p, aget x.name d = some p ∧ ReadAs env x p)

omit [LinearOrder K] [IsStrictOrderedRing K] in
theorem reads {env : Env K} {xs : List EProp} {d : List (Str × Pr K)} {n : Nat} (hx : (xs.map EProp.name).Nodup)
    (h : readProps env ([], 1) xs = .ok (d, n)) : Reads env xs d := by
  obtain ⟨h1, h2, h3⟩ := readProps_get h (by simp) hx (by simp [aget])
  refine ⟨h1, ?_, ?_⟩
  · intro k p hp
    by_cases hk : k ∈ xs.map EProp.name
    · obtain ⟨x, hx, rfl⟩ := List.mem_map.mp hk
      rcases h3 x hx with ⟨_, q, hq, hr⟩ | ⟨_, hq⟩
      · rw [hp] at hq; injection hq with hq; subst hq
        exact ⟨x, hx, rfl, hr⟩
      · rw [hp] at hq; cases hq
    · rw [h2 k hk] at hp; simp [aget] at hp
  · intro x hx hu
    rcases h3 x hx with ⟨_, q, hq, hr⟩ | ⟨hu', _⟩
    · exact ⟨q, hq, hr⟩
    · exact absurd hu hu'

omit [LinearOrder K] [IsStrictOrderedRing K] in
theorem known_iff {env : Env K} {xs : List EProp} {d : List (Str × Pr K)} (h : Reads env xs d) (k : Str) (a : K) :
    Spec.Known env xs k a ↔ ∃ p, aget k d = some p ∧ p.m = a := by
  constructor
  · rintro ⟨x, hx, rfl, hu, o, u, ha⟩
    obtain ⟨p, hp, hr⟩ := h.2.2 x hx hu
    exact ⟨p, hp, (amount_unique hr.amount ha).1⟩
  · rintro ⟨p, hp, rfl⟩
    obtain ⟨x, hx, hk, hr⟩ := h.2.1 k p hp
    exact ⟨x, hx, hk, hr.unit, _, _, hr.amount⟩

/-- What the three loops leave. -/
structure Leaves (env : Env K) (n : Nat) (xs : List EProp) (d r : List (Str × Pr K)) : Prop where
  nodup : (r.map Prod.fst).Nodup
  source : ∀ k p, aget k d = some p → ∃ q, aget k r = some q ∧ Right env xs k p q
  other : ∀ k q, aget k d = none → aget k r = some q →
    k = c!"water content" ∧ q.num = n ∧ q.considered = true ∧
      (∃ e, q.equiv = some e ∧ e.fp = c!"7ec8d70e-4ffc-4024-86b7-6141cc0a2bf5" ∧ e.name = c!"water content") ∧
      ∃ w m, Spec.Known env xs c!"wet mass" w ∧ Spec.Known env xs c!"dry mass" m ∧ q.m = (w - m) / env.factor
  estimate : aget c!"water content" d = none → (∃ w, Spec.Known env xs c!"wet mass" w) →
    (∃ m, Spec.Known env xs c!"dry mass" m) → (aget c!"water content" r).isSome

theorem leaves {env : Env K} {xs : List EProp} {d : List (Str × Pr K)} {n n2 : Nat} {s1 s2 s3 : St K}
    (hr : Reads env xs d) (h1 : firstLoop env ⟨d, []⟩ perFlow = .ok s1)
    (h2 : secondLoop (s1, n) perDryMass = .ok (s2, n2)) (h3 : thirdLoop env s2 (s2.props.map Prod.fst) = .ok s3) :
    Leaves env n xs d s3.props := by
  obtain ⟨f1, f2, f3⟩ := firstLoop_ok (by decide) h1
  simp only at f1 f2 f3
  obtain ⟨g1, g2, g3⟩ := secondLoop_ok (by decide) (by decide) (by decide) (by rw [f1]; exact hr.1) h2
  -- the dry mass
  have hdry1 : aget c!"dry mass" s1.props = (aget c!"dry mass" d).map (divided env) := by
    rw [f2, if_pos (by decide)]
  have hwet1 : aget c!"wet mass" s1.props = (aget c!"wet mass" d).map (divided env) := by
    rw [f2, if_pos (by decide)]
  have hdry2 : aget c!"dry mass" s2.props = aget c!"dry mass" s1.props := by
    have := g2 c!"dry mass"
    unfold AfterSecond at this
    cases hq : aget c!"dry mass" s1.props with
    | none => rw [hq] at this; simpa using this
    | some p =>
      rw [hq] at this
      simp only at this
      rw [if_neg (by decide)] at this
      exact this
  have hd1 : ∀ p, aget c!"dry mass" s1.props = some p → ∃ a, Spec.Known env xs c!"dry mass" a ∧
      p.m = a / env.factor := by
    intro p hp
    rw [hdry1] at hp
    obtain ⟨p0, hp0, rfl⟩ := Option.map_eq_some_iff.mp hp
    exact ⟨p0.m, (known_iff hr _ _).mpr ⟨p0, hp0, rfl⟩, rfl⟩
  have hd2 : ∀ a, Spec.Known env xs c!"dry mass" a → ∃ p, aget c!"dry mass" s1.props = some p ∧
      p.m = a / env.factor := by
    intro a ha
    obtain ⟨p, hp, rfl⟩ := (known_iff hr _ _).mp ha
    exact ⟨divided env p, by rw [hdry1, hp]; rfl, rfl⟩
  have hdd : c!"dry mass" ∈ s2.done ∨ aget c!"dry mass" s2.props = none := by
    cases hq : aget c!"dry mass" d with
    | none => right; rw [hdry2, hdry1, hq]; rfl
    | some p => left; rw [g3]; left; rw [f3]; right; exact ⟨by decide, by simp [hq]⟩
  obtain ⟨t1, t2, t3⟩ := thirdLoop_ok g1 hdd h3
  have hall : ∀ k p, aget k s2.props = some p → ∃ q,
      gen env (decide (k ∈ s2.done)) (aget c!"dry mass" s2.props) k p = .ok q ∧ aget k s3.props = some q := by
    intro k p hp
    exact t3 k ((aget_isSome k _).mp (by simp [hp])) p hp
  have hdone : ∀ k p, k ∈ s2.done → aget k s2.props = some p → aget k s3.props = some p := by
    intro k p hk hp
    obtain ⟨q, hq, hg⟩ := hall k p hp
    rw [decide_eq_true hk] at hq
    unfold gen at hq
    rw [if_pos rfl] at hq
    injection hq with hq
    rw [hg, hq]
  have hnone : ∀ k, aget k s2.props = none → aget k s3.props = none := by
    intro k hk
    rw [aget_none] at hk ⊢
    rw [t1]; exact hk
  refine ⟨by rw [t1]; exact g1, ?_, ?_, ?_⟩
  · intro k p hp
    have hcon : p.considered = true := by obtain ⟨x, _, _, hx⟩ := hr.2.1 k p hp; exact hx.considered
    have hs1 := f2 k
    have hs2 := g2 k
    by_cases ha : k ∈ perFlow
    · obtain ⟨n1, n2, n3, n4, n5⟩ := unitNames_plain ha
      rw [if_pos ha, hp] at hs1
      unfold AfterSecond at hs2
      rw [hs1] at hs2
      simp only [Option.map_some] at hs2
      rw [if_neg (show k ∉ perDryMass from n1)] at hs2
      refine ⟨divided env p, hdone k _ ?_ hs2, ?_⟩
      · rw [g3, f3]; exact .inl (.inr ⟨ha, by simp [hp]⟩)
      · refine right_of ⟨rfl, rfl⟩ (.named ha) ?_ ?_
        · intro b hb
          cases hb with
          | named h => rfl
          | dryNamed h => exact absurd h n1
          | content h => rfl
          | contentDry h => exact absurd h n2
          | concentration _ h => exact absurd h n3
          | heating _ hn => rfl
          | lifetime _ hn => rfl
        · intro v; simp [divided, Spec.ValueOf, hcon, eq_comm]
    · rw [if_neg ha] at hs1
      unfold AfterSecond at hs2
      rw [hs1, hp] at hs2
      simp only at hs2
      by_cases hb : k ∈ perDryMass
      · obtain ⟨n1, n2⟩ := dryNames_plain hb
        rw [if_pos hb] at hs2
        refine ⟨_, hdone k _ ?_ hs2, ?_⟩
        · rw [g3]; exact .inr ⟨hb, by simp [hs2]⟩
        · refine right_of (by unfold dried; split <;> exact ⟨rfl, rfl⟩) (.dryNamed hb) ?_ (dried_value hcon hd1 hd2)
          intro b hb'
          cases hb' with
          | named h => exact absurd h n1
          | dryNamed h => rfl
          | content _ h => exact absurd hb h
          | contentDry h => rfl
          | concentration h => exact absurd n2 h
          | heating h => exact absurd n2 h
          | lifetime h => exact absurd n2 h
      · rw [if_neg hb] at hs2
        obtain ⟨q, hq, hg⟩ := hall k p hs2
        have hnd : k ∉ s2.done := by
          rw [g3, f3]
          rintro ((h | h) | h)
          · simp at h
          · exact ha h.1
          · exact hb h.1
        rw [decide_eq_false hnd, hdry2] at hq
        exact ⟨q, hg, gen_right hcon ha hb hd1 hd2 hq⟩
  · intro k q hk hq
    have hs1 : aget k s1.props = none := by rw [f2, hk]; simp
    have hs2 := g2 k
    unfold AfterSecond at hs2
    rw [hs1] at hs2
    simp only at hs2
    split_ifs at hs2 with hc
    · obtain ⟨m, w, p, hm, hw, hp, he⟩ := hs2
      have := hdone k p (by rw [g3]; exact .inr ⟨hc.1, by simp [hp]⟩) hp
      rw [hq] at this; injection this with this; subst this
      refine ⟨hc.2.1, he.num, he.considered, he.equiv, ?_⟩
      obtain ⟨a, ha, hma⟩ := hd1 m hm
      rw [hwet1] at hw
      obtain ⟨p0, hp0, rfl⟩ := Option.map_eq_some_iff.mp hw
      refine ⟨p0.m, a, (known_iff hr _ _).mpr ⟨p0, hp0, rfl⟩, ha, ?_⟩
      rw [he.m, hma]
      simp only [divided]
      ring
    · rw [hnone k hs2] at hq; cases hq
  · rintro hk ⟨w, hw⟩ ⟨m, hm⟩
    obtain ⟨w, hw, -⟩ := (known_iff hr _ _).mp hw
    obtain ⟨m, hm, -⟩ := hd2 m hm
    have hs1 : aget c!"water content" s1.props = none := by rw [f2, hk]; simp
    have hs2 := g2 c!"water content"
    unfold AfterSecond at hs2
    rw [hs1] at hs2
    simp only at hs2
    rw [if_pos ⟨by decide, trivial, by simp [hm], by rw [hwet1, hw]; rfl⟩] at hs2
    obtain ⟨_, _, p, _, _, hp, _⟩ := hs2
    obtain ⟨q, _, hq⟩ := hall _ p hp
    simp [hq]

/-- **C75**: which flow properties the flow of ILCD gets. -/
theorem flow_properties_iff {env : Env K} {xs : List EProp} {outs : List (Out K)}
    (hx : (xs.map EProp.name).Nodup) (h : convert env xs = .ok outs) (fp name : Str) (v : K) :
    (∃ num, ⟨num, fp, name, v⟩ ∈ outs) ↔
      (∃ x ∈ xs, Spec.FromSource env xs x fp name v ∧
        ¬ (x.name = c!"water in wet mass" ∧ ((∃ a, Spec.Known env xs c!"water content" a) ∨
          ((∃ w, Spec.Known env xs c!"wet mass" w) ∧ ∃ m, Spec.Known env xs c!"dry mass" m)))) ∨
      Spec.FromMasses env xs fp name v := by
  unfold convert at h
  obtain ⟨⟨d, n⟩, hd, h⟩ := IlcdFlows.Except.bind_ok' h
  obtain ⟨r, hr, h⟩ := IlcdFlows.Except.bind_ok' h
  injection h with h; subst h
  unfold equivalent at hr
  obtain ⟨s1, h1, hr⟩ := IlcdFlows.Except.bind_ok' hr
  obtain ⟨⟨s2, n2⟩, h2, hr⟩ := IlcdFlows.Except.bind_ok' hr
  obtain ⟨s3, h3, hr⟩ := IlcdFlows.Except.bind_ok' hr
  injection hr with hr; subst hr
  have hR := reads hx hd
  have hL := leaves hR h1 h2 h3
  have hwater : (aget c!"water content" s3.props).isSome = true ↔
      ((∃ a, Spec.Known env xs c!"water content" a) ∨
        ((∃ w, Spec.Known env xs c!"wet mass" w) ∧ ∃ m, Spec.Known env xs c!"dry mass" m)) := by
    cases hq : aget c!"water content" d with
    | some p =>
      obtain ⟨q, hq', -⟩ := hL.source _ p hq
      simp only [hq', Option.isSome_some, true_iff]
      exact .inl ⟨p.m, (known_iff hR _ _).mpr ⟨p, hq, rfl⟩⟩
    | none =>
      have hno : ¬ ∃ a, Spec.Known env xs c!"water content" a := by
        rintro ⟨a, ha⟩
        obtain ⟨p, hp, -⟩ := (known_iff hR _ _).mp ha
        rw [hq] at hp; cases hp
      simp only [hno, false_or]
      constructor
      · intro h
        obtain ⟨q, hq'⟩ := Option.isSome_iff_exists.mp h
        obtain ⟨_, _, _, _, w, m, hw, hm, _⟩ := hL.other _ q hq hq'
        exact ⟨⟨w, hw⟩, m, hm⟩
      · rintro ⟨hw, hm⟩
        exact hL.estimate hq hw hm
  -- the outputs, by name
  have hmem : (∃ num, (⟨num, fp, name, v⟩ : Out K) ∈ (if (aget c!"water content" s3.props).isSome then
      adel c!"water in wet mass" s3.props else s3.props).filterMap fun e => outOf e.2) ↔
      ∃ k q e, aget k s3.props = some q ∧ q.considered = true ∧ q.equiv = some e ∧ fp = e.fp ∧ name = e.name ∧
        v = q.m ∧ ¬ (k = c!"water in wet mass" ∧ (aget c!"water content" s3.props).isSome = true) := by
    have hnd : ((if (aget c!"water content" s3.props).isSome then adel c!"water in wet mass" s3.props
        else s3.props).map Prod.fst).Nodup := by
      split
      · exact adel_nodup hL.nodup
      · exact hL.nodup
    have hget : ∀ k q, aget k (if (aget c!"water content" s3.props).isSome then adel c!"water in wet mass" s3.props
        else s3.props) = some q ↔ aget k s3.props = some q ∧
          ¬ (k = c!"water in wet mass" ∧ (aget c!"water content" s3.props).isSome = true) := by
      intro k q
      split
      · rename_i hw
        rw [aget_adel]
        split_ifs with hk
        · simp [hk, hw]
        · simp [hk]
      · rename_i hw
        simp [hw]
    constructor
    · rintro ⟨num, hm⟩
      obtain ⟨⟨k, q⟩, hkq, ho⟩ := List.mem_filterMap.mp hm
      have := (hget k q).mp (aget_eq_of_mem hnd hkq)
      simp only [outOf] at ho
      split at ho
      · rename_i e hc he
        injection ho with ho; injection ho with o1 o2 o3 o4
        exact ⟨k, q, e, this.1, hc, he, o2.symm, o3.symm, o4.symm, this.2⟩
      · cases ho
    · rintro ⟨k, q, e, hq, hc, he, rfl, rfl, rfl, hn⟩
      refine ⟨q.num, List.mem_filterMap.mpr ⟨(k, q), aget_mem ((hget k q).mpr ⟨hq, hn⟩), ?_⟩⟩
      simp [outOf, hc, he]
  rw [hmem]
  simp only [hwater]
  constructor
  · rintro ⟨k, q, e, hq, hc, he, rfl, rfl, rfl, hn⟩
    cases hk : aget k d with
    | some p =>
      left
      obtain ⟨q', hq', hRt⟩ := hL.source k p hk
      rw [hq] at hq'; injection hq' with hq'; subst hq'
      obtain ⟨x, hxm, rfl, hra⟩ := hR.2.1 k p hk
      obtain ⟨b, hb, hv⟩ := (hRt.2 q.m).mp ⟨hc, rfl⟩
      exact ⟨x, hxm, ⟨e, p.m, p.o, p.u, b, hra.unit, by rw [← hra.equiv, ← hRt.1.1, he], rfl, rfl, hra.amount, hb, hv⟩,
        hn⟩
    | none =>
      right
      obtain ⟨rfl, _, _, ⟨e', he', hfp, hname⟩, w, m, hw, hm, hv⟩ := hL.other k q hk hq
      rw [he] at he'; injection he' with he'; subst he'
      refine ⟨?_, hfp, hname, w, m, hw, hm, hv⟩
      intro a ha
      obtain ⟨p, hp, -⟩ := (known_iff hR _ _).mp ha
      rw [hk] at hp; cases hp
  · rintro (⟨x, hxm, ⟨e, a, o, u, b, hu, he, rfl, rfl, ha, hb, hv⟩, hn⟩ | ⟨hno, rfl, rfl, w, m, hw, hm, rfl⟩)
    · obtain ⟨p, hp, hra⟩ := hR.2.2 x hxm hu
      obtain ⟨rfl, rfl, rfl⟩ := amount_unique hra.amount ha
      obtain ⟨q, hq, hRt⟩ := hL.source _ p hp
      obtain ⟨hc, hm⟩ := (hRt.2 v).mpr ⟨b, hb, hv⟩
      exact ⟨x.name, q, e, hq, hc, by rw [hRt.1.1, hra.equiv, he], rfl, rfl, hm.symm, hn⟩
    · have hk : aget c!"water content" d = none := by
        cases hq : aget c!"water content" d with
        | none => rfl
        | some p => exact absurd ((known_iff hR _ _).mpr ⟨p, hq, rfl⟩) (hno p.m)
      obtain ⟨q, hq⟩ := Option.isSome_iff_exists.mp (hL.estimate hk ⟨w, hw⟩ ⟨m, hm⟩)
      obtain ⟨_, _, hc, ⟨e, he, hfp, hname⟩, w', m', hw', hm', hv⟩ := hL.other _ q hk hq
      have hww : w = w' := by
        obtain ⟨p, hp, rfl⟩ := (known_iff hR _ _).mp hw
        obtain ⟨p', hp', rfl⟩ := (known_iff hR _ _).mp hw'
        rw [hp] at hp'; injection hp' with hp'; rw [hp']
      have hmm : m = m' := by
        obtain ⟨p, hp, rfl⟩ := (known_iff hR _ _).mp hm
        obtain ⟨p', hp', rfl⟩ := (known_iff hR _ _).mp hm'
        rw [hp] at hp'; injection hp' with hp'; rw [hp']
      subst hww hmm
      exact ⟨_, q, e, hq, hc, he, hfp.symm, hname.symm, hv.symm, fun c => absurd c.1 (by decide)⟩

/-- The numbers of the properties with a flow property: below the counter and each used once. -/
structure Numbered (d : List (Str × Pr K)) (n : Nat) : Prop where
  pos : 1 ≤ n
  below : ∀ k p, aget k d = some p → p.equiv.isSome = true → 1 ≤ p.num ∧ p.num < n
  once : ∀ k k' p p', aget k d = some p → aget k' d = some p' → p.equiv.isSome = true → p'.equiv.isSome = true →
    p.num = p'.num → k = k'

omit [LinearOrder K] [IsStrictOrderedRing K] in
theorem construct_num {env : Env K} {n n' : Nat} {x : EProp} {p : Pr K} (h : construct env n x = .ok (p, n')) :
    (p.equiv = none ∧ n' = n) ∨ (p.num = n ∧ n' = n + 1) := by
  unfold construct at h
  obtain ⟨a, ha, h⟩ := IlcdFlows.Except.bind_ok' h
  obtain ⟨⟨o, u, f⟩, hu, h⟩ := IlcdFlows.Except.bind_ok' h
  simp only at h
  split at h
  · injection h with h; injection h with h1 h2; subst h1
    exact .inl ⟨rfl, h2.symm⟩
  · split at h
    · injection h with h; injection h with h1 h2; subst h1
      exact .inr ⟨rfl, h2.symm⟩
    · injection h with h; injection h with h1 h2; subst h1
      exact .inl ⟨rfl, h2.symm⟩

omit [LinearOrder K] [IsStrictOrderedRing K] in
theorem readProps_num {env : Env K} : ∀ {xs : List EProp} {d d' : List (Str × Pr K)} {n n' : Nat},
    readProps env (d, n) xs = .ok (d', n') → Numbered d n → Numbered d' n'
  | [], d, d', n, n', h, hn => by
    simp only [readProps] at h
    injection h with h; injection h with h1 h2; subst h1 h2; exact hn
  | x :: xs, d, d', n, n', h, hn => by
    simp only [readProps] at h
    obtain ⟨⟨p, n1⟩, hp, h⟩ := IlcdFlows.Except.bind_ok' h
    refine readProps_num h ?_
    have hmono : n ≤ n1 := by rcases construct_num hp with ⟨_, e⟩ | ⟨_, e⟩ <;> omega
    have hkeep : Numbered d n1 := ⟨by have := hn.pos; omega,
      fun k q hq he => ⟨(hn.below k q hq he).1, by have := (hn.below k q hq he).2; omega⟩, hn.once⟩
    change Numbered (if p.considered then aset x.name p d else d) n1
    split
    · refine ⟨hkeep.pos, ?_, ?_⟩
      · intro k q hq he
        rw [aget_aset] at hq
        split_ifs at hq
        · injection hq with hq; subst hq
          rcases construct_num hp with ⟨e, _⟩ | ⟨e1, e2⟩
          · rw [e] at he; cases he
          · have := hn.pos; omega
        · exact hkeep.below k q hq he
      · intro k k' q q' hq hq' he he' hqq
        rw [aget_aset] at hq hq'
        split_ifs at hq hq' with c1 c2 c2
        · rw [c1, c2]
        · injection hq with hq; subst hq
          rcases construct_num hp with ⟨e, _⟩ | ⟨e1, e2⟩
          · rw [e] at he; cases he
          · have := hn.below k' q' hq' he'; omega
        · injection hq' with hq'; subst hq'
          rcases construct_num hp with ⟨e, _⟩ | ⟨e1, e2⟩
          · rw [e] at he'; cases he'
          · have := hn.below k q hq he; omega
        · exact hn.once k k' q q' hq hq' he he' hqq
    · exact hkeep

omit [Field K] [IsStrictOrderedRing K] [LinearOrder K] in
theorem nodup_of_once : ∀ {r : List (Str × Pr K)}, (r.map Prod.fst).Nodup →
    (∀ k k' p p', (k, p) ∈ r → (k', p') ∈ r → p.equiv.isSome = true → p'.equiv.isSome = true → p.num = p'.num → k = k') →
    ((r.filterMap fun e => outOf e.2).map Out.num).Nodup
  | [], _, _ => by simp
  | (k, p) :: r, hn, ho => by
    simp only [List.map_cons, List.nodup_cons] at hn
    have ih := nodup_of_once hn.2 (fun a b p q h1 h2 => ho a b p q (by simp [h1]) (by simp [h2]))
    rw [List.filterMap_cons]
    split
    · exact ih
    · rename_i o hq
      simp only at hq
      simp only [List.map_cons, List.nodup_cons]
      refine ⟨?_, ih⟩
      intro hmem
      obtain ⟨o', ho', hnum⟩ := List.mem_map.mp hmem
      obtain ⟨⟨k', p'⟩, hkp, hq'⟩ := List.mem_filterMap.mp ho'
      simp only at hq'
      unfold outOf at hq hq'
      split at hq <;> split at hq' <;> try contradiction
      rename_i e _ he _ _ e' _ he'
      injection hq with hq; injection hq' with hq'
      subst hq hq'
      have := ho k k' p p' (by simp) (by simp [hkp]) (by simp [he]) (by simp [he']) hnum.symm
      exact hn.1 (this ▸ List.mem_map_of_mem (f := Prod.fst) hkp)

/-- **C76**: the flow properties of a flow have numbers of their own, none of them the number 0 of its unit. -/
theorem numbers_distinct {env : Env K} {xs : List EProp} {outs : List (Out K)}
    (hx : (xs.map EProp.name).Nodup) (h : convert env xs = .ok outs) :
    (0 :: outs.map Out.num).Nodup := by
  unfold convert at h
  obtain ⟨⟨d, n⟩, hd, h⟩ := IlcdFlows.Except.bind_ok' h
  obtain ⟨r, hr, h⟩ := IlcdFlows.Except.bind_ok' h
  injection h with h; subst h
  unfold equivalent at hr
  obtain ⟨s1, h1, hr⟩ := IlcdFlows.Except.bind_ok' hr
  obtain ⟨⟨s2, n2⟩, h2, hr⟩ := IlcdFlows.Except.bind_ok' hr
  obtain ⟨s3, h3, hr⟩ := IlcdFlows.Except.bind_ok' hr
  injection hr with hr
  have hR := reads hx hd
  have hL := leaves hR h1 h2 h3
  have hN : Numbered d n := readProps_num hd ⟨by simp, by simp [aget], by simp [aget]⟩
  have hnum : ∀ k q, aget k s3.props = some q → q.equiv.isSome = true →
      (∃ p, aget k d = some p ∧ p.equiv.isSome = true ∧ q.num = p.num) ∨ (k = c!"water content" ∧ q.num = n) := by
    intro k q hq he
    cases hk : aget k d with
    | some p =>
      obtain ⟨q', hq', hRt⟩ := hL.source k p hk
      rw [hq] at hq'; injection hq' with hq'; subst hq'
      exact .inl ⟨p, rfl, by rw [← hRt.1.1]; exact he, hRt.1.2⟩
    | none =>
      obtain ⟨hw, hn, -⟩ := hL.other k q hk hq
      exact .inr ⟨hw, hn⟩
  have hsub : ∀ e ∈ r, e ∈ s3.props := by
    intro e he
    rw [← hr] at he
    split at he
    · exact List.mem_of_mem_filter he
    · exact he
  have hnd : (r.map Prod.fst).Nodup := by
    rw [← hr]
    split
    · exact adel_nodup hL.nodup
    · exact hL.nodup
  rw [List.nodup_cons]
  constructor
  · intro h0
    obtain ⟨o, ho, hz⟩ := List.mem_map.mp h0
    obtain ⟨⟨k, q⟩, hkq, hq⟩ := List.mem_filterMap.mp ho
    unfold outOf at hq
    simp only at hq
    split at hq
    · rename_i e _ he
      injection hq with hq; subst hq
      simp only at hz
      rcases hnum k q (aget_eq_of_mem hL.nodup (hsub _ hkq)) (by simp [he]) with ⟨p, hp, hpe, e'⟩ | ⟨_, e'⟩
      · have := (hN.below k p hp hpe).1; omega
      · have := hN.pos; omega
    · cases hq
  · refine nodup_of_once hnd ?_
    intro k k' p p' hp hp' he he' hpp
    have g := aget_eq_of_mem hL.nodup (hsub _ hp)
    have g' := aget_eq_of_mem hL.nodup (hsub _ hp')
    rcases hnum k p g he with ⟨a, ha, hae, e⟩ | ⟨w, e⟩ <;> rcases hnum k' p' g' he' with ⟨a', ha', hae', e'⟩ | ⟨w', e'⟩
    · exact hN.once k k' a a' ha ha' hae hae' (by omega)
    · have := (hN.below k a ha hae).2; omega
    · have := (hN.below k' a' ha' hae').2; omega
    · rw [w, w']

/-- **C75**: a property per unit of the flow is kept, and the quantity of it that goes with any amount `q` of the flow
is the same before and after the conversion of the unit. -/
theorem total_per_unit {env : Env K} {xs : List EProp} {outs : List (Out K)} (hx : (xs.map EProp.name).Nodup)
    (h : convert env xs = .ok outs) (hf : env.factor ≠ 0) {x : EProp} (hm : x ∈ xs) (hu : Spec.HasUnit x) {e : Ilcd}
    (he : aget x.id pintToIlcdFp = some e) {a : K} {o u : Str} (ha : Spec.Amount env x a o u)
    (hb : Spec.BasisOf env x.name o u .unit) (hw : x.name ≠ c!"water in wet mass") :
    ∃ num v, ⟨num, e.fp, e.name, v⟩ ∈ outs ∧ ∀ q : K, v * (q * env.factor) = a * q := by
  obtain ⟨num, hn⟩ := (flow_properties_iff hx h e.fp e.name (a / env.factor)).mpr
    (.inl ⟨x, hm, ⟨e, a, o, u, .unit, hu, he, rfl, rfl, ha, hb, rfl⟩, fun c => hw c.1⟩)
  refine ⟨num, _, hn, fun q => ?_⟩
  field_simp

/-- **C75**: a property per dry mass is kept if the dry mass is given, and the quantity of it that goes with any amount
`q` of the flow is its value times the dry mass of that amount. -/
theorem total_per_dry_mass {env : Env K} {xs : List EProp} {outs : List (Out K)} (hx : (xs.map EProp.name).Nodup)
    (h : convert env xs = .ok outs) (hf : env.factor ≠ 0) {x : EProp} (hm : x ∈ xs) (hu : Spec.HasUnit x) {e : Ilcd}
    (he : aget x.id pintToIlcdFp = some e) {a : K} {o u : Str} (ha : Spec.Amount env x a o u)
    (hb : Spec.BasisOf env x.name o u .dry) {d : K} (hd : Spec.Known env xs c!"dry mass" d) :
    ∃ num v, ⟨num, e.fp, e.name, v⟩ ∈ outs ∧ ∀ q : K, v * (q * env.factor) = a * (d * q) := by
  have hw : x.name ≠ c!"water in wet mass" := by
    intro hw
    cases hb with
    | dryNamed h => rw [hw] at h; revert h; decide
    | contentDry h => rw [hw, contains_iff] at h; revert h; decide
  obtain ⟨num, hn⟩ := (flow_properties_iff hx h e.fp e.name (a * d / env.factor)).mpr
    (.inl ⟨x, hm, ⟨e, a, o, u, .dry, hu, he, rfl, rfl, ha, hb, d, hd, rfl⟩, fun c => hw c.1⟩)
  refine ⟨num, _, hn, fun q => ?_⟩
  field_simp

omit [IsStrictOrderedRing K] in
/-- **C75**: nothing is written for a property per dry mass if the dry mass is not given. -/
theorem dry_mass_needed {env : Env K} {xs : List EProp} (hno : ∀ d, ¬ Spec.Known env xs c!"dry mass" d) {x : EProp}
    {a : K} {o u : Str} (ha : Spec.Amount env x a o u) (hb : ∀ b, Spec.BasisOf env x.name o u b → b = .dry)
    (fp name : Str) (v : K) : ¬ Spec.FromSource env xs x fp name v := by
  rintro ⟨e, a', o', u', b, -, -, -, -, ha', hb', hv⟩
  obtain ⟨rfl, rfl, rfl⟩ := amount_unique ha ha'
  rw [hb b hb'] at hv
  obtain ⟨d, hd, -⟩ := hv
  exact hno d hd

/-- **C75** is not met for concentrations: the value written depends on the amount of the exchange, so the same product
gets other flow properties where it is exchanged in another amount. -/
theorem concentration_depends_on_amount {env : Env K} {m' : K} {xs : List EProp} {outs outs' : List (Out K)}
    (hx : (xs.map EProp.name).Nodup) (h : convert env xs = .ok outs)
    (h' : convert { env with amount := m' } xs = .ok outs') {x : EProp} (hm : x ∈ xs) (hu : Spec.HasUnit x)
    {e : Ilcd} (he : aget x.id pintToIlcdFp = some e) {a : K} {o u : Str} (ha : Spec.Amount env x a o u) (h0 : a ≠ 0)
    (hb : Spec.BasisOf env x.name o u .amount) (hne : |env.amount| ≠ |m'|) :
    ∃ num v num' v', ⟨num, e.fp, e.name, v⟩ ∈ outs ∧ ⟨num', e.fp, e.name, v'⟩ ∈ outs' ∧ v ≠ v' := by
  have hw : x.name ≠ c!"water in wet mass" := by
    intro hw
    cases hb with
    | concentration _ h => rw [hw, contains_iff] at h; revert h; decide
  have hb' : Spec.BasisOf { env with amount := m' } x.name o u .amount := by
    cases hb with
    | concentration h1 h2 h3 => exact .concentration h1 h2 h3
  obtain ⟨num, hn⟩ := (flow_properties_iff hx h e.fp e.name (a * |env.amount|)).mpr
    (.inl ⟨x, hm, ⟨e, a, o, u, .amount, hu, he, rfl, rfl, ha, hb, rfl⟩, fun c => hw c.1⟩)
  obtain ⟨num', hn'⟩ := (flow_properties_iff hx h' e.fp e.name (a * |m'|)).mpr
    (.inl ⟨x, hm, ⟨e, a, o, u, .amount, hu, he, rfl, rfl, ha, hb', rfl⟩, fun c => hw c.1⟩)
  exact ⟨num, _, num', _, hn, hn', fun c => hne (mul_left_cancel₀ h0 c)⟩

/-- **C75**: where the water content is given but not the dry mass, nothing is written from the water content and
nothing from the water in the wet mass. -/
theorem water_lost {env : Env K} {xs : List EProp} {outs : List (Out K)} (hx : (xs.map EProp.name).Nodup)
    (h : convert env xs = .ok outs) (hno : ∀ d, ¬ Spec.Known env xs c!"dry mass" d)
    (hw : ∃ a, Spec.Known env xs c!"water content" a) {o : Out K} (ho : o ∈ outs) :
    ∃ x ∈ xs, Spec.FromSource env xs x o.fp o.name o.value ∧ x.name ≠ c!"water content" ∧
      x.name ≠ c!"water in wet mass" := by
  rcases (flow_properties_iff hx h o.fp o.name o.value).mp ⟨o.num, ho⟩ with ⟨x, hm, hs, hn⟩ | ⟨_, _, _, w, m, _, hm, _⟩
  · refine ⟨x, hm, hs, ?_, fun c => hn ⟨c, .inl hw⟩⟩
    intro hc
    obtain ⟨e, a, o', u, b, hu, he, h1, h2, ha, hb, hv⟩ := hs
    refine dry_mass_needed hno ha ?_ o.fp o.name o.value ⟨e, a, o', u, b, hu, he, h1, h2, ha, hb, hv⟩
    have hin : x.name ∈ Spec.dryNames := by rw [hc]; decide
    obtain ⟨n1, n2⟩ := dryNames_plain hin
    intro b hb
    cases hb with
    | named h => exact absurd h n1
    | dryNamed h => rfl
    | content _ h => exact absurd hin h
    | contentDry h => rfl
    | concentration h => exact absurd n2 h
    | heating h => exact absurd n2 h
    | lifetime h => exact absurd n2 h
  · exact absurd hm (hno m)

omit [LinearOrder K] [IsStrictOrderedRing K] in
theorem readProps_succeeds {env : Env K} : ∀ {xs : List EProp} (s : List (Str × Pr K) × Nat),
    (∀ x ∈ xs, ∃ a o u, Spec.Amount env x a o u) → ∃ r, readProps env s xs = .ok r
  | [], s, _ => ⟨s, rfl⟩
  | x :: xs, s, h => by
    obtain ⟨a, o, u, t, f, h1, h2, -⟩ := h x (by simp)
    have : ∃ p, construct env s.2 x = .ok p := by
      unfold construct
      rw [h1, h2]
      simp only [bind, Except.bind]
      split
      · exact ⟨_, rfl⟩
      · split <;> exact ⟨_, rfl⟩
    obtain ⟨⟨p, n⟩, hp⟩ := this
    simp only [readProps, hp]
    exact readProps_succeeds _ (fun y hy => h y (by simp [hy]))

omit [IsStrictOrderedRing K] in
theorem divFactor_succeeds {env : Env K} (hf : env.factor ≠ 0) (k : Str) (p : Pr K) (s : St K) :
    ∃ r, divFactor env k p s = .ok r := by
  unfold divFactor
  split_ifs <;> exact ⟨_, rfl⟩

omit [LinearOrder K] [IsStrictOrderedRing K] in
theorem mulDry_succeeds (k : Str) (p : Pr K) (s : St K) : ∃ r, mulDry k p s = .ok r := by
  unfold mulDry
  split <;> exact ⟨_, rfl⟩

omit [IsStrictOrderedRing K] in
theorem firstLoop_succeeds {env : Env K} (hf : env.factor ≠ 0) : ∀ (l : List Str) (s : St K),
    ∃ r, firstLoop env s l = .ok r
  | [], s => ⟨s, rfl⟩
  | k :: l, s => by
    simp only [firstLoop]
    split
    · exact firstLoop_succeeds hf l s
    · rename_i p _
      obtain ⟨r, hr⟩ := divFactor_succeeds hf k p s
      rw [hr]
      exact firstLoop_succeeds hf l r

omit [LinearOrder K] [IsStrictOrderedRing K] in
theorem secondLoop_succeeds : ∀ (l : List Str) (s : St K × Nat), ∃ r, secondLoop s l = .ok r
  | [], s => ⟨s, by cases s; rfl⟩
  | k :: l, (s, n) => by
    simp only [secondLoop]
    split
    · rename_i p _
      obtain ⟨r, hr⟩ := mulDry_succeeds k p s
      rw [hr]
      exact secondLoop_succeeds l (r, n)
    · split
      · rename_i d w _ _ _
        have : ∃ p, estimated w.m d.m n = .ok p := by
          unfold estimated
          split
          · rename_i hn
            have : (aget c!"a9358458-9724-4f03-b622-106eda248916" pintToIlcdFp).isSome = true := by decide +kernel
            rw [hn] at this; cases this
          · exact ⟨_, rfl⟩
        obtain ⟨p, hp⟩ := this
        rw [hp]
        exact secondLoop_succeeds l _
      · exact secondLoop_succeeds l _

omit [IsStrictOrderedRing K] in
theorem general_succeeds {env : Env K} (hf : env.factor ≠ 0) (hc : ∀ t, ∃ b, env.check t = .ok b) (k : Str) (p : Pr K)
    (s : St K) : ∃ r, general env k p s = .ok r := by
  obtain ⟨r, hr⟩ := divFactor_succeeds hf k p s
  obtain ⟨r', hr'⟩ := mulDry_succeeds k p s
  obtain ⟨b, hb⟩ := hc ((unitParts p.o).getLastD [])
  unfold general
  rw [hr, hr', hb]
  simp only [Except.bind, mulAmount]
  cases b <;> split_ifs <;> exact ⟨_, rfl⟩

omit [IsStrictOrderedRing K] in
theorem thirdLoop_succeeds {env : Env K} (hf : env.factor ≠ 0) (hc : ∀ t, ∃ b, env.check t = .ok b) :
    ∀ (l : List Str) (s : St K), ∃ r, thirdLoop env s l = .ok r
  | [], s => ⟨s, rfl⟩
  | k :: l, s => by
    simp only [thirdLoop]
    split
    · exact thirdLoop_succeeds hf hc l s
    · rename_i p _
      obtain ⟨r, hr⟩ := general_succeeds hf hc k p s
      rw [hr]
      exact thirdLoop_succeeds hf hc l r

omit [IsStrictOrderedRing K] in
/-- **C75**: the conversion succeeds where the numbers can be read, the units are known and the factor is not zero. -/
theorem convert_succeeds {env : Env K} {xs : List EProp} (hf : env.factor ≠ 0)
    (hc : ∀ t, ∃ b, env.check t = .ok b) (hx : ∀ x ∈ xs, ∃ a o u, Spec.Amount env x a o u) :
    ∃ outs, convert env xs = .ok outs := by
  obtain ⟨⟨d, n⟩, hd⟩ := readProps_succeeds ([], 1) hx
  obtain ⟨s1, h1⟩ := firstLoop_succeeds hf perFlow ⟨d, []⟩
  obtain ⟨⟨s2, n2⟩, h2⟩ := secondLoop_succeeds perDryMass (s1, n)
  obtain ⟨s3, h3⟩ := thirdLoop_succeeds hf hc (s2.props.map Prod.fst) s2
  unfold convert equivalent
  simp only [hd, h1, h2, h3, bind, Except.bind]
  exact ⟨_, rfl⟩

/-! ### Cases -/

/-- Numbers, units and a flow in cubic metres of which the source gives 2. -/
def exEnv (f : ℚ) : Env ℚ :=
  ⟨fun t => if t = c!"1000" then .ok 1000 else if t = c!"800" then .ok 800 else if t = c!"0.25" then .ok (1 / 4)
      else if t = c!"0.01" then .ok (1 / 100) else .error .valueError,
    fun u => if u = c!"kg" then .ok (c!"kilogram", c!"kilogram", 1)
      else if u = c!"kg/m3" then .ok (c!"kilogram / m3", c!"kilogram / m3", 1)
      else if u = c!"dimensionless" then .ok (c!"dimensionless", c!"dimensionless", 1) else .error (.other 0),
    fun u => .ok (decide (u = c!"m3")), 2, f⟩

def exDry : EProp := ⟨c!"dry mass", c!"3a0af1d6-04c3-41c6-a3da-92c4f61e0eaa", c!"800", [c!"kg"], some c!"487df68b"⟩
def exWet : EProp := ⟨c!"wet mass", c!"67f102e2-9cb6-4d20-aa16-bf74d8a03326", c!"1000", [c!"kg"], some c!"487df68b"⟩
def exWater : EProp :=
  ⟨c!"water content", c!"a9358458-9724-4f03-b622-106eda248916", c!"0.25", [c!"dimensionless"], some c!"577e242a"⟩
def exWaterIn : EProp :=
  ⟨c!"water in wet mass", c!"6d9e1462-80e3-4f10-b3f4-71febd6f1168", c!"0.25", [c!"kg"], some c!"487df68b"⟩
def exChromium : EProp :=
  ⟨c!"chromium content", c!"e1d2c19b-3a97-4f52-a83f-fe88400452c2", c!"0.01", [c!"dimensionless"], some c!"577e242a"⟩
def exConcentration : EProp :=
  ⟨c!"mass concentration, chromium", c!"bca4bb32-f701-46bb-ba1e-bad477c19f7f", c!"0.01", [c!"kg/m3"], some c!"5d9b5e43"⟩

def outNames (l : List (Out ℚ)) : List (Str × ℚ) := l.map fun o => (o.name, o.value)

end

theorem ex_convert : ∃ l, convert (exEnv 4) [exDry, exWet, exWaterIn, exChromium, exConcentration] = .ok l ∧
    outNames l = [(c!"chromium content", 2), (c!"mass concentration, chromium", 1 / 50), (c!"water content", 50)] := ⟨_, rfl, by decide +kernel⟩

/-- **C77** is not met: a flow gets the same flow property twice, with two values. -/
theorem same_flow_property_twice : ∃ (env : Env ℚ) (xs : List EProp) (outs : List (Out ℚ)),
    (xs.map EProp.name).Nodup ∧ convert env xs = .ok outs ∧ ∃ o ∈ outs, ∃ o' ∈ outs, o.fp = o'.fp ∧ o.value ≠ o'.value :=
  ⟨exEnv 4, [exDry, exChromium, exConcentration], _, by decide +kernel, rfl,
    ⟨1, c!"f2149ae0-b105-4299-b1f1-cf1fd1577867", c!"chromium content", 2⟩, by decide +kernel,
    ⟨2, c!"f2149ae0-b105-4299-b1f1-cf1fd1577867", c!"mass concentration, chromium", 1 / 50⟩, by decide +kernel,
    rfl, by decide +kernel⟩

/-- A case of `water_lost`: the water of the product is not in the data set of ILCD. -/
theorem ex_water_lost : ∃ l, convert (exEnv 4) [exWet, exWater, exWaterIn] = .ok l ∧
    outNames l = [] := ⟨_, rfl, by decide +kernel⟩

end Verif.EcsProps
