/-
The flow properties of a file, name by name.
-/
import Mathlib.Algebra.Field.Basic
import Mathlib.Tactic.FieldSimp
import Verif.Lemmas.Assoc
import Verif.Lemmas.IlcdVars
import Verif.Lemmas.IlcdFlows
import Verif.Spec.IlcdProps

namespace Verif.IlcdProps
open Verif.Units

section
variable {K : Type} [Field K] [DecidableEq K]

/-- The marks of a flow property. -/
def marks (x : FileProp) : List Energy :=
  match aget x.id ilcdToEcsFp with
  | none => []
  | some fp => energyOf fp

/-- The property as it is read. -/
def asRead (x : FileProp) (n : Str) (fp : Ecs) (a : K) : Pr K :=
  ⟨x.id, n, some fp, a, ⟨none, none, fp.unitName, fp.unitId, none⟩⟩

omit [Field K] [DecidableEq K] in
theorem normalInit_ok {env : Env K} {x : FileProp} {p : Option (Pr K)} {es : List Energy}
    (h : normalInit env x = .ok (p, es)) : ∃ n, x.names = [n] ∧ es = marks x ∧
      ((aget x.id ilcdToEcsFp = none ∧ p = none) ∨
        ∃ fp a, aget x.id ilcdToEcsFp = some fp ∧ env.flt x.value = .ok a ∧ p = some (asRead x n fp a)) := by
  unfold normalInit at h
  obtain ⟨n, hn, h⟩ := IlcdFlows.Except.bind_ok' h
  have hx : x.names = [n] := by
    unfold shortName at hn
    split at hn
    · cases hn
    · rename_i m hm; injection hn with hn; rw [hm, hn]
    · cases hn
  refine ⟨n, hx, ?_⟩
  unfold marks
  split at h
  · rename_i hq
    injection h with h; injection h with h1 h2; subst h1 h2
    rw [hq]
    exact ⟨rfl, .inl ⟨rfl, rfl⟩⟩
  · rename_i fp hq
    obtain ⟨a, ha, h⟩ := IlcdFlows.Except.bind_ok' h
    obtain ⟨_, _, h⟩ := IlcdFlows.Except.bind_ok' h
    injection h with h; injection h with h1 h2; subst h1 h2
    rw [hq]
    exact ⟨rfl, .inr ⟨fp, a, rfl, ha, rfl⟩⟩

omit [Field K] [DecidableEq K] in
theorem shortName_ok {x : FileProp} {n : Str} : shortName x = .ok n ↔ x.names = [n] := by
  unfold shortName
  split
  · rename_i h; simp [h]
  · rename_i m h; simp [h]
  · rename_i h1 h2
    constructor
    · intro h; cases h
    · intro h; exact absurd h (h2 n)

omit [Field K] [DecidableEq K] in
theorem readProps_ok {env : Env K} {ref : Str} : ∀ {file : List FileProp} {d d' : List (Str × Option (Pr K))}
    {e e' : List Energy}, readProps env ref (d, e) file = .ok (d', e') →
    (∀ n, (∃ x p, Spec.LastNamed file ref n x ∧ normalInit env x = .ok (p, marks x) ∧ aget n d' = some p) ∨
      ((∀ x ∈ file, x.internalId ≠ ref → x.names ≠ [n]) ∧ aget n d' = aget n d)) ∧
    ((d.map Prod.fst).Nodup → (d'.map Prod.fst).Nodup) ∧
    e' = e ++ (file.filter fun x => x.internalId ≠ ref).flatMap marks
  | [], d, d', e, e', h => by
    simp only [readProps] at h
    injection h with h; injection h with h1 h2; subst h1 h2
    exact ⟨fun n => .inr ⟨by simp, rfl⟩, id, by simp⟩
  | x :: l, d, d', e, e', h => by
    simp only [readProps] at h
    by_cases hr : x.internalId = ref
    · rw [if_pos hr] at h
      obtain ⟨h1, h2, h3⟩ := readProps_ok h
      refine ⟨fun n => ?_, h2, by simp [hr, h3]⟩
      rcases h1 n with ⟨y, p, ⟨a, b, hab, hy⟩, hp, hg⟩ | ⟨hno, hg⟩
      · exact .inl ⟨y, p, ⟨x :: a, b, by simp [hab], hy⟩, hp, hg⟩
      · refine .inr ⟨?_, hg⟩
        intro y hy hyr
        rcases List.mem_cons.mp hy with rfl | hy
        · exact absurd hr hyr
        · exact hno y hy hyr
    · rw [if_neg hr] at h
      obtain ⟨m, hm, h⟩ := IlcdFlows.Except.bind_ok' h
      obtain ⟨⟨p, es⟩, hp, h⟩ := IlcdFlows.Except.bind_ok' h
      simp only at h
      obtain ⟨m', hm', hes, -⟩ := normalInit_ok hp
      have hm := shortName_ok.mp hm
      subst hes
      obtain ⟨h1, h2, h3⟩ := readProps_ok h
      refine ⟨fun n => ?_, fun hd => h2 (aset_nodup hd), by simp [hr, h3]⟩
      rcases h1 n with ⟨y, q, ⟨a, b, hab, hy⟩, hq, hg⟩ | ⟨hno, hg⟩
      · exact .inl ⟨y, q, ⟨x :: a, b, by simp [hab], hy⟩, hq, hg⟩
      · rw [aget_aset] at hg
        split_ifs at hg with hn
        · subst hn
          exact .inl ⟨x, p, ⟨[], l, rfl, hr, hm, hno⟩, hp, hg⟩
        · refine .inr ⟨?_, hg⟩
          intro y hy hyr
          rcases List.mem_cons.mp hy with rfl | hy
          · rw [hm]; intro c; exact hn (by simpa using c.symm)
          · exact hno y hy hyr

/-- Only one flow property is the last of a name. -/
theorem lastNamed_unique {file : List FileProp} {ref n : Str} {x y : FileProp} (hx : Spec.LastNamed file ref n x)
    (hy : Spec.LastNamed file ref n y) : x = y := by
  obtain ⟨l, r, h, hxr, hxn, hxl⟩ := hx
  obtain ⟨l', r', h', hyr, hyn, hyl⟩ := hy
  rw [h] at h'
  rcases List.append_eq_append_iff.mp h' with ⟨a, ha, hb⟩ | ⟨a, ha, hb⟩
  · cases a with
    | nil => simp at hb; exact hb.1
    | cons z a =>
      simp only [List.cons_append, List.cons.injEq] at hb
      exact absurd hyn (hxl y (by rw [hb.2]; simp) hyr)
  · cases a with
    | nil => simp at hb; exact hb.1.symm
    | cons z a =>
      simp only [List.cons_append, List.cons.injEq] at hb
      exact absurd hxn (hyl x (by rw [hb.2]; simp) hxr)

omit [Field K] [DecidableEq K] in
theorem given_unique {env : Env K} {file : List FileProp} {ref n : Str} {fp fp' : Ecs} {a a' : K}
    (h : Spec.Given env file ref n fp a) (h' : Spec.Given env file ref n fp' a') : fp = fp' ∧ a = a' := by
  obtain ⟨x, hx, h1, h2⟩ := h
  obtain ⟨y, hy, h3, h4⟩ := h'
  cases lastNamed_unique hx hy
  rw [h1] at h3; rw [h2] at h4
  injection h3 with h3; injection h4 with h4
  exact ⟨h3, h4⟩

omit [Field K] [DecidableEq K] in
theorem mem_convertible {d : List (Str × Option (Pr K))} {n : Str} {p : Pr K} :
    (n, p) ∈ convertible d ↔ (n, some p) ∈ d := by
  unfold convertible
  rw [List.mem_filterMap]
  constructor
  · rintro ⟨⟨m, q⟩, hq, he⟩
    cases q with
    | none => simp at he
    | some q => simp at he; obtain ⟨rfl, rfl⟩ := he; exact hq
  · intro h
    exact ⟨(n, some p), h, rfl⟩

omit [Field K] [DecidableEq K] in
theorem convertible_nodup {d : List (Str × Option (Pr K))} (h : (d.map Prod.fst).Nodup) :
    ((convertible d).map Prod.fst).Nodup := by
  have hs : ((convertible d).map Prod.fst).Sublist (d.map Prod.fst) := by
    unfold convertible
    clear h
    induction d with
    | nil => simp
    | cons e d ih =>
      obtain ⟨n, q⟩ := e
      cases q with
      | none => simpa using ih.trans (List.sublist_cons_self _ _)
      | some q => simpa using ih
  exact hs.nodup h

omit [Field K] [DecidableEq K] in
/-- The convertible properties of a file. -/
theorem convertible_get {env : Env K} {ref : Str} {file : List FileProp} {d : List (Str × Option (Pr K))}
    {e : List Energy} (h : readProps env ref ([], []) file = .ok (d, e)) :
    ((convertible d).map Prod.fst).Nodup ∧
    (∀ n p, aget n (convertible d) = some p → ∃ x fp a, Spec.LastNamed file ref n x ∧
      aget x.id ilcdToEcsFp = some fp ∧ env.flt x.value = .ok a ∧ p = asRead x n fp a) ∧
    (∀ n fp a, Spec.Given env file ref n fp a → ∃ x, aget n (convertible d) = some (asRead x n fp a)) := by
  obtain ⟨h1, h2, h3⟩ := readProps_ok h
  have hd := h2 (by simp)
  have hc := convertible_nodup hd
  refine ⟨hc, ?_, ?_⟩
  · intro n p hp
    have hm := aget_eq_of_mem hd (mem_convertible.mp (aget_mem hp))
    rcases h1 n with ⟨x, q, hx, hq, hg⟩ | ⟨hno, hg⟩
    · rw [hm] at hg; injection hg with hg; subst hg
      obtain ⟨n', hn', -, ⟨_, hc⟩ | ⟨fp, a, hf, ha, hq⟩⟩ := normalInit_ok hq
      · cases hc
      · injection hq with hq; subst hq
        have : n' = n := by
          obtain ⟨_, _, _, _, hxn, _⟩ := hx
          rw [hn'] at hxn; simpa using hxn
        subst this
        exact ⟨x, fp, a, hx, hf, ha, rfl⟩
    · rw [hm] at hg; simp [aget] at hg
  · rintro n fp a ⟨x, hx, hf, ha⟩
    rcases h1 n with ⟨y, q, hy, hq, hg⟩ | ⟨hno, hg⟩
    · cases lastNamed_unique hx hy
      obtain ⟨n', hn', -, ⟨hc, _⟩ | ⟨fp', a', hf', ha', hq⟩⟩ := normalInit_ok hq
      · rw [hf] at hc; cases hc
      · rw [hf] at hf'; rw [ha] at ha'
        injection hf' with hf'; injection ha' with ha'; subst hf' ha' hq
        have : n' = n := by
          obtain ⟨_, _, _, _, hxn, _⟩ := hx
          rw [hn'] at hxn; simpa using hxn
        subst this
        exact ⟨x, aget_eq_of_mem hc (mem_convertible.mpr (aget_mem hg))⟩
    · obtain ⟨l, r, hlr, hxr, hxn, -⟩ := hx
      exact absurd hxn (hno x (by rw [hlr]; simp) hxr)

theorem mem_of_mapM {α β : Type} {f : α → Py β} : ∀ {l : List α} {r : List β}, l.mapM f = .ok r →
    ∀ b, b ∈ r ↔ ∃ a ∈ l, f a = .ok b
  | [], r, h, b => by
    simp only [List.mapM_nil, pure, Except.pure] at h
    injection h with h; subst h; simp
  | a :: l, r, h, b => by
    rw [List.mapM_cons] at h
    obtain ⟨c, hc, h⟩ := IlcdFlows.Except.bind_ok' h
    obtain ⟨r', hr', h⟩ := IlcdFlows.Except.bind_ok' h
    simp only [pure, Except.pure] at h
    injection h with h; subst h
    rw [List.mem_cons, mem_of_mapM hr' b]
    constructor
    · rintro (rfl | ⟨a', ha', h⟩)
      · exact ⟨a, by simp, hc⟩
      · exact ⟨a', by simp [ha'], h⟩
    · rintro ⟨a', ha', h'⟩
      rcases List.mem_cons.mp ha' with rfl | ha'
      · rw [hc] at h'; injection h' with h'; exact .inl h'.symm
      · exact .inr ⟨a', ha', h'⟩

theorem perDry_spec (dry : Option K) (a b : K) : perDry dry a = b ↔ Spec.PerDry dry a b := by
  unfold perDry Spec.PerDry
  cases dry with
  | none => simp [eq_comm]
  | some d =>
    by_cases hd : d = 0
    · simp [hd, eq_comm]
    · simp only [hd, if_false, ne_eq, not_false_eq_true, true_imp_iff, false_imp_iff, and_true]
      constructor
      · rintro rfl; field_simp
      · rintro rfl; field_simp

theorem content_mass {unit : Str} {dry : Option K} {p : Pr K} {fp : Ecs} (hf : p.fp = some fp) (hu : unit = c!"kg")
    {i m : Str} (hm : fp.mass = some (i, m)) : contentProp unit dry p =
      .ok { p with field := { p.field with unitName := c!"kg/kg", unitId := c!"83ecd334-1b5b-4784-8938-6a0d0a9d8954",
                                           propId := some i, name := some m } } := by
  unfold contentProp
  simp only [hf, hm, decide_eq_true hu]

theorem content_volume {unit : Str} {dry : Option K} {p : Pr K} {fp : Ecs} (hf : p.fp = some fp) (hu : unit = c!"m**3")
    {i m : Str} (hm : fp.volume = some (i, m)) : contentProp unit dry p =
      .ok { p with field := { p.field with unitName := c!"kg/m3", unitId := c!"cacb6d36-694d-4e4f-9e79-6c9c73146839",
                                           propId := some i, name := some m } } := by
  have hk : ¬ unit = c!"kg" := by rw [hu]; decide
  unfold contentProp
  simp only [hf, hm, decide_eq_true hu, decide_eq_false hk]

theorem content_plain {unit : Str} {dry : Option K} {p : Pr K} {fp : Ecs} (hf : p.fp = some fp)
    (hm : unit = c!"kg" → fp.mass = none) (hv : unit = c!"m**3" → fp.volume = none) : contentProp unit dry p =
      .ok { p with m := perDry dry p.m, field := { p.field with propId := some fp.id, name := some fp.name } } := by
  unfold contentProp
  simp only [hf]
  split
  · rename_i v h1 h2
    rw [hm (of_decide_eq_true h1)] at h2; cases h2
  · split
    · rename_i v h1 h2
      rw [hv (of_decide_eq_true h1)] at h2; cases h2
    · rfl

theorem placeProp_content {unit : Str} {dry : Option K} {k : Str} {p q : Pr K} (hp : placed p = false)
    (hc : isInfix c!" content" k = true) (h : contentProp unit dry p = .ok q) :
    (placeProp unit dry k p).map (·.field) = .ok { q.field with amount := some q.m } := by
  unfold placeProp
  rw [if_neg (by simp [hp]), if_pos hc, h]
  rfl

/-- What is written for a property that was read. -/
theorem placeProp_read {unit : Str} {dry : Option K} {x : FileProp} {n : Str} {fp : Ecs} {a : K}
    (o : Written K) : (placeProp unit dry n (asRead x n fp a)).map (·.field) = .ok o ↔
      Spec.Expected unit dry n fp a o := by
  have hp : placed (asRead x n fp a) = false := rfl
  have hf : (asRead x n fp a).fp = some fp := rfl
  by_cases hc : isInfix c!" content" n = true
  · have hcon : Spec.Contains c!" content" n := IlcdVars.isInfix_iff.mp hc
    by_cases h1 : unit = c!"kg" ∧ fp.mass ≠ none
    · obtain ⟨⟨i, m⟩, hm⟩ := Option.ne_none_iff_exists'.mp h1.2
      rw [placeProp_content hp hc (content_mass hf h1.1 hm), Except.ok.injEq]
      constructor
      · rintro rfl; exact .mass hcon h1.1 hm
      · intro h
        cases h with
        | other h => exact absurd hcon h
        | content _ h2 _ => exact absurd (h2 h1.1) h1.2
        | mass _ _ h => rw [hm] at h; injection h with h; injection h with h1 h2; subst h1 h2; rfl
        | volume _ h => rw [h1.1] at h; exact absurd h (by decide)
    · by_cases h2 : unit = c!"m**3" ∧ fp.volume ≠ none
      · obtain ⟨⟨i, m⟩, hm⟩ := Option.ne_none_iff_exists'.mp h2.2
        rw [placeProp_content hp hc (content_volume hf h2.1 hm), Except.ok.injEq]
        constructor
        · rintro rfl; exact .volume hcon h2.1 hm
        · intro h
          cases h with
          | other h => exact absurd hcon h
          | content _ _ h3 => exact absurd (h3 h2.1) h2.2
          | mass _ h => rw [h2.1] at h; exact absurd h (by decide)
          | volume _ _ h => rw [hm] at h; injection h with h; injection h with h1 h2; subst h1 h2; rfl
      · have h1' : unit = c!"kg" → fp.mass = none := by
          intro hu; by_contra hc; exact h1 ⟨hu, hc⟩
        have h2' : unit = c!"m**3" → fp.volume = none := by
          intro hu; by_contra hc; exact h2 ⟨hu, hc⟩
        rw [placeProp_content hp hc (content_plain hf h1' h2'), Except.ok.injEq]
        constructor
        · rintro rfl
          exact .content hcon h1' h2' ((perDry_spec _ _ _).mp rfl)
        · intro h
          cases h with
          | other h => exact absurd hcon h
          | content _ _ _ hb =>
            have := (perDry_spec _ _ _).mpr hb
            simp only [asRead, this]
          | mass _ hu h => rw [h1' hu] at h; cases h
          | volume _ hu h => rw [h2' hu] at h; cases h
  · have hcon : ¬ Spec.Contains c!" content" n := fun h => hc (IlcdVars.isInfix_iff.mpr h)
    unfold placeProp
    rw [if_neg (by simp [hp]), if_neg hc]
    simp only [asRead, bind, Except.bind, Except.map, Except.ok.injEq]
    constructor
    · rintro rfl; exact .other hcon
    · intro h
      cases h with
      | other h => rfl
      | content h => exact absurd h hcon
      | mass h => exact absurd h hcon
      | volume h => exact absurd h hcon

/-- A mass is written with its value. -/
theorem placeProp_mass {unit : Str} {dry : Option K} {k : Str} {a : K} {name id : Str} (hi : id ≠ []) :
    (placeProp unit dry k (massProp a name id)).map (·.field) =
      .ok ⟨some id, some name, c!"kg", c!"487df68b-4994-4027-8fdc-a4dc298257b7", some a⟩ := by
  have hp : placed (massProp a name id) = true := by
    cases id with
    | nil => exact absurd rfl hi
    | cons => rfl
  unfold placeProp
  rw [if_pos hp]
  rfl

end

end Verif.IlcdProps
