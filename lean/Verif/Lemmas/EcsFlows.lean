import Verif.Spec.EcsFlows
import Verif.Lemmas.Assoc
import Verif.Lemmas.Num
import Mathlib.Data.List.Induction

namespace Verif.EcsFlows
open Uncertainty Spec

variable {FP : Type}

/-! ### Version texts -/

theorem parseDigits_zeros (n k : Nat) : parseDigits 0 (List.replicate k '0' ++ natStr n) = some n := by
  induction k with
  | zero =>
    have h := parseNat_natStr n
    obtain ⟨c, l, hcl⟩ := List.exists_cons_of_ne_nil (natStr_ne_nil n)
    simp only [List.replicate_zero, List.nil_append]
    rw [hcl] at h ⊢
    have hne : c ≠ '_' := by
      rintro rfl
      have := natStr_digit (n := n) (c := '_') (by rw [hcl]; simp)
      simp at this
    rw [parseDigits.eq_3 _ _ _ (by intro _ _ e; exact absurd e hne)]
    simp only [parseNat] at h
    cases hd : digitVal c with
    | none => simp [hd] at h
    | some d => simp only [hd] at h; simpa using h
  | succ k ih =>
    rw [List.replicate_succ, List.cons_append,
      parseDigits.eq_3 _ _ _ (by intro _ _ e; exact absurd e (by decide))]
    exact ih

theorem pad3_inj {m n : Nat} (h : pad3 m = pad3 n) : m = n := by
  have e : ∀ n, parseDigits 0 (pad3 n) = some n := fun n => parseDigits_zeros n _
  have := e m
  rw [h, e n] at this
  simpa using this.symm

theorem versionText_inj {m n : Nat} (h : versionText m = versionText n) : m = n :=
  pad3_inj (List.append_cancel_left h)

/-! ### One exchange -/

theorem rowOf_some {env : Env FP} {x : Exch} {r : Row} : rowOf env x = some r ↔ Mapped env.mapping x.fid r := by
  unfold rowOf Mapped
  cases h : aget x.fid env.mapping with
  | none => simp
  | some r' =>
    simp only [Option.some.injEq]
    split
    · rename_i hm
      simp only [reduceCtorEq, false_iff, not_and, ne_eq]
      rintro rfl h1 h2
      rcases hm with hm | hm
      · exact h1 hm
      · exact h2 hm
    · rename_i hm
      push Not at hm
      simp only [Option.some.injEq]
      constructor
      · rintro rfl; exact ⟨rfl, hm.1, hm.2⟩
      · exact fun h => h.1

theorem rowOf_none {env : Env FP} {x : Exch} : rowOf env x = none ↔ ¬ ∃ r, Mapped env.mapping x.fid r := by
  rw [← not_iff_not, not_not, ← ne_eq, Option.ne_none_iff_exists']
  exact exists_congr fun r => rowOf_some

theorem number_ok {env : Env FP} {s s1 : St FP} {x : Exch} {dir : Dir} {group : Str}
    (h : number env s x dir group = .ok s1) :
    s.counter < 1000000 ∧
    s1 = { s with
      counter := s.counter + 1
      refs := if dir = .output ∧ group = c!"0" then s.refs ++ [s.counter] else s.refs
      funcUnit := if dir = .output ∧ group = c!"0" then nameUnit (unitText env x) s.funcUnit
        else s.funcUnit } ∧
    (dir = .output ∧ group = c!"0" → x.isElem = false) := by
  unfold number int6 at h
  by_cases hc : s.counter < 1000000
  · simp only [hc, if_true] at h
    refine ⟨hc, ?_⟩
    split at h
    · rename_i hd
      split at h
      · simp at h
      · rename_i he
        simp only [Except.ok.injEq] at h
        exact ⟨by rw [← h]; simp [hd], fun _ => by simpa using he⟩
    · rename_i hd
      simp only [Except.ok.injEq] at h
      exact ⟨by rw [← h]; simp [hd], fun h => absurd h hd⟩
  · simp [hc] at h

theorem direction_ref {x : Exch} {dir : Dir} {group : Str} (h : direction x = .ok (dir, group)) :
    (dir = .output ∧ group = c!"0") ↔ IsReference x := by
  unfold direction at h
  unfold IsReference
  cases hi : x.inputGroup with
  | none =>
    simp only [hi, given] at h
    cases ho : x.outputGroup with
    | none => simp [ho] at h
    | some g =>
      simp only [ho, Except.ok.injEq, Prod.mk.injEq] at h
      obtain ⟨rfl, rfl⟩ := h
      simp
  | some g =>
    cases g with
    | nil =>
      simp only [hi, given] at h
      cases ho : x.outputGroup with
      | none => simp [ho] at h
      | some g =>
        simp only [ho, Except.ok.injEq, Prod.mk.injEq] at h
        obtain ⟨rfl, rfl⟩ := h
        simp
    | cons c g =>
      simp only [hi, given, Except.ok.injEq, Prod.mk.injEq] at h
      obtain ⟨rfl, rfl⟩ := h
      simp

/-- The numbers of an exchange: what every converted exchange does to the state, whatever its kind. -/
structure Numbered (env : Env FP) (s s' : St FP) (x : Exch) (f : Flow) (dir : Dir) (group : Str) : Prop where
  src : f.src = x
  id : f.internalId = s.counter
  dirs : direction x = .ok (dir, group)
  dirEq : f.dir = dir
  small : s.counter < 1000000
  flows : s'.flows = s.flows ++ [f]
  counter : s'.counter = s.counter + 1
  refs : s'.refs = if dir = .output ∧ group = c!"0" then s.refs ++ [s.counter] else s.refs
  unit : s'.funcUnit = if dir = .output ∧ group = c!"0" then nameUnit (unitText env x) s.funcUnit
        else s.funcUnit
  reported : s'.reported = s.reported
  under : s'.underMain = s.underMain
  main : s'.main = s.main
  bounds : f.bounds = f.amount.written
  noMean : f.mean = none
  sources : f.sources = x.sources
  refKind : dir = .output ∧ group = c!"0" → x.isElem = false
  shares : ∃ o, addShares env (allocProperty s x) x o x.props s.shares = .ok s'.shares

/-- An intermediate exchange. -/
theorem intermediate_ok [DecidableEq FP] {env : Env FP} {s s' : St FP} {x : Exch}
    (h : intermediate env s x = .ok s') :
    ∃ f dir group fp o, Numbered env s s' x f dir group ∧ basicAmount env x = .ok (o, f.amount) ∧
      f.ftype = flowType x.byProduct dir group ∧ env.fp x = .ok fp ∧ env.conv x.fid = .ok f.target ∧
      f.version = versionText (chooseVersion fp (aget x.fid s.versions)).1 ∧
      s'.versions = aset x.fid (chooseVersion fp (aget x.fid s.versions)).2.1 s.versions ∧
      s'.files = if (chooseVersion fp (aget x.fid s.versions)).2.2
        then aset (f.target, f.version) fp s.files else s.files := by
  unfold intermediate at h
  split at h
  · simp at h
  · rename_i o amt ha
    split at h
    · simp at h
    · rename_i dir group hd
      split at h
      · simp at h
      · rename_i s1 hn
        obtain ⟨hc, rfl, hk⟩ := number_ok hn
        split at h
        · simp at h
        · rename_i sh hsh
          split at h
          · simp at h
          · rename_i fp hfp
            split at h
            · simp at h
            · rename_i u hu
              simp only [Except.ok.injEq] at h
              subst h
              exact ⟨_, dir, group, fp, o, ⟨rfl, rfl, hd, rfl, hc, rfl, rfl, rfl, rfl, rfl, rfl, rfl, rfl,
                rfl, rfl, hk, ⟨o, hsh⟩⟩, ha, rfl, hfp, hu, rfl, rfl, rfl⟩

/-- An elementary exchange. -/
theorem elementaryFlow_ok {env : Env FP} {s s' : St FP} {x : Exch} (h : elementaryFlow env s x = .ok s') :
    (rowOf env x = none ∧ s' = { s with reported := s.reported ++ [x] }) ∨
    ∃ f dir group fp o r, Numbered env s s' x f dir group ∧ rowOf env x = some r ∧
      elemAmount env x r = .ok (o, f.amount) ∧ f.target = r.target ∧
      f.ftype = flowType none dir group ∧ env.fp x = .ok fp ∧ env.elemVersion r.target = .ok f.version ∧
      s'.versions = aset x.fid [(0, fp)] s.versions ∧ s'.files = s.files := by
  unfold elementaryFlow at h
  split at h
  · rename_i hr
    split at h
    · simp at h
    · simp only [Except.ok.injEq] at h
      exact .inl ⟨hr, h.symm⟩
  · rename_i r hr
    right
    split at h
    · simp at h
    · rename_i o amt ha
      split at h
      · simp at h
      · rename_i dir group hd
        split at h
        · simp at h
        · rename_i s1 hn
          obtain ⟨hc, rfl, hk⟩ := number_ok hn
          split at h
          · simp at h
          · rename_i sh hsh
            split at h
            · simp at h
            · rename_i fp hfp
              split at h
              · simp at h
              · rename_i v hv
                simp only [Except.ok.injEq] at h
                subst h
                exact ⟨_, dir, group, fp, o, r, ⟨rfl, rfl, hd, rfl, hc, rfl, rfl, rfl, rfl, rfl, rfl, rfl, rfl,
                  rfl, rfl, hk, ⟨o, hsh⟩⟩, hr, ha, rfl, rfl, hfp, hv, rfl, rfl⟩

theorem convertible_iff {env : Env FP} {x : Exch} :
    Convertible env.mapping x ↔ x.isElem = false ∨ (rowOf env x).isSome = true := by
  unfold Convertible
  rw [Option.isSome_iff_exists]
  simp only [rowOf_some]

/-- Every step. -/
theorem step_ok [DecidableEq FP] {env : Env FP} {s s' : St FP} {x : Exch} (h : step env s x = .ok s') :
    (¬ Convertible env.mapping x ∧ s' = { s with reported := s.reported ++ [x] }) ∨
    (Convertible env.mapping x ∧ ∃ f dir group, Numbered env s s' x f dir group) := by
  unfold step at h
  split at h
  · rename_i he
    rcases elementaryFlow_ok h with ⟨hr, hs⟩ | ⟨f, dir, group, fp, o, r, hn, hr, -⟩
    · exact .inl ⟨by rw [convertible_iff]; simp [he, hr], hs⟩
    · exact .inr ⟨by rw [convertible_iff]; simp [hr], f, dir, group, hn⟩
  · rename_i he
    obtain ⟨f, dir, group, fp, o, hn, -⟩ := intermediate_ok h
    exact .inr ⟨.inl (by simpa using he), f, dir, group, hn⟩

theorem run_cons [DecidableEq FP] {env : Env FP} {x : Exch} {l : List Exch} {s s' : St FP}
    (h : run env (x :: l) s = .ok s') : ∃ s1, step env s x = .ok s1 ∧ run env l s1 = .ok s' := by
  unfold run at h
  split at h
  · simp at h
  · rename_i s1 h1; exact ⟨s1, h1, h⟩

theorem run_append [DecidableEq FP] (env : Env FP) (l m : List Exch) (s : St FP) :
    run env (l ++ m) s = match run env l s with
      | .error e => .error e
      | .ok s1 => run env m s1 := by
  induction l generalizing s with
  | nil => rfl
  | cons x l ih =>
    simp only [List.cons_append, run]
    cases step env s x with
    | error e => rfl
    | ok s1 => exact ih s1

/-- An invariant of the steps holds at the end, by what was read so far. -/
theorem run_induction [DecidableEq FP] {env : Env FP} {P : List Exch → St FP → Prop} {xs : List Exch} {s0 : St FP}
    (h0 : P [] s0)
    (hs : ∀ l x s s', l ++ [x] <+: xs → P l s → step env s x = .ok s' → P (l ++ [x]) s')
    {s : St FP} (h : run env xs s0 = .ok s) : P xs s := by
  suffices H : ∀ l m s1, l ++ m = xs → P l s1 → run env m s1 = .ok s → P xs s from H [] xs s0 rfl h0 h
  intro l m
  induction m generalizing l with
  | nil =>
    intro s1 e hp hr
    simp only [run, Except.ok.injEq] at hr
    simp only [List.append_nil] at e
    rw [← e, ← hr]; exact hp
  | cons x m ih =>
    intro s1 e hp hr
    obtain ⟨s2, h2, h3⟩ := run_cons hr
    have e' : (l ++ [x]) ++ m = xs := by simp [← e]
    exact ih (l ++ [x]) s2 e' (hs l x s1 s2 ⟨m, e'⟩ hp h2) h3

/-! ### The dictionaries of versions -/

/-- A dictionary of versions is in order: its numbers are distinct, and so are its properties. -/
structure VersionsOk (d : List (Nat × FP)) : Prop where
  keys : (d.map Prod.fst).Nodup
  vals : (d.map Prod.snd).Nodup

theorem le_maxKey (d : List (Nat × FP)) : ∀ p ∈ d, p.1 ≤ maxKey d := by
  have H : ∀ (d : List (Nat × FP)) (m : Nat), m ≤ d.foldl (fun m p => max m p.1) m ∧
      ∀ p ∈ d, p.1 ≤ d.foldl (fun m p => max m p.1) m := by
    intro d
    induction d with
    | nil => intro m; simp
    | cons q d ih =>
      intro m
      obtain ⟨h1, h2⟩ := ih (max m q.1)
      refine ⟨le_trans (le_max_left _ _) h1, ?_⟩
      intro p hp
      rcases List.mem_cons.1 hp with rfl | hp
      · exact le_trans (le_max_right _ _) h1
      · exact h2 p hp
  exact (H d 0).2

theorem maxKey_fresh (d : List (Nat × FP)) : maxKey d + 1 ∉ d.map Prod.fst := by
  intro h
  obtain ⟨p, hp, e⟩ := List.mem_map.1 h
  have := le_maxKey d p hp
  omega

/-- What choosing a version does. -/
theorem chooseVersion_spec [DecidableEq FP] (fp : FP) (o : Option (List (Nat × FP))) (ho : ∀ d, o = some d → VersionsOk d) :
    VersionsOk (chooseVersion fp o).2.1 ∧ ((chooseVersion fp o).1, fp) ∈ (chooseVersion fp o).2.1 ∧
    (∀ p ∈ o.getD [], p ∈ (chooseVersion fp o).2.1) ∧
    (∀ p ∈ (chooseVersion fp o).2.1, p ∈ o.getD [] ∨
      ((chooseVersion fp o).2.2 = true ∧ p = ((chooseVersion fp o).1, fp))) ∧
    ((chooseVersion fp o).2.2 = true → (chooseVersion fp o).1 ∉ (o.getD []).map Prod.fst) := by
  cases o with
  | none => exact ⟨⟨by simp [chooseVersion], by simp [chooseVersion]⟩, by simp [chooseVersion], by simp,
      by simp [chooseVersion], by simp⟩
  | some d =>
    have hd := ho d rfl
    simp only [chooseVersion, Option.getD_some]
    cases hf : d.find? (fun p => decide (p.2 = fp)) with
    | some p =>
      have hm := List.mem_of_find?_eq_some hf
      have he : p.2 = fp := by simpa using List.find?_some hf
      refine ⟨hd, ?_, fun q h => h, fun q h => .inl h, by simp⟩
      rw [← he]; exact hm
    | none =>
      have hno : fp ∉ d.map Prod.snd := by
        intro h
        obtain ⟨p, hp, e⟩ := List.mem_map.1 h
        have := List.find?_eq_none.1 hf p hp
        simp [e] at this
      rw [aset_of_notMem _ (maxKey_fresh d)]
      refine ⟨⟨?_, ?_⟩, by simp, fun q h => by simp [h], ?_, fun _ => maxKey_fresh d⟩
      · rw [List.map_append, List.nodup_append]
        refine ⟨hd.keys, by simp, ?_⟩
        intro a ha b hb
        simp only [List.map_singleton, List.mem_singleton] at hb
        subst hb
        rintro rfl
        exact maxKey_fresh d ha
      · rw [List.map_append, List.nodup_append]
        refine ⟨hd.vals, by simp, ?_⟩
        intro a ha b hb
        simp only [List.map_singleton, List.mem_singleton] at hb
        subst hb
        rintro rfl
        exact hno ha
      · intro q hq
        rcases List.mem_append.1 hq with h | h
        · exact .inl h
        · exact .inr ⟨rfl, by simpa using h⟩

end Verif.EcsFlows
