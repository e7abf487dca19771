/-
Lemmas about the parameters of converted data sets.
-/
import Verif.Spec.ListSession

namespace Verif.ListSession
open Verif.IlcdList

variable {K : Type}

theorem refused_none_iff (w : World K) (l : List (Var K)) : refused w l = none ↔ Spec.Taken w l := by
  induction l with
  | nil => simp [refused, Spec.Taken]
  | cons v l ih =>
    rw [refused]
    cases h : w.var v with
    | some e => simp [Spec.Taken, h]
    | none => simp only [ih]; simp [Spec.Taken, h]

variable [Field K]

theorem exchanges_ok_iff (w : World K) (s : St K) (l : List (Exch K)) (vs : List (Var K))
    (ys : List (Exch K × Option Report)) (f : List (Str × Str)) :
    exchanges w s l = (vs, .ok (ys, f)) ↔ ∃ s', Spec.Converted w s l ys s' ∧ s'.vars = vs ∧ s'.saved = f := by
  induction l generalizing s vs ys f with
  | nil =>
    rw [exchanges]
    constructor
    · intro h
      simp only [Prod.mk.injEq, Except.ok.injEq] at h
      obtain ⟨rfl, rfl, rfl⟩ := h
      exact ⟨s, .nil s, rfl, rfl⟩
    · rintro ⟨s', h, rfl, rfl⟩
      cases h
      rfl
  | cons x l ih =>
    rw [exchanges]
    constructor
    · intro h
      split at h
      · cases h
      · rename_i y s1 r hc
        split at h
        · cases h
        · rename_i hx
          split at h
          · cases h
          · rename_i vs' ys' f' hr
            simp only [Prod.mk.injEq, Except.ok.injEq] at h
            obtain ⟨rfl, rfl, rfl⟩ := h
            obtain ⟨s', h1, h2⟩ := (ih s1 _ _ _).1 hr
            exact ⟨s', .cons hc hx h1, h2⟩
    · rintro ⟨s', h, h2⟩
      cases h with
      | cons hc hx h1 =>
        rw [hc]
        simp only [hx, (ih _ _ _ _).2 ⟨s', h1, h2⟩]

theorem exchanges_fails (w : World K) {s s' : St K} {a : List (Exch K)} {ys : List (Exch K × Option Report)}
    (h : Spec.Converted w s a ys s') {x : Exch K} {vs : List (Var K)} {e : PyErr} (hx : Spec.Fails w s' x vs e)
    (b : List (Exch K)) : exchanges w s (a ++ x :: b) = (vs, .error e) := by
  induction h with
  | nil s =>
    rw [List.nil_append, exchanges]
    cases hx with
    | convert hc => rw [hc]
    | taken hc hy => rw [hc]; simp only [hy]
  | cons hc hy _ ih =>
    rw [List.cons_append, exchanges, hc]
    simp only [hy, ih hx]

theorem exchanges_cases (w : World K) (s : St K) (l : List (Exch K)) :
    (∃ ys s', Spec.Converted w s l ys s') ∨
      ∃ a x b ys s' vs e, l = a ++ x :: b ∧ Spec.Converted w s a ys s' ∧ Spec.Fails w s' x vs e := by
  induction l generalizing s with
  | nil => exact .inl ⟨[], s, .nil s⟩
  | cons x l ih =>
    cases hc : IlcdList.convert w.env s x with
    | error e => exact .inr ⟨[], x, l, [], s, _, e, rfl, .nil s, .convert hc⟩
    | ok z =>
      obtain ⟨y, s1, r⟩ := z
      cases hy : w.exchange y with
      | some e => exact .inr ⟨[], x, l, [], s, _, e, rfl, .nil s, .taken hc hy⟩
      | none =>
        rcases ih s1 with ⟨ys, s', h⟩ | ⟨a, x', b, ys, s', vs, e, rfl, h, hf⟩
        · exact .inl ⟨_, s', .cons hc hy h⟩
        · exact .inr ⟨x :: a, x', b, _, s', vs, e, rfl, .cons hc hy h, hf⟩

theorem bind_ok {α β : Type} {x : Py α} {f : α → Py β} {b : β} : (x >>= f) = .ok b ↔ ∃ a, x = .ok a ∧ f a = .ok b := by
  cases x <;> simp [bind, Except.bind]

theorem saveOriginal_with (env : Env K) (dir kind name : Str) (s : St K) (vs : List (Var K)) :
    saveOriginal env dir kind name { s with vars := vs } =
      (saveOriginal env dir kind name s).map fun s' => { s' with vars := vs } := by
  unfold saveOriginal
  split <;> rfl

theorem saveUnit_with (env : Env K) (n : Row) (s : St K) (vs : List (Var K)) :
    saveUnit env n { s with vars := vs } = (saveUnit env n s).map fun s' => { s' with vars := vs } := by
  unfold saveUnit
  split
  · rfl
  · rename_i info _
    simp only [saveOriginal_with]
    cases h : saveOriginal env c!"flowproperties" c!"flow property" (info.1 ++ c!".xml") s with
    | error e => rfl
    | ok s1 => simp [bind, Except.bind, Except.map, saveOriginal_with]

theorem redirect_with (env : Env K) (info : Str × Str × Str) (uri : Str) (s : St K) (vs : List (Var K)) :
    redirect env info uri { s with vars := vs } = (redirect env info uri s).map fun s' => { s' with vars := vs } := by
  unfold redirect
  simp only
  split
  · split <;> rfl
  · rfl

/-- The result of an exchange with other variables. -/
def withVars (vs : List (Var K)) (p : Exch K × St K × Option Report) : Exch K × St K × Option Report :=
  (p.1, { p.2.1 with vars := vs }, p.2.2)

theorem scaled_with (env : Env K) (s : St K) (x : Exch K) (unit nunit : Str) (a f : K) (vs : List (Var K)) (h : x.var = none) :
    scaled env { s with vars := vs } x unit nunit a f =
      (scaled env s x unit nunit a f).map fun p => (p.1, { p.2 with vars := vs }) := by
  have h1 : ∀ x' : Exch K, scaleAttr nunit (a * f) { x with resulting := some (.num (a * f)) } = .ok x' → x'.var = none := by
    intro x' hx
    unfold scaleAttr at hx
    split at hx
    · split at hx
      · cases hx
      · cases hx; exact h
    · cases hx; exact h
  have h2 : ∀ x' x'' : Exch K, x'.var = none → scaleUnc env.flt (a * f) f x' = .ok x'' → x''.var = none := by
    intro x' x'' hx hu
    unfold scaleUnc at hu
    split at hu
    · obtain ⟨u, -, hu⟩ := bind_ok.1 hu
      cases hu; exact hx
    · cases hu; exact hx
  unfold scaled
  simp only
  cases ha : scaleAttr nunit (a * f) { x with resulting := some (.num (a * f)) } with
  | error e => rfl
  | ok x' =>
    simp only [bind, Except.bind]
    cases hu : scaleUnc env.flt (a * f) f x' with
    | error e => rfl
    | ok x'' =>
      have := h2 _ _ (h1 _ ha) hu
      simp [scaleVar, this, Except.map]

theorem kept_with (s : St K) (x : Exch K) (a : K) (vs : List (Var K)) (h : x.var = none) :
    kept { s with vars := vs } x a = (kept s x a).map fun p => (p.1, { p.2 with vars := vs }) := by
  simp [kept, h, Except.map]

theorem convert_with (env : Env K) (s : St K) (x : Exch K) (vs : List (Var K)) (h : x.var = none) :
    IlcdList.convert env { s with vars := vs } x = (IlcdList.convert env s x).map (withVars vs) := by
  unfold IlcdList.convert
  simp only
  cases hu : getUri s.arch c!"flows/" x.ref with
  | error e => rfl
  | ok uri =>
    simp only [bind, Except.bind]
    cases hg : getUnit env.flt s.arch uri x.unitId with
    | error e => rfl
    | ok u =>
      simp only
      cases ha : amountOf env.flt x u with
      | error e => rfl
      | ok p =>
        obtain ⟨amount, unit, mainUnit⟩ := p
        simp only
        cases ht : aget x.ref.id env.table with
        | some n =>
          simp only
          split
          · rfl
          · unfold matched
            simp only [saveOriginal_with]
            cases h1 : saveOriginal env c!"flows" c!"elementary flow" (n.target ++ c!".xml") s with
            | error e => rfl
            | ok s1 =>
              simp only [bind, Except.bind, Except.map]
              cases h2 : retarget n x with
              | error e => rfl
              | ok x' =>
                have hx : x'.var = none := by
                  unfold retarget at h2
                  split at h2
                  · cases h2
                  · cases h2; exact h
                  · cases h2
                simp only
                cases h3 : rowFactor env.flt n with
                | error e => rfl
                | ok cf =>
                  simp only [saveUnit_with]
                  cases h4 : saveUnit env n s1 with
                  | error e => rfl
                  | ok s2 =>
                    simp only [Except.map]
                    unfold byUnit
                    split
                    · rw [kept_with _ _ _ _ hx]
                      cases kept s2 x' amount <;> rfl
                    · split
                      · rw [scaled_with _ _ _ _ _ _ _ _ hx]
                        cases scaled env s2 x' unit n.targetUnit amount cf <;> rfl
                      · split
                        · rename_i v _
                          rw [scaled_with _ _ _ _ _ _ _ _ hx]
                          cases scaled env s2 x' unit n.targetUnit amount (cf * v) <;> rfl
                        · simp only
                          cases getUri s2.arch c!"flows/" x.ref <;> rfl
        | none =>
          simp only
          unfold unmapped
          rw [kept_with _ _ _ _ h]
          cases hk : kept s x amount with
          | error e => rfl
          | ok p =>
            simp only [Except.map, bind, Except.bind]
            cases aget (lookupUnit mainUnit) Units.olcaUnitToFp with
            | none => rfl
            | some info =>
              simp only [saveOriginal_with]
              cases h1 : saveOriginal env c!"flowproperties" c!"flow property" (info.1 ++ c!".xml") p.2 with
              | error e => rfl
              | ok s1 =>
                simp only [Except.map, saveOriginal_with]
                cases h2 : saveOriginal env c!"unitgroups" c!"unit group" (info.2.1 ++ c!".xml") s1 with
                | error e => rfl
                | ok s2 =>
                  simp only [Except.map]
                  cases getUri s2.arch c!"flows/" x.ref with
                  | error e => rfl
                  | ok uri' =>
                    simp only [redirect_with]
                    cases redirect env info uri' s2 <;> rfl

/-- An exchange without a variable leaves the parameters as they are. -/
theorem convert_vars (env : Env K) (s : St K) (x : Exch K) (h : x.var = none) (y : Exch K) (s' : St K) (r : Option Report)
    (hc : IlcdList.convert env s x = .ok (y, s', r)) : s'.vars = s.vars := by
  have h1 : IlcdList.convert env s x = (IlcdList.convert env s x).map (withVars s.vars) := convert_with env s x s.vars h
  rw [hc] at h1
  simp only [Except.map, withVars, Except.ok.injEq, Prod.mk.injEq] at h1
  rw [h1.2.1]

/-- Exchanges without variables do not look at the parameters. -/
theorem exchanges_blind (w : World K) (l : List (Exch K)) (h : ∀ x ∈ l, x.var = none) (s : St K) (vs : List (Var K)) :
    (exchanges w { s with vars := vs } l).2 = (exchanges w s l).2 ∧
    ∀ o, (exchanges w s l).2 = .ok o → (exchanges w s l).1 = s.vars := by
  induction l generalizing s with
  | nil => exact ⟨rfl, fun _ _ => rfl⟩
  | cons x l ih =>
    have hx := h x (by simp)
    have ih := ih fun y hy => h y (by simp [hy])
    have h1 := convert_with w.env s x vs hx
    constructor
    · simp only [exchanges]
      rw [h1]
      cases hc : IlcdList.convert w.env s x with
      | error e => rfl
      | ok p =>
        obtain ⟨y, s1, r⟩ := p
        simp only [Except.map, withVars]
        cases w.exchange y with
        | some e => rfl
        | none =>
          simp only
          have h2 := (ih s1).1
          rcases h3 : exchanges w { s1 with vars := vs } l with ⟨v1, r1⟩
          rcases h4 : exchanges w s1 l with ⟨v2, r2⟩
          rw [h3, h4] at h2
          simp only at h2
          subst h2
          cases r1 <;> rfl
    · intro o ho
      simp only [exchanges] at ho ⊢
      cases hc : IlcdList.convert w.env s x with
      | error e => rw [hc] at ho; cases ho
      | ok p =>
        obtain ⟨y, s1, r⟩ := p
        have hv := convert_vars w.env s x hx y s1 r hc
        rw [hc] at ho
        simp only at ho ⊢
        cases hw : w.exchange y with
        | some e => rw [hw] at ho; cases ho
        | none =>
          rw [hw] at ho
          simp only at ho ⊢
          have h2 := (ih s1).2
          rcases h4 : exchanges w s1 l with ⟨v2, r2⟩
          rw [h4] at h2 ho
          cases r2 with
          | error e => cases ho
          | ok p => exact (h2 p rfl).trans hv

end Verif.ListSession
