/-
Properties of ILCD data sets converted one after the other: C191 (the parameters of a data set are its own) and C192 (the
error that is reported).
-/
import Verif.Lemmas.ListSession
import Verif.Props.Driver
import Verif.Props.IlcdList

namespace Verif.ListSession
open Verif.IlcdList

variable {K : Type} [Field K]

/-! ### C191 -/

/-- With an element for the relations, nothing of earlier data sets matters. -/
theorem own_parameters (w : World K) (rel rel' : List (Var K)) (d : DataSet K) (hs : d.start = none) (he : d.early = none)
    (hp : d.params ≠ none) : dataSet w rel d = dataSet w rel' d := by
  cases h : d.params with
  | none => exact absurd h hp
  | some l => simp only [dataSet, hs, he, h, Option.getD_some]

/-- After a data set that was written the list is empty. -/
theorem written_empties (w : World K) (rel : List (Var K)) (d : DataSet K) (o : Written K)
    (h : (dataSet w rel d).2 = .ok o) : (dataSet w rel d).1 = [] := by
  revert h
  unfold dataSet
  split
  · intro h; cases h
  · split
    · intro h; cases h
    · simp only
      split
      · intro h; cases h
      · split
        · intro h; cases h
        · split
          · intro h; cases h
          · intro _; rfl

/-- After a call that succeeded on an empty list it is empty again. -/
theorem call_empties (w : World K) (m : Bool) (l : List (DataSet K)) (os : List (Written K))
    (h : (call w m [] l).2 = .ok os) : (call w m [] l).1 = [] := by
  induction l generalizing m os with
  | nil => rfl
  | cons d l ih =>
    unfold call at h ⊢
    have h0 := written_empties w [] d
    rcases hd : dataSet w [] d with ⟨r, _ | o⟩
    · rw [hd] at h; cases h
    · rw [hd] at h h0
      have : r = [] := h0 o rfl
      subst this
      simp only at h ⊢
      have ih := ih true
      rcases hc : call w true [] l with ⟨r2, _ | os'⟩
      · rw [hc] at h; cases h
      · rw [hc] at ih
        exact ih os' rfl

/-- As long as every call has succeeded, a call gives what it gives in a program of its own. -/
theorem alone_partial (w : World K) (cs : List (List (DataSet K))) (c : List (DataSet K))
    (h : ∀ r ∈ session w [] cs, ∃ os, r = .ok os) :
    session w [] (cs ++ [c]) = session w [] cs ++ [(call w false [] c).2] := by
  induction cs with
  | nil => rfl
  | cons a cs ih =>
    simp only [session, List.mem_cons, forall_eq_or_imp] at h
    obtain ⟨⟨os, ho⟩, h⟩ := h
    have h1 := call_empties w false a os ho
    rw [h1] at h
    simp only [List.cons_append, session, h1, ih h]

/-- An error after the relations leaves the parameters of the data set behind. -/
theorem failure_leaves (w : World K) (rel : List (Var K)) (d : DataSet K) (hs : d.start = none) (he : d.early = none)
    (e : PyErr) (hl : d.late = some e) (ps : List (Var K)) (hp : d.params = some ps) :
    dataSet w rel d = (ps, .error (true, e)) := by
  simp only [dataSet, hs, he, hl, hp, Option.getD_some]

/-- Parameters that the structure does not take are left behind too. -/
theorem refused_leaves (w : World K) (rel : List (Var K)) (d : DataSet K) (hq : Spec.Quiet d) (hx : d.exchanges = [])
    (hn : ¬ Spec.Taken w (d.params.getD rel)) :
    ∃ e, dataSet w rel d = (d.params.getD rel, .error (true, e)) := by
  obtain ⟨h1, h2, h3⟩ := hq
  rw [← refused_none_iff] at hn
  cases hr : refused w (d.params.getD rel) with
  | none => exact absurd hr hn
  | some e => exact ⟨e, by simp only [dataSet, h1, h2, h3, hx, exchanges, hr]⟩

/-- Exactly what is written of a data set: its exchanges converted in their order, the parameters and the files that they
leave. -/
theorem written_iff (w : World K) (rel : List (Var K)) (d : DataSet K) (o : Written K) :
    (dataSet w rel d).2 = .ok o ↔ Spec.Quiet d ∧ ∃ s, Spec.Converted w ⟨d.params.getD rel, d.arch, []⟩ d.exchanges o.exchanges s ∧
      s.vars = o.params ∧ s.saved = o.saved ∧ Spec.Taken w s.vars := by
  unfold dataSet
  cases h1 : d.start with
  | some e => simp [Spec.Quiet, h1]
  | none =>
    cases h2 : d.early with
    | some e => simp [Spec.Quiet, h2]
    | none =>
      cases h3 : d.late with
      | some e => simp [Spec.Quiet, h3]
      | none =>
        simp only
        have hq : Spec.Quiet d := ⟨h1, h2, h3⟩
        rcases hx : exchanges w ⟨d.params.getD rel, d.arch, []⟩ d.exchanges with ⟨vs, e | ⟨ys, f⟩⟩
        · simp only
          constructor
          · intro h; cases h
          · rintro ⟨_, s, hs, hv, hf, _⟩
            have := (exchanges_ok_iff w _ _ s.vars o.exchanges s.saved).2 ⟨s, hs, rfl, rfl⟩
            rw [hx] at this
            cases this
        · simp only
          obtain ⟨s, hs, rfl, rfl⟩ := (exchanges_ok_iff w _ _ _ _ _).1 hx
          cases hr : refused w s.vars with
          | some e =>
            simp only
            constructor
            · intro h; cases h
            · rintro ⟨_, s', hs', _, _, ht⟩
              have := (exchanges_ok_iff w _ _ s'.vars o.exchanges s'.saved).2 ⟨s', hs', rfl, rfl⟩
              rw [hx] at this
              simp only [Prod.mk.injEq] at this
              rw [← this.1, ← refused_none_iff, hr] at ht
              cases ht
          | none =>
            simp only [Except.ok.injEq]
            constructor
            · rintro rfl
              exact ⟨hq, s, hs, rfl, rfl, (refused_none_iff w _).1 hr⟩
            · rintro ⟨_, s', hs', hv, hf, _⟩
              have := (exchanges_ok_iff w _ _ s'.vars o.exchanges s'.saved).2 ⟨s', hs', rfl, rfl⟩
              rw [hx] at this
              simp only [Prod.mk.injEq, Except.ok.injEq] at this
              obtain ⟨e1, e2, e3⟩ := this
              cases o
              simp_all

/-- An exchange that fails stops the data set and leaves the parameters as they are at that place. -/
theorem exchange_leaves (w : World K) (rel : List (Var K)) (d : DataSet K) (hq : Spec.Quiet d) {a b : List (Exch K)} {x : Exch K}
    (hd : d.exchanges = a ++ x :: b) {ys : List (Exch K × Option Report)} {s : St K}
    (ha : Spec.Converted w ⟨d.params.getD rel, d.arch, []⟩ a ys s) {vs : List (Var K)} {e : PyErr} (hx : Spec.Fails w s x vs e) :
    dataSet w rel d = (vs, .error (true, e)) := by
  obtain ⟨h1, h2, h3⟩ := hq
  simp only [dataSet, h1, h2, h3, hd, exchanges_fails w ha hx b]

/-- A data set without an element for the relations is written with what is left of an earlier one. -/
theorem left_written (w : World K) (rel : List (Var K)) (d : DataSet K) (hp : d.params = none) (hv : Spec.NoVariables d)
    (o : Written K) (h : (dataSet w [] d).2 = .ok o) :
    o.params = [] ∧ (Spec.Taken w rel → (dataSet w rel d).2 = .ok { o with params := rel }) ∧
      (¬ Spec.Taken w rel → ∃ e, dataSet w rel d = (rel, .error (true, e))) := by
  unfold dataSet at h ⊢
  cases h1 : d.start with
  | some e => rw [h1] at h; cases h
  | none =>
    cases h2 : d.early with
    | some e => rw [h1, h2] at h; cases h
    | none =>
      cases h3 : d.late with
      | some e => rw [h1, h2, h3] at h; cases h
      | none =>
        rw [h1, h2, h3] at h
        simp only [hp, Option.getD_none] at h ⊢
        have hb := exchanges_blind w d.exchanges hv ⟨[], d.arch, []⟩ rel
        have hb' := exchanges_blind w d.exchanges hv ⟨rel, d.arch, []⟩ rel
        rcases h4 : exchanges w ⟨[], d.arch, []⟩ d.exchanges with ⟨vs, r⟩
        rcases h5 : exchanges w ⟨rel, d.arch, []⟩ d.exchanges with ⟨vs', r'⟩
        rw [h4] at hb h
        simp only [h5] at hb hb'
        obtain ⟨hb1, hb2⟩ := hb
        subst hb1
        cases r' with
        | error e => cases h
        | ok p =>
          obtain ⟨ys, f⟩ := p
          have e1 : vs = [] := hb2 _ rfl
          have e2 : vs' = rel := hb'.2 _ rfl
          subst e1 e2
          simp only [refused] at h ⊢
          cases h
          refine ⟨rfl, fun ht => ?_, fun hn => ?_⟩
          · rw [(refused_none_iff w vs').2 ht]
          · rw [← refused_none_iff] at hn
            cases hr : refused w vs' with
            | none => exact absurd hr hn
            | some e => exact ⟨e, rfl⟩

/-- So for data sets without variables of their own the result is the one of a program of its own exactly if nothing is
left. -/
theorem alone_iff (w : World K) (rel : List (Var K)) (d : DataSet K) (hp : d.params = none) (hv : Spec.NoVariables d)
    (o : Written K) (h : (dataSet w [] d).2 = .ok o) : (dataSet w rel d).2 = .ok o ↔ rel = [] := by
  obtain ⟨h1, h2, h3⟩ := left_written w rel d hp hv o h
  constructor
  · intro hr
    by_cases ht : Spec.Taken w rel
    · have := h2 ht
      rw [hr, Except.ok.injEq] at this
      rw [← h1, this]
    · obtain ⟨e, he⟩ := h3 ht
      rw [he] at hr
      cases hr
  · rintro rfl
    exact h

/-- A parameter that is refused stops all later calls, if their data sets have no relations. -/
theorem refused_forever (w : World K) (rel : List (Var K)) (hn : ¬ Spec.Taken w rel) (cs : List (List (DataSet K)))
    (h : ∀ c ∈ cs, ∃ d l o, c = d :: l ∧ d.params = none ∧ Spec.NoVariables d ∧ (dataSet w [] d).2 = .ok o) :
    ∀ r ∈ session w rel cs, r = .error .attributeError := by
  induction cs with
  | nil => simp [session]
  | cons c cs ih =>
    obtain ⟨d, l, o, rfl, hp, hv, ho⟩ := h c (by simp)
    obtain ⟨e, he⟩ := (left_written w rel d hp hv o ho).2.2 hn
    have hc : call w false rel (d :: l) = (rel, .error .attributeError) := by
      rw [call, he]
      rfl
    intro r hr
    simp only [session, hc, List.mem_cons] at hr
    rcases hr with rfl | hr
    · rfl
    · exact ih (fun c hc => h c (by simp [hc])) r hr

/-- The first data set has a parameter and then an error, the second is empty. -/
def world : World ℚ := ⟨Ex.env [], fun _ => none, fun v => if v.name = [] then some .valueError else none, fun s _ => s.vars⟩
def failing (n : Str) : DataSet ℚ := ⟨none, none, some [⟨n, none, none, ⟨none, none, none, none⟩⟩], some .keyError, fun _ => none, []⟩
def nothing : DataSet ℚ := ⟨none, none, none, none, fun _ => none, []⟩

/-- The parameter of a data set that failed is written with another one. -/
theorem stranger_written : session world [] [[failing c!"p"], [nothing]] =
    [.error .attributeError, .ok [⟨[], [⟨c!"p", none, none, ⟨none, none, none, none⟩⟩], []⟩]] := rfl

/-- A data set with an exchange that is not in the table. -/
def single : DataSet ℚ := ⟨none, none, some [⟨c!"p", none, none, ⟨none, none, none, none⟩⟩], none, Ex.arch, [Ex.exch Ex.noUnc none]⟩

/-- It is written with its exchange and its parameter. -/
example : ∃ o, (dataSet world [] single).2 = .ok o ∧ o.exchanges.length = 1 ∧ o.params.length = 1 := ⟨_, rfl, rfl, rfl⟩

/-- The same if the structure does not take the exchange: the parameter is left. -/
example : dataSet { world with exchange := fun _ => some .valueError } [] single =
    ([⟨c!"p", none, none, ⟨none, none, none, none⟩⟩], .error (true, .valueError)) := by
  obtain ⟨⟨y, s, r⟩, h, hv⟩ : ∃ z, IlcdList.convert (Ex.env []) ⟨single.params.getD [], Ex.arch, []⟩ (Ex.exch Ex.noUnc none) = .ok z ∧
      z.2.1.vars = [⟨c!"p", none, none, ⟨none, none, none, none⟩⟩] := ⟨_, rfl, rfl⟩
  rw [← hv]
  exact exchange_leaves _ _ _ ⟨rfl, rfl, rfl⟩ (a := []) (b := []) rfl (.nil _) (.taken h rfl)

example : session world [] [[nothing], [nothing]] = [.ok [⟨[], [], []⟩]] ++ [(call world false [] [nothing]).2] :=
  alone_partial world [[nothing]] [nothing] (by intro r hr; exact ⟨[⟨[], [], []⟩], (List.mem_singleton.1 hr : r = (call world false [] [nothing]).2)⟩)

example : ∀ r ∈ session world (failing []).params.get! [[nothing], [nothing]], r = .error .attributeError :=
  refused_forever world _ (by
    intro h
    have := h ⟨[], none, none, ⟨none, none, none, none⟩⟩ (by simp [failing])
    simp [world] at this) _ (by
    intro c hc
    have : c = [nothing] := by simpa using hc
    exact ⟨nothing, [], ⟨[], [], []⟩, this, rfl, by simp [Spec.NoVariables, nothing], rfl⟩)

/-! ### C192 -/

/-- Whatever goes wrong once there is a mapping, the same error is reported. -/
theorem error_hidden (w : World K) (m : Bool) (rel : List (Var K)) (l : List (DataSet K)) (e : PyErr)
    (h : (call w m rel l).2 = .error e) :
    e = .attributeError ∨ m = false ∧ ∃ d l', l = d :: l' ∧ d.start = some e := by
  induction l generalizing m rel with
  | nil => cases h
  | cons d l ih =>
    unfold call at h
    rcases hd : dataSet w rel d with ⟨r, ⟨b, e'⟩ | o⟩
    · rw [hd] at h
      simp only [Except.error.injEq] at h
      cases m with
      | true => rw [Bool.or_true] at h; exact .inl h.symm
      | false =>
        cases b with
        | true => exact .inl h.symm
        | false =>
          have h : e' = e := h
          subst h
          refine .inr ⟨rfl, d, l, rfl, ?_⟩
          unfold dataSet at hd
          cases hs : d.start with
          | some e => rw [hs] at hd; cases hd; rfl
          | none =>
            exfalso
            rw [hs] at hd
            simp only at hd
            split at hd
            · cases hd
            · split at hd
              · cases hd
              · split at hd
                · cases hd
                · split at hd <;> cases hd
    · rw [hd] at h
      simp only at h
      rcases hc : call w true r l with ⟨r2, e2 | os⟩
      · rw [hc] at h
        cases h
        rcases ih true r (by rw [hc]) with h | ⟨h, -⟩
        · exact .inl h
        · cases h
      · rw [hc] at h; cases h

/-- The error at the start is reported as it is. -/
theorem start_reported (w : World K) (rel : List (Var K)) (d : DataSet K) (l : List (DataSet K)) (e : PyErr)
    (hs : d.start = some e) : call w false rel (d :: l) = (rel, .error e) := by
  simp [call, dataSet, hs, reported]

/-- So an error is reported as what it was exactly if it was one of the start, or of this kind. -/
theorem reported_iff (w : World K) (rel : List (Var K)) (d : DataSet K) (l : List (DataSet K)) (b : Bool) (e : PyErr)
    (h : (dataSet w rel d).2 = .error (b, e)) :
    (call w false rel (d :: l)).2 = .error e ↔ b = false ∨ e = .attributeError := by
  rcases hd : dataSet w rel d with ⟨r, x⟩
  rw [hd] at h
  simp only at h
  subst h
  rw [call, hd]
  cases b with
  | false => simp [reported]
  | true => simp [reported, eq_comm]

example : (call world false [] [failing c!"p"]).2 ≠ .error .keyError := by
  rw [ne_eq, reported_iff world [] (failing c!"p") [] true .keyError rfl]
  decide

end Verif.ListSession

namespace Verif.Driver

variable {F V I P M S O : Type} [DecidableEq V]

/-- With a mapping that cannot be deleted, an error is reported as the one of the deletion, and the mapping stays. -/
theorem no_delete_hides {ops : Ops F V I P M S O} (hi : ops.inputCleanup = none) (x : PyErr) (hd : ∀ m, ops.delete m = some x)
    (toFile : Bool) (s s' : St V I P M S O) (files : List (F × Bool)) (e : PyErr)
    (h : convert ops toFile s files = (s', .error e)) : e = x ∨ s'.mapping = none := by
  have gen : ∀ (files : List (F × Bool)) (s : St V I P M S O) (names : List Str),
      loop ops toFile s files names = (s', .error e) → e = x ∨ s'.mapping = none := by
    intro files
    induction files with
    | nil => intro s names h; cases h
    | cons f files ih =>
      intro s names h
      obtain ⟨f, last⟩ := f
      unfold loop at h
      split at h
      · exact ih _ _ h
      · rename_i s1 e1 _
        simp only [handleError, hi] at h
        cases hm : s1.mapping with
        | none =>
          rw [hm] at h
          simp only [Prod.mk.injEq] at h
          exact .inr (by rw [← h.1])
        | some m =>
          rw [hm] at h
          simp only [hd, Prod.mk.injEq, Except.error.injEq] at h
          exact .inl h.2.symm
  exact gen files s [] h

/-- The small instance without a deletion: the file that cannot be converted is reported with another error. -/
example : (convert { toy .ilcd with delete := fun _ => some .osError } true toyNew [({ toyFile c!"y" with bad := true }, true)]).2 =
    .error .osError ∧
    (convert (toy .ilcd) true toyNew [({ toyFile c!"y" with bad := true }, true)]).2 ≠ .error .osError := by decide

end Verif.Driver
