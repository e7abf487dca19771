/-
A field is there after some operations only if one of them touches it.
-/
import Mathlib.Data.List.Dedup
import Verif.Lemmas.AssignSample
import Verif.Lemmas.Fill
import Verif.Spec.Never

namespace Verif.DotDict

variable {K V R O : Type}

/-- The field an operation assigns. -/
def Op.field : Op V R → Option Key
  | .set _ k _ => normKey k
  | .read _ => none

/-- An operation that works on a field, on a group around it or on one within it. -/
def Touches (op : Op V R) (w : List Key) : Prop :=
  w <+: op.path ∨ ∃ x, op.field = some x ∧ op.path ++ [x] <+: w

theorem present_cons (n : Node V) (k : Key) (w : List Key) : present n (k :: w) =
    match lookup k n.items with
    | none => false
    | some v => w.isEmpty || match v with
      | .nodes (m :: _) => present m w
      | _ => false := by
  cases w with
  | nil => rw [present]; cases lookup k n.items <;> simp
  | cons q w =>
    rw [present]
    cases lookup k n.items with
    | none => rfl
    | some v =>
      cases v with
      | leaf => rfl
      | nodes l => cases l <;> rfl

theorem present_congr {n n' : Node V} {k : Key} {w : List Key} (h : lookup k n'.items = lookup k n.items) :
    present n' (k :: w) = present n (k :: w) := by
  rw [present_cons, present_cons, h]

theorem getItem_cases {S : Schema K} {n : Node V} {k : Key} :
    (∃ e, getItem S n k = (n, .error e)) ∨
      (∃ m l, getItem S n k = (n, .ok m) ∧ lookup k n.items = some (.nodes (m :: l))) ∨
      ∃ c, getItem S n k = (.mk n.cls (dictSet k (.nodes [.mk c []]) n.items), .ok (.mk c [])) := by
  unfold getItem
  split
  · exact .inl ⟨_, rfl⟩
  · split
    · exact .inl ⟨_, rfl⟩
    · rename_i l hl
      split
      · cases l with
        | nil => exact .inl ⟨_, rfl⟩
        | cons m l => exact .inr (.inl ⟨m, l, rfl, hl⟩)
      · exact .inl ⟨_, rfl⟩
    · exact .inl ⟨_, rfl⟩
    · split
      · exact .inr (.inr ⟨_, rfl⟩)
      · exact .inl ⟨_, rfl⟩

theorem modifyAt_present (S : Schema K) (f : Node V → Node V × Option PyErr) (X : List Key → Prop)
    (hf : ∀ m w, present (f m).1 w = true → present m w = true ∨ X w) :
    ∀ (q : List Key) (n : Node V) (w : List Key), present (modifyAt S f q n).1 w = true →
      present n w = true ∨ w <+: q ∨ ∃ w', w = q ++ w' ∧ X w' := by
  intro q
  induction q with
  | nil =>
    intro n w h
    rcases hf n w h with h | h
    · exact .inl h
    · exact .inr (.inr ⟨w, rfl, h⟩)
  | cons x q ih =>
    intro n w h
    cases w with
    | nil => exact .inl rfl
    | cons y w =>
      rw [modifyAt] at h
      rcases getItem_cases (S := S) (n := n) (k := x) with ⟨e, hg⟩ | ⟨m, l, hg, hl⟩ | ⟨c, hg⟩
      · rw [hg] at h; exact .inl h
      · rw [hg] at h
        simp only [setFirst, hl] at h
        by_cases hy : y = x
        · subst hy
          rw [present_cons] at h
          simp only [Node.items, lookup_dictSet_self, Bool.or_eq_true] at h
          rcases h with h | h
          · cases w with
            | nil => exact .inr (.inl ⟨q, rfl⟩)
            | cons => cases h
          · rcases ih m w h with h | h | ⟨w', h, hx⟩
            · left; rw [present_cons, hl]; simp [h]
            · exact .inr (.inl (List.cons_prefix_cons.2 ⟨rfl, h⟩))
            · exact .inr (.inr ⟨w', by rw [h]; rfl, hx⟩)
        · left
          rw [present_congr (n := n)] at h
          · exact h
          · exact lookup_dictSet_ne hy _ _
      · rw [hg] at h
        simp only [setFirst, Node.items, lookup_dictSet_self] at h
        by_cases hy : y = x
        · subst hy
          rw [present_cons] at h
          simp only [Node.items, lookup_dictSet_self, Bool.or_eq_true] at h
          rcases h with h | h
          · cases w with
            | nil => exact .inr (.inl ⟨q, rfl⟩)
            | cons => cases h
          · rcases ih _ w h with h | h | ⟨w', h, hx⟩
            · cases w with
              | nil => exact .inr (.inl ⟨q, rfl⟩)
              | cons z w => rw [present_cons] at h; simp [Node.items, lookup] at h
            · exact .inr (.inl (List.cons_prefix_cons.2 ⟨rfl, h⟩))
            · exact .inr (.inr ⟨w', by rw [h]; rfl, hx⟩)
        · left
          rw [present_congr (n := n)] at h
          · exact h
          · simp only [Node.items]
            rw [lookup_dictSet_ne hy, lookup_dictSet_ne hy]

theorem setItem_present (S : Schema K) (vs : Validators K V R O) (asRaw : Arg V R → R) (key : Key)
    (v : List (Arg V R)) (m : Node V) (w : List Key) (h : present (setItem S vs asRaw m key v).1 w = true) :
    present m w = true ∨ ∃ x, normKey key = some x ∧ [x] <+: w := by
  unfold setItem at h
  split at h
  · exact .inl h
  · rename_i x hx
    split at h
    · exact .inl h
    · cases w with
      | nil => exact .inl rfl
      | cons y w =>
        by_cases hy : y = x
        · subst hy; exact .inr ⟨y, hx, ⟨w, rfl⟩⟩
        · left; rw [present_congr (n := m)] at h
          · exact h
          · exact setLoop_ne S vs asRaw hy _ v m

theorem step_present (S : Schema K) (vs : Validators K V R O) (asRaw : Arg V R → R) (n : Node V) (op : Op V R)
    (w : List Key) (h : present (step S vs asRaw n op).1 w = true) : present n w = true ∨ Touches op w := by
  cases op with
  | read q =>
    rcases modifyAt_present S _ (fun _ => False) (fun m w h => .inl h) q n w h with h | h | ⟨_, _, h⟩
    · exact .inl h
    · exact .inr (.inl h)
    · cases h
  | set q k v =>
    rcases modifyAt_present S _ _ (fun m w h => setItem_present S vs asRaw k v m w h) q n w h with h | h | ⟨w', h, x, hx, t, ht⟩
    · exact .inl h
    · exact .inr (.inl h)
    · refine .inr (.inr ⟨x, hx, t, ?_⟩)
      rw [h, ← ht]; simp [Op.path]

theorem exec_present (S : Schema K) (vs : Validators K V R O) (asRaw : Arg V R → R) :
    ∀ (ops : List (Op V R)) (n n' : Node V) (w : List Key), exec S vs asRaw ops n = .ok n' →
      present n' w = true → present n w = true ∨ ∃ op ∈ ops, Touches op w := by
  intro ops
  induction ops with
  | nil => intro n n' w h hp; cases h; exact .inl hp
  | cons op ops ih =>
    intro n n' w h hp
    rw [exec] at h
    split at h
    · rename_i n1 hs
      rcases ih n1 n' w h hp with h1 | ⟨o, ho, ht⟩
      · rcases step_present S vs asRaw n op w (by rw [hs]; exact h1) with h2 | h2
        · exact .inl h2
        · exact .inr ⟨op, by simp, h2⟩
      · exact .inr ⟨o, by simp [ho], ht⟩
    · cases h

end Verif.DotDict

namespace Verif.Assign

open Verif.DotDict Verif.Schema Verif.Mapping

variable {V R O : Type}

/-- No row works on one of the fields, on a field around it or within it. -/
def Conv.neverB (t : Conv) (l : List (List Key × List Key)) : Bool :=
  l.all fun e => e.2.all fun k => t.all.all fun r => !(e.1 ++ [k]).isPrefixOf r.path &&
    match r.target with
    | none => true
    | some (q, x) => !(q ++ [x]).isPrefixOf (e.1 ++ [k]) && decide (normKey x = some x)

theorem never_of {t : Conv} {l : List (List Key × List Key)} (hl : t.neverB l = true) (vs : Validators Str V R O)
    (asRaw : Arg V R → R) (first last : Ev V R) (es : List (Ev V R)) (n : Node V)
    (h : exec t.schema vs asRaw (t.ops first last es) (.mk t.root []) = .ok n) {p : List Key} {k : Key}
    (hk : Listed l p k) : present n (p ++ [k]) = false := by
  obtain ⟨e, he, rfl, hke⟩ := hk
  rw [Conv.neverB, List.all_eq_true] at hl
  have hl := hl e he
  rw [List.all_eq_true] at hl
  have hl := hl k hke
  rw [List.all_eq_true] at hl
  by_contra hp
  rw [Bool.not_eq_false] at hp
  rcases exec_present t.schema vs asRaw _ _ n _ h hp with h1 | ⟨op, hop, ht⟩
  · cases hq : e.1 ++ [k] with
    | nil => simp at hq
    | cons y w => rw [hq, present_cons] at h1; simp [Node.items, lookup] at h1
  · obtain ⟨r, hr, ev, hre⟩ := mem_ops_all hop
    have hr := hl r hr
    rw [Bool.and_eq_true, Bool.not_eq_true', ← Bool.not_eq_true, List.isPrefixOf_iff_prefix] at hr
    rcases ht with ht | ⟨x, hx, ht⟩
    · exact hr.1 (by rw [← (mem_rowOps hre).1]; exact ht)
    · cases op with
      | read q => cases hx
      | set q key v =>
        obtain ⟨c, m, rfl, _, _⟩ := set_mem_rowOps.1 hre
        have h2 := hr.2
        simp only [Row.target, Bool.and_eq_true, decide_eq_true_eq, Bool.not_eq_true'] at h2
        rw [← Bool.not_eq_true, List.isPrefixOf_iff_prefix] at h2
        have : x = key := by
          have h3 : normKey key = some x := hx
          rw [h2.2] at h3; exact (Option.some.inj h3).symm
        subst this
        exact h2.1 ht

/-- The elements that could give a field, each with the condition under which it does. -/
def Conv.givers (t : Conv) (p : List Key) (k : Key) : List (MKey × List Str) :=
  let good (r : Row) : Bool := (p ++ [k]).isPrefixOf r.path || decide (r.target = some (p, k))
  let cond : Row → List Str
    | .read _ => []
    | .set c _ _ _ => c.toList
  (t.table.flatMap fun kr => (kr.2.filter good).map fun r => (kr.1, cond r)) ++
    ((t.start ++ t.first ++ t.last).filter good).map fun r => (([], none), cond r)

/-- A file with a single element that gives the field. -/
def Conv.fillsB (t : Conv) (p : List Key) (k : Key) : Bool :=
  (t.givers p k).any fun g =>
    let e := sampleEv t g.1 g.2
    match exec t.schema vsU rawU (t.ops e e [e]) (.mk t.root []) with
    | .ok n => present n (p ++ [k])
    | .error _ => false

/-- Every field of every group is in the list or filled by some file. -/
def Conv.restB (t : Conv) (l : List (List Key × List Key)) : Bool :=
  t.groups.dedup.all fun p =>
    match classAt t.schema t.root p with
    | none => true
    | some c => (t.schema c).all fun kf => decide (Listed l p kf.1) || t.fillsB p kf.1

theorem rest_of {t : Conv} {l : List (List Key × List Key)} (hl : t.restB l = true) {p : List Key} (hp : p ∈ t.groups)
    {c : Cls} (hc : classAt t.schema t.root p = some c) {kf : Key × Field Str} (hk : kf ∈ t.schema c) :
    Listed l p kf.1 ∨ ∃ e : Ev Unit Unit, ∃ n, exec t.schema vsU rawU (t.ops e e [e]) (.mk t.root []) = .ok n ∧
      present n (p ++ [kf.1]) = true := by
  rw [Conv.restB, List.all_eq_true] at hl
  have hl := hl p (List.mem_dedup.2 hp)
  rw [hc] at hl
  rw [List.all_eq_true] at hl
  have hl := hl kf hk
  rw [Bool.or_eq_true, decide_eq_true_eq] at hl
  rcases hl with hl | hl
  · exact .inl hl
  · right
    rw [Conv.fillsB, List.any_eq_true] at hl
    obtain ⟨g, _, hl⟩ := hl
    refine ⟨sampleEv t g.1 g.2, ?_⟩
    simp only at hl
    split at hl
    · rename_i n hn; exact ⟨n, hn, hl⟩
    · cases hl

end Verif.Assign
