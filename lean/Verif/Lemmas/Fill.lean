/-
The shape of a data set filled by a list of operations.
-/
import Verif.Model.Fill
import Verif.Spec.Fill
import Verif.Lemmas.DotDict
import Mathlib.Data.List.Nodup
import Mathlib.Tactic.ByContra
import Mathlib.Tactic.Tauto

namespace Verif.DotDict

variable {K V R O : Type}

/-- The operations that go through a field. -/
def Heads (ops : List (Op V R)) (k : Key) : Prop := ∃ op ∈ ops, op.path.head? = some k

/-- An operation seen from the group under `k`. -/
def Op.below (k : Key) : Op V R → Option (Op V R)
  | .set (k' :: p) key v => if k' = k then some (.set p key v) else none
  | .read (k' :: p) => if k' = k then some (.read p) else none
  | _ => none

/-- The operations seen from the group under `k`. -/
def below (k : Key) (ops : List (Op V R)) : List (Op V R) := ops.filterMap (Op.below k)

theorem mem_below_set {k : Key} {ops : List (Op V R)} {p : List Key} {key : Key} {v : List (Arg V R)} :
    Op.set p key v ∈ below k ops ↔ Op.set (k :: p) key v ∈ ops := by
  rw [below, List.mem_filterMap]
  constructor
  · rintro ⟨op, hop, h⟩
    cases op with
    | set q key' v' =>
      cases q with
      | nil => cases h
      | cons k' q =>
        simp only [Op.below] at h
        split at h
        · rename_i e; cases h; subst e; exact hop
        · cases h
    | read q =>
      cases q with
      | nil => cases h
      | cons k' q =>
        simp only [Op.below] at h
        split at h
        · cases h
        · cases h
  · intro h
    exact ⟨_, h, by simp [Op.below]⟩

theorem mem_below_read {k : Key} {ops : List (Op V R)} {p : List Key} :
    Op.read p ∈ below k ops ↔ Op.read (k :: p) ∈ ops := by
  rw [below, List.mem_filterMap]
  constructor
  · rintro ⟨op, hop, h⟩
    cases op with
    | set q key' v' =>
      cases q with
      | nil => cases h
      | cons k' q =>
        simp only [Op.below] at h
        split at h
        · cases h
        · cases h
    | read q =>
      cases q with
      | nil => cases h
      | cons k' q =>
        simp only [Op.below] at h
        split at h
        · rename_i e; cases h; subst e; exact hop
        · cases h
  · intro h
    exact ⟨_, h, by simp [Op.below]⟩

theorem assigned_below {k : Key} {ops : List (Op V R)} {p : List Key} {key : Key} :
    Assigned (below k ops) p key ↔ Assigned ops (k :: p) key := by
  simp [Assigned, mem_below_set]

theorem exists_below {k : Key} {ops : List (Op V R)} {P : List Key → Prop} :
    (∃ op ∈ below k ops, P op.path) ↔ ∃ op ∈ ops, ∃ p, op.path = k :: p ∧ P p := by
  constructor
  · rintro ⟨op, hop, h⟩
    cases op with
    | set p key v => exact ⟨_, mem_below_set.1 hop, p, rfl, h⟩
    | read p => exact ⟨_, mem_below_read.1 hop, p, rfl, h⟩
  · rintro ⟨op, hop, p, hp, h⟩
    cases op with
    | set q key v =>
      simp only [Op.path] at hp; subst hp
      exact ⟨.set p key v, mem_below_set.2 hop, h⟩
    | read q =>
      simp only [Op.path] at hp; subst hp
      exact ⟨.read p, mem_below_read.2 hop, h⟩

theorem heads_iff {ops : List (Op V R)} {k : Key} :
    Heads ops k ↔ ∃ op ∈ ops, [k] <+: op.path := by
  constructor
  · rintro ⟨op, hop, h⟩
    refine ⟨op, hop, ?_⟩
    cases hp : op.path with
    | nil => rw [hp] at h; cases h
    | cons k' p => rw [hp] at h; cases h; simp
  · rintro ⟨op, hop, t, h⟩
    exact ⟨op, hop, by rw [← h]; rfl⟩

theorem heads_iff_reached {ops : List (Op V R)} {k : Key} : Heads ops k ↔ Reached ops [k] := by
  rw [heads_iff, Reached]; simp

theorem reached_below {k : Key} {ops : List (Op V R)} (hk : Heads ops k) {p : List Key} :
    Reached (below k ops) p ↔ Reached ops (k :: p) := by
  rw [Reached, Reached]
  have : (∃ op ∈ below k ops, p <+: op.path) ↔ ∃ op ∈ ops, k :: p <+: op.path := by
    rw [exists_below (P := fun q => p <+: q)]
    constructor
    · rintro ⟨op, hop, q, hq, h⟩; exact ⟨op, hop, by rw [hq]; simpa using h⟩
    · rintro ⟨op, hop, t, h⟩
      exact ⟨op, hop, p ++ t, by rw [← h]; simp, by simp⟩
  rw [this]
  simp only [reduceCtorEq, false_or]
  constructor
  · rintro (rfl | h)
    · exact heads_iff.1 hk
    · exact h
  · exact Or.inr

theorem heads_of_reached {k : Key} {ops : List (Op V R)} {p : List Key} (h : Reached ops (k :: p)) :
    Heads ops k := by
  rcases h with h | ⟨op, hop, t, h⟩
  · cases h
  · exact ⟨op, hop, by rw [← h]; rfl⟩

theorem given_below {k : Key} {ops : List (Op V R)} (hk : Heads ops k) {p : List Key} {key : Key} :
    Given (below k ops) p key ↔ Given ops (k :: p) key := by
  rw [Given, Given, assigned_below, reached_below hk]; rfl

theorem noClash_below {k : Key} {ops : List (Op V R)} (h : NoClash ops) : NoClash (below k ops) := by
  intro p key v hm op hop hp
  have := (exists_below (k := k) (ops := ops) (P := fun q => p ++ [key] <+: q)).1 ⟨op, hop, hp⟩
  obtain ⟨op', hop', q, hq, hpq⟩ := this
  exact h (k :: p) key v (mem_below_set.1 hm) op' hop' (by rw [hq]; simpa using hpq)

theorem below_append (k : Key) (a b : List (Op V R)) : below k (a ++ b) = below k a ++ below k b := by
  simp [below]

theorem heads_append {a b : List (Op V R)} {k : Key} : Heads (a ++ b) k ↔ Heads a k ∨ Heads b k := by
  simp only [Heads, List.mem_append]
  constructor
  · rintro ⟨op, h | h, hp⟩
    · exact .inl ⟨op, h, hp⟩
    · exact .inr ⟨op, h, hp⟩
  · rintro (⟨op, h, hp⟩ | ⟨op, h, hp⟩)
    · exact ⟨op, .inl h, hp⟩
    · exact ⟨op, .inr h, hp⟩

theorem heads_single {op : Op V R} {k : Key} : Heads [op] k ↔ op.path.head? = some k := by
  simp [Heads]

theorem assigned_append {a b : List (Op V R)} {p : List Key} {k : Key} :
    Assigned (a ++ b) p k ↔ Assigned a p k ∨ Assigned b p k := by
  simp only [Assigned, List.mem_append]
  constructor
  · rintro ⟨v, h | h, hv⟩
    · exact .inl ⟨v, h, hv⟩
    · exact .inr ⟨v, h, hv⟩
  · rintro (⟨v, h, hv⟩ | ⟨v, h, hv⟩)
    · exact ⟨v, .inl h, hv⟩
    · exact ⟨v, .inr h, hv⟩

/-! ### The shape -/

/-- A stored value that came with an assignment. -/
def ValOk (S : Schema K) (vs : Validators K V R O) (v : Val V) : Prop :=
  v.truthy = true ∧ ∀ l, v = .nodes l → ∀ m ∈ l, Complete S vs m

/-- One level of the shape. -/
structure Level (S : Schema K) (vs : Validators K V R O) (c : Cls) (n : Node V)
    (ops : List (Op V R)) : Prop where
  cls : n.cls = c
  keys : ∀ k, (lookup k n.items).isSome ↔ Assigned ops [] k ∨ Heads ops k
  vals : ∀ k v, ¬ Heads ops k → lookup k n.items = some v → ValOk S vs v

/-- The data set after the operations: the given fields are there and the groups have the shape the
operations on them give. -/
def Shape (S : Schema K) (vs : Validators K V R O) : Nat → Cls → Node V → List (Op V R) → Prop
  | 0, c, n, ops => Level S vs c n ops ∧ ∀ k, ¬ Heads ops k
  | d + 1, c, n, ops => Level S vs c n ops ∧ ∀ k, Heads ops k → ∃ f c' m,
      lookup k (S c) = some f ∧ f.type = .sub c' ∧ f.unique = true ∧
      lookup k n.items = some (.nodes [m]) ∧ Shape S vs d c' m (below k ops)

theorem Shape.level {S : Schema K} {vs : Validators K V R O} {d : Nat} {c : Cls} {n : Node V}
    {ops : List (Op V R)} (h : Shape S vs d c n ops) : Level S vs c n ops := by
  cases d with
  | zero => exact h.1
  | succ d => exact h.1

theorem shape_nil (S : Schema K) (vs : Validators K V R O) (d : Nat) (c : Cls) :
    Shape S vs d c (.mk c []) ([] : List (Op V R)) := by
  have hl : Level S vs c (.mk c []) ([] : List (Op V R)) := by
    refine ⟨rfl, ?_, ?_⟩
    · intro k; simp [Node.items, lookup, Assigned, Heads]
    · intro k v _ h; simp [Node.items, lookup] at h
  cases d with
  | zero => exact ⟨hl, by simp [Heads]⟩
  | succ d => exact ⟨hl, by simp [Heads]⟩

/-- A group without operations, made for the first time. -/
theorem shape_depth {S : Schema K} {vs : Validators K V R O} :
    ∀ {d : Nat} {c : Cls} {n : Node V} {ops : List (Op V R)}, Shape S vs d c n ops → n.cls = c :=
  fun h => h.level.cls

/-! ### Assigning in the group itself -/

theorem setLoop_result (S : Schema K) (vs : Validators K V R O) (asRaw : Arg V R → R) {key : Key}
    {f : Field K} : ∀ (as : List (Arg V R)) (n n' : Node V),
    setLoop S vs asRaw key f as n = (n', none) →
    (∀ a ∈ as, ∀ c, f.type = .sub c → ∀ m, construct S vs asRaw c a = .ok m → Complete S vs m) →
    (∀ v, lookup key n.items = some v → ValOk S vs v) →
    (∀ v, lookup key n'.items = some v → ValOk S vs v) ∧
      ((lookup key n'.items).isSome ↔ (lookup key n.items).isSome ∨ as ≠ [])
  | [], n, n', h, hg, hv => by rw [setLoop] at h; cases h; exact ⟨hv, by simp⟩
  | a :: as, n, n', h, hg, hv => by
    rw [setLoop] at h
    split at h
    · cases h
    · have hnext : ∀ n1 v1, lookup key n1.items = some v1 → ValOk S vs v1 →
          setLoop S vs asRaw key f as n1 = (n', none) →
          (∀ v, lookup key n'.items = some v → ValOk S vs v) ∧
            ((lookup key n'.items).isSome ↔ (lookup key n.items).isSome ∨ a :: as ≠ []) := by
        intro n1 v1 h1 hv1 hs
        obtain ⟨h2, h3⟩ := setLoop_result S vs asRaw as n1 n' hs
          (fun b hb => hg b (List.mem_cons_of_mem _ hb))
          (fun v hv' => by rw [h1] at hv'; cases hv'; exact hv1)
        exact ⟨h2, by rw [h3, h1]; simp⟩
      split at h
      · rename_i kind ht
        split at h
        · rename_i n1 h1
          unfold addLeaf at h1
          simp only at h1
          split at h1
          · rename_i s hs
            cases h1
            refine hnext _ (.leaf s) (lookup_dictSet_self ..) ⟨rfl, nofun⟩ h
          · cases h1
        · cases h
      · rename_i c ht
        split at h
        · rename_i child hc
          have hch := hg a (by simp) c ht child hc
          unfold addNode at h
          simp only at h
          refine hnext _ _ (lookup_dictSet_self ..) ?_ h
          refine ⟨by simp [Val.truthy], ?_⟩
          intro l hl m hm
          cases hl
          rw [List.mem_append, List.mem_singleton] at hm
          rcases hm with hm | rfl
          · cases hlk : lookup key n.items with
            | none => rw [hlk] at hm; simp at hm
            | some v =>
              rw [hlk] at hm
              cases v with
              | leaf s => simp at hm
              | nodes l => exact (hv _ hlk).2 l rfl m hm
          · exact hch
        · cases h

/-! ### One operation -/

theorem set_heads {p : List Key} {k q : Key} {v : List (Arg V R)} :
    Heads [Op.set p k v] q ↔ p.head? = some q := heads_single

theorem assigned_single {p q : List Key} {k x : Key} {v : List (Arg V R)} :
    Assigned [Op.set p k v] q x ↔ p = q ∧ k = x ∧ v ≠ [] := by
  simp only [Assigned, List.mem_singleton, Op.set.injEq]
  constructor
  · rintro ⟨w, ⟨rfl, rfl, rfl⟩, h⟩; exact ⟨rfl, rfl, h⟩
  · rintro ⟨rfl, rfl, h⟩; exact ⟨v, ⟨rfl, rfl, rfl⟩, h⟩

theorem not_assigned_read {p q : List Key} {x : Key} :
    ¬ Assigned [(Op.read p : Op V R)] q x := by
  simp [Assigned]

/-- What one operation at a deeper group does to the group under `k`. -/
theorem step_cons (S : Schema K) (vs : Validators K V R O) (asRaw : Arg V R → R) (n : Node V)
    (op op' : Op V R) (k : Key) (hb : Op.below k op = some op') :
    step S vs asRaw n op =
      match getItem S n k with
      | (n', .error e) => (n', some e)
      | (n', .ok m) => (setFirst n' k (step S vs asRaw m op').1, (step S vs asRaw m op').2) := by
  cases op with
  | set p key v =>
    cases p with
    | nil => cases hb
    | cons k' p =>
      simp only [Op.below] at hb
      split at hb
      · rename_i e; subst e; cases hb
        simp only [step, modifyAt]
        rfl
      · cases hb
  | read p =>
    cases p with
    | nil => cases hb
    | cons k' p =>
      simp only [Op.below] at hb
      split at hb
      · rename_i e; subst e; cases hb
        simp only [step, modifyAt]
        rfl
      · cases hb

/-- The key of an assignment has no prefix sign. -/
def PlainKey : Op V R → Prop
  | .set _ k _ => normKey k = some k
  | .read _ => True

theorem below_eq {op : Op V R} {k : Key} {p : List Key} (h : op.path = k :: p) :
    ∃ op', Op.below k op = some op' ∧ op'.path = p := by
  cases op with
  | set q key v => simp only [Op.path] at h; subst h; exact ⟨.set p key v, by simp [Op.below], rfl⟩
  | read q => simp only [Op.path] at h; subst h; exact ⟨.read p, by simp [Op.below], rfl⟩

theorem below_ne {op : Op V R} {k q : Key} {p : List Key} (h : op.path = k :: p) (hq : q ≠ k) :
    Op.below q op = none := by
  cases op with
  | set _ key v => simp only [Op.path] at h; subst h; simp [Op.below, Ne.symm hq]
  | read _ => simp only [Op.path] at h; subst h; simp [Op.below, Ne.symm hq]

theorem below_here {op : Op V R} {q : Key} (h : op.path = []) : Op.below q op = none := by
  cases op with
  | set _ key v => simp only [Op.path] at h; subst h; rfl
  | read _ => simp only [Op.path] at h; subst h; rfl

theorem below_good {S : Schema K} {vs : Validators K V R O} {asRaw : Arg V R → R} {op op' : Op V R}
    {k : Key} {c c' : Cls} {f : Field K} (hf : lookup k (S c) = some f) (ht : f.type = .sub c')
    (hu : f.unique = true) (hb : Op.below k op = some op') (h : GoodValues S vs asRaw c op) :
    GoodValues S vs asRaw c' op' := by
  cases op with
  | set p key v =>
    cases p with
    | nil => cases hb
    | cons k' p =>
      simp only [Op.below] at hb
      split at hb
      · rename_i e
        cases hb
        subst e
        intro d g x hd
        refine h d g x ?_
        rw [classAt, hf]
        simp only [ht, hu, if_true]
        exact hd
      · cases hb
  | read p =>
    cases p with
    | nil => cases hb
    | cons k' p =>
      simp only [Op.below] at hb
      split at hb
      · cases hb; exact h
      · cases hb

theorem below_plain {op op' : Op V R} {k : Key} (hb : Op.below k op = some op') (h : PlainKey op) :
    PlainKey op' := by
  cases op with
  | set p key v =>
    cases p with
    | nil => cases hb
    | cons k' p =>
      simp only [Op.below] at hb
      split at hb
      · cases hb; exact h
      · cases hb
  | read p =>
    cases p with
    | nil => cases hb
    | cons k' p =>
      simp only [Op.below] at hb
      split at hb
      · cases hb; exact h
      · cases hb

/-- Operations on the data set itself. -/
theorem level_here (S : Schema K) (vs : Validators K V R O) (asRaw : Arg V R → R) (c : Cls)
    (n n' : Node V) (ops : List (Op V R)) (op : Op V R)
    (hl : Level S vs c n ops) (hp : op.path = []) (hn : NoClash (ops ++ [op]))
    (hg : GoodValues S vs asRaw c op) (hk : PlainKey op) (hs : step S vs asRaw n op = (n', none)) :
    Level S vs c n' (ops ++ [op]) ∧ ∀ k, Heads ops k → lookup k n'.items = lookup k n.items := by
  cases op with
  | read p =>
    simp only [Op.path] at hp; subst hp
    simp only [step, modifyAt, Prod.mk.injEq, and_true] at hs
    subst hs
    refine ⟨⟨hl.cls, ?_, ?_⟩, fun k _ => rfl⟩
    · intro k
      rw [hl.keys, assigned_append, heads_append, heads_single]
      simp [not_assigned_read, Op.path]
    · intro k v hk
      exact hl.vals k v (fun h => hk (heads_append.2 (.inl h)))
  | set p key v =>
    simp only [Op.path] at hp; subst hp
    simp only [PlainKey] at hk
    simp only [step, modifyAt, setItem, hk] at hs
    split at hs
    · cases hs
    · rename_i f hf
      have hcls : n'.cls = n.cls := by
        have h := setLoop_cls S vs asRaw key f v n
        rw [hs] at h; exact h
      have hother : ∀ q, q ≠ key → lookup q n'.items = lookup q n.items := by
        intro q hq
        have h := setLoop_ne S vs asRaw hq f v n
        rw [hs] at h; exact h
      have hnh : ¬ Heads ops key := by
        intro h
        obtain ⟨op, hop, h⟩ := heads_iff.1 h
        exact hn [] key v (by simp) op (by simp [hop]) h
      obtain ⟨h1, h2⟩ := setLoop_result S vs asRaw v n n' hs
        (fun a ha d hd m hm => hg c f d rfl (by rw [← hl.cls]; exact hf) hd a ha m hm)
        (fun w hw => hl.vals key w hnh hw)
      refine ⟨⟨by rw [hcls, hl.cls], ?_, ?_⟩, ?_⟩
      · intro k
        rw [assigned_append, heads_append, assigned_single, set_heads]
        by_cases e : k = key
        · subst e
          rw [h2, hl.keys]
          simp only [List.head?_nil, reduceCtorEq, or_false, true_and]
          tauto
        · rw [hother k e, hl.keys]
          simp only [List.head?_nil, reduceCtorEq, or_false, true_and, Ne.symm e, false_and]
      · intro k w hw hlk
        by_cases e : k = key
        · subst e; exact h1 w hlk
        · rw [hother k e] at hlk
          exact hl.vals k w (fun h => hw (heads_append.2 (.inl h))) hlk
      · intro k h
        refine hother k ?_
        rintro rfl
        exact hnh h

theorem shape_step (S : Schema K) (vs : Validators K V R O) (asRaw : Arg V R → R) :
    ∀ (d : Nat) (c : Cls) (n n' : Node V) (ops : List (Op V R)) (op : Op V R),
      Shape S vs d c n ops → op.path.length ≤ d → NoClash (ops ++ [op]) →
      GoodValues S vs asRaw c op → PlainKey op → step S vs asRaw n op = (n', none) →
      Shape S vs d c n' (ops ++ [op])
  | 0, c, n, n', ops, op, h, hd, hn, hg, hk, hs => by
    have hp : op.path = [] := by simpa using hd
    obtain ⟨h1, h2⟩ := level_here S vs asRaw c n n' ops op h.1 hp hn hg hk hs
    refine ⟨h1, fun k hk => ?_⟩
    rw [heads_append, heads_single, hp] at hk
    rcases hk with hk | hk
    · exact h.2 k hk
    · cases hk
  | d + 1, c, n, n', ops, op, h, hd, hn, hg, hk, hs => by
    cases hp : op.path with
    | nil =>
      obtain ⟨h1, h2⟩ := level_here S vs asRaw c n n' ops op h.1 hp hn hg hk hs
      refine ⟨h1, fun k hk => ?_⟩
      rw [heads_append, heads_single, hp] at hk
      rcases hk with hk | hk
      · obtain ⟨f, c', m, hf, ht, hu, hm, hsh⟩ := h.2 k hk
        refine ⟨f, c', m, hf, ht, hu, by rw [h2 k hk, hm], ?_⟩
        have : below k (ops ++ [op]) = below k ops := by
          rw [below_append]; simp [below, below_here hp]
        rw [this]; exact hsh
      · cases hk
    | cons k p =>
      obtain ⟨op', hb, hp'⟩ := below_eq hp
      rw [step_cons S vs asRaw n op op' k hb] at hs
      have hbk : below k (ops ++ [op]) = below k ops ++ [op'] := by
        rw [below_append]; simp [below, hb]
      have hbq : ∀ q, q ≠ k → below q (ops ++ [op]) = below q ops := by
        intro q hq; rw [below_append]; simp [below, below_ne hp hq]
      have hheads : ∀ q, Heads (ops ++ [op]) q ↔ Heads ops q ∨ q = k := by
        intro q
        rw [heads_append, heads_single, hp]
        simp [eq_comm]
      have hassn : ∀ q, Assigned (ops ++ [op]) [] q ↔ Assigned ops [] q := by
        intro q
        rw [assigned_append]
        constructor
        · rintro (h | ⟨v, h, _⟩)
          · exact h
          · rw [List.mem_singleton] at h
            rw [← h] at hp
            cases hp
        · exact .inl
      have hnb : NoClash (below k ops ++ [op']) := by rw [← hbk]; exact noClash_below hn
      -- the group is there, or made now
      have hget : ∃ n1 m f c', getItem S n k = (n1, .ok m) ∧ lookup k (S c) = some f ∧
          f.type = .sub c' ∧ f.unique = true ∧ n1.cls = c ∧
          lookup k n1.items = some (.nodes [m]) ∧ (∀ q, q ≠ k → lookup q n1.items = lookup q n.items) ∧
          Shape S vs d c' m (below k ops) := by
        by_cases hh : Heads ops k
        · obtain ⟨f, c', m, hf, ht, hu, hm, hsh⟩ := h.2 k hh
          refine ⟨n, m, f, c', ?_, hf, ht, hu, h.1.cls, hm, fun _ _ => rfl, hsh⟩
          rw [getItem, h.1.cls, hf]
          simp only [hm, hu, if_true]
        · have hna : ¬ Assigned ops [] k := by
            rintro ⟨v, hv, _⟩
            exact hn [] k v (by simp [hv]) op (by simp) (by rw [hp]; simp)
          have hnone : lookup k n.items = none := by
            rw [← Option.not_isSome_iff_eq_none, h.1.keys]
            tauto
          cases hg : getItem S n k with
          | mk n1 r =>
            cases r with
            | error e => rw [hg] at hs; cases hs
            | ok m =>
              have hg' := hg
              rw [getItem, h.1.cls, hnone] at hg
              cases hf : lookup k (S c) with
              | none => rw [hf] at hg; cases hg
              | some f =>
                rw [hf] at hg
                cases ht : f.type with
                | leaf kind => simp only [ht] at hg; cases hg
                | sub c' =>
                  simp only [ht] at hg
                  split at hg
                  · rename_i hu
                    cases hg
                    refine ⟨_, _, f, c', rfl, rfl, ht, hu, rfl, lookup_dictSet_self .., ?_, ?_⟩
                    · intro q hq; exact lookup_dictSet_ne hq ..
                    · have : below k ops = [] := by
                        rw [below, List.filterMap_eq_nil_iff]
                        intro o ho
                        by_contra hne
                        obtain ⟨o', ho'⟩ := Option.ne_none_iff_exists'.1 hne
                        apply hh
                        refine ⟨o, ho, ?_⟩
                        cases ho'' : o.path with
                        | nil => rw [below_here ho''] at ho'; cases ho'
                        | cons q t =>
                          by_cases e : k = q
                          · rw [e]; rfl
                          · rw [below_ne ho'' e] at ho'; cases ho'
                      rw [this]
                      exact shape_nil S vs d c'
                  · cases hg
      obtain ⟨n1, m, f, c', hgi, hf, ht, hu, hcls, hm, hother, hsh⟩ := hget
      rw [hgi] at hs
      simp only [Prod.mk.injEq] at hs
      obtain ⟨hs1, hs2⟩ := hs
      have hstep : step S vs asRaw m op' = ((step S vs asRaw m op').1, none) := by
        rw [← hs2]
      have hrec := shape_step S vs asRaw d c' m _ (below k ops) op' hsh
        (by rw [hp']; rw [hp] at hd; simpa using hd) hnb (below_good hf ht hu hb hg) (below_plain hb hk) hstep
      have hset : setFirst n1 k (step S vs asRaw m op').1 =
          .mk n1.cls (dictSet k (.nodes [(step S vs asRaw m op').1]) n1.items) := by
        rw [setFirst, hm]
      rw [hset] at hs1
      subst hs1
      have hlk : ∀ q, q ≠ k → lookup q (Node.mk n1.cls
          (dictSet k (.nodes [(step S vs asRaw m op').1]) n1.items)).items = lookup q n.items := by
        intro q hq
        rw [← hother q hq]
        exact lookup_dictSet_ne hq ..
      have hself : lookup k (Node.mk n1.cls
          (dictSet k (.nodes [(step S vs asRaw m op').1]) n1.items)).items =
          some (.nodes [(step S vs asRaw m op').1]) := lookup_dictSet_self ..
      refine ⟨⟨hcls, ?_, ?_⟩, ?_⟩
      · intro q
        rw [hheads, hassn]
        by_cases e : q = k
        · subst e; rw [hself]; simp
        · rw [hlk q e, h.1.keys]; simp [e]
      · intro q v hq
        rw [hheads] at hq
        have hq' : q ≠ k := fun e => hq (.inr e)
        rw [hlk q hq']
        exact h.1.vals q v (fun hh => hq (.inl hh))
      · intro q hq
        rw [hheads] at hq
        by_cases e : q = k
        · subst e
          exact ⟨f, c', _, hf, ht, hu, hself, by rw [hbk]; exact hrec⟩
        · obtain ⟨f2, c2, m2, hf2, ht2, hu2, hm2, hsh2⟩ := h.2 q (by tauto)
          exact ⟨f2, c2, m2, hf2, ht2, hu2, by rw [hlk q e, hm2], by rw [hbq q e]; exact hsh2⟩

/-! ### All operations -/

theorem NoClash.left {a b : List (Op V R)} (h : NoClash (a ++ b)) : NoClash a := by
  intro p k v hm op hop
  exact h p k v (by simp [hm]) op (by simp [hop])

theorem shape_exec (S : Schema K) (vs : Validators K V R O) (asRaw : Arg V R → R) (d : Nat) (c : Cls) :
    ∀ (ops done : List (Op V R)) (n n' : Node V), Shape S vs d c n done →
      (∀ op ∈ ops, op.path.length ≤ d) → NoClash (done ++ ops) →
      (∀ op ∈ ops, GoodValues S vs asRaw c op) → (∀ op ∈ ops, PlainKey op) →
      exec S vs asRaw ops n = .ok n' → Shape S vs d c n' (done ++ ops)
  | [], done, n, n', h, _, _, _, _, he => by
    rw [exec] at he; cases he; simpa using h
  | op :: ops, done, n, n', h, hd, hn, hg, hk, he => by
    rw [exec] at he
    split at he
    · rename_i n1 hs
      have hn' : NoClash (done ++ [op]) := by
        have : done ++ op :: ops = done ++ [op] ++ ops := by simp
        rw [this] at hn; exact hn.left
      have h1 := shape_step S vs asRaw d c n n1 done op h (hd op (by simp)) hn'
        (hg op (by simp)) (hk op (by simp)) hs
      have h2 := shape_exec S vs asRaw d c ops (done ++ [op]) n1 n' h1
        (fun o ho => hd o (by simp [ho])) (by simpa using hn) (fun o ho => hg o (by simp [ho]))
        (fun o ho => hk o (by simp [ho])) he
      simpa using h2
    · cases he

/-- The keys stored in a well formed data set. -/
theorem mem_items_iff {S : Schema K} {n : Node V} (hw : WF S n) {k : Key} {v : Val V} :
    (k, v) ∈ n.items ↔ lookup k n.items = some v := by
  cases hw with
  | mk known nodup deep => exact ⟨fun h => lookup_of_mem nodup h, mem_of_lookup⟩

theorem shape_complete (S : Schema K) (vs : Validators K V R O) (hfin : ∀ v, ∃ o, vs.fin v = .ok o) :
    ∀ (d : Nat) (c : Cls) (n : Node V) (ops : List (Op V R)), Shape S vs d c n ops → WF S n →
      (Complete S vs n ↔ AllMandatory S c ops) := by
  intro d
  induction d with
  | zero =>
    intro c n ops h hw
    have hno : ∀ p, Reached ops p → p = [] := by
      intro p hp
      cases p with
      | nil => rfl
      | cons k p => exact absurd (heads_of_reached hp) (h.2 k)
    constructor
    · intro hc p c' hp hcl k f hkf hm
      have := hno p hp; subst this
      cases hcl
      cases hc with
      | mk mand leaf deep =>
        have hcls := h.1.cls
        simp only [Node.cls] at hcls
        subst hcls
        obtain ⟨v, hv⟩ := mand k f hkf hm
        have h1 := (h.1.keys k).1 (by rw [(mem_items_iff hw).1 hv]; rfl)
        rcases h1 with h1 | h1
        · exact .inl h1
        · exact absurd h1 (h.2 k)
    · intro hA
      cases n with
      | mk cc items =>
        have hcls := h.1.cls
        simp only [Node.cls] at hcls
        subst hcls
        refine .mk ?_ ?_ ?_
        · intro k f hkf hm
          have hg := hA [] cc (.inl rfl) rfl k f hkf hm
          have : (lookup k (Node.mk cc items).items).isSome := by
            rw [h.1.keys]
            rcases hg with hg | hg
            · exact .inl hg
            · exact .inr (heads_iff_reached.2 hg)
          obtain ⟨v, hv⟩ := Option.isSome_iff_exists.1 this
          exact ⟨v, (mem_items_iff hw).2 hv⟩
        · intro k v _; exact hfin v
        · intro k l hl m hm
          exact (h.1.vals k _ (h.2 k) ((mem_items_iff hw).1 hl)).2 l rfl m hm
  | succ d ih =>
    intro c n ops h hw
    constructor
    · intro hc p c' hp hcl k f hkf hm
      cases p with
      | nil =>
        cases hcl
        cases hc with
        | mk mand leaf deep =>
          have hcls := h.1.cls
          simp only [Node.cls] at hcls
          subst hcls
          obtain ⟨v, hv⟩ := mand k f hkf hm
          have h1 := (h.1.keys k).1 (by rw [(mem_items_iff hw).1 hv]; rfl)
          rcases h1 with h1 | h1
          · exact .inl h1
          · exact .inr (heads_iff_reached.1 h1)
      | cons q p =>
        have hq := heads_of_reached hp
        obtain ⟨f2, c2, m2, hf2, ht2, hu2, hm2, hsh2⟩ := h.2 q hq
        rw [classAt, hf2] at hcl
        simp only [ht2, hu2, if_true] at hcl
        cases hc with
        | @mk cc items mand leaf deep =>
          have hmem : (q, Val.nodes [m2]) ∈ items := (mem_items_iff hw).2 hm2
          have hwm : WF S m2 := by
            cases hw with
            | mk known nodup deepw => exact deepw q _ hmem m2 (by simp)
          have hcm := deep q _ hmem m2 (by simp)
          have := (ih c2 m2 _ hsh2 hwm).1 hcm p c' ((reached_below hq).2 hp) hcl k f hkf hm
          exact (given_below hq).1 this
    · intro hA
      cases n with
      | mk cc items =>
        have hcls := h.1.cls
        simp only [Node.cls] at hcls
        subst hcls
        refine .mk ?_ ?_ ?_
        · intro k f hkf hm
          have hg := hA [] cc (.inl rfl) rfl k f hkf hm
          have : (lookup k (Node.mk cc items).items).isSome := by
            rw [h.1.keys]
            rcases hg with hg | hg
            · exact .inl hg
            · exact .inr (heads_iff_reached.2 hg)
          obtain ⟨v, hv⟩ := Option.isSome_iff_exists.1 this
          exact ⟨v, (mem_items_iff hw).2 hv⟩
        · intro k v _; exact hfin v
        · intro k l hl m hm
          by_cases hk : Heads ops k
          · obtain ⟨f2, c2, m2, hf2, ht2, hu2, hm2, hsh2⟩ := h.2 k hk
            have := (mem_items_iff hw).1 hl
            rw [hm2] at this
            cases this
            rw [List.mem_singleton] at hm
            subst hm
            have hwm : WF S m := by
              cases hw with
              | mk known nodup deepw => exact deepw k _ hl m (by simp)
            refine (ih c2 m _ hsh2 hwm).2 ?_
            intro p c' hp hcl q f hqf hmand
            refine (given_below hk).2 (hA (k :: p) c' ((reached_below hk).1 hp) ?_ q f hqf hmand)
            rw [classAt, hf2]
            simp only [ht2, hu2, if_true]
            exact hcl
          · exact (h.1.vals k _ hk ((mem_items_iff hw).1 hl)).2 l rfl m hm

theorem exec_wf {S : Schema K} {vs : Validators K V R O} {asRaw : Arg V R → R} :
    ∀ (ops : List (Op V R)) (n n' : Node V), (∀ op ∈ ops, OpOk (WF S) op) → WF S n →
      exec S vs asRaw ops n = .ok n' → WF S n'
  | [], n, n', _, hw, h => by rw [exec] at h; cases h; exact hw
  | op :: ops, n, n', ho, hw, h => by
    rw [exec] at h
    split at h
    · rename_i n1 hs
      refine exec_wf ops n1 n' (fun o h => ho o (by simp [h])) ?_ h
      have := step_stable (wf_stable S) (wf_stablePath S) vs asRaw n op ?_ hw
      · rw [hs] at this; exact this
      · intro p k as e a ha
        have := ho op (by simp)
        subst e
        exact this a ha
    · cases h

theorem wf_empty (S : Schema K) (c : Cls) : WF S (.mk c [] : Node V) :=
  .mk (by simp) (by simp) (by simp)

/-! ### When the operations go through -/

theorem blocked_not_unique {f : Field K} (hu : f.unique = false) (n : Node V) (k : Key) :
    blocked f n k = false := by simp [blocked, hu]

theorem setLoop_one (S : Schema K) (vs : Validators K V R O) (asRaw : Arg V R → R) {key : Key}
    {f : Field K} {a : Arg V R} (ha : Accepted S vs asRaw f a) {n : Node V}
    (hb : blocked f n key = false) (as : List (Arg V R)) :
    ∃ n1 w, setLoop S vs asRaw key f (a :: as) n = setLoop S vs asRaw key f as n1 ∧
      lookup key n1.items = some w ∧ w.truthy = true := by
  cases ht : f.type with
  | leaf kind =>
    rw [Accepted, ht] at ha
    have hadd : ∃ s', addLeaf vs key kind n (asRaw a) =
        (.mk n.cls (dictSet key (.leaf s') n.items), none) := by
      unfold addLeaf
      simp only
      split
      · rename_i s' _; exact ⟨s', rfl⟩
      · rename_i e he
        obtain ⟨s', hs'⟩ := ha _
        rw [hs'] at he
        cases he
    obtain ⟨s', hs'⟩ := hadd
    refine ⟨.mk n.cls (dictSet key (.leaf s') n.items), .leaf s', ?_, lookup_dictSet_self .., rfl⟩
    rw [setLoop]
    simp only [hb, Bool.false_eq_true, if_false, ht, hs']
  | sub c =>
    rw [Accepted, ht] at ha
    obtain ⟨m, hm⟩ := ha
    refine ⟨addNode key n m, _, ?_, lookup_dictSet_self .., by simp [Val.truthy]⟩
    rw [setLoop]
    simp only [hb, Bool.false_eq_true, if_false, ht, hm]

theorem setLoop_open (S : Schema K) (vs : Validators K V R O) (asRaw : Arg V R → R) {key : Key}
    {f : Field K} (hu : f.unique = false) : ∀ (as : List (Arg V R)) (n : Node V),
    (∀ a ∈ as, Accepted S vs asRaw f a) → (setLoop S vs asRaw key f as n).2 = none
  | [], n, _ => by rw [setLoop]
  | a :: as, n, h => by
    obtain ⟨n1, w, h1, _⟩ := setLoop_one S vs asRaw (h a (by simp)) (blocked_not_unique hu n key) as
    rw [h1]
    exact setLoop_open S vs asRaw hu as n1 (fun b hb => h b (by simp [hb]))

theorem setLoop_closed (S : Schema K) (vs : Validators K V R O) (asRaw : Arg V R → R) {key : Key}
    {f : Field K} (hu : f.unique = true) (as : List (Arg V R)) (n : Node V)
    (h : ∀ a ∈ as, Accepted S vs asRaw f a)
    (hv : ∀ w, lookup key n.items = some w → w.truthy = true) :
    (setLoop S vs asRaw key f as n).2 =
      if as.length ≤ 1 ∧ (as ≠ [] → lookup key n.items = none) then none else some .valueError := by
  cases as with
  | nil => rw [setLoop]; simp
  | cons a as =>
    cases hl : lookup key n.items with
    | some w =>
      have hb : blocked f n key = true := by simp [blocked, hu, hl, hv w hl]
      rw [setLoop_blocked S vs asRaw hb]
      simp
    | none =>
      have hb : blocked f n key = false := by simp [blocked, hl]
      obtain ⟨n1, w, h1, h2, h3⟩ := setLoop_one S vs asRaw (h a (by simp)) hb as
      have hb1 : blocked f n1 key = true := by simp [blocked, hu, h2, h3]
      rw [h1, setLoop_blocked S vs asRaw hb1]
      cases as with
      | nil => simp
      | cons b as => simp

/-- There is room for the operation: a single-valued field gets at most one value and has none yet. -/
def Room (S : Schema K) (c : Cls) (done : List (Op V R)) : Op V R → Prop
  | .read _ => True
  | .set p k v => ∀ c' f, classAt S c p = some c' → lookup k (S c') = some f → f.unique = true →
      v.length ≤ 1 ∧ (v ≠ [] → ¬ Assigned done p k)

theorem room_below {S : Schema K} {c c' : Cls} {done : List (Op V R)} {op op' : Op V R} {k : Key}
    {f : Field K} (hb : Op.below k op = some op') (hf : lookup k (S c) = some f)
    (ht : f.type = .sub c') (hu : f.unique = true) :
    Room S c' (below k done) op' ↔ Room S c done op := by
  cases op with
  | set p key v =>
    cases p with
    | nil => cases hb
    | cons k' p =>
      simp only [Op.below] at hb
      split at hb
      · rename_i e; subst e; cases hb
        simp only [Room, assigned_below, classAt, hf, ht, hu, if_true]
      · cases hb
  | read p =>
    cases p with
    | nil => cases hb
    | cons k' p =>
      simp only [Op.below] at hb
      split at hb
      · cases hb; simp [Room]
      · cases hb

theorem fits_below {S : Schema K} {vs : Validators K V R O} {asRaw : Arg V R → R} {c : Cls}
    {op op' : Op V R} {k : Key} (hb : Op.below k op = some op') (h : Fits S vs asRaw c op) :
    ∃ f c', lookup k (S c) = some f ∧ f.type = .sub c' ∧ f.unique = true ∧
      Fits S vs asRaw c' op' := by
  have key : ∀ p d, classAt S c (k :: p) = some d → ∃ f c', lookup k (S c) = some f ∧
      f.type = .sub c' ∧ f.unique = true ∧ classAt S c' p = some d := by
    intro p d hd
    rw [classAt] at hd
    split at hd
    · rename_i f hf
      split at hd
      · rename_i c' ht
        split at hd
        · rename_i hu; exact ⟨f, c', hf, ht, hu, hd⟩
        · cases hd
      · cases hd
    · cases hd
  cases op with
  | set p key' v =>
    cases p with
    | nil => cases hb
    | cons k' p =>
      simp only [Op.below] at hb
      split at hb
      · rename_i e; subst e; cases hb
        obtain ⟨hk, d, g, hd, hg, ha⟩ := h
        obtain ⟨f, c', hf, ht, hu, hc⟩ := key p d hd
        exact ⟨f, c', hf, ht, hu, hk, d, g, hc, hg, ha⟩
      · cases hb
  | read p =>
    cases p with
    | nil => cases hb
    | cons k' p =>
      simp only [Op.below] at hb
      split at hb
      · rename_i e; subst e; cases hb
        obtain ⟨d, hd⟩ := h
        obtain ⟨f, c', hf, ht, hu, hc⟩ := key p d hd
        exact ⟨f, c', hf, ht, hu, d, hc⟩
      · cases hb

open Classical in
theorem step_result (S : Schema K) (vs : Validators K V R O) (asRaw : Arg V R → R) :
    ∀ (d : Nat) (c : Cls) (n : Node V) (done : List (Op V R)) (op : Op V R),
      Shape S vs d c n done → op.path.length ≤ d → NoClash (done ++ [op]) →
      Fits S vs asRaw c op →
      (step S vs asRaw n op).2 = if Room S c done op then none else some .valueError := by
  have here : ∀ (c : Cls) (n : Node V) (done : List (Op V R)) (op : Op V R),
      Level S vs c n done → op.path = [] → NoClash (done ++ [op]) → Fits S vs asRaw c op →
      (step S vs asRaw n op).2 = if Room S c done op then none else some .valueError := by
    intro c n done op hl hp hn hfit
    cases op with
    | read p =>
      simp only [Op.path] at hp; subst hp
      simp [step, modifyAt, Room]
    | set p key v =>
      simp only [Op.path] at hp; subst hp
      obtain ⟨hk, c', f, hc, hf, ha⟩ := hfit
      cases hc
      simp only [step, modifyAt, setItem, hk, hl.cls, hf]
      have hnh : ¬ Heads done key := by
        intro h
        obtain ⟨op, hop, h⟩ := heads_iff.1 h
        exact hn [] key v (by simp) op (by simp [hop]) h
      have hlk : lookup key n.items = none ↔ ¬ Assigned done [] key := by
        rw [← Option.not_isSome_iff_eq_none, hl.keys]
        tauto
      cases hu : f.unique with
      | false =>
        rw [setLoop_open S vs asRaw hu v n ha, if_pos]
        intro c' g h1 h2 h3
        cases h1
        rw [hf] at h2; cases h2
        rw [hu] at h3; cases h3
      | true =>
        rw [setLoop_closed S vs asRaw hu v n ha (fun w hw => (hl.vals key w hnh hw).1)]
        congr 1
        rw [hlk]
        exact propext ⟨fun h c' g _ _ _ => h, fun h => h c f rfl hf hu⟩
  intro d
  induction d with
  | zero =>
    intro c n done op h hd hn hfit
    exact here c n done op h.1 (by simpa using hd) hn hfit
  | succ d ih =>
    intro c n done op h hd hn hfit
    cases hp : op.path with
    | nil => exact here c n done op h.1 hp hn hfit
    | cons k p =>
      obtain ⟨op', hb, hp'⟩ := below_eq hp
      obtain ⟨f, c', hf, ht, hu, hfit'⟩ := fits_below hb hfit
      rw [step_cons S vs asRaw n op op' k hb]
      have hbk : below k (done ++ [op]) = below k done ++ [op'] := by
        rw [below_append]; simp [below, hb]
      have hnb : NoClash (below k done ++ [op']) := by rw [← hbk]; exact noClash_below hn
      have hget : ∃ n1 m, getItem S n k = (n1, .ok m) ∧ Shape S vs d c' m (below k done) := by
        by_cases hh : Heads done k
        · obtain ⟨f2, c2, m, hf2, ht2, hu2, hm, hsh⟩ := h.2 k hh
          rw [hf] at hf2; cases hf2
          rw [ht] at ht2; cases ht2
          refine ⟨n, m, ?_, hsh⟩
          rw [getItem, h.1.cls, hf]
          simp only [hm, hu, if_true]
        · have hna : ¬ Assigned done [] k := by
            rintro ⟨v, hv, _⟩
            exact hn [] k v (by simp [hv]) op (by simp) (by rw [hp]; simp)
          have hnone : lookup k n.items = none := by
            rw [← Option.not_isSome_iff_eq_none, h.1.keys]
            tauto
          refine ⟨.mk n.cls (dictSet k (.nodes [.mk c' []]) n.items), .mk c' [], ?_, ?_⟩
          · rw [getItem, h.1.cls, hf]
            simp only [hnone, ht, hu, if_true, h.1.cls]
          · have : below k done = [] := by
              rw [below, List.filterMap_eq_nil_iff]
              intro o ho
              by_contra hne
              obtain ⟨o', ho'⟩ := Option.ne_none_iff_exists'.1 hne
              apply hh
              refine ⟨o, ho, ?_⟩
              cases ho'' : o.path with
              | nil => rw [below_here ho''] at ho'; cases ho'
              | cons q t =>
                by_cases e : k = q
                · rw [e]; rfl
                · rw [below_ne ho'' e] at ho'; cases ho'
            rw [this]
            exact shape_nil S vs d c'
      obtain ⟨n1, m, hg, hsh⟩ := hget
      rw [hg]
      simp only
      rw [ih c' m (below k done) op' hsh (by rw [hp']; rw [hp] at hd; simpa using hd) hnb hfit']
      congr 1
      exact propext (room_below hb hf ht hu)

theorem mem_singles {S : Schema K} {c : Cls} {ops : List (Op V R)} {p : List Key} {k : Key} {c' : Cls}
    {f : Field K} (hc : classAt S c p = some c') (hf : lookup k (S c') = some f)
    (hu : f.unique = true) : (p, k) ∈ ops.flatMap (singles S c) ↔ Assigned ops p k := by
  rw [List.mem_flatMap]
  constructor
  · rintro ⟨op, hop, h⟩
    cases op with
    | read q => simp [singles] at h
    | set q k2 v =>
      simp only [singles] at h
      split at h
      · simp at h
      · split at h
        · split at h
          · rw [List.mem_replicate] at h
            obtain ⟨h1, h2⟩ := h
            cases h2
            exact ⟨v, hop, by rintro rfl; simp at h1⟩
          · simp at h
        · simp at h
  · rintro ⟨v, hv, hne⟩
    refine ⟨_, hv, ?_⟩
    simp only [singles, hc, hf, hu, if_true, List.mem_replicate]
    simp [hne]

theorem onceEach_snoc {S : Schema K} {vs : Validators K V R O} {asRaw : Arg V R → R} {c : Cls}
    {done : List (Op V R)} {op : Op V R} (hfit : Fits S vs asRaw c op) :
    OnceEach S c (done ++ [op]) ↔ OnceEach S c done ∧ Room S c done op := by
  rw [OnceEach, OnceEach, List.flatMap_append, List.nodup_append']
  simp only [List.flatMap_cons, List.flatMap_nil, List.append_nil]
  refine and_congr_right fun _ => ?_
  cases op with
  | read p => simp [singles, Room]
  | set p k v =>
    obtain ⟨_, c', f, hc, hf, _⟩ := hfit
    simp only [singles, hc, hf, Room]
    cases hu : f.unique with
    | false =>
      simp only [Bool.false_eq_true, if_false, List.nodup_nil, List.disjoint_nil_right, and_self,
        true_iff]
      intro c2 f2 h1 h2 h3
      cases h1
      rw [hf] at h2; cases h2
      rw [hu] at h3; cases h3
    | true =>
      simp only [if_true]
      rw [List.nodup_replicate]
      constructor
      · rintro ⟨h1, h2⟩ c2 f2 _ _ _
        refine ⟨h1, fun hne ha => ?_⟩
        have := (mem_singles hc hf hu).2 ha
        exact h2 this (by rw [List.mem_replicate]; simp [hne])
      · intro h
        obtain ⟨h1, h2⟩ := h c' f rfl hf hu
        refine ⟨h1, ?_⟩
        intro x hx hx2
        rw [List.mem_replicate] at hx2
        obtain ⟨hl, rfl⟩ := hx2
        exact h2 (by rintro rfl; simp at hl) ((mem_singles hc hf hu).1 hx)

theorem fits_plain {S : Schema K} {vs : Validators K V R O} {asRaw : Arg V R → R} {c : Cls}
    {op : Op V R} (h : Fits S vs asRaw c op) : PlainKey op := by
  cases op with
  | set p k v => exact h.1
  | read p => trivial

theorem OnceEach.left {S : Schema K} {c : Cls} {a b : List (Op V R)} (h : OnceEach S c (a ++ b)) :
    OnceEach S c a := by
  rw [OnceEach, List.flatMap_append, List.nodup_append'] at h
  exact h.1

theorem exec_result (S : Schema K) (vs : Validators K V R O) (asRaw : Arg V R → R) (d : Nat) (c : Cls) :
    ∀ (ops done : List (Op V R)) (n : Node V), Shape S vs d c n done → OnceEach S c done →
      (∀ op ∈ ops, op.path.length ≤ d) → NoClash (done ++ ops) →
      (∀ op ∈ ops, GoodValues S vs asRaw c op) → (∀ op ∈ ops, Fits S vs asRaw c op) →
      ((OnceEach S c (done ++ ops) ∧ ∃ n', exec S vs asRaw ops n = .ok n') ∨
        (¬ OnceEach S c (done ++ ops) ∧ exec S vs asRaw ops n = .error .valueError))
  | [], done, n, h, ho, _, _, _, _ => by
    left; exact ⟨by simpa using ho, n, rfl⟩
  | op :: ops, done, n, h, ho, hd, hn, hg, hf => by
    have heq : done ++ op :: ops = (done ++ [op]) ++ ops := by simp
    have hn' : NoClash (done ++ [op]) := by rw [heq] at hn; exact hn.left
    have hres := step_result S vs asRaw d c n done op h (hd op (by simp)) hn' (hf op (by simp))
    rw [exec]
    by_cases hr : Room S c done op
    · rw [if_pos hr] at hres
      have hs : step S vs asRaw n op = ((step S vs asRaw n op).1, none) := by rw [← hres]
      rw [hs]
      simp only
      rw [heq]
      refine exec_result S vs asRaw d c ops (done ++ [op]) _ ?_ ?_ (fun o h => hd o (by simp [h]))
        (by rw [← heq]; exact hn) (fun o h => hg o (by simp [h])) (fun o h => hf o (by simp [h]))
      · exact shape_step S vs asRaw d c n _ done op h (hd op (by simp)) hn' (hg op (by simp))
          (fits_plain (hf op (by simp))) hs
      · exact (onceEach_snoc (hf op (by simp))).2 ⟨ho, hr⟩
    · rw [if_neg hr] at hres
      have hs : step S vs asRaw n op = ((step S vs asRaw n op).1, some .valueError) := by rw [← hres]
      rw [hs]
      right
      refine ⟨?_, rfl⟩
      rw [heq]
      intro hon
      exact hr ((onceEach_snoc (hf op (by simp))).1 hon.left).2

end Verif.DotDict
