import Verif.Lemmas.Py
import Mathlib.Tactic.Tauto
import Mathlib.Data.List.Forall2
import Verif.Spec.DotDict

namespace Verif.DotDict

variable {K V R O : Type}

/-! ### Association lists -/

theorem lookup_dictSet_self {α : Type} (k : Key) (v : α) (l : List (Key × α)) :
    lookup k (dictSet k v l) = some v := by
  induction l with
  | nil => simp [dictSet, lookup]
  | cons e l ih =>
    obtain ⟨k', v'⟩ := e
    simp only [dictSet]
    split <;> simp_all [lookup]

theorem lookup_dictSet_ne {α : Type} {k k' : Key} (h : k' ≠ k) (v : α) (l : List (Key × α)) :
    lookup k' (dictSet k v l) = lookup k' l := by
  induction l with
  | nil => simp [dictSet, lookup, Ne.symm h]
  | cons e l ih =>
    obtain ⟨k₁, v₁⟩ := e
    simp only [dictSet]
    split
    · subst_vars; simp [lookup, Ne.symm h]
    · simp [lookup, ih]

theorem mem_dictSet {α : Type} {k : Key} {v : α} {l : List (Key × α)} {e : Key × α}
    (h : e ∈ dictSet k v l) : e = (k, v) ∨ e ∈ l := by
  induction l with
  | nil => simpa [dictSet] using h
  | cons x l ih =>
    obtain ⟨k₁, v₁⟩ := x
    simp only [dictSet] at h
    split at h
    · rcases List.mem_cons.1 h with h | h
      · exact .inl h
      · exact .inr (by simp [h])
    · rcases List.mem_cons.1 h with h | h
      · exact .inr (by simp [h])
      · rcases ih h with h | h
        · exact .inl h
        · exact .inr (by simp [h])

theorem mem_keys_dictSet {α : Type} {k : Key} {v : α} {l : List (Key × α)} {x : Key} :
    x ∈ (dictSet k v l).map Prod.fst ↔ x = k ∨ x ∈ l.map Prod.fst := by
  induction l with
  | nil => simp [dictSet]
  | cons e l ih =>
    obtain ⟨k₁, v₁⟩ := e
    simp only [dictSet]
    split
    · rename_i hk
      subst hk
      simp
    · simp only [List.map_cons, List.mem_cons, ih]
      tauto

theorem dictSet_nodup {α : Type} {k : Key} {v : α} {l : List (Key × α)}
    (h : (l.map Prod.fst).Nodup) : ((dictSet k v l).map Prod.fst).Nodup := by
  induction l with
  | nil => simp [dictSet]
  | cons e l ih =>
    obtain ⟨k₁, v₁⟩ := e
    simp only [List.map_cons, List.nodup_cons] at h
    simp only [dictSet]
    split
    · rename_i hk; subst hk; simpa using h
    · rename_i hk
      simp only [List.map_cons, List.nodup_cons]
      refine ⟨?_, ih h.2⟩
      rw [mem_keys_dictSet]
      rintro (h' | h')
      · exact hk h'
      · exact h.1 h'

theorem mem_of_lookup {α : Type} {k : Key} {v : α} {l : List (Key × α)} (h : lookup k l = some v) :
    (k, v) ∈ l := by
  induction l with
  | nil => simp [lookup] at h
  | cons e l ih =>
    obtain ⟨k₁, v₁⟩ := e
    simp only [lookup] at h
    split at h
    · simp_all
    · simp [ih h]

theorem lookup_of_mem {α : Type} {k : Key} {v : α} {l : List (Key × α)}
    (hn : (l.map Prod.fst).Nodup) (h : (k, v) ∈ l) : lookup k l = some v := by
  induction l with
  | nil => simp at h
  | cons e l ih =>
    obtain ⟨k₁, v₁⟩ := e
    simp only [List.map_cons, List.nodup_cons] at hn
    simp only [lookup]
    rcases List.mem_cons.1 h with h | h
    · simp_all
    · rw [if_neg]
      · exact ih hn.2 h
      · rintro rfl
        exact hn.1 (List.mem_map.2 ⟨_, h, rfl⟩)

theorem lookup_isSome_iff {α : Type} {k : Key} {l : List (Key × α)} :
    (lookup k l).isSome = true ↔ ∃ v, (k, v) ∈ l := by
  induction l with
  | nil => simp [lookup]
  | cons e l ih =>
    obtain ⟨k₁, v₁⟩ := e
    simp only [lookup]
    split
    · subst_vars; simp
    · rename_i hk
      rw [ih]
      simp only [List.mem_cons, Prod.mk.injEq]
      constructor
      · rintro ⟨v, h⟩; exact ⟨v, .inr h⟩
      · rintro ⟨v, ⟨h, _⟩ | h⟩
        · exact absurd h.symm hk
        · exact ⟨v, h⟩

/-! ### Invariants of assignments -/

/-- What an invariant of instances has to satisfy to be kept by assignments. -/
structure Stable (S : Schema K) (P : Node V → Prop) (Q : Arg V R → Prop) : Prop where
  empty : ∀ c, P (.mk c [])
  leaf : ∀ n k f kind v, P n → lookup k (S n.cls) = some f → f.type = .leaf kind →
    P (.mk n.cls (dictSet k (.leaf v) n.items))
  node : ∀ n k f c m, P n → lookup k (S n.cls) = some f → f.type = .sub c → blocked f n k = false →
    P m → (∀ x, f.type = .sub x → m.cls = x ∨ ∃ a : Arg V R, Q a ∧ a = .node m) → P (addNode k n m)
  arg : ∀ m, Q (.node m) → P m
  dict : ∀ items, Q (.dict items) → ∀ k as, (k, as) ∈ items → ∀ a ∈ as, Q a

theorem addLeaf_cls (vs : Validators K V R O) (k : Key) (kind : K) (n : Node V) (r : R) :
    (addLeaf vs k kind n r).1.cls = n.cls := by
  unfold addLeaf
  simp only
  split <;> rfl

theorem addNode_cls (k : Key) (n m : Node V) : (addNode k n m).cls = n.cls := rfl

theorem setLoop_cls (S : Schema K) (vs : Validators K V R O) (asRaw : Arg V R → R) (key : Key)
    (f : Field K) : ∀ (as : List (Arg V R)) (n : Node V),
    (setLoop S vs asRaw key f as n).1.cls = n.cls
  | [], n => by rw [setLoop]
  | a :: as, n => by
    rw [setLoop]
    split
    · rfl
    · split
      · split
        · rename_i n' h
          rw [setLoop_cls S vs asRaw key f as n']
          have h2 := congrArg (fun x => x.1.cls) h
          simp only [addLeaf_cls] at h2
          exact h2.symm
        · rename_i n' e h
          have h2 := congrArg (fun x => x.1.cls) h
          simp only [addLeaf_cls] at h2
          exact h2.symm
      · split
        · rw [setLoop_cls S vs asRaw key f as _]; rfl
        · rfl

theorem build_cls (S : Schema K) (vs : Validators K V R O) (asRaw : Arg V R → R) :
    ∀ (l : List (Key × List (Arg V R))) (n : Node V), (build S vs asRaw l n).1.cls = n.cls
  | [], n => by rw [build]
  | (k, as) :: l, n => by
    rw [build]
    split
    · rfl
    · split
      · rfl
      · split
        · rename_i n' h
          rw [build_cls S vs asRaw l n']
          have h2 := congrArg (fun x => x.1.cls) h
          simp only [setLoop_cls] at h2
          exact h2.symm
        · rename_i n' e h
          have h2 := congrArg (fun x => x.1.cls) h
          simp only [setLoop_cls] at h2
          exact h2.symm

theorem addLeaf_stable {S : Schema K} {P : Node V → Prop} {Q : Arg V R → Prop} (hS : Stable S P Q)
    (vs : Validators K V R O) {k : Key} {f : Field K} {kind : K} {n : Node V} (r : R) (hn : P n)
    (hf : lookup k (S n.cls) = some f) (ht : f.type = .leaf kind) : P (addLeaf vs k kind n r).1 := by
  unfold addLeaf
  simp only
  split
  · exact hS.leaf n k f kind _ hn hf ht
  · exact hn

mutual
theorem build_stable {S : Schema K} {P : Node V → Prop} {Q : Arg V R → Prop} (hS : Stable S P Q)
    (vs : Validators K V R O) (asRaw : Arg V R → R) :
    ∀ (l : List (Key × List (Arg V R))) (n : Node V), (∀ k as, (k, as) ∈ l → ∀ a ∈ as, Q a) →
      P n → P (build S vs asRaw l n).1
  | [], n, _, hn => by rw [build]; exact hn
  | (k, as) :: l, n, hl, hn => by
    rw [build]
    split
    · exact hn
    · split
      · exact hn
      · rename_i f hf
        have h1 := setLoop_stable hS vs asRaw _ f as n (hl k as (by simp)) hf hn
        split
        · rename_i n' h
          rw [h] at h1
          exact build_stable hS vs asRaw l n' (fun k' as' hm => hl k' as' (by simp [hm])) h1
        · rename_i n' e h
          rw [h] at h1; exact h1

theorem setLoop_stable {S : Schema K} {P : Node V → Prop} {Q : Arg V R → Prop} (hS : Stable S P Q)
    (vs : Validators K V R O) (asRaw : Arg V R → R) (key : Key) (f : Field K) :
    ∀ (as : List (Arg V R)) (n : Node V), (∀ a ∈ as, Q a) → lookup key (S n.cls) = some f →
      P n → P (setLoop S vs asRaw key f as n).1
  | [], n, _, _, hn => by rw [setLoop]; exact hn
  | a :: as, n, hq, hf, hn => by
    have hq' : ∀ x ∈ as, Q x := fun x hx => hq x (by simp [hx])
    rw [setLoop]
    split
    · exact hn
    · rename_i hb
      split
      · rename_i kind ht
        have h1 := addLeaf_stable hS vs (asRaw a) hn hf ht
        have h2 := addLeaf_cls vs key kind n (asRaw a)
        split
        · rename_i n' h
          rw [h] at h1 h2
          exact setLoop_stable hS vs asRaw key f as n' hq' (by rw [show n'.cls = n.cls from h2]; exact hf) h1
        · rename_i n' e h
          rw [h] at h1; exact h1
      · rename_i c ht
        split
        · rename_i child hc
          refine setLoop_stable hS vs asRaw key f as _ hq' hf ?_
          have h3 := construct_stable hS vs asRaw c a child (hq a (by simp)) hc
          refine hS.node n key f c child hn hf ht (by simpa using hb) h3.1 ?_
          intro x hx
          rw [ht] at hx
          cases hx
          exact h3.2
        · exact hn

theorem construct_stable {S : Schema K} {P : Node V → Prop} {Q : Arg V R → Prop} (hS : Stable S P Q)
    (vs : Validators K V R O) (asRaw : Arg V R → R) (c : Cls) :
    ∀ (a : Arg V R) (m : Node V), Q a → construct S vs asRaw c a = .ok m →
      P m ∧ (m.cls = c ∨ ∃ a : Arg V R, Q a ∧ a = .node m)
  | .node m', m, hq, h => by
    rw [construct] at h
    cases h
    exact ⟨hS.arg _ hq, .inr ⟨_, hq, rfl⟩⟩
  | .raw r, m, _, h => by rw [construct] at h; cases h
  | .absent, m, _, h => by rw [construct] at h; cases h; exact ⟨hS.empty c, .inl rfl⟩
  | .dict items, m, hq, h => by
    rw [construct] at h
    have h1 := build_stable hS vs asRaw items (.mk c []) (hS.dict items hq) (hS.empty c)
    have h2 := build_cls S vs asRaw items (.mk c [])
    split at h
    · rename_i m' he
      cases h
      rw [he] at h1 h2
      exact ⟨h1, .inl h2⟩
    · cases h
end

theorem setItem_stable {S : Schema K} {P : Node V → Prop} {Q : Arg V R → Prop} (hS : Stable S P Q)
    (vs : Validators K V R O) (asRaw : Arg V R → R) (n : Node V) (k : Key) (as : List (Arg V R))
    (hq : ∀ a ∈ as, Q a) (hn : P n) : P (setItem S vs asRaw n k as).1 := by
  unfold setItem
  split
  · exact hn
  · split
    · exact hn
    · rename_i f hf
      exact setLoop_stable hS vs asRaw _ f as n hq hf hn

theorem setItem_cls (S : Schema K) (vs : Validators K V R O) (asRaw : Arg V R → R) (n : Node V)
    (k : Key) (as : List (Arg V R)) : (setItem S vs asRaw n k as).1.cls = n.cls := by
  unfold setItem
  split
  · rfl
  · split
    · rfl
    · exact setLoop_cls ..

/-! ### Paths -/

theorem getItem_cls (S : Schema K) (n : Node V) (k : Key) : (getItem S n k).1.cls = n.cls := by
  unfold getItem
  repeat' split
  all_goals rfl

theorem setFirst_cls (n : Node V) (k : Key) (m : Node V) : (setFirst n k m).cls = n.cls := by
  unfold setFirst
  split <;> rfl

theorem modifyAt_cls (S : Schema K) (f : Node V → Node V × Option PyErr)
    (hf : ∀ n, (f n).1.cls = n.cls) :
    ∀ (ks : List Key) (n : Node V), (modifyAt S f ks n).1.cls = n.cls
  | [], n => hf n
  | k :: ks, n => by
    rw [modifyAt]
    have h := getItem_cls S n k
    split
    · rename_i n' e he; rw [he] at h; exact h
    · rename_i n' m he
      rw [he] at h
      simp only [setFirst_cls]
      exact h

/-- Reading gives back the first instance that is stored afterwards. -/
theorem getItem_ok {S : Schema K} {n n' m : Node V} {k : Key} (h : getItem S n k = (n', .ok m)) :
    ∃ l, lookup k n'.items = some (.nodes (m :: l)) := by
  unfold getItem at h
  split at h
  · cases h
  · split at h
    · cases h
    · rename_i l hl
      split at h
      · split at h
        · cases h; exact ⟨_, hl⟩
        · cases h
      · cases h
    · cases h
    · split at h
      · cases h
        exact ⟨[], lookup_dictSet_self ..⟩
      · cases h

/-- What an invariant has to satisfy to be kept by operations at paths. -/
structure StablePath (S : Schema K) (P : Node V → Prop) : Prop where
  create : ∀ n k f c, P n → lookup k (S n.cls) = some f → f.type = .sub c → f.unique = true →
    lookup k n.items = none → P (.mk n.cls (dictSet k (.nodes [.mk c []]) n.items))
  child : ∀ n k m l, P n → lookup k n.items = some (.nodes (m :: l)) → P m
  put : ∀ n k m m' l, P n → lookup k n.items = some (.nodes (m :: l)) → P m' → m'.cls = m.cls →
    P (.mk n.cls (dictSet k (.nodes (m' :: l)) n.items))

theorem getItem_stable {S : Schema K} {P : Node V → Prop} (hP : StablePath S P) {n : Node V}
    (k : Key) (hn : P n) : P (getItem S n k).1 := by
  unfold getItem
  split
  · exact hn
  · rename_i f hf
    split
    · exact hn
    · split
      · split <;> exact hn
      · exact hn
    · exact hn
    · rename_i c hl ht
      split
      · rename_i hu
        exact hP.create n k f c hn hf ht hu hl
      · exact hn

theorem modifyAt_stable {S : Schema K} {P : Node V → Prop} (hP : StablePath S P)
    (f : Node V → Node V × Option PyErr) (hcls : ∀ n, (f n).1.cls = n.cls)
    (hf : ∀ n, P n → P (f n).1) :
    ∀ (ks : List Key) (n : Node V), P n → P (modifyAt S f ks n).1
  | [], n, hn => hf n hn
  | k :: ks, n, hn => by
    rw [modifyAt]
    have h := getItem_stable hP k hn
    split
    · rename_i n' e he; rw [he] at h; exact h
    · rename_i n' m he
      rw [he] at h
      obtain ⟨l, hl⟩ := getItem_ok he
      have hm := hP.child n' k m l h hl
      have h1 := modifyAt_stable hP f hcls hf ks m hm
      have h2 := modifyAt_cls S f hcls ks m
      simp only [setFirst, hl]
      exact hP.put n' k m _ l h hl h1 h2

theorem step_stable {S : Schema K} {P : Node V → Prop} {Q : Arg V R → Prop} (hS : Stable S P Q)
    (hP : StablePath S P) (vs : Validators K V R O) (asRaw : Arg V R → R) (n : Node V) (op : Op V R)
    (hop : ∀ p k as, op = .set p k as → ∀ a ∈ as, Q a) (hn : P n) : P (step S vs asRaw n op).1 := by
  cases op with
  | set p k as =>
    exact modifyAt_stable hP _ (fun n => setItem_cls ..)
      (fun m hm => setItem_stable hS vs asRaw m k as (hop p k as rfl) hm) p n hn
  | read p => exact modifyAt_stable hP _ (fun n => rfl) (fun m hm => hm) p n hn

theorem run_stable {S : Schema K} {P : Node V → Prop} {Q : Arg V R → Prop} (hS : Stable S P Q)
    (hP : StablePath S P) (vs : Validators K V R O) (asRaw : Arg V R → R) (ops : List (Op V R))
    (hop : ∀ p k as, Op.set p k as ∈ ops → ∀ a ∈ as, Q a) :
    ∀ n : Node V, P n → P (run S vs asRaw n ops) := by
  induction ops with
  | nil => intro n hn; exact hn
  | cons op ops ih =>
    intro n hn
    refine ih (fun p k as h => hop p k as (by simp [h])) _ ?_
    exact step_stable hS hP vs asRaw n op (fun p k as h => hop p k as (by simp [h])) hn

theorem step_cls (S : Schema K) (vs : Validators K V R O) (asRaw : Arg V R → R) (n : Node V)
    (op : Op V R) : (step S vs asRaw n op).1.cls = n.cls := by
  cases op with
  | set p k as => exact modifyAt_cls S _ (fun n => setItem_cls ..) p n
  | read p => exact modifyAt_cls S _ (fun n => rfl) p n

/-! ### The two invariants -/

theorem WF.put {S : Schema K} {c : Cls} {items : List (Key × Val V)} (h : WF S (.mk c items))
    {k : Key} {f : Field K} {v : Val V} (hf : lookup k (S c) = some f) (hs : ShapeOk f v)
    (hd : ∀ l, v = .nodes l → ∀ m ∈ l, WF S m) : WF S (.mk c (dictSet k v items)) := by
  cases h with
  | mk known nodup deep =>
    refine .mk ?_ (dictSet_nodup nodup) ?_
    · intro k' v' hm
      rcases mem_dictSet hm with hm | hm
      · cases hm; exact ⟨f, hf, hs⟩
      · exact known k' v' hm
    · intro k' l hm
      rcases mem_dictSet hm with hm | hm
      · exact hd l (by cases hm; rfl)
      · exact deep k' l hm

theorem WF.lookup_nodes {S : Schema K} {n : Node V} (h : WF S n) {k : Key} {l : List (Node V)}
    (hl : lookup k n.items = some (.nodes l)) :
    (∃ f, lookup k (S n.cls) = some f ∧ ShapeOk f (.nodes l)) ∧ ∀ m ∈ l, WF S m := by
  cases h with
  | mk known nodup deep =>
    have hm := mem_of_lookup hl
    exact ⟨known _ _ hm, deep _ _ hm⟩

theorem wf_stable (S : Schema K) : Stable (R := R) S (WF (V := V) S) (ArgOk (WF S)) where
  empty c := .mk (by simp) (by simp) (by simp)
  leaf n k f kind v hn hf ht := by
    cases n with
    | mk c items => exact WF.put hn hf ⟨kind, ht⟩ (by simp)
  node n k f c m hn hf ht hb hm _ := by
    cases n with
    | mk cl items =>
      unfold addNode
      simp only
      split
      · rename_i l hl
        have h := WF.lookup_nodes hn hl
        refine WF.put hn hf ⟨⟨c, ht⟩, by simp, ?_⟩ ?_
        · intro hu
          have hne : l ≠ [] := by
            obtain ⟨⟨f', _, hs⟩, _⟩ := h
            exact hs.2.1
          simp only [blocked, hu, hl, Val.truthy, Bool.true_and, Bool.not_eq_eq_eq_not,
            Bool.not_false, List.isEmpty_iff] at hb
          exact absurd hb hne
        · intro l' hl' x hx
          cases hl'
          rcases List.mem_append.1 hx with hx | hx
          · exact h.2 x hx
          · simp only [List.mem_singleton] at hx; subst hx; exact hm
      · refine WF.put hn hf ⟨⟨c, ht⟩, by simp, by simp⟩ ?_
        intro l' hl' x hx
        cases hl'
        simp only [List.nil_append, List.mem_singleton] at hx; subst hx; exact hm
  arg m h := by cases h; assumption
  dict items h := by cases h; assumption

theorem wf_stablePath (S : Schema K) : StablePath S (WF (V := V) S) where
  create n k f c hn hf ht hu hl := by
    cases n with
    | mk cl items =>
      refine WF.put hn hf ⟨⟨c, ht⟩, by simp, by simp⟩ ?_
      intro l' hl' x hx
      cases hl'
      simp only [List.mem_singleton] at hx; subst hx
      exact .mk (by simp) (by simp) (by simp)
  child n k m l hn hl := (WF.lookup_nodes hn hl).2 m (by simp)
  put n k m m' l hn hl hm' _ := by
    have h := WF.lookup_nodes hn hl
    obtain ⟨⟨f, hf, hs⟩, hd⟩ := h
    cases n with
    | mk cl items =>
      refine WF.put hn hf ⟨hs.1, by simp, ?_⟩ ?_
      · intro hu; simpa using hs.2.2 hu
      · intro l' hl' x hx
        cases hl'
        rcases List.mem_cons.1 hx with rfl | hx
        · exact hm'
        · exact hd x (by simp [hx])

theorem Classes.put {S : Schema K} {c : Cls} {items : List (Key × Val V)}
    (h : Classes S (.mk c items)) {k : Key} {v : Val V}
    (hs : ∀ l, v = .nodes l → ∀ f, lookup k (S c) = some f → ∀ m ∈ l, f.type = .sub m.cls)
    (hd : ∀ l, v = .nodes l → ∀ m ∈ l, Classes S m) : Classes S (.mk c (dictSet k v items)) := by
  cases h with
  | mk cls deep =>
    refine .mk ?_ ?_
    · intro k' l hm
      rcases mem_dictSet hm with hm | hm
      · cases hm; exact hs l rfl
      · exact cls k' l hm
    · intro k' l hm
      rcases mem_dictSet hm with hm | hm
      · exact hd l (by cases hm; rfl)
      · exact deep k' l hm

theorem Classes.lookup_nodes {S : Schema K} {n : Node V} (h : Classes S n) {k : Key}
    {l : List (Node V)} (hl : lookup k n.items = some (.nodes l)) :
    (∀ f, lookup k (S n.cls) = some f → ∀ m ∈ l, f.type = .sub m.cls) ∧ ∀ m ∈ l, Classes S m := by
  cases h with
  | mk cls deep =>
    have hm := mem_of_lookup hl
    exact ⟨cls _ _ hm, deep _ _ hm⟩

theorem classes_stable (S : Schema K) :
    Stable (R := R) S (Classes (V := V) S) (ArgOk (fun _ => False)) where
  empty c := .mk (by simp) (by simp)
  leaf n k f kind v hn hf ht := by
    cases n with
    | mk c items => exact Classes.put hn (by simp) (by simp)
  node n k f c m hn hf ht hb hm hc := by
    have hmc : m.cls = c := by
      rcases hc c ht with h | ⟨a, ha, rfl⟩
      · exact h
      · cases ha; contradiction
    cases n with
    | mk cl items =>
      unfold addNode
      simp only
      split
      · rename_i l hl
        have h := Classes.lookup_nodes hn hl
        refine Classes.put hn ?_ ?_
        · intro l' hl' f' hf' x hx
          cases hl'
          rcases List.mem_append.1 hx with hx | hx
          · exact h.1 f' hf' x hx
          · simp only [List.mem_singleton] at hx; subst hx
            rw [show lookup k (S cl) = some f from hf] at hf'
            cases hf'
            rw [ht, hmc]
        · intro l' hl' x hx
          cases hl'
          rcases List.mem_append.1 hx with hx | hx
          · exact h.2 x hx
          · simp only [List.mem_singleton] at hx; subst hx; exact hm
      · refine Classes.put hn ?_ ?_
        · intro l' hl' f' hf' x hx
          cases hl'
          simp only [List.nil_append, List.mem_singleton] at hx; subst hx
          rw [show lookup k (S cl) = some f from hf] at hf'
          cases hf'
          rw [ht, hmc]
        · intro l' hl' x hx
          cases hl'
          simp only [List.nil_append, List.mem_singleton] at hx; subst hx; exact hm
  arg m h := by cases h; contradiction
  dict items h := by cases h; assumption

theorem classes_stablePath (S : Schema K) : StablePath S (Classes (V := V) S) where
  create n k f c hn hf ht hu hl := by
    cases n with
    | mk cl items =>
      refine Classes.put hn ?_ ?_
      · intro l' hl' f' hf' x hx
        cases hl'
        simp only [List.mem_singleton] at hx; subst hx
        rw [show lookup k (S cl) = some f from hf] at hf'
        cases hf'
        exact ht
      · intro l' hl' x hx
        cases hl'
        simp only [List.mem_singleton] at hx; subst hx
        exact .mk (by simp) (by simp)
  child n k m l hn hl := (Classes.lookup_nodes hn hl).2 m (by simp)
  put n k m m' l hn hl hm' hc := by
    have h := Classes.lookup_nodes hn hl
    cases n with
    | mk cl items =>
      refine Classes.put hn ?_ ?_
      · intro l' hl' f' hf' x hx
        cases hl'
        rcases List.mem_cons.1 hx with rfl | hx
        · rw [hc]; exact h.1 f' hf' m (by simp)
        · exact h.1 f' hf' x (by simp [hx])
      · intro l' hl' x hx
        cases hl'
        rcases List.mem_cons.1 hx with rfl | hx
        · exact hm'
        · exact h.2 x (by simp [hx])

/-! ### What assignments leave alone -/

theorem lookup_addLeaf_ne (vs : Validators K V R O) {k q : Key} (hq : q ≠ k) (kind : K) (n : Node V)
    (r : R) : lookup q (addLeaf vs k kind n r).1.items = lookup q n.items := by
  unfold addLeaf
  simp only
  split
  · exact lookup_dictSet_ne hq _ _
  · rfl

theorem lookup_addNode_ne {k q : Key} (hq : q ≠ k) (n m : Node V) :
    lookup q (addNode k n m).items = lookup q n.items := lookup_dictSet_ne hq _ _

theorem setLoop_ne (S : Schema K) (vs : Validators K V R O) (asRaw : Arg V R → R) {key q : Key}
    (hq : q ≠ key) (f : Field K) : ∀ (as : List (Arg V R)) (n : Node V),
    lookup q (setLoop S vs asRaw key f as n).1.items = lookup q n.items
  | [], n => by rw [setLoop]
  | a :: as, n => by
    rw [setLoop]
    split
    · rfl
    · split
      · split
        · rename_i n' h
          rw [setLoop_ne S vs asRaw hq f as n']
          have h2 := congrArg (fun x => lookup q x.1.items) h
          simp only [lookup_addLeaf_ne vs hq] at h2
          exact h2.symm
        · rename_i n' e h
          have h2 := congrArg (fun x => lookup q x.1.items) h
          simp only [lookup_addLeaf_ne vs hq] at h2
          exact h2.symm
      · split
        · rw [setLoop_ne S vs asRaw hq f as _, lookup_addNode_ne hq]
        · rfl

/-- A single-valued field that is set refuses every further value. -/
theorem setLoop_blocked (S : Schema K) (vs : Validators K V R O) (asRaw : Arg V R → R) {key : Key}
    {f : Field K} {n : Node V} (hb : blocked f n key = true) :
    ∀ (as : List (Arg V R)), setLoop S vs asRaw key f as n =
      (n, if as = [] then none else some .valueError)
  | [] => by rw [setLoop]; simp
  | a :: as => by rw [setLoop, if_pos hb]; simp

/-- The first instance of a nested field stays first. -/
theorem setLoop_first (S : Schema K) (vs : Validators K V R O) (asRaw : Arg V R → R) {key : Key}
    {f : Field K} {c : Cls} (ht : f.type = .sub c) {m : Node V} :
    ∀ (as : List (Arg V R)) (n : Node V) (l : List (Node V)),
      lookup key n.items = some (.nodes (m :: l)) →
      ∃ l', lookup key (setLoop S vs asRaw key f as n).1.items = some (.nodes (m :: l'))
  | [], n, l, h => by rw [setLoop]; exact ⟨l, h⟩
  | a :: as, n, l, h => by
    rw [setLoop]
    split
    · exact ⟨l, h⟩
    · split
      · rename_i kind hk; rw [ht] at hk; cases hk
      · split
        · rename_i child _
          refine setLoop_first S vs asRaw ht as _ (l ++ [child]) ?_
          unfold addNode
          simp only [h]
          exact lookup_dictSet_self ..
        · exact ⟨l, h⟩

/-- A failing assignment is the assignment of the values before the failing one. -/
theorem setLoop_prefix (S : Schema K) (vs : Validators K V R O) (asRaw : Arg V R → R) {key : Key}
    {f : Field K} : ∀ (as : List (Arg V R)) (n n' : Node V) (e : PyErr),
    setLoop S vs asRaw key f as n = (n', some e) →
    ∃ pre a post, as = pre ++ a :: post ∧ setLoop S vs asRaw key f pre n = (n', none) ∧
      setLoop S vs asRaw key f [a] n' = (n', some e)
  | [], n, n', e, h => by rw [setLoop] at h; cases h
  | a :: as, n, n', e, h => by
    rw [setLoop] at h
    split at h
    · rename_i hb
      cases h
      refine ⟨[], a, as, rfl, by rw [setLoop], ?_⟩
      rw [setLoop, if_pos hb]
    · rename_i hb
      have hsplit : ∀ n1, setLoop S vs asRaw key f as n1 = (n', some e) →
          (∀ l, setLoop S vs asRaw key f (a :: l) n = setLoop S vs asRaw key f l n1) →
          ∃ pre b post, a :: as = pre ++ b :: post ∧ setLoop S vs asRaw key f pre n = (n', none) ∧
            setLoop S vs asRaw key f [b] n' = (n', some e) := by
        intro n1 h1 h2
        obtain ⟨pre, b, post, rfl, h3, h4⟩ := setLoop_prefix S vs asRaw as n1 n' e h1
        exact ⟨a :: pre, b, post, rfl, by rw [h2, h3], h4⟩
      split at h
      · rename_i kind ht
        split at h
        · rename_i n1 h1
          refine hsplit n1 h ?_
          intro l
          rw [setLoop, if_neg hb]
          simp only [ht, h1]
        · rename_i n1 e1 h1
          cases h
          have hn : n' = n := by
            unfold addLeaf at h1
            simp only at h1
            split at h1
            · cases h1
            · cases h1; rfl
          subst hn
          refine ⟨[], a, as, rfl, by rw [setLoop], ?_⟩
          rw [setLoop, if_neg hb]
          simp only [ht, h1]
      · rename_i c ht
        split at h
        · rename_i child hc
          refine hsplit _ h ?_
          intro l
          rw [setLoop, if_neg hb]
          simp only [ht, hc]
        · rename_i e1 h1
          cases h
          refine ⟨[], a, as, rfl, by rw [setLoop], ?_⟩
          rw [setLoop, if_neg hb]
          simp only [ht, h1]

/-! ### A set single-valued field keeps its value -/

/-- Under `path`, an instance of class `c` stores the validator object `v` under `k`. -/
def Holds (path : List Key) (k : Key) (c : Cls) (v : V) (n : Node V) : Prop :=
  ∃ m, nodeAt path n = some m ∧ m.cls = c ∧ lookup k m.items = some (.leaf v)

theorem setItem_holds {S : Schema K} (vs : Validators K V R O) (asRaw : Arg V R → R) {k : Key}
    {c : Cls} {v : V} {f : Field K} (hf : lookup k (S c) = some f) (hu : f.unique = true)
    (path : List Key) (n : Node V) (key : Key) (as : List (Arg V R)) (hw : WF S n)
    (h : Holds path k c v n) : Holds path k c v (setItem S vs asRaw n key as).1 := by
  unfold setItem
  split
  · exact h
  · rename_i key' _
    split
    · exact h
    · rename_i g hg
      obtain ⟨m, hm, hc, hl⟩ := h
      cases path with
      | nil =>
        simp only [nodeAt, Option.some.injEq] at hm
        subst hm
        refine ⟨_, rfl, by rw [setLoop_cls]; exact hc, ?_⟩
        by_cases hk : k = key'
        · subst hk
          rw [hc, hf] at hg
          cases hg
          rw [setLoop_blocked S vs asRaw (by simp [blocked, hu, hl, Val.truthy])]
          exact hl
        · rw [setLoop_ne S vs asRaw hk]; exact hl
      | cons q path =>
        simp only [nodeAt] at hm
        split at hm
        · rename_i m1 l1 hq
          by_cases hk : q = key'
          · subst hk
            obtain ⟨⟨g', hg', hs⟩, _⟩ := WF.lookup_nodes hw hq
            rw [hg] at hg'
            cases hg'
            obtain ⟨⟨c', ht⟩, _⟩ := hs
            obtain ⟨l', hl'⟩ := setLoop_first S vs asRaw ht as n l1 hq
            exact ⟨m, by simp only [nodeAt, hl']; exact hm, hc, hl⟩
          · have := setLoop_ne S vs asRaw hk g as n
            exact ⟨m, by simp only [nodeAt, this, hq]; exact hm, hc, hl⟩
        · cases hm

theorem getItem_ne {S : Schema K} {n : Node V} {k q : Key} (h : q ≠ k) :
    lookup q (getItem S n k).1.items = lookup q n.items := by
  unfold getItem
  repeat' split
  all_goals first | rfl | exact lookup_dictSet_ne h _ _

theorem getItem_present {S : Schema K} {n : Node V} {k : Key} {v : Val V}
    (h : lookup k n.items = some v) : (getItem S n k).1 = n := by
  unfold getItem
  split
  · rfl
  · split
    · rfl
    · split
      · split <;> rfl
      · rfl
    · rfl
    · rename_i h2 _; rw [h] at h2; cases h2

theorem modifyAt_holds {S : Schema K} (f : Node V → Node V × Option PyErr)
    (k : Key) (c : Cls) (v : V)
    (hf : ∀ path n, WF S n → Holds path k c v n → Holds path k c v (f n).1) :
    ∀ (ks path : List Key) (n : Node V), WF S n → Holds path k c v n →
      Holds path k c v (modifyAt S f ks n).1
  | [], path, n, hw, h => hf path n hw h
  | q :: ks, path, n, hw, h => by
    rw [modifyAt]
    obtain ⟨m, hm, hc, hl⟩ := h
    cases path with
    | nil =>
      simp only [nodeAt, Option.some.injEq] at hm
      subst hm
      have hk : ∀ n', (getItem S n q).1 = n' → n'.cls = n.cls ∧ lookup k n'.items = some (.leaf v) := by
        intro n' hn'
        subst hn'
        refine ⟨getItem_cls S n q, ?_⟩
        by_cases hkq : k = q
        · subst hkq; rw [getItem_present hl]; exact hl
        · rw [getItem_ne hkq]; exact hl
      split
      · rename_i n' e he
        have := hk n' (by rw [he])
        exact ⟨n', rfl, by rw [this.1, hc], this.2⟩
      · rename_i n' m' he
        have h1 := hk n' (by rw [he])
        obtain ⟨l, hl'⟩ := getItem_ok he
        refine ⟨_, rfl, by rw [setFirst_cls, h1.1, hc], ?_⟩
        simp only [setFirst, hl']
        have hkq : k ≠ q := by
          rintro rfl
          rw [h1.2] at hl'; cases hl'
        exact (lookup_dictSet_ne hkq _ _).trans h1.2
    | cons p path =>
      simp only [nodeAt] at hm
      split at hm
      · rename_i m1 l1 hp
        by_cases hpq : p = q
        · subst hpq
          have hn := getItem_present (S := S) hp
          split
          · rename_i n' e he
            rw [he] at hn; simp only at hn; subst hn
            exact ⟨m, by simp only [nodeAt, hp]; exact hm, hc, hl⟩
          · rename_i n' m' he
            rw [he] at hn; simp only at hn; subst hn
            obtain ⟨l, hl'⟩ := getItem_ok he
            rw [hp] at hl'
            cases hl'
            have hw1 : WF S m1 := (WF.lookup_nodes hw hp).2 m1 (by simp)
            obtain ⟨m2, hm2, hc2, hl2⟩ :=
              modifyAt_holds f k c v hf ks path m1 hw1 ⟨m, hm, hc, hl⟩
            simp only [setFirst, hp]
            refine ⟨m2, ?_, hc2, hl2⟩
            simp only [nodeAt, Node.items, lookup_dictSet_self]
            exact hm2
        · have hn := getItem_ne (S := S) (n := n) hpq
          split
          · rename_i n' e he
            rw [he] at hn
            simp only at hn
            exact ⟨m, by simp only [nodeAt, hn, hp]; exact hm, hc, hl⟩
          · rename_i n' m' he
            rw [he] at hn
            simp only at hn
            obtain ⟨l, hl'⟩ := getItem_ok he
            simp only [setFirst, hl']
            refine ⟨m, ?_, hc, hl⟩
            have h3 : lookup p (Node.mk n'.cls
                (dictSet q (.nodes ((modifyAt S f ks m').1 :: l)) n'.items)).items
                  = some (.nodes (m1 :: l1)) := by
              rw [← hp, ← hn]; exact lookup_dictSet_ne hpq _ _
            simp only [nodeAt, h3]
            exact hm
      · cases hm

theorem step_holds {S : Schema K} (vs : Validators K V R O) (asRaw : Arg V R → R) {k : Key}
    {c : Cls} {v : V} {f : Field K} (hf : lookup k (S c) = some f) (hu : f.unique = true)
    (path : List Key) (n : Node V) (op : Op V R) (hw : WF S n) (h : Holds path k c v n) :
    Holds path k c v (step S vs asRaw n op).1 := by
  cases op with
  | set p key as =>
    exact modifyAt_holds _ k c v
      (fun path n hw h => setItem_holds vs asRaw hf hu path n key as hw h) p path n hw h
  | read p => exact modifyAt_holds _ k c v (fun path n hw h => h) p path n hw h

theorem run_holds {S : Schema K} (vs : Validators K V R O) (asRaw : Arg V R → R) {k : Key}
    {c : Cls} {v : V} {f : Field K} (hf : lookup k (S c) = some f) (hu : f.unique = true)
    (path : List Key) (ops : List (Op V R))
    (hop : ∀ p k as, Op.set p k as ∈ ops → ∀ a ∈ as, ArgOk (WF S) a) :
    ∀ n : Node V, WF S n → Holds path k c v n → Holds path k c v (run S vs asRaw n ops) := by
  induction ops with
  | nil => intro n _ h; exact h
  | cons op ops ih =>
    intro n hw h
    refine ih (fun p k as h => hop p k as (by simp [h])) _ ?_ ?_
    · exact step_stable (wf_stable S) (wf_stablePath S) vs asRaw n op
        (fun p k as h => hop p k as (by simp [h])) hw
    · exact step_holds vs asRaw hf hu path n op hw h

/-! ### Writing -/

theorem mandatoryOk_iff (S : List (Key × Field K)) (items : List (Key × Val V)) :
    mandatoryOk S items = true ↔
      ∀ k f, (k, f) ∈ S → f.mandatory = true → ∃ v, (k, v) ∈ items := by
  unfold mandatoryOk
  rw [List.all_eq_true]
  constructor
  · intro h k f hm hmand
    have := h (k, f) hm
    simp only [hmand, Bool.not_true, Bool.false_or] at this
    exact lookup_isSome_iff.1 this
  · rintro h ⟨k, f⟩ hm
    cases hmand : f.mandatory with
    | false => simp [hmand]
    | true => simp only [hmand, Bool.not_true, Bool.false_or]; exact lookup_isSome_iff.2 (h k f hm hmand)

/-- What a stored value is written as. -/
def WrittenVal (S : Schema K) (vs : Validators K V R O) : Val V → Out O → Prop
  | .leaf v, o => ∃ x, vs.fin v = .ok x ∧ o = .leaf x
  | .nodes l, o => ∃ os, o = .list os ∧ List.Forall₂ (fun m o => getDict S vs m = .ok o) l os

theorem getNodes_ok (S : Schema K) (vs : Validators K V R O) :
    ∀ (l : List (Node V)) (os : List (Out O)),
      getNodes S vs l = .ok os ↔ List.Forall₂ (fun m o => getDict S vs m = .ok o) l os
  | [], os => by
    rw [getNodes]
    simp only [List.forall₂_nil_left_iff, Except.ok.injEq]
    exact eq_comm
  | n :: l, os => by
    rw [getNodes, List.forall₂_cons_left_iff]
    constructor
    · intro h
      split at h
      · cases h
      · rename_i o ho
        split at h
        · cases h
        · rename_i os' hos
          cases h
          exact ⟨o, os', ho, (getNodes_ok S vs l os').1 hos, rfl⟩
    · rintro ⟨o, os', ho, hos, rfl⟩
      rw [ho, (getNodes_ok S vs l os').2 hos]

theorem getVal_ok (S : Schema K) (vs : Validators K V R O) (v : Val V) (o : Out O) :
    getVal S vs v = .ok o ↔ WrittenVal S vs v o := by
  cases v with
  | leaf v =>
    rw [getVal, WrittenVal]
    cases vs.fin v with
    | error e => simp
    | ok x => simp [eq_comm]
  | nodes l =>
    rw [getVal, WrittenVal]
    constructor
    · intro h
      split at h
      · cases h
      · rename_i os hos
        cases h
        exact ⟨os, rfl, (getNodes_ok S vs l os).1 hos⟩
    · rintro ⟨os, rfl, h⟩
      rw [(getNodes_ok S vs l os).2 h]

theorem getItems_ok (S : Schema K) (vs : Validators K V R O) :
    ∀ (l : List (Key × Val V)) (os : List (Key × Out O)),
      getItems S vs l = .ok os ↔
        List.Forall₂ (fun e o => e.1 = o.1 ∧ WrittenVal S vs e.2 o.2) l os
  | [], os => by
    rw [getItems]
    simp only [List.forall₂_nil_left_iff, Except.ok.injEq]
    exact eq_comm
  | (k, v) :: l, os => by
    rw [getItems, List.forall₂_cons_left_iff]
    constructor
    · intro h
      split at h
      · cases h
      · rename_i o ho
        split at h
        · cases h
        · rename_i os' hos
          cases h
          exact ⟨(k, o), os', ⟨rfl, (getVal_ok S vs v o).1 ho⟩, (getItems_ok S vs l os').1 hos, rfl⟩
    · rintro ⟨⟨k', o⟩, os', ⟨rfl, ho⟩, hos, rfl⟩
      rw [(getVal_ok S vs v o).2 ho, (getItems_ok S vs l os').2 hos]

theorem forall₂_exists {α β : Type} {r : α → β → Prop} {l : List α} :
    (∃ os, List.Forall₂ r l os) ↔ ∀ a ∈ l, ∃ o, r a o := by
  induction l with
  | nil => simp
  | cons a l ih =>
    simp only [List.forall₂_cons_left_iff, List.mem_cons, forall_eq_or_imp]
    constructor
    · rintro ⟨os, o, os', h1, h2, rfl⟩
      exact ⟨⟨o, h1⟩, ih.1 ⟨os', h2⟩⟩
    · rintro ⟨⟨o, h1⟩, h2⟩
      obtain ⟨os, h3⟩ := ih.2 h2
      exact ⟨o :: os, o, os, h1, h3, rfl⟩

theorem forall₂_mem_right {α β : Type} {r : α → β → Prop} {l : List α} {os : List β}
    (h : List.Forall₂ r l os) : ∀ o ∈ os, ∃ a ∈ l, r a o := by
  induction h with
  | nil => simp
  | cons h1 _ ih =>
    intro o ho
    rcases List.mem_cons.1 ho with rfl | ho
    · exact ⟨_, by simp, h1⟩
    · obtain ⟨a, ha, hr⟩ := ih o ho
      exact ⟨a, by simp [ha], hr⟩

theorem mapM_some_iff {α β : Type} (g : α → Option β) :
    ∀ (l : List α) (os : List β), l.mapM g = some os ↔ List.Forall₂ (fun a o => g a = some o) l os
  | [], os => by
    simp only [List.mapM_nil, List.forall₂_nil_left_iff]
    exact ⟨fun h => (Option.some.inj h).symm, fun h => by rw [h]; rfl⟩
  | a :: l, os => by
    rw [List.mapM_cons, List.forall₂_cons_left_iff]
    cases ha : g a with
    | none => simp
    | some o =>
      cases hl : l.mapM g with
      | none =>
        simp only [Option.bind_eq_bind, Option.bind_some, Option.bind_none, reduceCtorEq,
          Option.some.injEq, false_iff]
        rintro ⟨o', os', rfl, h, rfl⟩
        rw [(mapM_some_iff g l os').2 h] at hl
        cases hl
      | some os1 =>
        simp only [Option.bind_eq_bind, Option.bind_some, Option.some.injEq]
        constructor
        · intro h
          exact ⟨o, os1, rfl, (mapM_some_iff g l os1).1 hl, (Option.some.inj h).symm⟩
        · rintro ⟨o', os', rfl, h, rfl⟩
          rw [(mapM_some_iff g l os').2 h] at hl
          cases hl
          rfl

theorem assemble_ok_of_known {vs : Validators K V R O} {S : List (Key × Field K)}
    {l : List (Key × Out O)} (h : ∀ e ∈ l, ∃ f, lookup e.1 S = some f) :
    ∃ o, assemble vs S l = .ok o := by
  unfold assemble
  have : ∃ es, (sortBy (orderLe S) l).mapM (entry vs S) = some es := by
    simp only [mapM_some_iff]
    rw [forall₂_exists]
    intro e he
    obtain ⟨f, hf⟩ := h e ((mem_sortBy _).1 he)
    exact ⟨_, by rw [entry, hf]; rfl⟩
  obtain ⟨es, hes⟩ := this
  rw [hes]
  exact ⟨_, rfl⟩

theorem getDict_ok_iff (S : Schema K) (vs : Validators K V R O) {n : Node V} (hw : WF S n) :
    (∃ o, getDict S vs n = .ok o) ↔ Complete S vs n := by
  induction hw with
  | @mk c items known nodup deep ih =>
    have hval : ∀ k v, (k, v) ∈ items → ((∃ o, WrittenVal S vs v o) ↔
        ((∀ x, v = .leaf x → ∃ o, vs.fin x = .ok o) ∧
          (∀ l, v = .nodes l → ∀ m ∈ l, Complete S vs m))) := by
      intro k v hv
      cases v with
      | leaf x =>
        simp only [WrittenVal, Val.leaf.injEq, reduceCtorEq, IsEmpty.forall_iff, implies_true,
          and_true, forall_eq']
        constructor
        · rintro ⟨o, y, h, _⟩; exact ⟨y, h⟩
        · rintro ⟨y, h⟩; exact ⟨_, y, h, rfl⟩
      | nodes l =>
        simp only [WrittenVal, Val.nodes.injEq, reduceCtorEq, IsEmpty.forall_iff, implies_true,
          true_and, forall_eq']
        constructor
        · rintro ⟨o, os, _, h⟩ m hm
          exact (ih k l hv m hm).1 (forall₂_exists.1 ⟨os, h⟩ m hm)
        · intro h
          obtain ⟨os, hos⟩ := forall₂_exists.2 (fun m hm => (ih k l hv m hm).2 (h m hm))
          exact ⟨_, os, rfl, hos⟩
    rw [getDict]
    constructor
    · rintro ⟨o, h⟩
      split at h
      · rename_i hm
        split at h
        · cases h
        · rename_i l hl
          have h1 : ∀ e ∈ items, ∃ o : Key × Out O, e.1 = o.1 ∧ WrittenVal S vs e.2 o.2 :=
            forall₂_exists.1 ⟨l, (getItems_ok S vs items l).1 hl⟩
          have h2 : ∀ k v, (k, v) ∈ items → ∃ o, WrittenVal S vs v o := by
            intro k v hv
            obtain ⟨o, _, ho⟩ := h1 _ hv
            exact ⟨_, ho⟩
          refine .mk ((mandatoryOk_iff _ _).1 hm) ?_ ?_
          · intro k v hv
            exact ((hval k _ hv).1 (h2 k _ hv)).1 v rfl
          · intro k l' hv
            exact ((hval k _ hv).1 (h2 k _ hv)).2 l' rfl
      · cases h
    · intro h
      cases h with
      | mk mand leaf deep' =>
        rw [if_pos ((mandatoryOk_iff _ _).2 mand)]
        have h1 : ∀ e ∈ items, ∃ o : Key × Out O, e.1 = o.1 ∧ WrittenVal S vs e.2 o.2 := by
          rintro ⟨k, v⟩ hv
          obtain ⟨o, ho⟩ := (hval k v hv).2
            ⟨fun x hx => leaf k x (hx ▸ hv), fun l hl => deep' k l (hl ▸ hv)⟩
          exact ⟨(k, o), rfl, ho⟩
        obtain ⟨os, hos⟩ := forall₂_exists.2 h1
        rw [(getItems_ok S vs items os).2 hos]
        refine assemble_ok_of_known ?_
        intro e he
        obtain ⟨a, ha, hr⟩ := forall₂_mem_right hos e he
        obtain ⟨f, hf, _⟩ := known a.1 a.2 ha
        exact ⟨f, by rw [← hr.1]; exact hf⟩

/-! ### Order of the written entries -/

/-- Appending pairs with distinct new names. -/
theorem foldl_dictSet_nodup {α : Type} :
    ∀ (es d : List (Str × α)), ((d ++ es).map Prod.fst).Nodup →
      es.foldl (fun d e => dictSet e.1 e.2 d) d = d ++ es
  | [], d, _ => by simp
  | e :: es, d, h => by
    have happ : dictSet e.1 e.2 d = d ++ [e] := by
      have hne : e.1 ∉ d.map Prod.fst := by
        rw [List.map_append, List.nodup_append] at h
        intro hm
        exact h.2.2 _ hm e.1 (by simp) rfl
      clear h
      induction d with
      | nil => rfl
      | cons x d ih =>
        obtain ⟨k', v'⟩ := x
        simp only [List.map_cons, List.mem_cons, not_or] at hne
        simp only [dictSet, if_neg (Ne.symm hne.1), ih hne.2, List.cons_append]
    rw [List.foldl_cons, happ, foldl_dictSet_nodup es (d ++ [e]) (by simpa using h)]
    simp

theorem forall₂_perm {α β : Type} {r : α → β → Prop} {l : List α} {os os' : List β}
    (h : List.Forall₂ r l os) (hp : os'.Perm os) : ∃ l', l'.Perm l ∧ List.Forall₂ r l' os' := by
  induction hp generalizing l with
  | nil => cases h; exact ⟨[], .nil, .nil⟩
  | cons x _ ih =>
    cases h with
    | cons h1 h2 =>
      obtain ⟨l', hl', hr⟩ := ih h2
      exact ⟨_ :: l', hl'.cons _, .cons h1 hr⟩
  | swap x y l2 =>
    cases h with
    | cons h1 h2 =>
      cases h2 with
      | cons h3 h4 => exact ⟨_, List.Perm.swap .., .cons h3 (.cons h1 h4)⟩
  | trans _ _ ih1 ih2 =>
    obtain ⟨l1, hl1, hr1⟩ := ih2 h
    obtain ⟨l2, hl2, hr2⟩ := ih1 hr1
    exact ⟨l2, hl2.trans hl1, hr2⟩

end Verif.DotDict
