/-
Properties of the data set tree (C16-C20, C47, C48).
-/
import Verif.Lemmas.DotDict
import Mathlib.Tactic.FinCases

namespace Verif.DotDict

variable {K V R O : Type}

/-! A small format and validator used by the examples: a data set `A` with a mandatory single-valued
name, repeatable tags, a single-valued group `B` and repeatable groups `B`. -/
namespace Ex

def fieldsA : List (Key × Field Unit) := [
  (c!"tag", ⟨.leaf (), false, 2, false, none, none⟩),
  (c!"name", ⟨.leaf (), true, 1, true, some c!"attribute", none⟩),
  (c!"group", ⟨.sub c!"B", false, 3, true, none, none⟩),
  (c!"list", ⟨.sub c!"B", false, 4, false, some c!"nms:common", none⟩)]
def fieldsB : List (Key × Field Unit) := [(c!"val", ⟨.leaf (), true, 1, true, none, none⟩)]
def S : Schema Unit := fun c => if c = c!"A" then fieldsA else if c = c!"B" then fieldsB else []
/-- Numbers below 100, collected. -/
def vs : Validators Unit (List Nat) Nat (List Nat) where
  init _ := []
  add _ v r := if r < 100 then .ok (v ++ [r]) else .error .valueError
  fin v := .ok v
  str o := o
def asRaw : Arg (List Nat) Nat → Nat
  | .raw r => r
  | _ => 1000
def root : Node (List Nat) := .mk c!"A" []
end Ex

/-! ### C16 -/

/-- **C16.** Assigning to a field the class does not have raises AttributeError and changes
nothing. -/
theorem unknown_field_rejected (S : Schema K) (vs : Validators K V R O) (asRaw : Arg V R → R)
    (n : Node V) (k key : Key) (as : List (Arg V R)) (hk : normKey k = some key)
    (hun : ∀ f, (key, f) ∉ S n.cls) :
    setItem S vs asRaw n k as = (n, some .attributeError) := by
  have : lookup key (S n.cls) = none := by
    cases h : lookup key (S n.cls) with
    | none => rfl
    | some f => exact absurd (mem_of_lookup h) (hun f)
  unfold setItem
  simp only [hk, this]

example : setItem Ex.S Ex.vs Ex.asRaw (.mk c!"A" [(c!"name", .leaf [3])]) c!"@colour" [.raw 5]
    = (.mk c!"A" [(c!"name", .leaf [3])], some .attributeError) :=
  unknown_field_rejected _ _ _ _ _ c!"colour" _ rfl (by simp [Ex.S, Ex.fieldsA, Node.cls])

/-- **C16.** Whatever sequence of assignments and reads is executed, also after caught exceptions,
the data set only holds fields of the format, each at most once, with the shape the format
prescribes, at every depth. -/
theorem only_known_fields (S : Schema K) (vs : Validators K V R O) (asRaw : Arg V R → R) (c : Cls)
    (ops : List (Op V R)) (hops : ∀ op ∈ ops, OpOk (WF S) op) :
    WF S (run S vs asRaw (.mk c []) ops) :=
  run_stable (wf_stable S) (wf_stablePath S) vs asRaw ops
    (fun p k as h => hops _ h) _ (.mk (by simp) (by simp) (by simp))

example : ∀ op ∈ [Op.set [] c!"name" [Arg.raw 3], .set [c!"group"] c!"val" [.raw 500],
    .set [] c!"list" [.dict [(c!"val", [.raw 7])]], .set [] c!"colour" [.raw 1]],
    OpOk (V := List Nat) (R := Nat) (WF Ex.S) op := by
  intro op hop
  fin_cases hop
  all_goals
    intro a ha
    fin_cases ha
  · exact .raw _
  · exact .raw _
  · refine .dict _ ?_
    intro k as h a ha
    simp only [List.mem_singleton, Prod.mk.injEq] at h
    obtain ⟨rfl, rfl⟩ := h
    fin_cases ha
    exact .raw _
  · exact .raw _

/-- **C16.** `None` given to a group of fields does not leave the group out: an empty instance of
the class of the format is stored. -/
theorem absent_group_is_empty (S : Schema K) (vs : Validators K V R O) (asRaw : Arg V R → R)
    (n : Node V) (k key : Key) (f : Field K) (c : Cls) (hk : normKey k = some key)
    (hf : lookup key (S n.cls) = some f) (hc : f.type = .sub c) (hl : lookup key n.items = none) :
    ∃ n', setItem S vs asRaw n k [.absent] = (n', none) ∧
      lookup key n'.items = some (.nodes [.mk c []]) := by
  refine ⟨addNode key n (.mk c []), ?_, ?_⟩
  · unfold setItem
    simp only [hk, hf]
    rw [setLoop]
    simp [blocked, hl, hc, construct, setLoop]
  · have : addNode key n (.mk c []) = .mk n.cls (dictSet key (.nodes [.mk c []]) n.items) := by
      simp [addNode, hl]
    rw [this]
    exact lookup_dictSet_self ..

example : ∃ n', setItem Ex.S Ex.vs Ex.asRaw Ex.root c!"group" [.absent] = (n', none) ∧
    lookup c!"group" n'.items = some (.nodes [.mk c!"B" []]) :=
  absent_group_is_empty _ _ _ _ _ _ ⟨.sub c!"B", false, 3, true, none, none⟩ _ rfl (by decide) rfl rfl

/-! ### C17 -/

/-- **C17.** A single-valued field that has a value keeps that value, at any depth, through any
sequence of assignments and reads. -/
theorem single_value_kept (S : Schema K) (vs : Validators K V R O) (asRaw : Arg V R → R)
    (n : Node V) (hn : WF S n) (ops : List (Op V R)) (hops : ∀ op ∈ ops, OpOk (WF S) op)
    (path : List Key) (k : Key) (m : Node V) (f : Field K) (v : V) (hm : nodeAt path n = some m)
    (hf : lookup k (S m.cls) = some f) (hu : f.unique = true)
    (hv : lookup k m.items = some (.leaf v)) :
    leafAt path k (run S vs asRaw n ops) = some v := by
  obtain ⟨m', h1, _, h3⟩ := run_holds vs asRaw hf hu path ops (fun p k as h => hops _ h) n hn
    ⟨m, hm, rfl, hv⟩
  simp only [leafAt, h1, h3]

/-- **C17.** Giving a second value to a single-valued field raises ValueError and changes
nothing. -/
theorem second_value_rejected (S : Schema K) (vs : Validators K V R O) (asRaw : Arg V R → R)
    (n : Node V) (k key : Key) (f : Field K) (v : Val V) (a : Arg V R) (as : List (Arg V R))
    (hw : WF S n) (hk : normKey k = some key) (hf : lookup key (S n.cls) = some f)
    (hu : f.unique = true) (hv : lookup key n.items = some v) :
    setItem S vs asRaw n k (a :: as) = (n, some .valueError) := by
  have ht : v.truthy = true := by
    cases v with
    | leaf _ => rfl
    | nodes l =>
      obtain ⟨⟨f', _, hs⟩, _⟩ := WF.lookup_nodes hw hv
      have := hs.2.1
      simpa [Val.truthy] using this
  unfold setItem
  simp only [hk, hf]
  rw [setLoop_blocked S vs asRaw (by simp [blocked, hu, hv, ht])]
  simp

/-- **C17.** Two values given at once to a single-valued field are refused as well. -/
theorem two_values_rejected (S : Schema K) (vs : Validators K V R O) (asRaw : Arg V R → R)
    (n : Node V) (k key : Key) (f : Field K) (a b : Arg V R) (as : List (Arg V R))
    (hk : normKey k = some key) (hf : lookup key (S n.cls) = some f) (hu : f.unique = true) :
    ∃ e, (setItem S vs asRaw n k (a :: b :: as)).2 = some e := by
  unfold setItem
  simp only [hk, hf]
  rw [setLoop]
  split
  · exact ⟨_, rfl⟩
  · split
    · split
      · rename_i n' h
        have hl : ∃ v, lookup key n'.items = some (.leaf v) := by
          unfold addLeaf at h
          simp only at h
          split at h
          · cases h; exact ⟨_, lookup_dictSet_self ..⟩
          · cases h
        obtain ⟨v, hl⟩ := hl
        rw [setLoop_blocked S vs asRaw (by simp [blocked, hu, hl, Val.truthy])]
        exact ⟨_, rfl⟩
      · exact ⟨_, rfl⟩
    · split
      · rename_i child _
        have hl : ∃ l, lookup key (addNode key n child).items = some (.nodes (l ++ [child])) :=
          ⟨_, lookup_dictSet_self ..⟩
        obtain ⟨l, hl⟩ := hl
        rw [setLoop_blocked S vs asRaw (by simp [blocked, hu, hl, Val.truthy])]
        exact ⟨_, rfl⟩
      · exact ⟨_, rfl⟩

theorem exampleTree_wf :
    WF Ex.S (.mk c!"A" [(c!"group", .nodes [.mk c!"B" [(c!"val", .leaf [8])]])] : Node (List Nat)) := by
  refine .mk ?_ (by simp) ?_
  · intro k v h
    simp only [List.mem_singleton, Prod.mk.injEq] at h
    obtain ⟨rfl, rfl⟩ := h
    exact ⟨_, rfl, ⟨_, rfl⟩, by simp, by simp⟩
  · intro k l h
    simp only [List.mem_singleton, Prod.mk.injEq, Val.nodes.injEq] at h
    obtain ⟨rfl, rfl⟩ := h
    intro m hm
    simp only [List.mem_singleton] at hm
    subst hm
    refine .mk ?_ (by simp) (by simp)
    intro k v h
    simp only [List.mem_singleton, Prod.mk.injEq] at h
    obtain ⟨rfl, rfl⟩ := h
    exact ⟨_, rfl, (), rfl⟩

example : ∀ ops : List (Op (List Nat) Nat), (∀ op ∈ ops, OpOk (WF Ex.S) op) →
    leafAt [c!"group"] c!"val" (run Ex.S Ex.vs Ex.asRaw
      (.mk c!"A" [(c!"group", .nodes [.mk c!"B" [(c!"val", .leaf [8])]])]) ops) = some [8] := by
  intro ops h
  exact single_value_kept Ex.S Ex.vs Ex.asRaw _ exampleTree_wf ops h [c!"group"] c!"val" _ _ [8]
    rfl rfl rfl rfl

/-! ### C18 -/

/-- **C18 is false of the code** for an assignment of several values: the values before the failing
one stay in the data set. -/
theorem failed_assignment_leaves_values :
    ∃ (n n' : Node (List Nat)) (k : Key) (as : List (Arg (List Nat) Nat)) (e : PyErr),
      setItem Ex.S Ex.vs Ex.asRaw n k as = (n', some e) ∧
      lookup k n.items = none ∧ ∃ v, lookup k n'.items = some (.leaf v) :=
  ⟨Ex.root, .mk c!"A" [(c!"tag", .leaf [5])], c!"tag", [.raw 5, .raw 500], .valueError,
    by rfl, by rfl, [5], by rfl⟩

/-- **C18, partial.** Full statement: an assignment that raises leaves the data set unchanged. This
holds for an assignment of a single value; what happens in general is `failed_assignment_prefix`. -/
theorem failed_assignment_unchanged_partial (S : Schema K) (vs : Validators K V R O)
    (asRaw : Arg V R → R) (n n' : Node V) (k : Key) (a : Arg V R) (e : PyErr)
    (h : setItem S vs asRaw n k [a] = (n', some e)) : n' = n := by
  unfold setItem at h
  split at h
  · cases h; rfl
  · split at h
    · cases h; rfl
    · obtain ⟨pre, b, post, heq, h1, _⟩ := setLoop_prefix S vs asRaw [a] n n' e h
      have : pre = [] := by
        cases pre with
        | nil => rfl
        | cons x pre => simp at heq
      subst this
      rw [setLoop] at h1
      cases h1; rfl

/-- **C18.** In general a failing assignment has exactly the effect of assigning the values before
the first one that is refused. -/
theorem failed_assignment_prefix (S : Schema K) (vs : Validators K V R O) (asRaw : Arg V R → R)
    (n n' : Node V) (k : Key) (as : List (Arg V R)) (e : PyErr)
    (h : setItem S vs asRaw n k as = (n', some e)) :
    n' = n ∨ ∃ pre a post, as = pre ++ a :: post ∧ setItem S vs asRaw n k pre = (n', none) ∧
      setItem S vs asRaw n' k [a] = (n', some e) := by
  have hc : n'.cls = n.cls := by
    have := setItem_cls S vs asRaw n k as
    rw [h] at this
    exact this
  unfold setItem at h ⊢
  rw [hc]
  split at h
  · cases h; exact .inl rfl
  · split at h
    · cases h; exact .inl rfl
    · rename_i f hf
      obtain ⟨pre, b, post, heq, h1, h2⟩ := setLoop_prefix S vs asRaw as n n' e h
      rename_i key hk
      exact .inr ⟨pre, b, post, heq, h1, h2⟩

example : setItem Ex.S Ex.vs Ex.asRaw Ex.root c!"tag" [.raw 500] = (Ex.root, some .valueError) := by
  rfl

example : setItem Ex.S Ex.vs Ex.asRaw Ex.root c!"list"
    [.dict [(c!"val", [.raw 5])], .dict [(c!"val", [.raw 5, .raw 6])], .raw 3]
    = (.mk c!"A" [(c!"list", .nodes [.mk c!"B" [(c!"val", .leaf [5])]])], some .valueError) := by
  rfl

/-! ### C19 -/

/-- **C19.** A data set is written exactly if, at every depth, every mandatory field of every group
that is present is present and every value passes its final check. -/
theorem written_iff_complete (S : Schema K) (vs : Validators K V R O) (asRaw : Arg V R → R) (c : Cls)
    (ops : List (Op V R)) (hops : ∀ op ∈ ops, OpOk (WF S) op) :
    (∃ o, getDict S vs (run S vs asRaw (.mk c []) ops) = .ok o) ↔
      Complete S vs (run S vs asRaw (.mk c []) ops) :=
  getDict_ok_iff S vs (only_known_fields S vs asRaw c ops hops)

/-- **C19.** A missing mandatory field of the data set itself is an AttributeError, whatever else is
wrong with the data set. -/
theorem missing_mandatory (S : Schema K) (vs : Validators K V R O) (c : Cls)
    (items : List (Key × Val V)) (k : Key) (f : Field K) (hf : (k, f) ∈ S c)
    (hm : f.mandatory = true) (hk : ∀ v, (k, v) ∉ items) :
    getDict S vs (.mk c items) = .error .attributeError := by
  rw [getDict, if_neg]
  intro h
  obtain ⟨v, hv⟩ := (mandatoryOk_iff _ _).1 h k f hf hm
  exact hk v hv

example : (∃ o, getDict Ex.S Ex.vs (run Ex.S Ex.vs Ex.asRaw Ex.root
    [.set [] c!"name" [.raw 3], .set [c!"group"] c!"val" [.raw 8]]) = .ok o) := by
  exact ⟨.dict [(c!"@name", .leaf [3]), (c!"group", .list [.dict [(c!"val", .leaf [8])]])], by rfl⟩

example : getDict Ex.S Ex.vs (.mk c!"A" [(c!"tag", .leaf [4])]) = .error .attributeError :=
  missing_mandatory Ex.S Ex.vs c!"A" _ c!"name" ⟨.leaf (), true, 1, true, some c!"attribute", none⟩
    (by simp [Ex.S, Ex.fieldsA]) rfl (by simp)

/-! ### C20 -/

theorem xmlName_getName {k : Key} {f : Field K} {name : Str} (h : XmlName k f name) :
    getName k f = name := by
  cases h <;> simp_all [getName]

/-- How a stored field appears in the written data set: under its XML name, with the written form of
its value. -/
def EntryOf (S : Schema K) (vs : Validators K V R O) (fields : List (Key × Field K))
    (e : Key × Val V) (w : Str × Out O) : Prop :=
  ∃ f, lookup e.1 fields = some f ∧ XmlName e.1 f w.1 ∧
    match e.2 with
    | .leaf v => ∃ x, vs.fin v = .ok x ∧
        w.2 = .leaf (if f.xmlType = some c!"text" then vs.str x else x)
    | .nodes l => ∃ os, w.2 = .list os ∧ List.Forall₂ (fun m o => getDict S vs m = .ok o) l os

/-- The XML names of a class are defined and distinct. -/
def GoodNames (fields : List (Key × Field K)) : Prop :=
  (∀ k f, lookup k fields = some f → ∃ name, XmlName k f name) ∧
  ∀ k f k' f' name, lookup k fields = some f → lookup k' fields = some f' →
    XmlName k f name → XmlName k' f' name → k = k'

/-- **C20.** The written form of a group lists exactly its stored fields, each under its XML name,
sorted by the order numbers of the format; instances of a repeated group keep their order. -/
theorem written_in_order (S : Schema K) (vs : Validators K V R O) (c : Cls)
    (items : List (Key × Val V)) (o : Out O) (hnd : (items.map Prod.fst).Nodup)
    (hg : GoodNames (S c)) (h : getDict S vs (.mk c items) = .ok o) :
    ∃ items' es, o = .dict es ∧ items'.Perm items ∧
      items'.Pairwise (fun a b => orderOf (S c) a.1 ≤ orderOf (S c) b.1) ∧
      List.Forall₂ (EntryOf S vs (S c)) items' es := by
  rw [getDict] at h
  split at h
  · split at h
    · cases h
    · rename_i l hl
      have hl' := (getItems_ok S vs items l).1 hl
      unfold assemble at h
      split at h
      · cases h
      · rename_i es hes
        cases h
        have hes' := (mapM_some_iff _ _ _).1 hes
        obtain ⟨items', hperm, hf2⟩ := forall₂_perm hl' (sortBy_perm (orderLe (S c)) l)
        have hentry : List.Forall₂ (EntryOf S vs (S c)) items' es := by
          clear hperm hes hl hl'
          generalize sortBy (orderLe (S c)) l = sl at hf2 hes'
          induction hf2 generalizing es with
          | nil => cases hes'; exact .nil
          | @cons a b _ _ h1 _ ih =>
            cases hes' with
            | cons h2 h3 =>
              refine .cons ?_ (ih _ h3)
              obtain ⟨hk, hw⟩ := h1
              unfold entry at h2
              rw [Option.map_eq_some_iff] at h2
              obtain ⟨f, hf, rfl⟩ := h2
              obtain ⟨name, hname⟩ := hg.1 _ _ hf
              refine ⟨f, by rw [hk]; exact hf, ?_, ?_⟩
              · rw [hk]
                simp only [xmlName_getName hname]
                exact hname
              · obtain ⟨ak, av⟩ := a
                cases av with
                | leaf v =>
                  simp only [WrittenVal] at hw
                  obtain ⟨x, hx, hb⟩ := hw
                  refine ⟨x, hx, ?_⟩
                  simp only [hb]
                  split <;> rfl
                | nodes l =>
                  simp only [WrittenVal] at hw
                  obtain ⟨os, hb, hos⟩ := hw
                  refine ⟨os, ?_, hos⟩
                  simp only [hb]
                  split <;> rfl
        refine ⟨items', es, ?_, hperm, ?_, hentry⟩
        · have hn : (es.map Prod.fst).Nodup := by
            have hnd' : (items'.map Prod.fst).Nodup := (hperm.map Prod.fst).nodup_iff.2 hnd
            clear hperm hf2 hes hes' hl hl'
            induction hentry with
            | nil => simp
            | cons h1 hrest ih =>
              simp only [List.map_cons, List.nodup_cons] at hnd' ⊢
              refine ⟨?_, ih hnd'.2⟩
              intro hm
              obtain ⟨w, hw, heq⟩ := List.mem_map.1 hm
              obtain ⟨a, ha, f', hf', hx', _⟩ := forall₂_mem_right hrest w hw
              obtain ⟨f, hf, hx, _⟩ := h1
              rw [heq] at hx'
              have := hg.2 _ _ _ _ _ hf hf' hx hx'
              exact hnd'.1 (List.mem_map.2 ⟨a, ha, this.symm⟩)
          rw [foldl_dictSet_nodup es [] (by simpa using hn)]
          rfl
        · have hs : (sortBy (orderLe (S c)) l).Pairwise (fun a b => orderLe (S c) a b = true) :=
            sortBy_sorted _ (fun a b => by simp only [orderLe, decide_eq_true_eq]; omega)
              (fun a b d => by simp only [orderLe, decide_eq_true_eq]; omega) l
          clear hentry hperm hes hes' hl hl'
          generalize sortBy (orderLe (S c)) l = sl at hf2 hs
          induction hf2 with
          | nil => exact .nil
          | cons h1 hrest ih =>
            rw [List.pairwise_cons] at hs ⊢
            refine ⟨?_, ih hs.2⟩
            intro a ha
            obtain ⟨b, hb, hab⟩ := forall₂_mem_right hrest.flip a ha
            have := hs.1 b hb
            simp only [orderLe, decide_eq_true_eq] at this
            rw [h1.1, hab.1]; exact this
  · cases h

example : GoodNames (Ex.S c!"A") ∧ ∃ o, getDict Ex.S Ex.vs
    (.mk c!"A" [(c!"list", .nodes [.mk c!"B" [(c!"val", .leaf [1])], .mk c!"B" [(c!"val", .leaf [2])]]),
      (c!"tag", .leaf [4]), (c!"name", .leaf [3])]) = .ok o := by
  have hl : ∀ k f, lookup k (Ex.S c!"A") = some f → (k, f) ∈ Ex.fieldsA := fun k f h =>
    mem_of_lookup (show lookup k Ex.fieldsA = some f from h)
  refine ⟨⟨?_, ?_⟩, ?_⟩
  · intro k f h
    have h := hl k f h
    fin_cases h
    · exact ⟨_, .plain rfl rfl⟩
    · exact ⟨_, .attr rfl rfl⟩
    · exact ⟨_, .plain rfl rfl⟩
    · exact ⟨_, .common rfl rfl⟩
  · intro k f k' f' name h h' hx hx'
    have h := hl k f h
    have h' := hl k' f' h'
    have hx := xmlName_getName hx
    have hx' := xmlName_getName hx'
    subst hx
    fin_cases h <;> fin_cases h' <;> first | rfl | (exfalso; revert hx'; decide)
  · exact ⟨.dict [(c!"@name", .leaf [3]), (c!"tag", .leaf [4]),
      (c!"common:list", .list [.dict [(c!"val", .leaf [1])], .dict [(c!"val", .leaf [2])]])], by rfl⟩

theorem entryOf_functional {S : Schema K} {vs : Validators K V R O} {fields : List (Key × Field K)}
    {e : Key × Val V} {w w' : Str × Out O} (h1 : EntryOf S vs fields e w)
    (h1' : EntryOf S vs fields e w') : w = w' := by
  obtain ⟨f, hf, hx, hv⟩ := h1
  obtain ⟨f', hf', hx', hv'⟩ := h1'
  rw [hf] at hf'
  cases hf'
  obtain ⟨wn, wo⟩ := w
  obtain ⟨wn', wo'⟩ := w'
  have hn : wn = wn' := (xmlName_getName hx).symm.trans (xmlName_getName hx')
  subst hn
  obtain ⟨ak, av⟩ := e
  cases av with
  | leaf v =>
    obtain ⟨x, hx1, hx2⟩ := hv
    obtain ⟨y, hy1, hy2⟩ := hv'
    rw [hx1] at hy1
    cases hy1
    simp only at hx2 hy2
    rw [hx2, hy2]
  | nodes l =>
    obtain ⟨os, ho1, ho2⟩ := hv
    obtain ⟨os', ho1', ho2'⟩ := hv'
    simp only at ho1 ho1'
    rw [ho1, ho1']
    congr 2
    have e1 := (getNodes_ok S vs l os).2 ho2
    have e2 := (getNodes_ok S vs l os').2 ho2'
    rw [e1] at e2
    cases e2
    rfl

/-- Written entries that are elements or texts, not XML attributes. -/
def isElement (w : Str × Out O) : Bool := w.1.head? != some '@'

/-- Order numbers of a format: distinct elements have distinct numbers, and exactly the attributes
get names that begin with `@`. -/
def GoodOrder (fields : List (Key × Field K)) : Prop :=
  (∀ k f k' f', lookup k fields = some f → lookup k' fields = some f' →
    f.xmlType ≠ some c!"attribute" → f'.xmlType ≠ some c!"attribute" → f.order = f'.order → k = k') ∧
  ∀ k f name, lookup k fields = some f → XmlName k f name →
    (name.head? = some '@' ↔ f.xmlType = some c!"attribute")

/-- **C20.** The order of the written elements does not depend on the order in which the fields were
assigned: two groups with the same contents have the same written entries, and the elements among
them are in the same order (the order of XML attributes has no meaning). -/
theorem order_independent_of_assignment (S : Schema K) (vs : Validators K V R O) (c : Cls)
    (items items' : List (Key × Val V)) (hp : items.Perm items')
    (hnd : (items.map Prod.fst).Nodup) (hg : GoodNames (S c)) (ho : GoodOrder (S c))
    (o o' : Out O) (h : getDict S vs (.mk c items) = .ok o)
    (h' : getDict S vs (.mk c items') = .ok o') :
    ∃ es es', o = .dict es ∧ o' = .dict es' ∧ es.Perm es' ∧
      es.filter isElement = es'.filter isElement := by
  have hnd' : (items'.map Prod.fst).Nodup := (hp.map Prod.fst).nodup_iff.1 hnd
  obtain ⟨s, es, rfl, hs, hso, hse⟩ := written_in_order S vs c items o hnd hg h
  obtain ⟨s', es', rfl, hs', hso', hse'⟩ := written_in_order S vs c items' o' hnd' hg h'
  have hss : s.Perm s' := (hs.trans hp).trans hs'.symm
  have huniq : ∀ (l : List (Key × Val V)) (w w' : List (Str × Out O)),
      List.Forall₂ (EntryOf S vs (S c)) l w → List.Forall₂ (EntryOf S vs (S c)) l w' → w = w' := by
    intro l w w' hw
    induction hw generalizing w' with
    | nil => intro hw'; cases hw'; rfl
    | cons h1 _ ih =>
      intro hw'
      cases hw' with
      | cons h1' h2' => rw [ih _ h2', entryOf_functional h1 h1']
  refine ⟨es, es', rfl, rfl, ?_, ?_⟩
  · obtain ⟨w, hw, hf⟩ := forall₂_perm hse'.flip hss
    rw [huniq s es w hse hf.flip]
    exact hw
  · -- the attribute test on keys
    let p : Key × Val V → Bool := fun e => match lookup e.1 (S c) with
      | some f => f.xmlType != some c!"attribute"
      | none => false
    have hfil : ∀ (l : List (Key × Val V)) (w : List (Str × Out O)),
        List.Forall₂ (EntryOf S vs (S c)) l w →
        List.Forall₂ (EntryOf S vs (S c)) (l.filter p) (w.filter isElement) := by
      intro l w hw
      induction hw with
      | nil => exact .nil
      | @cons a w l₁ l₂ h1 _ ih =>
        have hpw : p a = isElement w := by
          obtain ⟨f, hf, hx, _⟩ := h1
          have := ho.2 _ _ _ hf hx
          simp only [p, hf, isElement]
          by_cases hat : f.xmlType = some c!"attribute"
          · simp [this.2 hat, hat]
          · simp only [bne, beq_eq_false_iff_ne.2 hat, beq_eq_false_iff_ne.2 (fun h => hat (this.1 h))]
        rw [List.filter_cons, List.filter_cons, hpw]
        split
        · exact .cons h1 ih
        · exact ih
    have heq : s.filter p = s'.filter p := by
      refine List.Perm.eq_of_pairwise ?_ (hso.filter p) (hso'.filter p) (hss.filter p)
      intro a b ha hb h1 h2
      rw [List.mem_filter] at ha hb
      have ha' := hs.mem_iff.1 ha.1
      have hb' : b ∈ items := hp.mem_iff.2 (hs'.mem_iff.1 hb.1)
      have hk : a.1 = b.1 := by
        have hpa := ha.2
        have hpb := hb.2
        simp only [p] at hpa hpb
        split at hpa
        · rename_i f hf
          split at hpb
          · rename_i f' hf'
            refine ho.1 _ _ _ _ hf hf' (by simpa using hpa) (by simpa using hpb) ?_
            have := le_antisymm h1 h2
            simpa [orderOf, hf, hf'] using this
          · cases hpb
        · cases hpa
      have hla := lookup_of_mem hnd (k := a.1) (v := a.2) ha'
      have hlb := lookup_of_mem hnd (k := b.1) (v := b.2) hb'
      rw [hk, hlb] at hla
      obtain ⟨ak, av⟩ := a
      obtain ⟨bk, bv⟩ := b
      simp only at hk hla
      cases hla
      rw [hk]
    exact huniq _ _ _ (hfil s es hse) (heq ▸ hfil s' es' hse')

example : [(c!"tag", Val.leaf [4]), (c!"name", .leaf [3])].Perm
    [(c!"name", Val.leaf [3]), (c!"tag", .leaf [4])] :=
  List.Perm.swap _ _ _

/-! ### C47: reading -/

/-- **C47 is false of the code**: reading a group that is not there creates it, and a data set that
could be written can then not be written any more. -/
theorem reading_breaks_writing :
    ∃ (n : Node (List Nat)) (path : List Key) (o : Out (List Nat)),
      getDict Ex.S Ex.vs n = .ok o ∧
      (step Ex.S Ex.vs Ex.asRaw n (.read path)).2 = none ∧
      getDict Ex.S Ex.vs (step Ex.S Ex.vs Ex.asRaw n (.read path)).1 = .error .attributeError :=
  ⟨.mk c!"A" [(c!"name", .leaf [3])], [c!"group"], .dict [(c!"@name", .leaf [3])],
    by rfl, by rfl, by rfl⟩

/-- **C47, partial.** Full statement: reading a path changes nothing. This holds if the groups on the
path are already there. -/
theorem reading_present_unchanged_partial (S : Schema K) (vs : Validators K V R O)
    (asRaw : Arg V R → R) (path : List Key) (n m : Node V) (h : nodeAt path n = some m)
    (hw : WF S n) :
    (step S vs asRaw n (.read path)).1 = n := by
  simp only [step]
  induction path generalizing n with
  | nil => rfl
  | cons k ks ih =>
    simp only [nodeAt] at h
    split at h
    · rename_i m1 l1 hl
      have hp := getItem_present (S := S) hl
      rw [modifyAt]
      split
      · rename_i n' e he; rw [he] at hp; exact hp
      · rename_i n' m' he
        rw [he] at hp
        simp only at hp
        subst hp
        obtain ⟨l, hl'⟩ := getItem_ok he
        rw [hl] at hl'
        cases hl'
        have hw1 := (WF.lookup_nodes hw hl).2 m1 (by simp)
        have := ih m1 h hw1
        simp only [setFirst, hl, this]
        cases n' with
        | mk c items =>
          simp only [Node.items, Node.cls] at hl ⊢
          congr 1
          clear hw hw1 he
          induction items with
          | nil => simp [lookup] at hl
          | cons e items ih2 =>
            obtain ⟨k', v'⟩ := e
            simp only [lookup] at hl
            simp only [dictSet]
            split at hl
            · rename_i hk; cases hl; subst hk; simp
            · rename_i hk
              rw [if_neg hk, ih2 hl]
    · cases h

/-! ### C48: classes of nested groups -/

/-- **C48 is false of the code**: a ready-made instance of any class is stored in a field of another
class (main.py:43-48 returns the instance as it is). -/
theorem wrong_class_accepted :
    ∃ (n m n' : Node (List Nat)) (k : Key) (c : Cls) (f : Field Unit),
      lookup k (Ex.S n.cls) = some f ∧ f.type = .sub c ∧ m.cls ≠ c ∧
      setItem Ex.S Ex.vs Ex.asRaw n k [.node m] = (n', none) ∧
      lookup k n'.items = some (.nodes [m]) :=
  ⟨Ex.root, .mk c!"A" [(c!"name", .leaf [3])], .mk c!"A" [(c!"group", .nodes
    [.mk c!"A" [(c!"name", .leaf [3])]])], c!"group", c!"B", _, rfl, rfl, by decide, rfl, rfl⟩

/-- **C48, partial.** Full statement: every nested group is of the class the format prescribes. This
holds for data sets built without handing over ready-made instances. -/
theorem right_class_partial (S : Schema K) (vs : Validators K V R O) (asRaw : Arg V R → R) (c : Cls)
    (ops : List (Op V R)) (hops : ∀ op ∈ ops, OpOk (fun _ => False) op) :
    Classes S (run S vs asRaw (.mk c []) ops) :=
  run_stable (classes_stable S) (classes_stablePath S) vs asRaw ops
    (fun p k as h => hops _ h) _ (.mk (by simp) (by simp))

example : OpOk (V := List Nat) (R := Nat) (fun _ => False)
    (.set [c!"group"] c!"val" [.raw 3]) := by
  intro a ha
  simp only [List.mem_singleton] at ha
  subst ha
  exact .raw 3

/-- One sign before the name of a field is left out: a field is set by its name, by its name as an attribute and by its
name as a text alike. A second sign stays and is part of the name. -/
theorem sign_left_out (S : Schema K) (vs : Validators K V R O) (asRaw : Arg V R → R) (n : Node V) (c : Char) (k : Key)
    (as : List (Arg V R)) (hc : c ≠ '@' ∧ c ≠ '#') :
    setItem S vs asRaw n ('@' :: c :: k) as = setItem S vs asRaw n (c :: k) as ∧
    setItem S vs asRaw n ('#' :: c :: k) as = setItem S vs asRaw n (c :: k) as := by
  simp [setItem, normKey, hc.1, hc.2]

example : 'a' ≠ '@' ∧ 'a' ≠ '#' := by decide

end Verif.DotDict
