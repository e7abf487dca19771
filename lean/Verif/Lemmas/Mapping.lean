import Verif.Spec.Mapping
import Verif.Props.XmlStream
import Mathlib.Tactic.Tauto
import Mathlib.Tactic.ByContra

namespace Verif.Mapping
open Verif.DotDict Verif.Schema Verif.Xml Spec
open Verif.Xml.Spec (select pathText Name WellNamed)

theorem keyText_eq (ns : List Str) (a : Option Str) : keyText (ns, a) = pathText ns ++ attrPart a := by
  have : (ns.flatMap fun n => '/' :: n) = pathText ns := by
    induction ns with
    | nil => rfl
    | cons n ns ih => simp [pathText, ih]
  simp only [keyText, this]
  cases a <;> rfl

/-! ### Which paths occur -/

/-- A path that some document of the format can have. -/
def resolves (S : Schema Str) : Cls → List Str → Option Str → Bool
  | _, [], none => true
  | c, [], some a => c.head? == some '/' || (S c).any fun e => decide (e.1 = a) && decide (IsAttr e.2)
  | c, n :: ns, a => (S c).any fun e => decide (e.1 = n) && decide (IsElem e.2) &&
      match e.2.type with
      | .sub d => resolves S d ns a
      | .leaf _ => ns.isEmpty

theorem select_flatMap (n : Str) (ns : List Str) (l : List Elem) :
    select (n :: ns) l = l.flatMap fun e => select (n :: ns) [e] := by
  induction l with
  | nil => cases ns <;> simp [select]
  | cons e l ih =>
    rw [List.flatMap_cons, ← ih, ← select_append]; rfl

theorem legal_select {S : Schema Str} (ns : List Str) : ∀ (n : Str) (c : Cls) (e : Elem),
    Legal S c e → ∀ a, resolves S c (n :: ns) a = false → (a = none → select (n :: ns) [e] = []) ∧
      ∀ b, a = some b → afterLast '}' b = b → ∀ x ∈ select (n :: ns) [e], ∀ p ∈ x.attrs, p.1 ≠ b := by
  induction ns with
  | nil =>
    intro n c e he a hr
    simp only [resolves, List.any_eq_false, Bool.and_eq_true, decide_eq_true_eq, not_and] at hr
    have hsel : select [n] [e] = if localName e.tag = n then [e] else [] := by
      simp [select, List.filter_cons]
    rw [hsel]
    cases he with
    | group _ f d tag attrs text children tail hm hf ht hattr hc =>
      by_cases hn : localName tag = n
      · subst hn
        have h1 := hr _ hm ⟨rfl, hf⟩
        simp only [ht] at h1
        constructor
        · intro ha; subst ha; simp [resolves] at h1
        · intro b ha hb x hx p hp hpb
          subst ha
          simp only [Elem.tag, ite_true, List.mem_singleton] at hx
          subst hx
          simp only [resolves, Bool.or_eq_true, not_or, List.any_eq_true, not_exists] at h1
          obtain ⟨g, hg, hga⟩ := hattr (by simpa using h1.1) p hp
          refine h1.2 (localName p.1, g) ⟨hg, ?_⟩
          subst hpb
          simp only [localName, hb, decide_true, Bool.true_and, decide_eq_true_eq]
          exact hga
      · simp only [Elem.tag, hn, ite_false]; simp
    | leaf _ f v tag attrs text tail hm hf ht =>
      by_cases hn : localName tag = n
      · subst hn
        have h1 := hr _ hm ⟨rfl, hf⟩
        simp [ht] at h1
      · simp only [Elem.tag, hn, ite_false]; simp
  | cons m ns ih =>
    intro n c e he a hr
    simp only [resolves, List.any_eq_false, Bool.and_eq_true, decide_eq_true_eq, not_and] at hr
    rw [select_cons _ _ (by simp)]
    cases he with
    | group _ f d tag attrs text children tail hm hf ht hattr hc =>
      by_cases hn : localName tag = n
      · subst hn
        have h1 := hr _ hm ⟨rfl, hf⟩
        simp only [ht] at h1
        simp only [Elem.tag, ite_true, Elem.children]
        have h2 : resolves S d (m :: ns) a = false := by
          simpa [resolves] using h1
        constructor
        · intro ha
          rw [select_flatMap, List.flatMap_eq_nil_iff]
          intro x hx
          exact (ih m d x (hc x hx) a h2).1 ha
        · intro b ha hb x hx
          rw [select_flatMap, List.mem_flatMap] at hx
          obtain ⟨y, hy, hx⟩ := hx
          exact (ih m d y (hc y hy) a h2).2 b ha hb x hx
      · simp only [Elem.tag, hn, ite_false]; simp
    | leaf _ f v tag attrs text tail hm hf ht =>
      have : select (m :: ns) [] = [] := by cases ns <;> simp [select]
      simp only [Elem.children, this]
      simp

/-- A document with the elements of a path, one inside the other. -/
def chain : Str → List Str → Option Str → Elem
  | n, [], none => .mk n [] none [] none
  | n, [], some a => .mk n [(a, c!"x")] none [] none
  | n, m :: ns, a => .mk n [] none [chain m ns a] none

theorem chain_tag (n : Str) (ns : List Str) (a : Option Str) : (chain n ns a).tag = n := by
  cases ns <;> cases a <;> rfl

/-- Names without a brace and of the XML kind. -/
def plain (n : Str) : Bool := decide (Name n) && decide (localName n = n)

theorem chain_wellNamed (n : Str) (ns : List Str) (a : Option Str)
    (h : ∀ m ∈ n :: ns, plain m = true) (ha : ∀ b, a = some b → plain b = true) :
    WellNamed (chain n ns a) := by
  induction ns generalizing n with
  | nil =>
    have hn := h n (by simp)
    simp only [plain, Bool.and_eq_true, decide_eq_true_eq] at hn
    cases a with
    | none => exact .mk _ _ _ _ _ (by rw [hn.2]; exact hn.1) (by simp) (by simp) (by simp)
    | some b =>
      have hb := ha b rfl
      simp only [plain, Bool.and_eq_true, decide_eq_true_eq] at hb
      exact .mk _ _ _ _ _ (by rw [hn.2]; exact hn.1) (by simp [hb.2, hb.1]) (by simp) (by simp)
  | cons m ns ih =>
    have hn := h n (by simp)
    simp only [plain, Bool.and_eq_true, decide_eq_true_eq] at hn
    refine .mk _ _ _ _ _ (by rw [hn.2]; exact hn.1) (by simp) (by simp) ?_
    intro e he
    simp only [List.mem_singleton] at he
    subst he
    exact ih m fun k hk => h k (by simp at hk ⊢; tauto)

theorem chain_legal {S : Schema Str} (ns : List Str) : ∀ (n : Str) (c : Cls) (a : Option Str),
    (∀ m ∈ n :: ns, plain m = true) → (∀ b, a = some b → plain b = true) →
    resolves S c (n :: ns) a = true → Legal S c (chain n ns a) := by
  induction ns with
  | nil =>
    intro n c a h ha hr
    have hn := h n (by simp)
    simp only [plain, Bool.and_eq_true, decide_eq_true_eq] at hn
    simp only [resolves, List.any_eq_true, Bool.and_eq_true, decide_eq_true_eq] at hr
    obtain ⟨⟨k, f⟩, hm, ⟨rfl, hf⟩, ht⟩ := hr
    cases hty : f.type with
    | leaf v =>
      cases a with
      | none => exact .leaf _ f v _ _ _ _ (by rw [hn.2]; exact hm) hf hty
      | some b => exact .leaf _ f v _ _ _ _ (by rw [hn.2]; exact hm) hf hty
    | sub d =>
      simp only [hty] at ht
      cases a with
      | none => exact .group _ f d _ _ _ _ _ (by rw [hn.2]; exact hm) hf hty (by simp) (by simp)
      | some b =>
        have hb := ha b rfl
        simp only [plain, Bool.and_eq_true, decide_eq_true_eq] at hb
        refine .group _ f d _ _ _ _ _ (by rw [hn.2]; exact hm) hf hty ?_ (by simp)
        intro hd p hp
        simp only [List.mem_singleton] at hp
        subst hp
        simp only [resolves, Bool.or_eq_true, beq_iff_eq, hd, false_or, List.any_eq_true,
          Bool.and_eq_true, decide_eq_true_eq] at ht
        obtain ⟨⟨k', g⟩, hg, rfl, hga⟩ := ht
        exact ⟨g, by rw [hb.2]; exact hg, hga⟩
  | cons m ns ih =>
    intro n c a h ha hr
    have hn := h n (by simp)
    simp only [plain, Bool.and_eq_true, decide_eq_true_eq] at hn
    rw [resolves] at hr
    simp only [List.any_eq_true, Bool.and_eq_true, decide_eq_true_eq] at hr
    obtain ⟨⟨k, f⟩, hm, ⟨rfl, hf⟩, ht⟩ := hr
    cases hty : f.type with
    | leaf v => simp [hty] at ht
    | sub d =>
      simp only [hty] at ht
      refine .group _ f d _ _ _ _ _ (by rw [hn.2]; exact hm) hf hty (by simp) ?_
      intro e he
      simp only [List.mem_singleton] at he
      subst he
      exact ih m d a (fun k hk => h k (by simp at hk ⊢; tauto)) ha ht

theorem chain_select (ns : List Str) : ∀ (n : Str) (a : Option Str),
    (∀ m ∈ n :: ns, plain m = true) →
    ∃ t, select (n :: ns) [chain n ns a] = [chain t [] a] := by
  induction ns with
  | nil =>
    intro n a h
    have hn := h n (by simp)
    simp only [plain, Bool.and_eq_true, decide_eq_true_eq] at hn
    refine ⟨n, ?_⟩
    simp [select, List.filter_cons, chain_tag, hn.2]
  | cons m ns ih =>
    intro n a h
    have hn := h n (by simp)
    simp only [plain, Bool.and_eq_true, decide_eq_true_eq] at hn
    obtain ⟨t, ht⟩ := ih m a fun k hk => h k (by simp at hk ⊢; tauto)
    refine ⟨t, ?_⟩
    rw [select_cons _ _ (by simp), chain_tag, if_pos hn.2]
    exact ht

/-- A key of a mapping that begins with an element and has XML names. -/
def goodKey (k : MKey) : Bool :=
  !k.1.isEmpty && k.1.all plain && match k.2 with | none => true | some a => plain a

theorem goodKey_cons {k : MKey} (h : goodKey k = true) : ∃ n ns, k.1 = n :: ns ∧
    (∀ m ∈ n :: ns, plain m = true) ∧ ∀ b, k.2 = some b → plain b = true := by
  obtain ⟨l, a⟩ := k
  simp only [goodKey, Bool.and_eq_true, List.all_eq_true, Bool.not_eq_true'] at h
  cases l with
  | nil => simp at h
  | cons n ns =>
    refine ⟨n, ns, rfl, h.1.2, ?_⟩
    rintro b rfl
    simpa using h.2

theorem plain_name {n : Str} (h : plain n = true) : Name n := by
  simp only [plain, Bool.and_eq_true, decide_eq_true_eq] at h; exact h.1

theorem plain_local {n : Str} (h : plain n = true) : localName n = n := by
  simp only [plain, Bool.and_eq_true, decide_eq_true_eq] at h; exact h.2

theorem read_under (keys : List MKey) (doc : Elem) (hdoc : WellNamed doc) (k : MKey) (hk : k ∈ keys)
    (hg : goodKey k = true) :
    ((read (keys.map keyText) doc).filter fun p => decide (p.1 = keyText k)).map Prod.snd =
      (select k.1 [doc]).flatMap (own k.2) := by
  obtain ⟨n, ns, hn, hp, _⟩ := goodKey_cons hg
  have h := under_visit (keys.map keyText) k.2 doc hdoc [] (by simp) n ns fun m hm => plain_name (hp m hm)
  have hkt : keyText k = [] ++ pathText (n :: ns) ++ attrPart k.2 := by
    rw [List.nil_append, ← hn]; exact keyText_eq k.1 k.2
  rw [read_visit _ doc hdoc, hkt, hn]
  rw [under] at h
  rw [h, if_pos]
  rw [← hkt]
  exact List.mem_map.2 ⟨k, hk, rfl⟩

/-- A mapped path is delivered by some document of the format exactly if it is a path of it. -/
theorem delivered_iff (S : Schema Str) (c : Cls) (keys : List MKey) (k : MKey) (hk : k ∈ keys)
    (hg : goodKey k = true) :
    (∃ doc, Legal S c doc ∧ WellNamed doc ∧ ∃ v, (keyText k, v) ∈ read (keys.map keyText) doc) ↔
      resolves S c k.1 k.2 = true := by
  obtain ⟨n, ns, hn, hp, ha⟩ := goodKey_cons hg
  constructor
  · rintro ⟨doc, hl, hw, v, hv⟩
    by_contra hr
    have hr' : resolves S c (n :: ns) k.2 = false := by rw [← hn]; simpa using hr
    have h := read_under keys doc hw k hk hg
    have hmem : v ∈ (select k.1 [doc]).flatMap (own k.2) := by
      rw [← h]
      exact List.mem_map.2 ⟨_, List.mem_filter.2 ⟨hv, by simp⟩, rfl⟩
    obtain ⟨h1, h2⟩ := legal_select ns n c doc hl k.2 hr'
    rw [hn] at hmem
    obtain ⟨x, hx, hxv⟩ := List.mem_flatMap.1 hmem
    cases hk2 : k.2 with
    | none => rw [h1 hk2] at hx; simp at hx
    | some b =>
      rw [hk2] at hxv
      simp only [own, List.mem_map, List.mem_filter, decide_eq_true_eq] at hxv
      obtain ⟨p, ⟨hp1, hp2⟩, _⟩ := hxv
      exact h2 b hk2 (plain_local (ha b hk2)) x hx p hp1 hp2
  · intro hr
    rw [hn] at hr
    have hw := chain_wellNamed n ns k.2 hp ha
    refine ⟨chain n ns k.2, chain_legal ns n c k.2 hp ha hr, hw, ?_⟩
    have h := read_under keys _ hw k hk hg
    obtain ⟨t, ht⟩ := chain_select ns n k.2 hp
    rw [hn, ht] at h
    have : ∃ v, v ∈ List.flatMap (own k.2) [chain t [] k.2] := by
      cases k.2 with
      | none => exact ⟨_, by simp only [List.flatMap_cons, own]; simp; rfl⟩
      | some b => exact ⟨.str c!"x", by simp [own, chain, Elem.attrs]⟩
    obtain ⟨v, hv⟩ := this
    rw [← h] at hv
    obtain ⟨⟨p, w⟩, hpw, rfl⟩ := List.mem_map.1 hv
    obtain ⟨hm, he⟩ := List.mem_filter.1 hpw
    simp only [decide_eq_true_eq] at he
    exact ⟨w, by rw [← he]; exact hm⟩

/-! ### Which fields are covered -/

/-- All groups end within `n` levels. -/
def bounded (S : Schema Str) : Nat → Cls → Bool
  | 0, _ => false
  | n + 1, c => (S c).all fun e => match e.2.type with
    | .leaf _ => true
    | .sub d => bounded S n d

theorem bounded_length {S : Schema Str} : ∀ (n : Nat) (c : Cls) (k : MKey), bounded S n c = true →
    IsField S c k → k.1.length ≤ n
  | 0, _, _, h, _ => by simp [bounded] at h
  | n + 1, c, _, h, hf => by
    simp only [bounded, List.all_eq_true] at h
    cases hf with
    | attr _ k f hm ha => simp
    | leaf _ k f v hm he ht => simp
    | group _ k f d ns a hm he ht hs =>
      have := h _ hm
      simp only [ht] at this
      have := bounded_length n d _ this hs
      simpa using this

/-- The fields that are on no mapped path and below none. -/
def gaps (S : Schema Str) (keys : List MKey) : Nat → Cls → List Str → List MKey
  | 0, _, _ => []
  | n + 1, c, above => (S c).flatMap fun e =>
    if IsAttr e.2 then (if (above, some e.1) ∈ keys then [] else [(above, some e.1)])
    else if ¬ IsElem e.2 then []
    else if (above ++ [e.1], none) ∈ keys then []
    else match e.2.type with
      | .leaf _ => [(above ++ [e.1], none)]
      | .sub d => gaps S keys n d (above ++ [e.1])

theorem gaps_complete (S : Schema Str) (keys : List MKey) : ∀ (n : Nat) (c : Cls) (above : List Str)
    (k : MKey), IsField S c k → k.1.length < n →
    Covered keys (above ++ k.1, k.2) ∨ (above ++ k.1, k.2) ∈ gaps S keys n c above
  | 0, _, _, _, _, h => by simp at h
  | n + 1, c, above, _, hf, hlen => by
    cases hf with
    | attr _ k f hm ha =>
      by_cases hk : (above, some k) ∈ keys
      · left; left; simpa using hk
      · right
        simp only [gaps, List.mem_flatMap]
        exact ⟨_, hm, by simp [ha, hk]⟩
    | leaf _ k f v hm he ht =>
      by_cases hk : (above ++ [k], none) ∈ keys
      · left; left; exact hk
      · right
        simp only [gaps, List.mem_flatMap]
        refine ⟨_, hm, ?_⟩
        have : ¬ IsAttr f := he.1
        simp [this, he, hk, ht]
    | group _ k f d ns a hm he ht hs =>
      by_cases hk : (above ++ [k], none) ∈ keys
      · left; right
        exact ⟨_, hk, rfl, ⟨ns, by simp⟩⟩
      · simp only [List.length_cons, Nat.add_lt_add_iff_right] at hlen
        rcases gaps_complete S keys n d (above ++ [k]) _ hs hlen with h | h
        · left; simpa using h
        · right
          simp only [gaps, List.mem_flatMap]
          refine ⟨_, hm, ?_⟩
          have hna : ¬ IsAttr f := he.1
          simp only [hna, ite_false, he, not_true, hk, ht]
          simpa using h

/-! ### Unseen parts -/

theorem visitOf_append (keys : List Str) (p : Str) (l m : List Elem) :
    visitOf keys p (l ++ m) = visitOf keys p l ++ visitOf keys p m := by
  induction l with
  | nil => rfl
  | cons e l ih => simp [visitOf, ih]

theorem visitOf_flatMap (keys : List Str) (p : Str) (g : Elem → List Elem)
    (h : ∀ e, visitOf keys p (g e) = visit keys p e) (l : List Elem) :
    visitOf keys p (l.flatMap g) = visitOf keys p l := by
  induction l with
  | nil => rfl
  | cons e l ih => rw [List.flatMap_cons, visitOf_append, h, ih, visitOf]

theorem visitOf_map (keys : List Str) (p : Str) (g : Elem → Elem)
    (h : ∀ e, visit keys p (g e) = visit keys p e) (l : List Elem) :
    visitOf keys p (l.map g) = visitOf keys p l := by
  induction l with
  | nil => rfl
  | cons e l ih => rw [List.map_cons, visitOf, h, ih, visitOf]

/-- No path that strictly begins `above/ns` is mapped. -/
def openAbove (keys : List Str) : Str → List Str → Bool
  | _, [] => true
  | _, [_] => true
  | p, n :: m :: ns => decide (p ++ '/' :: n ∉ keys) && openAbove keys (p ++ '/' :: n) (m :: ns)

theorem visit_editAt (keys : List Str) (f : Elem → List Elem) (ns : List Str) :
    ∀ (p : Str) (n : Str), openAbove keys p (n :: ns) = true →
    (∀ q, q ++ '/' :: (n :: ns).getLast (by simp) = p ++ pathText (n :: ns) →
      ∀ e, localName e.tag = (n :: ns).getLast (by simp) → visitOf keys q (f e) = visit keys q e) →
    ∀ l, visitOf keys p (editAt f (n :: ns) l) = visitOf keys p l := by
  induction ns with
  | nil =>
    intro p n _ hf l
    simp only [editAt]
    apply visitOf_flatMap
    intro e
    by_cases he : localName e.tag = n
    · rw [if_pos he]
      exact hf p (by simp [pathText]) e he
    · rw [if_neg he]; simp [visitOf]
  | cons m ns ih =>
    intro p n ho hf l
    simp only [openAbove, Bool.and_eq_true, decide_eq_true_eq] at ho
    simp only [editAt]
    apply visitOf_map
    intro e
    by_cases he : localName e.tag = n
    · rw [if_pos he]
      cases e with
      | mk t a x c y =>
        simp only [Elem.tag] at he
        simp only [visit, Elem.tag, Elem.attrs, Elem.text, Elem.children, Elem.tail, he]
        rw [ih (p ++ '/' :: n) m ho.2 (by
          intro q hq e he
          refine hf q ?_ e (by simpa using he)
          simpa [pathText] using hq) c]
        simp only [deliver, ho.1, ite_false, Elem.attrs]
    · rw [if_neg he]

theorem editAt_wellNamed (f : Elem → List Elem) (hf : ∀ e, WellNamed e → ∀ x ∈ f e, WellNamed x)
    (ns : List Str) : ∀ l : List Elem, (∀ e ∈ l, WellNamed e) → ∀ e ∈ editAt f ns l, WellNamed e := by
  match ns with
  | [] => intro l hl e he; exact hl e he
  | [n] =>
    intro l hl e he
    simp only [editAt, List.mem_flatMap] at he
    obtain ⟨x, hx, he⟩ := he
    split at he
    · exact hf x (hl x hx) e he
    · simp at he; subst he; exact hl _ hx
  | n :: m :: ns =>
    intro l hl e he
    simp only [editAt, List.mem_map] at he
    obtain ⟨x, hx, rfl⟩ := he
    have hwx := hl x hx
    split
    · cases hwx with
      | mk tag attrs text children tail h1 h2 h3 h4 =>
        exact .mk _ _ _ _ _ h1 h2 h3 (editAt_wellNamed f hf (m :: ns) children h4)
    · exact hwx

theorem visit_nil_of_prefix (keys : List Str) (q n : Str) (h : ∀ k ∈ keys, ¬ (q ++ '/' :: n) <+: k)
    (e : Elem) (he : localName e.tag = n) : visit keys q e = [] := by
  rw [List.eq_nil_iff_forall_not_mem]
  intro v hv
  obtain ⟨r, hr⟩ := visit_prefix_one keys e q v hv
  have hk := visit_mem_keys keys q e v hv
  rw [he] at hr
  exact h _ hk ⟨r, hr.symm⟩

theorem visit_attr (keys : List Str) (q a : Str) (e : Elem)
    (h1 : q ++ '/' :: localName e.tag ∉ keys) (h2 : q ++ '/' :: localName e.tag ++ c!"/@" ++ a ∉ keys) :
    visitOf keys q [.mk e.tag (e.attrs.filter fun p => p.1 ≠ a) e.text e.children e.tail] =
      visit keys q e := by
  cases e with
  | mk t at' x c y =>
    simp only [visitOf, visit, List.append_nil, Elem.tag, Elem.attrs, Elem.text, Elem.children, Elem.tail]
    simp only [Elem.tag] at h1 h2
    congr 1
    simp only [deliver, h1, ite_false, Elem.attrs, List.nil_append]
    induction at' with
    | nil => rfl
    | cons b l ih =>
      simp only [List.filter_cons]
      by_cases hb : b.1 = a
      · subst hb
        simp only [ne_eq, not_true, decide_false, Bool.false_eq_true, ite_false, List.filterMap_cons, h2]
        exact ih
      · simp only [ne_eq, hb, not_false_eq_true, decide_true, ite_true, List.filterMap_cons]
        split
        · exact ih
        · rw [ih]

/-- No mapped path is on, above or below the path. -/
def unseen (keys : List Str) (k : MKey) : Bool :=
  openAbove keys [] k.1 && match k.2 with
  | none => keys.all fun t => !(pathText k.1).isPrefixOf t
  | some a => decide (pathText k.1 ∉ keys) && decide (pathText k.1 ++ c!"/@" ++ a ∉ keys)

theorem read_without (keys : List Str) (n m : Str) (ns : List Str) (a : Option Str)
    (h : unseen keys (n :: m :: ns, a) = true) (doc : Elem) (hdoc : WellNamed doc)
    (hroot : localName doc.tag = n) : read keys (without (n :: m :: ns, a) doc) = read keys doc := by
  simp only [unseen, Bool.and_eq_true, openAbove, decide_eq_true_eq, List.nil_append] at h
  obtain ⟨⟨ho1, ho2⟩, h⟩ := h
  have main : ∀ (f : Elem → List Elem), (∀ e, WellNamed e → ∀ x ∈ f e, WellNamed x) →
      (∀ q, q ++ '/' :: (m :: ns).getLast (by simp) = '/' :: n ++ pathText (m :: ns) →
        ∀ e, localName e.tag = (m :: ns).getLast (by simp) → visitOf keys q (f e) = visit keys q e) →
      read keys (.mk doc.tag doc.attrs doc.text (editAt f (m :: ns) doc.children) doc.tail) =
        read keys doc := by
    intro f hf hq
    have hw : WellNamed (.mk doc.tag doc.attrs doc.text (editAt f (m :: ns) doc.children) doc.tail) := by
      cases hdoc with
      | mk tag attrs text children tail h1 h2 h3 h4 =>
        exact .mk _ _ _ _ _ h1 h2 h3 (editAt_wellNamed f hf _ _ h4)
    rw [read_visit _ _ hw, read_visit _ _ hdoc]
    cases doc with
    | mk t at' x c y =>
      simp only [Elem.tag] at hroot
      simp only [visit, Elem.tag, Elem.attrs, Elem.text, Elem.children, Elem.tail, List.nil_append, hroot]
      rw [visit_editAt keys f ns ('/' :: n) m ho2 hq]
      simp only [deliver, ho1, ite_false, Elem.attrs]
  cases a with
  | none =>
    simp only [List.all_eq_true, Bool.not_eq_true'] at h
    refine main _ (by simp) ?_
    intro q hq e he
    rw [visit_nil_of_prefix keys q _ _ e he]
    · rfl
    · intro k hk hpre
      have := h k hk
      rw [hq] at hpre
      have h' : (pathText (n :: m :: ns)).isPrefixOf k = true := by
        rw [List.isPrefixOf_iff_prefix]; exact hpre
      rw [h'] at this
      cases this
  | some b =>
    simp only [Bool.and_eq_true, decide_eq_true_eq] at h
    refine main _ ?_ ?_
    · intro e he x hx
      simp only [List.mem_singleton] at hx
      subst hx
      cases he with
      | mk tag attrs text children tail h1 h2 h3 h4 =>
        refine .mk _ _ _ _ _ h1 ?_ ?_ h4
        · intro p hp; exact h2 p (List.mem_filter.1 hp).1
        · exact List.Nodup.sublist ((List.filter_sublist).map _) h3
    · intro q hq e he
      apply visit_attr
      · rw [he, hq]; exact h.1
      · rw [he, hq]; exact h.2

end Verif.Mapping
