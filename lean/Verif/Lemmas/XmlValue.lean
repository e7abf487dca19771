import Verif.Lemmas.XmlStream

namespace Verif.Xml
open Spec (Name WellNamed Visible ManyAs Represents)

theorem attrEntries_eq (attrs : List (Str × Str)) (h : (attrs.map fun a => localName a.1).Nodup) :
    attrEntries attrs = attrs.map fun a => ('@' :: localName a.1, PyVal.str a.2) := by
  have gen : ∀ (l : List (Str × Str)) (d : List (Str × PyVal)),
      (l.map fun a => localName a.1).Nodup → (∀ a ∈ l, '@' :: localName a.1 ∉ d.map Prod.fst) →
      l.foldl (fun d a => aset ('@' :: localName a.1) (.str a.2) d) d =
        d ++ l.map fun a => ('@' :: localName a.1, PyVal.str a.2) := by
    intro l
    induction l with
    | nil => simp
    | cons a l ih =>
      intro d hn hd
      rw [List.map_cons, List.nodup_cons] at hn
      rw [List.foldl_cons, aset_of_notMem _ (hd a (by simp)), ih _ hn.2]
      · simp
      · intro b hb hm
        simp only [List.map_append, List.map_cons, List.map_nil, List.mem_append,
          List.mem_singleton] at hm
        rcases hm with hm | hm
        · exact hd b (by simp [hb]) hm
        · simp only [List.cons.injEq, true_and] at hm
          exact hn.1 (List.mem_map.2 ⟨b, hb, hm⟩)
  have := gen attrs [] h (by simp)
  rw [List.nil_append] at this
  exact this

theorem aget_attrEntries {attrs : List (Str × Str)} (h : (attrs.map fun a => localName a.1).Nodup)
    (n : Str) (v : PyVal) :
    aget ('@' :: n) (attrEntries attrs) = some v ↔ ∃ a ∈ attrs, localName a.1 = n ∧ v = .str a.2 := by
  rw [attrEntries_eq attrs h]
  constructor
  · intro hv
    obtain ⟨a, ha, he⟩ := List.mem_map.1 (aget_mem hv)
    simp only [Prod.mk.injEq, List.cons.injEq, true_and] at he
    exact ⟨a, ha, he.1, he.2.symm⟩
  · rintro ⟨a, ha, rfl, rfl⟩
    refine aget_eq_of_mem ?_ (List.mem_map.2 ⟨a, ha, rfl⟩)
    rw [List.map_map]
    have : ((Prod.fst : Str × PyVal → Str) ∘ fun a : Str × Str => ('@' :: localName a.1, PyVal.str a.2)) =
        (fun s => '@' :: s) ∘ fun a => localName a.1 := rfl
    rw [this, ← List.map_map]
    exact List.Pairwise.map _ (fun a b hab he => hab (by simpa using he)) h

theorem attrEntries_keys {attrs : List (Str × Str)} (h : (attrs.map fun a => localName a.1).Nodup)
    (k : Str) : k ∈ (attrEntries attrs).map Prod.fst ↔ ∃ a ∈ attrs, k = '@' :: localName a.1 := by
  rw [attrEntries_eq attrs h]
  simp only [List.map_map, List.mem_map, Function.comp_def]
  constructor
  · rintro ⟨a, ha, rfl⟩; exact ⟨a, ha, rfl⟩
  · rintro ⟨a, ha, rfl⟩; exact ⟨a, ha, rfl⟩

theorem textEntry_iff (t : Option Str) (s : Str) : textEntry t = some s ↔ t = some s ∧ Visible s := by
  cases t with
  | none => simp [textEntry]
  | some x =>
    simp only [textEntry]
    have hv : ((!x.isEmpty && !isSpaceStr x) = true) ↔ Visible x := by
      simp only [isSpaceStr, Visible]
      cases x with
      | nil => simp
      | cons c x => simp
    split
    · rename_i h
      have := hv.1 h
      constructor
      · intro e; simp only [Option.some.injEq] at e; subst e; exact ⟨rfl, this⟩
      · rintro ⟨e, _⟩; exact e
    · rename_i h
      constructor
      · intro e; simp at e
      · rintro ⟨e, hx⟩
        simp only [Option.some.injEq] at e; subst e
        exact absurd (hv.2 hx) h

theorem startDict_other {attrs text cl} {k : Str} (hk : k ≠ c!"#text") :
    aget k (startDict attrs text cl) = aget k (attrEntries attrs) := by
  simp only [startDict]
  split
  · rw [aget_aset, if_neg hk]
  · split
    · rw [aget_aset, if_neg hk]
    · rfl

theorem attr_ne_text (n : Str) : '@' :: n ≠ c!"#text" := by simp

theorem attrEntries_text {attrs : List (Str × Str)} (h : (attrs.map fun a => localName a.1).Nodup) :
    aget c!"#text" (attrEntries attrs) = none := by
  rw [aget_none, attrEntries_keys h]
  rintro ⟨a, _, ha⟩
  simp at ha

/-- The keys of a dictionary after one child. -/
theorem addChild_keys (d : List (Str × PyVal)) (c : Str × PyVal) (k : Str) :
    k ∈ (addChild d c).map Prod.fst ↔ k ∈ d.map Prod.fst ∨ k = c.1 := by
  have : ∀ v, k ∈ (aset c.1 v d).map Prod.fst ↔ k ∈ d.map Prod.fst ∨ k = c.1 := by
    intro v
    rw [aset_keys]
    split
    · rename_i h
      constructor
      · exact .inl
      · rintro (h' | rfl)
        · exact h'
        · exact h
    · simp
  simp only [addChild]
  split <;> exact this _

theorem addChild_other (d : List (Str × PyVal)) (c : Str × PyVal) {k : Str} (h : k ≠ c.1) :
    aget k (addChild d c) = aget k d := by
  simp only [addChild]
  split <;> rw [aget_aset, if_neg h]

theorem addChildren_keys (cs : List (Str × PyVal)) (d : List (Str × PyVal)) (k : Str) :
    k ∈ (cs.foldl addChild d).map Prod.fst ↔ k ∈ d.map Prod.fst ∨ k ∈ cs.map Prod.fst := by
  induction cs generalizing d with
  | nil => simp
  | cons c cs ih => rw [List.foldl_cons, ih, addChild_keys]; simp [or_assoc]

theorem addChildren_other (cs : List (Str × PyVal)) (d : List (Str × PyVal)) {k : Str}
    (h : k ∉ cs.map Prod.fst) : aget k (cs.foldl addChild d) = aget k d := by
  induction cs generalizing d with
  | nil => rfl
  | cons c cs ih =>
    simp only [List.map_cons, List.mem_cons, not_or] at h
    rw [List.foldl_cons, ih _ h.2, addChild_other _ _ h.1]

def NotList (v : PyVal) : Prop := ∀ l, v ≠ .list l

theorem addChildren_many (n : Str) (cs : List (Str × PyVal)) (hcs : ∀ c ∈ cs, NotList c.2) :
    ∀ (d : List (Str × PyVal)) (vs : List PyVal), (∀ v ∈ vs, NotList v) → ManyAs vs (aget n d) →
      ManyAs (vs ++ (cs.filter fun c => decide (c.1 = n)).map Prod.snd) (aget n (cs.foldl addChild d)) := by
  induction cs with
  | nil => intro d vs _ h; simpa using h
  | cons c cs ih =>
    intro d vs hvs h
    have hc := hcs c (by simp)
    rw [List.foldl_cons]
    by_cases hn : c.1 = n
    · have hstep : ManyAs (vs ++ [c.2]) (aget n (addChild d c)) := by
        simp only [addChild, hn]
        cases hg : aget n d with
        | none =>
          rw [hg] at h
          simp only [ManyAs] at h
          subst h
          simp only [aget_aset_self, ManyAs]
          exact .inl rfl
        | some v =>
          rw [hg] at h
          simp only [ManyAs] at h
          rcases h with rfl | ⟨l, rfl, rfl, hl⟩
          · have hv := hvs v (by simp)
            cases v with
            | list l => exact absurd rfl (hv l)
            | _ => simp only [aget_aset_self, ManyAs]; exact .inr ⟨_, rfl, rfl, by simp⟩
          · simp only [aget_aset_self, ManyAs]
            refine .inr ⟨_, rfl, rfl, by simp; omega⟩
      have := ih (fun c hc => hcs c (by simp [hc])) (addChild d c) (vs ++ [c.2]) (by
        intro v hv
        rcases List.mem_append.1 hv with hv | hv
        · exact hvs v hv
        · simp at hv; subst hv; exact hc) hstep
      simpa [List.filter_cons, hn] using this
    · have := ih (fun c hc => hcs c (by simp [hc])) (addChild d c) vs hvs (by
        rw [addChild_other _ _ (fun e => hn e.symm)]; exact h)
      simpa [List.filter_cons, hn] using this

theorem childEntries_eq (l : List Elem) :
    childEntries l = l.map fun e => (localName e.tag, elem2dict e) := by
  induction l with
  | nil => rfl
  | cons e l ih => simp [childEntries, ih]

/-- The dictionary of an element before a lone text is unwrapped. -/
def fullDict (attrs : List (Str × Str)) (text : Option Str) (children : List Elem) :
    List (Str × PyVal) :=
  (childEntries children).foldl addChild (startDict attrs text children.isEmpty)

theorem fullDict_text {attrs text children} (hn : (attrs.map fun a => localName a.1).Nodup)
    (hc : ∀ e ∈ children, WellNamed e) :
    aget c!"#text" (fullDict attrs text children) =
      match textEntry text with
      | some s => some (.str s)
      | none => if children = [] ∧ ∃ a ∈ attrs, localName a.1 = c!"lang" then some (.str []) else none := by
  have hno : c!"#text" ∉ (childEntries children).map Prod.fst := by
    rw [childEntries_eq, List.map_map]
    intro hm
    obtain ⟨e, he, hh⟩ := List.mem_map.1 hm
    cases hc e he with
    | mk t a x c y hname _ _ _ =>
      simp only [Function.comp, Elem.tag] at hh
      exact (hname.2 '#' (by rw [hh]; simp)).2.2 rfl
  rw [fullDict, addChildren_other _ _ hno]
  simp only [startDict]
  cases ht : textEntry text with
  | some s => simp
  | none =>
    simp only
    have hl : (aget c!"@lang" (attrEntries attrs)).isSome = true ↔ ∃ a ∈ attrs, localName a.1 = c!"lang" := by
      rw [aget_isSome, attrEntries_keys hn]
      constructor
      · rintro ⟨a, ha, h⟩; simp at h; exact ⟨a, ha, by rw [← h]⟩
      · rintro ⟨a, ha, h⟩; exact ⟨a, ha, by rw [h]⟩
    by_cases h : children = [] ∧ ∃ a ∈ attrs, localName a.1 = c!"lang"
    · rw [if_pos (by simp only [h.1, List.isEmpty_nil, Bool.true_and, hl.2 h.2, attrEntries_text hn]; rfl), if_pos h]
      simp
    · rw [if_neg, if_neg h, attrEntries_text hn]
      intro hh
      simp only [Bool.and_eq_true, List.isEmpty_iff] at hh
      exact h ⟨hh.1.1, hl.1 hh.1.2⟩

theorem fullDict_attr {attrs text children} (hn : (attrs.map fun a => localName a.1).Nodup)
    (hc : ∀ e ∈ children, WellNamed e) (n : Str) (v : PyVal) :
    aget ('@' :: n) (fullDict attrs text children) = some v ↔
      ∃ a ∈ attrs, localName a.1 = n ∧ v = .str a.2 := by
  have hno : '@' :: n ∉ (childEntries children).map Prod.fst := by
    rw [childEntries_eq, List.map_map]
    intro hm
    obtain ⟨e, he, hh⟩ := List.mem_map.1 hm
    cases hc e he with
    | mk t a x c y hname _ _ _ =>
      simp only [Function.comp, Elem.tag] at hh
      exact (hname.2 '@' (by rw [hh]; simp)).2.1 rfl
  rw [fullDict, addChildren_other _ _ hno, startDict_other (attr_ne_text n), aget_attrEntries hn]

theorem name_ne_at {n : Str} (h : Name n) (m : Str) : n ≠ '@' :: m := by
  rintro rfl; exact (h.2 '@' (by simp)).2.1 rfl

theorem name_ne_text {n : Str} (h : Name n) : n ≠ c!"#text" := by
  rintro rfl; exact (h.2 '#' (by simp)).2.2 rfl

theorem startDict_name {attrs text cl} (hn : (attrs.map fun a => localName a.1).Nodup) {n : Str}
    (h : Name n) : aget n (startDict attrs text cl) = none := by
  rw [startDict_other (name_ne_text h), aget_none, attrEntries_keys hn]
  rintro ⟨a, _, ha⟩
  exact name_ne_at h _ ha

theorem startDict_keys {attrs text cl} (hn : (attrs.map fun a => localName a.1).Nodup) {k : Str}
    (h : k ∈ (startDict attrs text cl).map Prod.fst) : k = c!"#text" ∨ ∃ a ∈ attrs, k = '@' :: localName a.1 := by
  by_cases hk : k = c!"#text"
  · exact .inl hk
  · right
    rw [← aget_isSome, startDict_other hk, aget_isSome, attrEntries_keys hn] at h
    exact h

mutual
theorem elem2dict_notList (e : Elem) (he : WellNamed e) : NotList (elem2dict e) := by
  match e, he with
  | .mk tag attrs text children tail, .mk _ _ _ _ _ _ _ hn hc =>
    intro l
    simp only [elem2dict]
    change collapse (fullDict attrs text children) ≠ _
    have ht := fullDict_text (text := text) hn hc
    generalize fullDict attrs text children = d at ht
    simp only [collapse]
    split
    · rename_i k v
      split
      · rename_i hk
        subst hk
        simp only [aget, ite_true] at ht
        intro h
        subst h
        split at ht
        · cases ht
        · split at ht <;> cases ht
      · intro h; cases h
    · intro h; cases h
end

theorem value_represents (e : Elem) (he : WellNamed e) : Represents e (elem2dict e) := by
  induction e using Elem.rec (motive_2 := fun l => (∀ e ∈ l, WellNamed e) → ∀ e ∈ l, Represents e (elem2dict e)) with
  | mk tag attrs text children tail ih =>
    cases he with
    | mk _ _ _ _ _ hname hattr hn hc =>
    have ihc := ih hc
    show Represents _ (collapse (fullDict attrs text children))
    have hdict : (attrs ≠ [] ∨ children ≠ [] ∨ ∀ s, text = some s → ¬ Visible s) →
        Represents (.mk tag attrs text children tail) (.dict (fullDict attrs text children)) := by
      intro hsome
      refine .dict tag attrs text children tail _ elem2dict hsome ihc
        (fun n v _ => fullDict_attr hn hc n v) ?_ ?_ ?_ ?_
      · intro n hnm
        have := addChildren_many n (childEntries children) (by
          rw [childEntries_eq]
          intro c hcm
          obtain ⟨e, he, rfl⟩ := List.mem_map.1 hcm
          exact elem2dict_notList e (hc e he)) (startDict attrs text children.isEmpty) [] (by simp)
          (by rw [startDict_name hn hnm]; rfl)
        rw [List.nil_append, childEntries_eq, List.filter_map, List.map_map] at this
        rw [fullDict, childEntries_eq]
        exact this
      · intro s hs hv
        rw [fullDict_text hn hc, (textEntry_iff text s).2 ⟨hs, hv⟩]
      · intro hno
        rw [fullDict_text hn hc]
        have : textEntry text = none := by
          cases h : textEntry text with
          | none => rfl
          | some s =>
            obtain ⟨h1, h2⟩ := (textEntry_iff text s).1 h
            exact absurd h2 (hno s h1)
        rw [this]
        simp only
        split
        · exact .inr rfl
        · exact .inl rfl
      · intro k hk
        rw [fullDict, addChildren_keys] at hk
        rcases hk with hk | hk
        · rcases startDict_keys hn hk with h | h
          · exact .inl h
          · exact .inr (.inl h)
        · rw [childEntries_eq, List.map_map] at hk
          obtain ⟨e, he, rfl⟩ := List.mem_map.1 hk
          exact .inr (.inr ⟨e, he, rfl⟩)
    by_cases hlone : ∃ v, fullDict attrs text children = [(c!"#text", v)]
    · obtain ⟨v, hv⟩ := hlone
      have hat : attrs = [] := by
        cases attrs with
        | nil => rfl
        | cons a l =>
          have h1 := (fullDict_attr (text := text) hn hc (localName a.1) (.str a.2)).2 ⟨a, by simp, rfl, rfl⟩
          rw [hv] at h1
          simp [aget] at h1
      subst hat
      have hch : children = [] := by
        cases children with
        | nil => rfl
        | cons e l =>
          have h1 : localName e.tag ∈ (fullDict [] text (e :: l)).map Prod.fst := by
            rw [fullDict, addChildren_keys]
            right
            simp [childEntries]
          rw [hv] at h1
          simp only [List.map_cons, List.map_nil, List.mem_singleton] at h1
          cases hc e (by simp) with
          | mk t a x c y hname' _ _ _ => exact absurd h1 (name_ne_text hname')
      subst hch
      have ht := fullDict_text (text := text) hn hc
      rw [hv] at ht ⊢
      simp only [aget, ite_true] at ht
      cases hte : textEntry text with
      | none => rw [hte] at ht; simp at ht
      | some s =>
        rw [hte] at ht
        simp only [Option.some.injEq] at ht
        subst ht
        obtain ⟨rfl, hvis⟩ := (textEntry_iff text s).1 hte
        simp only [collapse, ite_true]
        exact .text tag s tail hvis
    · have hcol : collapse (fullDict attrs text children) = .dict (fullDict attrs text children) := by
        simp only [collapse]
        split
        · rename_i k v heq
          split
          · rename_i hk
            subst hk
            exact absurd ⟨v, heq⟩ hlone
          · rw [heq]
        · rfl
      rw [hcol]
      apply hdict
      by_cases ha : attrs = []
      · by_cases hch : children = []
        · right; right
          intro s hs hvis
          subst ha; subst hch
          apply hlone
          refine ⟨.str s, ?_⟩
          simp [fullDict, childEntries, startDict, attrEntries, (textEntry_iff text s).2 ⟨hs, hvis⟩, aset]
        · exact .inr (.inl hch)
      · exact .inl ha
  | nil => rename_i e he; simp at he
  | cons e l ih1 ih2 =>
    rename_i hl e' he'
    rcases List.mem_cons.1 he' with rfl | h
    · exact ih1 (hl _ (by simp))
    · exact ih2 (fun e he => hl e (by simp [he])) e' h

end Verif.Xml
