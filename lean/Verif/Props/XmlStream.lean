/-
Properties of the reading of XML files: C22 (every element delivered once, in order), C23 (repeated
children survive) and C54 (text between children).
-/
import Verif.Lemmas.XmlValue

namespace Verif.Xml
open Spec (select pathText Name WellNamed Visible Represents)

/-! ### C22 -/

/-- For every requested element path, the values delivered under it are those of the elements the
path selects in the document, each once and in document order; under a path that is not requested
nothing is delivered. -/
theorem elements_delivered (keys : List Str) (doc : Elem) (hdoc : WellNamed doc) (ns : List Str)
    (hne : ns ≠ []) (hns : ∀ n ∈ ns, Name n) :
    ((read keys doc).filter fun p => decide (p.1 = pathText ns)).map Prod.snd =
      if pathText ns ∈ keys then (select ns [doc]).map elem2dict else [] := by
  cases ns with
  | nil => simp at hne
  | cons n ns =>
    have h := under_visit keys none doc hdoc [] (by simp) n ns hns
    rw [read_visit keys doc hdoc]
    simp only [List.nil_append, attrPart, List.append_nil] at h
    rw [under] at h
    rw [h]
    split
    · exact (List.map_eq_flatMap ..).symm
    · rfl

/-- The same for a requested attribute of the elements on a path. -/
theorem attributes_delivered (keys : List Str) (doc : Elem) (hdoc : WellNamed doc) (ns : List Str)
    (hne : ns ≠ []) (hns : ∀ n ∈ ns, Name n) (a : Str) :
    ((read keys doc).filter fun p => decide (p.1 = pathText ns ++ c!"/@" ++ a)).map Prod.snd =
      if pathText ns ++ c!"/@" ++ a ∈ keys then
        (select ns [doc]).flatMap fun e => (e.attrs.filter fun p => p.1 = a).map fun p => .str p.2
      else [] := by
  cases ns with
  | nil => simp at hne
  | cons n ns =>
    have h := under_visit keys (some a) doc hdoc [] (by simp) n ns hns
    rw [read_visit keys doc hdoc]
    simp only [List.nil_append, attrPart] at h
    rw [under] at h
    rw [List.append_assoc, h]
    rfl

mutual
theorem closing_visit (keys : List Str) (above : List Str) (e : Elem) :
    visit keys (pathText above) e =
      (Spec.closing above e).flatMap fun p => deliver keys (pathText p.1) p.2 := by
  match e with
  | .mk t a x c y =>
    have hp : pathText above ++ '/' :: localName t = pathText (above ++ [localName t]) := by
      have : ∀ l : List Str, pathText (l ++ [localName t]) = pathText l ++ '/' :: localName t := by
        intro l
        induction l with
        | nil => simp [pathText]
        | cons n l ih => simp [pathText, ih]
      rw [this]
    simp only [visit, Spec.closing, List.flatMap_append, List.flatMap_cons, List.flatMap_nil,
      List.append_nil]
    rw [hp, closing_visitOf keys _ c]
theorem closing_visitOf (keys : List Str) (above : List Str) (l : List Elem) :
    visitOf keys (pathText above) l =
      (Spec.closingOf above l).flatMap fun p => deliver keys (pathText p.1) p.2 := by
  match l with
  | [] => rfl
  | e :: l =>
    simp only [visitOf, Spec.closingOf, List.flatMap_append]
    rw [closing_visit keys above e, closing_visitOf keys above l]
end

/-- All deliveries come in the closing order of the elements, whatever the mixture of paths, and only
under requested keys. -/
theorem read_in_closing_order (keys : List Str) (doc : Elem) (hdoc : WellNamed doc) :
    (read keys doc = (Spec.closing [] doc).flatMap fun p =>
      (if pathText p.1 ∈ keys then [(pathText p.1, elem2dict p.2)] else []) ++
      p.2.attrs.filterMap fun a =>
        if pathText p.1 ++ c!"/@" ++ a.1 ∈ keys then some (pathText p.1 ++ c!"/@" ++ a.1, .str a.2)
        else none) ∧
    ∀ p ∈ read keys doc, p.1 ∈ keys := by
  rw [read_visit keys doc hdoc]
  exact ⟨closing_visit keys [] doc, visit_mem_keys keys [] doc⟩

/-- Before the end of an element nothing of what follows it matters: the deliveries of a document are
those of its first children followed by the rest. -/
theorem stream_prefix (keys : List Str) (path : Str) (l m : List Elem) (hl : ∀ e ∈ l, WellNamed e)
    (r : List Event) :
    stream keys path (eventsOf (l ++ m) ++ r) =
      stream keys path (eventsOf l) ++ stream keys path (eventsOf m ++ r) := by
  have h : eventsOf (l ++ m) = eventsOf l ++ eventsOf m := by
    induction l with
    | nil => rfl
    | cons e l ih => simp [eventsOf, ih fun e he => hl e (by simp [he])]
  rw [h, List.append_assoc, stream_eventsOf keys path l hl]
  have := stream_eventsOf keys path l hl []
  simp only [List.append_nil, stream] at this
  rw [this]

/-- A small document with two flows and a namespace. -/
def sample : Elem :=
  .mk c!"{http://x/y}a" [(c!"id", c!"1")] (some c!" ") [
    .mk c!"{http://x/y}b" [] (some c!"one") [] none,
    .mk c!"{http://x/y}b" [(c!"{xml}lang", c!"en")] none [] (some c!"between"),
    .mk c!"{http://x/y}c" [] none [.mk c!"{http://x/y}b" [] (some c!"two") [] none] none] none

theorem sample_wellNamed : WellNamed sample := by
  refine .mk _ _ _ _ _ (by decide) (by decide) (by decide) ?_
  intro e he
  simp only [List.mem_cons, List.not_mem_nil, or_false] at he
  rcases he with rfl | rfl | rfl
  · exact .mk _ _ _ _ _ (by decide) (by decide) (by decide) (by simp)
  · exact .mk _ _ _ _ _ (by decide) (by decide) (by decide) (by simp)
  · refine .mk _ _ _ _ _ (by decide) (by decide) (by decide) ?_
    intro e he
    simp only [List.mem_cons, List.not_mem_nil, or_false] at he
    subst he
    exact .mk _ _ _ _ _ (by decide) (by decide) (by decide) (by simp)

example : (select [c!"a", c!"b"] [sample]).length = 2 ∧ (∀ n ∈ [c!"a", c!"b"], Name n) ∧
    (read [c!"/a/b", c!"/a/@id"] sample).map Prod.fst = [c!"/a/b", c!"/a/b", c!"/a/@id"] := by decide

/-! ### C23 -/

/-- The value handed to a field mapping represents the element completely: attributes, text and all
children, repeated ones as often and in the order of the file, at every depth. -/
theorem element_represented (e : Elem) (he : WellNamed e) : Represents e (elem2dict e) :=
  value_represents e he

/-- In particular, the children with one tag appear as often and in the same order. -/
theorem children_kept (e : Elem) (he : WellNamed e) (n : Str) (hn : Name n)
    (hc : ∃ c ∈ e.children, localName c.tag = n) :
    ∃ d, elem2dict e = .dict d ∧
      ((∃ c, (e.children.filter fun c => localName c.tag = n) = [c] ∧ aget n d = some (elem2dict c)) ∨
       (2 ≤ (e.children.filter fun c => localName c.tag = n).length ∧
        aget n d = some (.list ((e.children.filter fun c => localName c.tag = n).map elem2dict)))) := by
  cases he with
  | mk tag attrs text children tail hname hattr hnd hch =>
    obtain ⟨c, hcm, hcn⟩ := hc
    simp only [Elem.children] at hcm ⊢
    have hkey : n ∈ (fullDict attrs text children).map Prod.fst := by
      rw [fullDict, addChildren_keys, childEntries_eq, List.map_map]
      exact .inr (List.mem_map.2 ⟨c, hcm, hcn⟩)
    have hcol : elem2dict (.mk tag attrs text children tail) = .dict (fullDict attrs text children) := by
      show collapse (fullDict attrs text children) = _
      generalize fullDict attrs text children = d at hkey
      simp only [collapse]
      split
      · rename_i k v
        split
        · rename_i hk
          simp only [List.map_cons, List.map_nil, List.mem_singleton] at hkey
          exact absurd (hkey.trans hk) (name_ne_text hn)
        · rfl
      · rfl
    refine ⟨_, hcol, ?_⟩
    have := addChildren_many n (childEntries children) (by
      rw [childEntries_eq]
      intro c hcm
      obtain ⟨e, he, rfl⟩ := List.mem_map.1 hcm
      exact elem2dict_notList e (hch e he)) (startDict attrs text children.isEmpty) [] (by simp)
      (by rw [startDict_name hnd hn]; rfl)
    rw [List.nil_append, childEntries_eq, List.filter_map, List.map_map] at this
    have hd : fullDict attrs text children =
        List.foldl addChild (startDict attrs text children.isEmpty)
          (children.map fun e => (localName e.tag, elem2dict e)) := by
      rw [fullDict, childEntries_eq]
    rw [hd]
    generalize aget n (List.foldl addChild _ _) = o at this
    have hl : ((fun c : Str × PyVal => decide (c.1 = n)) ∘ fun e : Elem => (localName e.tag, elem2dict e)) =
        fun e => decide (localName e.tag = n) := rfl
    have hs : (Prod.snd ∘ fun e : Elem => (localName e.tag, elem2dict e)) = elem2dict := rfl
    rw [hl, hs] at this
    have hmem : c ∈ children.filter fun e => decide (localName e.tag = n) := by
      simp [hcm, hcn]
    generalize (children.filter fun e => decide (localName e.tag = n)) = l at this hmem
    cases o with
    | none =>
      simp only [Spec.ManyAs, List.map_eq_nil_iff] at this
      subst this
      simp at hmem
    | some v =>
      rcases this with h | ⟨m, rfl, rfl, h2⟩
      · obtain ⟨x, rfl, hx⟩ := List.map_eq_singleton_iff.1 h
        exact .inl ⟨x, rfl, by rw [hx]⟩
      · exact .inr ⟨by simpa using h2, rfl⟩

example : ∃ c ∈ sample.children, localName c.tag = c!"b" :=
  ⟨_, List.mem_cons_self .., by decide⟩

/-- Two attributes with the same local name in different namespaces: one is lost. -/
theorem attribute_lost : elem2dict (.mk c!"a" [(c!"lang", c!"en"), (c!"{x}lang", c!"de")] none
      [.mk c!"b" [] none [] none] none) =
    elem2dict (.mk c!"a" [(c!"lang", c!"de")] none [.mk c!"b" [] none [] none] none) := by
  rfl

/-! ### C54: text between children -/

mutual
/-- The tree without the texts that follow child elements. -/
def dropTails : Elem → Elem
  | .mk t a x c _ => .mk t a x (dropTailsOf c) none
def dropTailsOf : List Elem → List Elem
  | [] => []
  | e :: l => dropTails e :: dropTailsOf l
end

mutual
/-- Text that follows a child element is never seen: the value is the same without it. -/
theorem tails_lost (e : Elem) : elem2dict (dropTails e) = elem2dict e := by
  match e with
  | .mk t a x c y =>
    simp only [dropTails, elem2dict]
    rw [tails_lostOf c]
    cases c <;> rfl
theorem tails_lostOf (l : List Elem) : childEntries (dropTailsOf l) = childEntries l := by
  match l with
  | [] => rfl
  | e :: l =>
    simp only [dropTailsOf, childEntries]
    rw [tails_lost e, tails_lostOf l]
    cases e
    rfl
end

example : sample.children.map Elem.tail ≠ (dropTails sample).children.map Elem.tail := by decide

end Verif.Xml
