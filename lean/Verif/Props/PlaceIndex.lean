/-
C97: an ILCD data set moved to another list of elementary flows keeps its fields; its texts all get the
number 1.
-/
import Verif.Model.PlaceIndex
import Verif.Spec.PlaceIndex
import Verif.Props.XmlStream
import Verif.Props.LangText
import Mathlib.Tactic.ByContra

namespace Verif.PlaceIndex
open Spec Xml
open Xml.Spec (Name WellNamed Visible ManyAs Represents)

theorem aset_numbered (n : Int) (d : List (Str × PyVal)) :
    Numbered n d (aset c!"@index" (.int n) d) := by
  induction d with
  | nil => exact .inl ⟨by simp, rfl⟩
  | cons p d ih =>
    obtain ⟨k, v⟩ := p
    simp only [aset]
    by_cases hk : k = c!"@index"
    · rw [if_pos hk]
      subst hk
      exact .inr ⟨[], v, d, rfl, by simp, rfl⟩
    · rw [if_neg hk]
      rcases ih with ⟨h1, h2⟩ | ⟨a, w, b, h1, h2, h3⟩
      · exact .inl ⟨by
          simp only [List.map_cons, List.mem_cons, not_or]
          exact ⟨fun h => hk h.symm, h1⟩, by rw [h2]; rfl⟩
      · refine .inr ⟨(k, v) :: a, w, b, by rw [h1]; rfl, ?_, by rw [h3]; rfl⟩
        simp only [List.map_cons, List.mem_cons, not_or]
        exact ⟨fun h => hk h.symm, h2⟩

theorem numbered_unique {n : Int} {d e : List (Str × PyVal)} (h : Numbered n d e) :
    e = aset c!"@index" (.int n) d := by
  induction d generalizing e with
  | nil =>
    rcases h with ⟨_, h⟩ | ⟨a, v, b, h, _⟩
    · rw [h]; rfl
    · cases a <;> cases h
  | cons p d ih =>
    obtain ⟨k, v⟩ := p
    simp only [aset]
    rcases h with ⟨h1, h2⟩ | ⟨a, w, b, h1, h2, h3⟩
    · simp only [List.map_cons, List.mem_cons, not_or] at h1
      rw [if_neg (fun h => h1.1 h.symm), h2, ← ih (e := d ++ [(c!"@index", .int n)]) (.inl ⟨h1.2, rfl⟩)]
      rfl
    · cases a with
      | nil =>
        simp only [List.nil_append, List.cons.injEq, Prod.mk.injEq] at h1
        rw [if_pos h1.1.1, h3, h1.2]
        rfl
      | cons q a =>
        simp only [List.cons_append, List.cons.injEq] at h1
        simp only [List.map_cons, List.mem_cons, not_or] at h2
        obtain ⟨rfl, h1⟩ := h1
        rw [if_neg (fun h => h2.1 h.symm), h3,
          ← ih (e := a ++ (c!"@index", .int n) :: b) (.inr ⟨a, w, b, h1, h2.2, rfl⟩)]
        rfl

theorem hasLang_iff (d : List (Str × PyVal)) : hasLang d = true ↔ c!"@lang" ∈ d.map Prod.fst :=
  aget_isSome _ _

theorem isDict_iff (v : PyVal) : isDict v = true ↔ ∃ d, v = .dict d := by
  cases v <;> simp [isDict]

mutual
theorem entry_iff (i : Int) (v w : PyVal) : entry i v = .ok w ↔ Indexed (i + 1) v w := by
  match v with
  | .dict d =>
    simp only [entry]
    by_cases hl : hasLang d = true
    · rw [if_pos hl]
      constructor
      · rintro h
        cases h
        exact .text _ _ ((hasLang_iff d).1 hl) (aset_numbered _ _)
      · intro h
        cases h with
        | text _ e _ he => rw [numbered_unique he]
        | group _ e hn => exact absurd ((hasLang_iff d).1 hl) hn
        | other _ hd => exact absurd rfl (hd d)
    · rw [if_neg hl]
      have hn : c!"@lang" ∉ d.map Prod.fst := fun h => hl ((hasLang_iff d).2 h)
      have ih := items_iff i d
      constructor
      · intro h
        cases hi : items i d with
        | error e => rw [hi] at h; cases h
        | ok d' =>
          rw [hi] at h
          cases h
          exact .group _ _ hn ((ih d').1 hi).1 ((ih d').1 hi).2
      · intro h
        cases h with
        | text _ e he => exact absurd he hn
        | group _ e _ h1 h2 => rw [(ih e).2 ⟨h1, h2⟩]
        | other _ hd => exact absurd rfl (hd d)
  | .list l =>
    simp only [entry]
    have ih := elems_iff i l
    constructor
    · intro h
      cases hi : elems i l with
      | error e => rw [hi] at h; cases h
      | ok l' =>
        rw [hi] at h
        cases h
        obtain ⟨h1, h2, h3⟩ := (ih l').1 hi
        exact .several _ _ h1 h2 h3
    · intro h
      cases h with
      | several _ m h1 h2 h3 => rw [(ih m).2 ⟨h1, h2, h3⟩]
      | other _ _ hl => exact absurd rfl (hl l)
  | .none => exact ⟨fun h => by cases h; exact .other _ (by simp) (by simp), fun h => by cases h; rfl⟩
  | .bool _ => exact ⟨fun h => by cases h; exact .other _ (by simp) (by simp), fun h => by cases h; rfl⟩
  | .int _ => exact ⟨fun h => by cases h; exact .other _ (by simp) (by simp), fun h => by cases h; rfl⟩
  | .float _ _ => exact ⟨fun h => by cases h; exact .other _ (by simp) (by simp), fun h => by cases h; rfl⟩
  | .inf => exact ⟨fun h => by cases h; exact .other _ (by simp) (by simp), fun h => by cases h; rfl⟩
  | .ninf => exact ⟨fun h => by cases h; exact .other _ (by simp) (by simp), fun h => by cases h; rfl⟩
  | .nan => exact ⟨fun h => by cases h; exact .other _ (by simp) (by simp), fun h => by cases h; rfl⟩
  | .str _ => exact ⟨fun h => by cases h; exact .other _ (by simp) (by simp), fun h => by cases h; rfl⟩
  | .opaque _ => exact ⟨fun h => by cases h; exact .other _ (by simp) (by simp), fun h => by cases h; rfl⟩

theorem items_iff (i : Int) (d e : List (Str × PyVal)) :
    items i d = .ok e ↔ d.map Prod.fst = e.map Prod.fst ∧ ∀ p ∈ d.zip e, Indexed (i + 1) p.1.2 p.2.2 := by
  match d with
  | [] =>
    simp only [items]
    constructor
    · intro h; cases h; simp
    · rintro ⟨h, _⟩
      cases e with
      | nil => rfl
      | cons => simp at h
  | (k, v) :: d =>
    simp only [items]
    have ihv := entry_iff i v
    have ihd := items_iff i d
    constructor
    · intro h
      cases hv : entry i v with
      | error x => rw [hv] at h; cases h
      | ok v' =>
        rw [hv] at h
        cases hd : items i d with
        | error x => rw [hd] at h; cases h
        | ok d' =>
          rw [hd] at h
          cases h
          obtain ⟨h1, h2⟩ := (ihd d').1 hd
          refine ⟨by simp [h1], ?_⟩
          rintro p hp
          rcases List.mem_cons.1 hp with rfl | hp
          · exact (ihv v').1 hv
          · exact h2 p hp
    · rintro ⟨h1, h2⟩
      cases e with
      | nil => simp at h1
      | cons q e =>
        obtain ⟨k', v'⟩ := q
        simp only [List.map_cons, List.cons.injEq] at h1
        obtain ⟨rfl, h1⟩ := h1
        rw [(ihv v').2 (h2 _ (List.mem_cons_self ..)),
          (ihd e).2 ⟨h1, fun p hp => h2 p (List.mem_cons_of_mem _ hp)⟩]

theorem elems_iff (i : Int) (l m : List PyVal) :
    elems i l = .ok m ↔ l.length = m.length ∧ (∀ x ∈ l, ∃ d, x = .dict d) ∧
      ∀ p ∈ l.zip m, Indexed (i + 1) p.1 p.2 := by
  match l with
  | [] =>
    simp only [elems]
    constructor
    · intro h; cases h; simp
    · rintro ⟨h, _⟩
      cases m with
      | nil => rfl
      | cons => simp at h
  | x :: l =>
    simp only [elems]
    have ihx := entry_iff i x
    have ihl := elems_iff i l
    constructor
    · intro h
      by_cases hx : isDict x = true
      · rw [if_pos hx] at h
        cases hv : entry i x with
        | error y => rw [hv] at h; cases h
        | ok x' =>
          rw [hv] at h
          cases hl : elems i l with
          | error y => rw [hl] at h; cases h
          | ok l' =>
            rw [hl] at h
            cases h
            obtain ⟨h1, h2, h3⟩ := (ihl l').1 hl
            refine ⟨by simp [h1], ?_, ?_⟩
            · intro y hy
              rcases List.mem_cons.1 hy with rfl | hy
              · exact (isDict_iff _).1 hx
              · exact h2 y hy
            · intro p hp
              rcases List.mem_cons.1 hp with rfl | hp
              · exact (ihx x').1 hv
              · exact h3 p hp
      · rw [if_neg hx] at h
        cases h
    · rintro ⟨h1, h2, h3⟩
      cases m with
      | nil => simp at h1
      | cons x' m =>
        rw [if_pos ((isDict_iff x).2 (h2 x (List.mem_cons_self ..))),
          (ihx x').2 (h3 _ (List.mem_cons_self ..)),
          (ihl m).2 ⟨by simpa using h1, fun y hy => h2 y (List.mem_cons_of_mem _ hy),
            fun p hp => h3 p (List.mem_cons_of_mem _ hp)⟩]
end

/-- The result of a call: the value with the number `i + 1` on every text that has a language. -/
theorem place_iff (i : Int) (v w : PyVal) :
    place i v = .ok w ↔ (∃ d, v = .dict d) ∧ Indexed (i + 1) v w := by
  simp only [place]
  by_cases h : isDict v = true
  · rw [if_pos h, entry_iff]
    exact ⟨fun hw => ⟨(isDict_iff v).1 h, hw⟩, fun hw => hw.2⟩
  · rw [if_neg h]
    constructor
    · intro hh; cases hh
    · rintro ⟨hd, _⟩; exact absurd ((isDict_iff v).2 hd) h

/-! ### When the call fails -/

theorem entry_dict_ok (i : Int) (d : List (Str × PyVal)) :
    (∃ w, entry i (.dict d) = .ok w) ↔
      c!"@lang" ∈ d.map Prod.fst ∨ ∀ p ∈ d, ∃ w, entry i p.2 = .ok w := by
  have key : ∀ d : List (Str × PyVal), (∃ e, items i d = .ok e) ↔ ∀ p ∈ d, ∃ w, entry i p.2 = .ok w := by
    intro d
    induction d with
    | nil => simp [items]
    | cons p d ih =>
      obtain ⟨k, v⟩ := p
      simp only [items, List.forall_mem_cons]
      rw [← ih]
      constructor
      · rintro ⟨e, h⟩
        cases hv : entry i v with
        | error x => rw [hv] at h; cases h
        | ok v' =>
          rw [hv] at h
          cases hd : items i d with
          | error x => rw [hd] at h; cases h
          | ok d' => exact ⟨⟨_, rfl⟩, ⟨_, rfl⟩⟩
      · rintro ⟨⟨w, h1⟩, ⟨e, h2⟩⟩
        rw [h1, h2]
        exact ⟨_, rfl⟩
  simp only [entry]
  by_cases hl : hasLang d = true
  · rw [if_pos hl]
    exact ⟨fun _ => .inl ((hasLang_iff d).1 hl), fun _ => ⟨_, rfl⟩⟩
  · rw [if_neg hl, ← key d]
    constructor
    · rintro ⟨w, h⟩
      cases hi : items i d with
      | error x => rw [hi] at h; cases h
      | ok e => exact .inr ⟨_, rfl⟩
    · rintro (h | ⟨e, h⟩)
      · exact absurd ((hasLang_iff d).2 h) hl
      · rw [h]; exact ⟨_, rfl⟩

theorem entry_list_ok (i : Int) (l : List PyVal) :
    (∃ w, entry i (.list l) = .ok w) ↔ ∀ x ∈ l, (∃ d, x = .dict d) ∧ ∃ w, entry i x = .ok w := by
  have key : (∃ m, elems i l = .ok m) ↔ ∀ x ∈ l, (∃ d, x = .dict d) ∧ ∃ w, entry i x = .ok w := by
    induction l with
    | nil => simp [elems]
    | cons x l ih =>
      simp only [elems, List.forall_mem_cons]
      rw [← ih]
      by_cases hx : isDict x = true
      · rw [if_pos hx]
        constructor
        · rintro ⟨m, h⟩
          cases hv : entry i x with
          | error y => rw [hv] at h; cases h
          | ok v' =>
            rw [hv] at h
            cases hd : elems i l with
            | error y => rw [hd] at h; cases h
            | ok d' => exact ⟨⟨(isDict_iff x).1 hx, _, rfl⟩, ⟨_, rfl⟩⟩
        · rintro ⟨⟨_, w, h1⟩, ⟨e, h2⟩⟩
          rw [h1, h2]
          exact ⟨_, rfl⟩
      · rw [if_neg hx]
        constructor
        · rintro ⟨m, h⟩; cases h
        · rintro ⟨⟨h, _⟩, _⟩; exact absurd ((isDict_iff x).2 h) hx
  rw [← key]
  simp only [entry]
  constructor
  · rintro ⟨w, h⟩
    cases hi : elems i l with
    | error x => rw [hi] at h; cases h
    | ok e => exact ⟨_, rfl⟩
  · rintro ⟨e, h⟩
    rw [h]; exact ⟨_, rfl⟩

theorem entry_str_ok (i : Int) (s : Str) : ∃ w, entry i (.str s) = .ok w := ⟨_, rfl⟩

/-- A bare text is read as a text, every other element as a dictionary. -/
theorem bare_iff (e : Elem) (he : WellNamed e) : Bare e ↔ ¬ ∃ d, elem2dict e = .dict d := by
  have := element_represented e he
  generalize elem2dict e = v at this
  cases this with
  | text tag s tail hs =>
    refine ⟨fun _ h => ?_, fun _ => ⟨rfl, rfl, s, rfl, hs⟩⟩
    obtain ⟨d, h⟩ := h
    cases h
  | dict tag attrs text children tail d value h =>
    refine ⟨fun hb => ?_, fun h => absurd ⟨d, rfl⟩ h⟩
    obtain ⟨h1, h2, s, h3, h4⟩ := hb
    simp only [Elem.attrs, Elem.children, Elem.text] at h1 h2 h3
    rcases h with h | h | h
    · exact absurd h1 h
    · exact absurd h2 h
    · exact absurd h4 (h s h3)

theorem foldl_addChild_nodup (cs d : List (Str × PyVal)) (h : (d.map Prod.fst).Nodup) :
    ((cs.foldl addChild d).map Prod.fst).Nodup := by
  induction cs generalizing d with
  | nil => exact h
  | cons c cs ih =>
    refine ih _ ?_
    simp only [addChild]
    split <;> exact aset_nodup h

theorem fullDict_nodup (attrs : List (Str × Str)) (text : Option Str) (children : List Elem) :
    ((fullDict attrs text children).map Prod.fst).Nodup := by
  refine foldl_addChild_nodup _ _ ?_
  have h0 : ((attrEntries attrs).map Prod.fst).Nodup := by
    have gen : ∀ (l : List (Str × Str)) (d : List (Str × PyVal)), (d.map Prod.fst).Nodup →
        ((l.foldl (fun d a => aset ('@' :: localName a.1) (PyVal.str a.2) d) d).map Prod.fst).Nodup := by
      intro l
      induction l with
      | nil => intro d h; exact h
      | cons a l ih => intro d h; exact ih _ (aset_nodup h)
    exact gen attrs [] (by simp)
  simp only [startDict]
  split
  · exact aset_nodup h0
  · split
    · exact aset_nodup h0
    · exact h0

/-- What an element that is not a bare text is read as. -/
theorem elem2dict_full {tag attrs text children tail}
    (h : ∃ d, elem2dict (.mk tag attrs text children tail) = .dict d)
    (hn : (attrs.map fun a => localName a.1).Nodup) (hc : ∀ e ∈ children, WellNamed e) :
    elem2dict (.mk tag attrs text children tail) = .dict (fullDict attrs text children) := by
  have ht := fullDict_text (text := text) hn hc
  revert h
  show (∃ d, collapse (fullDict attrs text children) = .dict d) →
    collapse (fullDict attrs text children) = _
  generalize fullDict attrs text children = d at ht
  rintro ⟨d', h⟩
  simp only [collapse] at h ⊢
  split
  · rename_i k v
    simp only at h
    split
    · rename_i hk
      exfalso
      rw [if_pos hk] at h
      subst hk h
      simp only [aget, if_true] at ht
      split at ht
      · simp at ht
      · split at ht <;> simp at ht
    · rfl
  · rfl

/-- The values read for the children with one name. -/
theorem fullDict_many {attrs text children} (hn : (attrs.map fun a => localName a.1).Nodup)
    (hc : ∀ e ∈ children, WellNamed e) {n : Str} (h : Name n) :
    ManyAs ((children.filter fun e => decide (localName e.tag = n)).map elem2dict)
      (aget n (fullDict attrs text children)) := by
  have := addChildren_many n (childEntries children) (by
      rw [childEntries_eq]
      intro c hcm
      obtain ⟨e, he, rfl⟩ := List.mem_map.1 hcm
      exact elem2dict_notList e (hc e he)) (startDict attrs text children.isEmpty) [] (by simp)
      (by rw [startDict_name hn h]; rfl)
  rw [List.nil_append, childEntries_eq, List.filter_map, List.map_map, ← childEntries_eq] at this
  exact this

theorem tongue_iff {tag attrs text children tail} (hn : (attrs.map fun a => localName a.1).Nodup)
    (hc : ∀ e ∈ children, WellNamed e) :
    c!"@lang" ∈ (fullDict attrs text children).map Prod.fst ↔
      Tongue (.mk tag attrs text children tail) := by
  rw [← aget_isSome, Option.isSome_iff_exists]
  constructor
  · rintro ⟨v, h⟩
    obtain ⟨a, ha, hl, _⟩ := (fullDict_attr hn hc c!"lang" v).1 h
    exact ⟨a, ha, hl⟩
  · rintro ⟨a, ha, hl⟩
    exact ⟨.str a.2, (fullDict_attr hn hc c!"lang" _).2 ⟨a, ha, hl, rfl⟩⟩

/-- Two different places hold elements of one name exactly if there are two of that name. -/
theorem two_of_places {l : List Elem} {f : Elem → Bool} {p q : Nat} {c c' : Elem} (hpq : p ≠ q)
    (hp : l[p]? = some c) (hq : l[q]? = some c') (hc : f c = true) (hc' : f c' = true) :
    2 ≤ (l.filter f).length := by
  induction l generalizing p q with
  | nil => simp at hp
  | cons x l ih =>
    have one : ∀ (n : Nat) (y : Elem), l[n]? = some y → f y = true → 1 ≤ (l.filter f).length := by
      intro n y hn hy
      exact List.length_pos_of_mem (List.mem_filter.2 ⟨List.mem_of_getElem? hn, hy⟩)
    cases p with
    | zero =>
      cases q with
      | zero => exact absurd rfl hpq
      | succ q =>
        simp only [List.getElem?_cons_zero, Option.some.injEq, List.getElem?_cons_succ] at hp hq
        subst hp
        rw [List.filter_cons_of_pos hc]
        simpa using one q c' hq hc'
    | succ p =>
      cases q with
      | zero =>
        simp only [List.getElem?_cons_zero, Option.some.injEq, List.getElem?_cons_succ] at hp hq
        subst hq
        rw [List.filter_cons_of_pos hc']
        simpa using one p c hp hc
      | succ q =>
        simp only [List.getElem?_cons_succ] at hp hq
        have := ih (by omega) hp hq
        rw [List.filter_cons]
        split
        · simp only [List.length_cons]; omega
        · exact this

theorem places_of_two {l : List Elem} {f : Elem → Bool} {c : Elem} (h : 2 ≤ (l.filter f).length)
    (hc : c ∈ l.filter f) :
    ∃ (p q : Nat) (c' : Elem), p ≠ q ∧ l[p]? = some c ∧ l[q]? = some c' ∧ f c = true ∧ f c' = true := by
  induction l with
  | nil => simp at h
  | cons x l ih =>
    by_cases hx : f x = true
    · rw [List.filter_cons_of_pos hx] at h hc
      rcases List.mem_cons.1 hc with rfl | hc
      · have : 0 < (l.filter f).length := by
          simp only [List.length_cons] at h
          omega
        obtain ⟨y, hy⟩ := List.exists_mem_of_length_pos this
        obtain ⟨hy, hfy⟩ := List.mem_filter.1 hy
        obtain ⟨q, hq⟩ := List.mem_iff_getElem?.1 hy
        exact ⟨0, q + 1, y, by omega, rfl, by simpa using hq, hx, hfy⟩
      · obtain ⟨hc, hfc⟩ := List.mem_filter.1 hc
        obtain ⟨p, hp⟩ := List.mem_iff_getElem?.1 hc
        exact ⟨p + 1, 0, x, by omega, by simpa using hp, rfl, hfc, hx⟩
    · rw [List.filter_cons_of_neg hx] at h hc
      obtain ⟨p, q, c', h1, h2, h3, h4⟩ := ih h hc
      exact ⟨p + 1, q + 1, c', by omega, by simpa using h2, by simpa using h3, h4⟩

theorem entry_elem_ok (i : Int) (e : Elem) (he : WellNamed e) :
    (∃ w, entry i (elem2dict e) = .ok w) ↔ ¬ Stuck e := by
  induction he with
  | mk tag attrs text children tail hname hattr hn hc ih =>
    have hwn : WellNamed (.mk tag attrs text children tail) := .mk _ _ _ _ _ hname hattr hn hc
    by_cases hb : Bare (.mk tag attrs text children tail)
    · obtain ⟨h1, h2, s, h3, h4⟩ := id hb
      simp only [Elem.attrs, Elem.children, Elem.text] at h1 h2 h3
      subst h1 h2 h3
      have hv : elem2dict (.mk tag [] (some s) [] tail) = .str s := by
        have := element_represented _ hwn
        generalize hg : elem2dict (.mk tag [] (some s) [] tail) = v at this
        cases this with
        | text => rfl
        | dict _ _ _ _ _ d => exact absurd ⟨d, hg⟩ ((bare_iff _ hwn).1 hb)
      rw [hv]
      refine ⟨fun _ hs => ?_, fun _ => entry_str_ok i s⟩
      cases hs with
      | here _ p q c c' _ _ hp => simp [Elem.children] at hp
      | deep _ c _ hm => simp [Elem.children] at hm
    · have hd : ∃ d, elem2dict (.mk tag attrs text children tail) = .dict d := by
        by_contra h; exact hb ((bare_iff _ hwn).2 h)
      rw [elem2dict_full hd hn hc, entry_dict_ok, tongue_iff (tag := tag) (tail := tail) hn hc]
      have hnd := fullDict_nodup attrs text children
      constructor
      · intro h hs
        cases hs with
        | here _ p q c c' ht hpq hp hq hcc hbare =>
          simp only [Elem.children] at hp hq
          rcases h with h | h
          · exact ht h
          · have hcm := List.mem_of_getElem? hp
            have hcw := hc c hcm
            have hnm : Name (localName c.tag) := by cases hcw; assumption
            have hm := fullDict_many (text := text) hn hc hnm
            have h2 : 2 ≤ (children.filter fun e => decide (localName e.tag = localName c.tag)).length :=
              two_of_places hpq hp hq (by simp) (by simp [hcc])
            cases ha : aget (localName c.tag) (fullDict attrs text children) with
            | none =>
              rw [ha] at hm
              simp only [ManyAs, List.map_eq_nil_iff] at hm
              rw [hm] at h2; simp at h2
            | some v =>
              rw [ha] at hm
              rcases hm with hm | ⟨l, rfl, hm, _⟩
              · have := congrArg List.length hm
                simp only [List.length_map, List.length_cons, List.length_nil] at this
                omega
              · have hok := h _ (aget_mem ha)
                simp only at hok
                rw [entry_list_ok] at hok
                have hin : elem2dict c ∈ l := by
                  rw [← hm]
                  exact List.mem_map_of_mem (List.mem_filter.2 ⟨hcm, by simp⟩)
                exact (bare_iff c hcw).1 hbare (hok _ hin).1
        | deep _ c ht hcm hs =>
          simp only [Elem.children] at hcm
          rcases h with h | h
          · exact ht h
          · have hcw := hc c hcm
            have hnm : Name (localName c.tag) := by cases hcw; assumption
            have hm := fullDict_many (text := text) hn hc hnm
            have hin : elem2dict c ∈
                (children.filter fun e => decide (localName e.tag = localName c.tag)).map elem2dict :=
              List.mem_map_of_mem (List.mem_filter.2 ⟨hcm, by simp⟩)
            refine (ih c hcm).1 ?_ hs
            cases ha : aget (localName c.tag) (fullDict attrs text children) with
            | none =>
              rw [ha] at hm
              simp only [ManyAs] at hm
              rw [hm] at hin; simp at hin
            | some v =>
              rw [ha] at hm
              have hok := h _ (aget_mem ha)
              simp only at hok
              rcases hm with hm | ⟨l, rfl, hm, _⟩
              · rw [hm] at hin
                simp only [List.mem_singleton] at hin
                rw [hin]; exact hok
              · rw [entry_list_ok] at hok
                rw [hm] at hin
                exact (hok _ hin).2
      · intro hs
        by_cases ht : Tongue (.mk tag attrs text children tail)
        · exact .inl ht
        · right
          rintro ⟨k, v⟩ hp
          simp only
          have ha := aget_eq_of_mem hnd hp
          have hk : k ∈ (fullDict attrs text children).map Prod.fst := List.mem_map.2 ⟨_, hp, rfl⟩
          rw [fullDict, addChildren_keys] at hk
          rcases hk with hk | hk
          · rcases startDict_keys hn hk with rfl | ⟨a, _, rfl⟩
            · rw [fullDict_text hn hc] at ha
              split at ha
              · cases ha; exact entry_str_ok i _
              · split at ha
                · cases ha; exact entry_str_ok i _
                · cases ha
            · obtain ⟨b, _, _, rfl⟩ := (fullDict_attr hn hc _ v).1 ha
              exact entry_str_ok i _
          · rw [childEntries_eq, List.map_map] at hk
            obtain ⟨c, hcm, rfl⟩ := List.mem_map.1 hk
            simp only [Function.comp] at ha
            have hcw := hc c hcm
            have hnm : Name (localName c.tag) := by cases hcw; assumption
            have hm := fullDict_many (text := text) hn hc hnm
            rw [ha] at hm
            have hchild : ∀ x ∈ (children.filter fun e => decide (localName e.tag = localName c.tag)).map
                elem2dict, ∃ w, entry i x = .ok w := by
              intro x hx
              obtain ⟨y, hy, rfl⟩ := List.mem_map.1 hx
              have hym := (List.mem_filter.1 hy).1
              exact (ih y hym).2 fun h => hs (.deep _ y ht hym h)
            rcases hm with hm | ⟨l, rfl, hm, h2⟩
            · exact hchild v (by rw [hm]; simp)
            · rw [entry_list_ok]
              intro x hx
              rw [← hm] at hx
              refine ⟨?_, hchild x hx⟩
              obtain ⟨y, hy, rfl⟩ := List.mem_map.1 hx
              by_contra hnb
              have hym := (List.mem_filter.1 hy).1
              have hbare := (bare_iff y (hc y hym)).2 hnb
              have h2' : 2 ≤ (children.filter fun e => decide (localName e.tag = localName c.tag)).length := by
                rw [← hm] at h2; simpa using h2
              obtain ⟨p, q, c', hpq, hp', hq', hf, hf'⟩ := places_of_two h2' hy
              exact hs (.here _ p q y c' ht hpq hp' hq'
                ((of_decide_eq_true hf).trans (of_decide_eq_true hf').symm) hbare)

/-- A section of a data set is taken exactly if it is not a bare text and no bare text in it, outside
of texts with a language, has a sibling of the same name. -/
theorem place_elem_ok (i : Int) (e : Elem) (he : WellNamed e) :
    (∃ w, place i (elem2dict e) = .ok w) ↔ ¬ Bare e ∧ ¬ Stuck e := by
  rw [bare_iff e he, Classical.not_not, ← entry_elem_ok i e he]
  simp only [place]
  constructor
  · rintro ⟨w, h⟩
    by_cases hd : isDict (elem2dict e) = true
    · rw [if_pos hd] at h; exact ⟨(isDict_iff _).1 hd, w, h⟩
    · rw [if_neg hd] at h; cases h
  · rintro ⟨hd, w, h⟩
    rw [if_pos ((isDict_iff _).2 hd)]
    exact ⟨w, h⟩

/-! ### Examples of sections -/

/-- A bare text. -/
def bareText (tag s : Str) : Elem := .mk tag [] (some s) [] none

/-- A text with a language. -/
def textIn (tag lang s : Str) : Elem :=
  .mk tag [(c!"{http://www.w3.org/XML/1998/namespace}lang", lang)] (some s) [] none

theorem bareText_named {tag : Str} (s : Str) (h : Name (localName tag)) : WellNamed (bareText tag s) :=
  .mk _ _ _ _ _ h (by simp) (by simp) (by simp)

theorem lang_local : localName c!"{http://www.w3.org/XML/1998/namespace}lang" = c!"lang" := by decide

theorem textIn_named {tag : Str} (lang s : Str) (h : Name (localName tag)) :
    WellNamed (textIn tag lang s) := by
  refine .mk _ _ _ _ _ h ?_ (by simp) (by simp)
  intro a ha
  simp only [List.mem_singleton] at ha
  subst ha
  rw [lang_local]
  decide

/-- Two approaches of the LCI method, a code each: the section cannot be taken. The same holds for any
two codes in one section, such as two reference flows. -/
theorem two_codes_stop (i : Int) (tag code : Str) (pre mid post : List Elem) (a b : Str) (text tail)
    (ha : Visible a) (hcode : Name (localName code)) (htag : Name (localName tag))
    (hch : ∀ e ∈ pre ++ bareText code a :: mid ++ bareText code b :: post, WellNamed e) :
    ∃ err, place i (elem2dict (.mk tag [] text (pre ++ bareText code a :: mid ++ bareText code b :: post)
      tail)) = .error err := by
  have hw : WellNamed (.mk tag [] text (pre ++ bareText code a :: mid ++ bareText code b :: post) tail) :=
    .mk _ _ _ _ _ htag (by simp) (by simp) hch
  have hs : Stuck (.mk tag [] text (pre ++ bareText code a :: mid ++ bareText code b :: post) tail) := by
    refine .here _ pre.length (pre.length + mid.length + 1) (bareText code a) (bareText code b) ?_
      (by omega) ?_ ?_ rfl ⟨rfl, rfl, a, rfl, ha⟩
    · rintro ⟨x, hx, _⟩; simp [Elem.attrs] at hx
    · simp [Elem.children]
    · simp only [Elem.children, List.append_assoc, List.cons_append]
      rw [List.getElem?_append_right (by omega),
        show pre.length + mid.length + 1 - pre.length = mid.length + 1 from by omega]
      simp
  cases h : place i (elem2dict (.mk tag [] text
      (pre ++ bareText code a :: mid ++ bareText code b :: post) tail)) with
  | error e => exact ⟨e, rfl⟩
  | ok w => exact absurd hs ((place_elem_ok i _ hw).1 ⟨w, h⟩).2

example : Visible c!"Allocation - mass" ∧ Name (localName c!"{http://lca.jrc.it/ILCD/Process}LCIMethodApproaches") ∧
    Name (localName c!"{http://lca.jrc.it/ILCD/Process}LCIMethodAndAllocation") ∧
    ∀ e ∈ ([] ++ bareText c!"{http://lca.jrc.it/ILCD/Process}LCIMethodApproaches" c!"Allocation - mass" :: [] ++
      bareText c!"{http://lca.jrc.it/ILCD/Process}LCIMethodApproaches" c!"Allocation - market value" :: []),
      WellNamed e := by
  refine ⟨⟨'A', by decide, by decide⟩, by decide, by decide, ?_⟩
  intro e he
  simp only [List.nil_append, List.cons_append, List.mem_cons, List.not_mem_nil, or_false] at he
  rcases he with rfl | rfl <;> exact bareText_named _ (by decide)

/-! ### Texts -/

theorem elem2dict_textIn (tag lang s : Str) (hs : Visible s) :
    elem2dict (textIn tag lang s) = .dict [(c!"@lang", .str lang), (c!"#text", .str s)] := by
  have ht : textEntry (some s) = some s := (textEntry_iff _ _).2 ⟨rfl, hs⟩
  simp only [textIn, elem2dict, childEntries, List.foldl_nil, startDict, ht, attrEntries, List.foldl_cons,
    lang_local, aset]
  rfl

theorem place_textIn (i : Int) (tag lang s : Str) (hs : Visible s) :
    place i (elem2dict (textIn tag lang s)) =
      .ok (.dict [(c!"@lang", .str lang), (c!"#text", .str s), (c!"@index", .int (i + 1))]) := by
  rw [elem2dict_textIn tag lang s hs]
  rfl

/-- The texts of a field, given by tag, language and text, as handed to the field one by one
(data_structures/main.py:67-78). -/
theorem texts_placed (i : Int) (ts : List (Str × Str × Str)) (hv : ∀ t ∈ ts, Visible t.2.2) :
    elems i (ts.map fun t => elem2dict (textIn t.1 t.2.1 t.2.2)) =
      .ok (ts.map fun t => .dict [(c!"@lang", .str t.2.1), (c!"#text", .str t.2.2),
        (c!"@index", .int (i + 1))]) := by
  induction ts with
  | nil => rfl
  | cons t ts ih =>
    have h1 := elem2dict_textIn t.1 t.2.1 t.2.2 (hv t (by simp))
    have h2 : entry i (elem2dict (textIn t.1 t.2.1 t.2.2)) =
        .ok (.dict [(c!"@lang", .str t.2.1), (c!"#text", .str t.2.2), (c!"@index", .int (i + 1))]) := by
      rw [h1]; rfl
    simp only [List.map_cons, elems]
    rw [if_pos (by rw [h1]; rfl), h2, ih fun t ht => hv t (by simp [ht])]

theorem texts_accepted (i : Int) (langs : Option (List Str)) (ts : List (Str × Str × Str))
    (hv : ∀ t ∈ ts, Visible t.2.2) (hl : ∀ t ∈ ts, t.2.1.length = 2 ∧ ∀ ls, langs = some ls → t.2.1 ∈ ls) :
    LangText.Spec.Accepted langs
      (ts.map fun t => .dict [(c!"@lang", .str t.2.1), (c!"#text", .str t.2.2), (c!"@index", .int (i + 1))])
      (ts.map fun t => ⟨i + 1, t.2.1, t.2.2⟩) := by
  induction ts with
  | nil => exact .nil
  | cons t ts ih =>
    have := LangText.Spec.Accepted.good (langs := langs)
      (o := .dict [(c!"@lang", .str t.2.1), (c!"#text", .str t.2.2), (c!"@index", .int (i + 1))])
      (es := [⟨i + 1, t.2.1, t.2.2⟩])
      (.cons ⟨_, .int (i + 1), rfl, by simp, ⟨[(c!"@lang", .str t.2.1)], [(c!"@index", .int (i + 1))], rfl, by simp⟩,
        ⟨[(c!"@lang", .str t.2.1), (c!"#text", .str t.2.2)], [], rfl, by simp⟩, rfl,
        ⟨[], _, rfl, by simp⟩, (hl t (by simp)).1, (hl t (by simp)).2⟩ .nil)
      (ih (fun t ht => hv t (by simp [ht])) fun t ht => hl t (by simp [ht]))
    have hf : ([⟨i + 1, t.2.1, t.2.2⟩] : List LangText.Spec.Given).filter
        (fun e => decide (LangText.Spec.Visible e.text)) = [⟨i + 1, t.2.1, t.2.2⟩] :=
      List.filter_cons_of_pos (decide_eq_true (show LangText.Spec.Visible t.2.2 from hv t (by simp)))
    rw [hf] at this
    exact this

/-- The texts of a field after the move: per language, all the texts the file has in it, in the order
of the file, joined by the separator of the field; they no longer are separate texts. -/
theorem texts_written (i : Int) (t : LangText.TextCls) (langs : Option (List Str))
    (ts : List (Str × Str × Str)) (hv : ∀ t ∈ ts, Visible t.2.2)
    (hl : ∀ t ∈ ts, t.2.1.length = 2 ∧ ∀ ls, langs = some ls → t.2.1 ∈ ls) :
    ∃ ws, elems i (ts.map fun t => elem2dict (textIn t.1 t.2.1 t.2.2)) = .ok ws ∧
      (∀ L, L ∈ (LangText.byLang (LangText.history (LangText.add t (LangText.validateEntry langs)) []
        ws)).map Prod.fst ↔ L ∈ ts.map fun t => t.2.1) ∧
      ∀ p ∈ LangText.byLang (LangText.history (LangText.add t (LangText.validateEntry langs)) [] ws),
        p.2 = LangText.Spec.combine t.sep ((ts.filter fun t => t.2.1 = p.1).map fun t => t.2.2) := by
  refine ⟨_, texts_placed i ts hv, ?_⟩
  have h := LangText.byLang_shows t langs _ _ (texts_accepted i langs ts hv hl)
  refine ⟨fun L => ?_, ?_⟩
  · rw [h.2.1 L]
    simp only [List.mem_map]
    constructor
    · rintro ⟨e, ⟨x, hx, rfl⟩, rfl⟩; exact ⟨x, hx, rfl⟩
    · rintro ⟨x, hx, rfl⟩; exact ⟨_, ⟨x, hx, rfl⟩, rfl⟩
  · intro p hp
    obtain ⟨idx, h1, h2, h3⟩ := h.2.2 p hp
    have hidx : idx = [i + 1] := by
      have hmem : i + 1 ∈ idx := by
        obtain ⟨e, he, hL⟩ := (h.2.1 p.1).1 (List.mem_map.2 ⟨p, hp, rfl⟩)
        obtain ⟨x, hx, rfl⟩ := List.mem_map.1 he
        exact (h2 _).2 ⟨_, he, hL, rfl⟩
      have hall : ∀ j ∈ idx, j = i + 1 := by
        intro j hj
        obtain ⟨e, he, _, hi⟩ := (h2 j).1 hj
        obtain ⟨x, hx, rfl⟩ := List.mem_map.1 he
        exact hi.symm
      match idx, h1, hmem, hall with
      | [a], _, _, hall => rw [hall a (by simp)]
      | a :: b :: l, h1, _, hall =>
        have := (List.pairwise_cons.1 h1).1 b (by simp)
        rw [hall a (by simp), hall b (by simp)] at this
        exact absurd this (by omega)
    rw [h3, hidx]
    simp only [List.map_cons, List.map_nil, join, LangText.Spec.textsOf]
    rw [List.filter_map, List.map_map]
    congr 1
    have : ((fun e : LangText.Spec.Given => decide (e.index = i + 1 ∧ e.lang = p.1)) ∘
        fun t : Str × Str × Str => (⟨i + 1, t.2.1, t.2.2⟩ : LangText.Spec.Given)) =
        fun t => decide (t.2.1 = p.1) := by
      funext t; simp
    rw [this]
    rfl

/-- Two comments in one language of an example, as the general comment of a data set may have. -/
example : LangText.endMulti LangText.unlimited false (fun s => [s])
    (LangText.history (LangText.add LangText.unlimited (LangText.validateEntry none)) []
      [.dict [(c!"@lang", .str c!"en"), (c!"#text", .str c!"First."), (c!"@index", .int 1)],
       .dict [(c!"@lang", .str c!"de"), (c!"#text", .str c!"Erstens."), (c!"@index", .int 1)],
       .dict [(c!"@lang", .str c!"en"), (c!"#text", .str c!"Second."), (c!"@index", .int 1)]]) =
    .ok [(c!"de", c!"Erstens."), (c!"en", c!"First.; Second.")] := by decide

example : ∀ t ∈ [(c!"{http://lca.jrc.it/ILCD/Common}generalComment", c!"en", c!"First.")], Visible t.2.2 := by
  intro t ht
  simp only [List.mem_singleton] at ht
  subst ht
  exact ⟨'F', by decide, by decide⟩

/-- A text without a language, which ILCD allows (English is meant), is left as it is, gets no number
and is refused by the field. -/
theorem no_language_refused (i : Int) (tag s : Str) (langs : Option (List Str)) (t : LangText.TextCls)
    (x : List LangText.Entry) (h : Name (localName tag)) (hs : Visible s) :
    elem2dict (bareText tag s) = .str s ∧ entry i (.str s) = .ok (.str s) ∧
      LangText.add t (LangText.validateEntry langs) x (.str s) = .error .typeError := by
  refine ⟨?_, rfl, rfl⟩
  have := element_represented _ (bareText_named s h)
  generalize hg : elem2dict (bareText tag s) = v at this
  unfold bareText at this
  cases this with
  | text => rfl
  | dict _ _ _ _ _ d =>
    exact absurd ⟨d, hg⟩ ((bare_iff _ (bareText_named s h)).1 ⟨rfl, rfl, s, rfl, hs⟩)

example : Name (localName c!"{http://lca.jrc.it/ILCD/Common}generalComment") ∧ Visible c!"First." :=
  ⟨by decide, 'F', by decide, by decide⟩

/-- The keys of a section and everything that is not in a text with a language are as in the file. -/
theorem section_kept (i : Int) (d : List (Str × PyVal)) (w : PyVal)
    (h : place i (.dict d) = .ok w) (hl : c!"@lang" ∉ d.map Prod.fst) :
    ∃ e, w = .dict e ∧ e.map Prod.fst = d.map Prod.fst ∧
      ∀ k s, aget k d = some (.str s) → aget k e = some (.str s) := by
  obtain ⟨_, h⟩ := (place_iff i _ w).1 h
  cases h with
  | text _ e he => exact absurd he hl
  | other _ hd => exact absurd rfl (hd d)
  | group _ e _ hk hv =>
    refine ⟨e, rfl, hk.symm, ?_⟩
    clear hl h
    rename_i hdict hno
    clear hdict hno
    induction d generalizing e with
    | nil => intro k s hk; simp [aget] at hk
    | cons p d ih =>
      intro k s hks
      cases e with
      | nil => simp at hk
      | cons q e =>
        obtain ⟨a, v⟩ := p
        obtain ⟨b, v'⟩ := q
        simp only [List.map_cons, List.cons.injEq] at hk
        obtain ⟨rfl, hk⟩ := hk
        simp only [aget] at hks ⊢
        split at hks
        · rename_i ha
          rw [if_pos ha]
          cases hks
          have hx := hv _ (List.mem_cons_self ..)
          simp only at hx
          cases hx
          rfl
        · rename_i ha
          rw [if_neg ha]
          exact ih e hk (fun p hp => hv p (List.mem_cons_of_mem _ hp)) k s hks

example : place 0 (.dict [(c!"name", .dict [(c!"baseName", .dict [(c!"@lang", .str c!"en"), (c!"#text", .str c!"steel")])]),
      (c!"UUID", .str c!"u")]) =
    .ok (.dict [(c!"name", .dict [(c!"baseName", .dict [(c!"@lang", .str c!"en"), (c!"#text", .str c!"steel"),
        (c!"@index", .int 1)])]), (c!"UUID", .str c!"u")]) := by rfl

end Verif.PlaceIndex
