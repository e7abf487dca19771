/-
Lemmas on the record of the data of ILCD without a place in EcoSpold2.
-/
import Verif.Model.LeftOut
import Verif.Spec.LeftOut
import Verif.Lemmas.Assoc
import Verif.Props.XmlStream

namespace Verif.LeftOut

open Verif.Xml (Elem elem2dict localName collapse addChild startDict attrEntries childEntries textEntry)
open Verif.Xml.Spec (select pathText Name WellNamed Visible Represents)
open Verif.Mapping (MKey keyText)

/-! ### Values -/

/-- A text, or a dictionary whose text is one. -/
def Good : PyVal → Prop
  | .str _ => True
  | .dict d => aget c!"#text" d = none ∨ ∃ s, aget c!"#text" d = some (.str s)
  | _ => False

theorem good_elem {e : Elem} (he : WellNamed e) : Good (elem2dict e) := by
  have hr := Verif.Xml.element_represented e he
  generalize elem2dict e = v at hr
  cases hr with
  | text => trivial
  | dict _ _ text _ _ d _ _ _ _ _ h5 h6 _ =>
    by_cases hv : ∃ s, text = some s ∧ Visible s
    · obtain ⟨s, h, hs⟩ := hv
      exact .inr ⟨s, h5 s h hs⟩
    · rcases h6 (fun s h hs => hv ⟨s, h, hs⟩) with h | h
      · exact .inl h
      · exact .inr ⟨[], h⟩

theorem str_iff {e : Elem} (he : WellNamed e) (s : Str) : elem2dict e = .str s ↔ Spec.Plain e s := by
  have hr := Verif.Xml.element_represented e he
  constructor
  · intro h
    rw [h] at hr
    cases hr with
    | text _ _ _ hv => exact ⟨rfl, rfl, rfl, hv⟩
  · rintro ⟨ha, hc, ht, hv⟩
    generalize elem2dict e = v at hr
    cases hr with
    | text =>
      simp only [Elem.text, Option.some.injEq] at ht
      rw [ht]
    | dict _ _ _ _ _ _ _ h1 =>
      exfalso
      simp only [Elem.attrs] at ha
      simp only [Elem.children] at hc
      simp only [Elem.text] at ht
      rcases h1 with h | h | h
      · exact h ha
      · exact h hc
      · exact h s ht hv

theorem addChild_text {l : List (Str × PyVal)} (hl : ∀ c ∈ l, c.1 ≠ c!"#text") (d : List (Str × PyVal)) :
    aget c!"#text" (l.foldl addChild d) = aget c!"#text" d := by
  induction l generalizing d with
  | nil => rfl
  | cons c l ih =>
    simp only [List.foldl_cons]
    rw [ih (fun c hc => hl c (List.mem_cons_of_mem _ hc))]
    have hc : c!"#text" ≠ c.1 := fun h => hl c (List.mem_cons_self ..) h.symm
    unfold addChild
    split <;> rw [aget_aset, if_neg hc]

theorem attr_fold (l : List (Str × Str)) (d : List (Str × PyVal)) (k : Str) :
    (aget k (l.foldl (fun d a => aset ('@' :: localName a.1) (.str a.2) d) d)).isSome = true ↔
      (aget k d).isSome = true ∨ ∃ a ∈ l, k = '@' :: localName a.1 := by
  induction l generalizing d with
  | nil => simp
  | cons a l ih =>
    simp only [List.foldl_cons, ih, List.mem_cons, exists_eq_or_imp]
    rw [aget_aset]
    by_cases h : k = '@' :: localName a.1
    · rw [if_pos h]
      simp [h]
    · rw [if_neg h]
      simp [h]

theorem visible_iff (t : Option Str) : textEntry t = none ↔ ∀ s, t = some s → ¬ Visible s := by
  cases t with
  | none => simp [textEntry]
  | some s =>
    have : (∃ c ∈ s, pySpace c = false) ↔ (!s.isEmpty && !isSpaceStr s) = true := by
      cases s with
      | nil => simp
      | cons c s => simp [isSpaceStr]
    simp only [textEntry, Option.some.injEq, forall_eq']
    unfold Visible
    rw [this]
    split <;> rename_i h <;> simp_all

/-- The text of an element that is no mere text. -/
theorem direct_iff {e : Elem} (he : WellNamed e) (s : Str) :
    Shapes.direct (elem2dict e) = .ok (.str s) ↔ Spec.Labelled e s := by
  have hr := Verif.Xml.element_represented e he
  by_cases hv : Spec.Blank e
  · -- no text
    obtain ⟨tag, attrs, text, children, tail⟩ := e
    have hv' : ∀ s, text = some s → ¬ Visible s := hv
    have hte := (visible_iff text).mpr hv'
    have hch : ∀ c ∈ childEntries children, c.1 ≠ c!"#text" := by
      cases he with
      | mk _ _ _ _ _ _ _ _ h4 =>
        intro c hc
        have : ∀ (l : List Elem), (∀ e ∈ l, WellNamed e) → ∀ c ∈ childEntries l, c.1 ≠ c!"#text" := by
          intro l
          induction l with
          | nil => simp [childEntries]
          | cons x l ih =>
            intro hl c hc
            simp only [childEntries, List.mem_cons] at hc
            rcases hc with rfl | hc
            · cases hl x (List.mem_cons_self ..) with
              | mk _ _ _ _ _ h1 =>
                intro h
                have := (h1.2 '#' (by
                  have h' : localName _ = c!"#text" := h
                  simp only [Elem.tag] at h'
                  rw [h']
                  decide)).2.2
                exact this rfl
            · exact ih (fun e he => hl e (List.mem_cons_of_mem _ he)) c hc
        exact this children h4 c hc
    have hnot : aget c!"#text" (attrEntries attrs) = none := by
      have := (attr_fold attrs [] c!"#text")
      rw [← Option.not_isSome_iff_eq_none]
      intro h
      rcases this.mp h with h | ⟨a, -, h⟩
      · simp [aget] at h
      · exact absurd (List.cons.inj h).1 (by decide)
    have hd : aget c!"#text" ((childEntries children).foldl addChild (startDict attrs text children.isEmpty)) =
        if children = [] ∧ ∃ a ∈ attrs, localName a.1 = c!"lang" then some (.str []) else none := by
      rw [addChild_text hch]
      unfold startDict
      simp only [hte, hnot, Option.isNone_none, Bool.and_true]
      have hl : (aget c!"@lang" (attrEntries attrs)).isSome = true ↔ ∃ a ∈ attrs, localName a.1 = c!"lang" := by
        have := attr_fold attrs [] c!"@lang"
        rw [show aget c!"@lang" ([] : List (Str × PyVal)) = none from rfl] at this
        simp only [Option.isSome_none, Bool.false_eq_true, false_or] at this
        rw [show attrEntries attrs = attrs.foldl (fun d a => aset ('@' :: localName a.1) (.str a.2) d) [] from rfl, this]
        constructor
        · rintro ⟨a, ha, h⟩
          exact ⟨a, ha, ((List.cons.inj h).2).symm⟩
        · rintro ⟨a, ha, h⟩
          exact ⟨a, ha, by rw [h]⟩
      have hb : (children.isEmpty && (aget c!"@lang" (attrEntries attrs)).isSome) = true ↔
          children = [] ∧ ∃ a ∈ attrs, localName a.1 = c!"lang" := by
        rw [Bool.and_eq_true, hl, List.isEmpty_iff]
      by_cases h : (children.isEmpty && (aget c!"@lang" (attrEntries attrs)).isSome) = true
      · rw [if_pos h, if_pos (hb.mp h), aget_aset_self]
      · rw [if_neg h, if_neg (fun h' => h (hb.mpr h')), hnot]
    have hcol : ∀ d : List (Str × PyVal), (∀ v, d ≠ [(c!"#text", v)]) → collapse d = .dict d := by
      intro d hd
      unfold collapse
      split
      · rename_i k v
        rw [if_neg]
        intro hk
        exact hd v (by rw [hk])
      · rfl
    have hval : elem2dict (.mk tag attrs text children tail) =
        .dict ((childEntries children).foldl addChild (startDict attrs text children.isEmpty)) := by
      unfold elem2dict
      apply hcol
      intro v h
      rw [h] at hd
      simp only [aget, if_true] at hd
      split at hd
      · rename_i hc
        obtain ⟨rfl, a, ha, hal⟩ := hc
        have h2 : (aget ('@' :: localName a.1) (attrEntries attrs)).isSome = true :=
          (attr_fold attrs [] _).mpr (.inr ⟨a, ha, rfl⟩)
        simp only [childEntries, List.foldl_nil, startDict, hte] at h
        have h3 : aget ('@' :: localName a.1) [(c!"#text", v)] = aget ('@' :: localName a.1) (attrEntries attrs) := by
          rw [← h]
          split
          · rw [aget_aset, if_neg (fun h => absurd (List.cons.inj h).1 (by decide))]
          · rfl
        rw [← h3] at h2
        rw [show aget ('@' :: localName a.1) [(c!"#text", v)] = none from by
          simp only [aget]
          rw [if_neg (fun h => absurd (List.cons.inj h).1 (by decide))]] at h2
        simp at h2
      · simp at hd
    rw [hval]
    simp only [Shapes.direct, hd, Spec.Labelled, Elem.children, Elem.attrs, Elem.text]
    by_cases hc : children = [] ∧ ∃ a ∈ attrs, localName a.1 = c!"lang"
    · rw [if_pos hc]
      constructor
      · intro h
        simp only [Except.ok.injEq, PyVal.str.injEq] at h
        exact .inr ⟨h.symm, hv, hc⟩
      · rintro (⟨-, h1, h2⟩ | ⟨rfl, -⟩)
        · exact absurd h2 (hv' s h1)
        · rfl
    · rw [if_neg hc]
      constructor
      · intro h; simp at h
      · rintro (⟨-, h1, h2⟩ | ⟨rfl, -, h⟩)
        · exact absurd h2 (hv' s h1)
        · exact absurd h hc
  · -- a text
    have hv' : ∃ t, e.text = some t ∧ Visible t := by
      unfold Spec.Blank at hv
      simpa using hv
    obtain ⟨t, ht, htv⟩ := hv'
    generalize hw : elem2dict e = w at hr
    cases hr with
    | text tag u tail hu =>
      simp only [Shapes.direct]
      constructor
      · intro h; simp at h
      · rintro (⟨h | h, -⟩ | ⟨-, h, -⟩)
        · exact absurd rfl h
        · exact absurd rfl h
        · exact absurd hu (h u rfl)
    | dict tag attrs text children tail d _ h1 _ _ _ h5 _ _ =>
      simp only [Elem.text] at ht
      simp only [Shapes.direct, h5 t ht htv, Except.ok.injEq, PyVal.str.injEq, Spec.Labelled, Elem.attrs, Elem.children,
        Elem.text]
      constructor
      · rintro rfl
        refine .inl ⟨?_, ht, htv⟩
        rcases h1 with h | h | h
        · exact .inl h
        · exact .inr h
        · exact absurd htv (h t ht)
      · rintro (⟨-, h, -⟩ | ⟨-, h, -⟩)
        · rw [ht] at h
          exact Option.some.inj h
        · exact absurd htv (h t ht)

theorem select_wellNamed (ns : List Str) (l : List Elem) (hl : ∀ e ∈ l, WellNamed e) :
    ∀ e ∈ select ns l, WellNamed e := by
  induction ns generalizing l with
  | nil => simp [select]
  | cons n ns ih =>
    cases ns with
    | nil =>
      intro e he
      exact hl e (List.mem_filter.mp he).1
    | cons m ns =>
      intro e he
      simp only [select, List.mem_flatMap] at he
      obtain ⟨x, hx, he⟩ := he
      refine ih x.children ?_ e he
      cases hl x (List.mem_filter.mp hx).1 with
      | mk _ _ _ _ _ _ _ _ h => exact h

/-! ### One assignment -/

theorem members_good {v : PyVal} (h : Good v) : members v = [v] := by
  cases v <;> first | rfl | exact h.elim

theorem put_good {k : Str} {v : PyVal} (h : Good v) (r : Rec) : put k v r = putOne k v r := by
  unfold put
  rw [members_good h]
  simp only [putMany]
  cases putOne k v r <;> rfl

/-- The entry accepts the value. -/
def Fit (e : Entry) (v : PyVal) : Prop :=
  if aget e.field fields = some .text then
    (if e.direct then ∃ s, Shapes.direct v = .ok (.str s) else ∃ s, v = .str s)
  else True

/-- The entries are as the record wants them: known fields; the text of an element is asked for only in `Str`. -/
theorem entries_ok : ∀ e ∈ entries, aget e.field fields = some .text ∨
    (aget e.field fields = some .list ∧ e.direct = false) := by decide +kernel

theorem direct_good {v w : PyVal} (h : Good v) (hw : Shapes.direct v = .ok w) : ∃ s, w = .str s := by
  cases v <;> simp only [Shapes.direct, reduceCtorEq] at hw
  rename_i d
  rcases h with h | ⟨s, h⟩
  · simp [h] at hw
  · simp only [h, Except.ok.injEq] at hw
    exact ⟨s, hw.symm⟩

theorem record_spec {e : Entry} (he : e ∈ entries) {v : PyVal} (hv : Good v) (r : Rec) :
    (∃ x, record e v r = .error x ∧ ¬ Fit e v) ∨
    (∃ r', record e v r = .ok r' ∧ Fit e v ∧ (∀ j, j ≠ e.field → aget j r' = aget j r) ∧
      (aget e.field fields = some .list → (aget e.field r').getD [] = (aget e.field r).getD [] ++ [v]) ∧
      (aget e.field fields = some .text → ∀ s, (if e.direct then Shapes.direct v = .ok (.str s) else v = .str s) →
        aget e.field r' = some [.str s])) := by
  rcases entries_ok e he with ht | ⟨hl, hd⟩
  · by_cases hd : e.direct = true
    · cases hw : Shapes.direct v with
      | error x =>
        left
        refine ⟨x, by simp [record, hd, hw, bind, Except.bind], ?_⟩
        unfold Fit
        rw [if_pos ht, if_pos hd, hw]
        simp
      | ok w =>
        obtain ⟨s, rfl⟩ := direct_good hv hw
        right
        refine ⟨aset e.field [.str s] r, ?_, ?_, ?_, ?_, ?_⟩
        · simp only [record, hd, if_true, hw, bind, Except.bind]
          rw [put_good (v := .str s) trivial]
          simp only [putOne, ht]
        · unfold Fit
          rw [if_pos ht, if_pos hd]
          exact ⟨s, hw⟩
        · intro j hj
          rw [aget_aset, if_neg hj]
        · intro h
          rw [ht] at h
          simp at h
        · intro _ s' h
          rw [if_pos hd, Except.ok.injEq, PyVal.str.injEq] at h
          rw [aget_aset_self, h]
    · have hrec : record e v r = putOne e.field v r := by
        simp only [record, hd, Bool.false_eq_true, if_false, bind, Except.bind]
        exact put_good hv r
      rw [hrec]
      cases v with
      | str s =>
        right
        refine ⟨aset e.field [.str s] r, by simp only [putOne, ht], ?_, ?_, ?_, ?_⟩
        · unfold Fit
          rw [if_pos ht, if_neg hd]
          exact ⟨s, rfl⟩
        · intro j hj
          rw [aget_aset, if_neg hj]
        · intro h
          rw [ht] at h
          simp at h
        · intro _ s' h
          rw [if_neg hd, PyVal.str.injEq] at h
          rw [aget_aset_self, h]
      | dict d =>
        left
        refine ⟨.typeError, by simp only [putOne, ht], ?_⟩
        unfold Fit
        rw [if_pos ht, if_neg hd]
        simp
      | _ => exact hv.elim
  · right
    have hnt : ¬ aget e.field fields = some .text := by
      rw [hl]
      simp
    refine ⟨aset e.field ((aget e.field r).getD [] ++ [v]) r, ?_, ?_, ?_, ?_, ?_⟩
    · simp only [record, hd, Bool.false_eq_true, if_false, bind, Except.bind]
      rw [put_good hv]
      simp only [putOne, hl, members_good hv]
    · unfold Fit
      rw [if_neg hnt]
      trivial
    · intro j hj
      rw [aget_aset, if_neg hj]
    · intro _
      rw [aget_aset_self]
      rfl
    · intro h
      exact absurd h hnt

/-! ### All assignments -/

theorem keys_nodup : (entries.map fun e => keyText e.key).Nodup := by decide +kernel

theorem fields_nodup : (entries.map fun e => e.field).Nodup := by decide +kernel

theorem eq_of_map {α β : Type} {f : α → β} {l : List α} (h : (l.map f).Nodup) {a b : α} (ha : a ∈ l) (hb : b ∈ l)
    (hab : f a = f b) : a = b := by
  induction l with
  | nil => simp at ha
  | cons x l ih =>
    simp only [List.map_cons, List.nodup_cons] at h
    rcases List.mem_cons.mp ha with ha' | ha' <;> rcases List.mem_cons.mp hb with hb' | hb'
    · rw [ha', hb']
    · exact absurd (List.mem_map.mpr ⟨b, hb', by rw [← hab, ha']⟩) h.1
    · exact absurd (List.mem_map.mpr ⟨a, ha', by rw [hab, hb']⟩) h.1
    · exact ih h.2 ha' hb'

/-- The entry of a path. -/
theorem step_of {e : Entry} (he : e ∈ entries) {p : Str × PyVal} (hp : p.1 = keyText e.key) (r : Rec) :
    step p r = record e p.2 r := by
  unfold step
  cases hf : entries.find? fun e => keyText e.key == p.1 with
  | none =>
    have := List.find?_eq_none.mp hf e he
    simp [hp] at this
  | some e' =>
    have h1 := List.find?_some hf
    have h2 := List.mem_of_find?_eq_some hf
    have h3 : keyText e'.key = keyText e.key := by rw [← hp]; simpa using h1
    rw [eq_of_map keys_nodup h2 he h3]

theorem step_none {p : Str × PyVal} (hp : ∀ e ∈ entries, p.1 ≠ keyText e.key) (r : Rec) : step p r = .ok r := by
  unfold step
  rw [List.find?_eq_none.mpr]
  intro e he
  simp only [beq_iff_eq]
  exact fun h => hp e he h.symm

/-- The values delivered on the path of an entry. -/
def on (e : Entry) (l : List (Str × PyVal)) : List PyVal :=
  (l.filter fun p => decide (p.1 = keyText e.key)).map Prod.snd

theorem on_cons (e : Entry) (p : Str × PyVal) (l : List (Str × PyVal)) :
    on e (p :: l) = if p.1 = keyText e.key then p.2 :: on e l else on e l := by
  unfold on
  by_cases h : p.1 = keyText e.key <;> simp [h]

theorem run_ok {l : List (Str × PyVal)} (hg : ∀ e ∈ entries, ∀ v ∈ on e l, Good v) (r : Rec) :
    (∃ r', run l r = .ok r') ↔ ∀ e ∈ entries, ∀ v ∈ on e l, Fit e v := by
  induction l generalizing r with
  | nil => simp [run, on]
  | cons p l ih =>
    have hg' : ∀ e ∈ entries, ∀ v ∈ on e l, Good v := by
      intro e he v hv
      refine hg e he v ?_
      rw [on_cons]
      split
      · exact List.mem_cons_of_mem _ hv
      · exact hv
    by_cases hp : ∃ e ∈ entries, p.1 = keyText e.key
    · obtain ⟨e, he, hpe⟩ := hp
      have hgp : Good p.2 := hg e he p.2 (by rw [on_cons, if_pos hpe]; exact List.mem_cons_self ..)
      have hpe' : ∀ e' ∈ entries, p.1 = keyText e'.key → e' = e := fun e' he' h =>
        eq_of_map keys_nodup he' he (by rw [← h, hpe])
      simp only [run, step_of he hpe]
      have hiff : (∀ e ∈ entries, ∀ v ∈ on e (p :: l), Fit e v) ↔
          Fit e p.2 ∧ ∀ e ∈ entries, ∀ v ∈ on e l, Fit e v := by
        constructor
        · intro h
          refine ⟨h e he p.2 (by rw [on_cons, if_pos hpe]; exact List.mem_cons_self ..), fun e' he' v hv => ?_⟩
          refine h e' he' v ?_
          rw [on_cons]
          split
          · exact List.mem_cons_of_mem _ hv
          · exact hv
        · rintro ⟨h1, h2⟩ e' he' v hv
          rw [on_cons] at hv
          split at hv
          · rename_i h
            rcases List.mem_cons.mp hv with rfl | hv
            · rw [hpe' e' he' h]
              exact h1
            · exact h2 e' he' v hv
          · exact h2 e' he' v hv
      rw [hiff]
      rcases record_spec he hgp r with ⟨x, h1, h2⟩ | ⟨r', h1, h2, -⟩
      · rw [h1]
        simp [h2]
      · rw [h1]
        simp only [ih hg' r', h2, true_and]
    · have hp' : ∀ e ∈ entries, p.1 ≠ keyText e.key := fun e he h => hp ⟨e, he, h⟩
      simp only [run, step_none hp', ih hg' r]
      constructor
      · intro h e he v hv
        rw [on_cons, if_neg (hp' e he)] at hv
        exact h e he v hv
      · intro h e he v hv
        refine h e he v ?_
        rw [on_cons, if_neg (hp' e he)]
        exact hv

/-- What a run leaves in the record. -/
theorem run_get {l : List (Str × PyVal)} (hg : ∀ e ∈ entries, ∀ v ∈ on e l, Good v) {r r' : Rec}
    (h : run l r = .ok r') :
    (∀ j, (∀ e ∈ entries, e.field = j → on e l = []) → aget j r' = aget j r) ∧
    (∀ e ∈ entries, aget e.field fields = some .list →
      (aget e.field r').getD [] = (aget e.field r).getD [] ++ on e l) ∧
    (∀ e ∈ entries, aget e.field fields = some .text → ∀ v, (on e l).getLast? = some v →
      ∀ s, (if e.direct then Shapes.direct v = .ok (.str s) else v = .str s) → aget e.field r' = some [.str s]) := by
  induction l generalizing r with
  | nil =>
    simp only [run, Except.ok.injEq] at h
    subst h
    refine ⟨fun _ _ => rfl, fun _ _ _ => by simp [on], ?_⟩
    intro e _ _ v hv
    simp [on] at hv
  | cons p l ih =>
    have hg' : ∀ e ∈ entries, ∀ v ∈ on e l, Good v := by
      intro e he v hv
      refine hg e he v ?_
      rw [on_cons]
      split
      · exact List.mem_cons_of_mem _ hv
      · exact hv
    by_cases hp : ∃ e ∈ entries, p.1 = keyText e.key
    · obtain ⟨e, he, hpe⟩ := hp
      have hgp : Good p.2 := hg e he p.2 (by rw [on_cons, if_pos hpe]; exact List.mem_cons_self ..)
      have hpe' : ∀ e' ∈ entries, p.1 = keyText e'.key → e' = e := fun e' he' h =>
        eq_of_map keys_nodup he' he (by rw [← h, hpe])
      simp only [run, step_of he hpe] at h
      rcases record_spec he hgp r with ⟨x, h1, h2⟩ | ⟨r1, h1, h2, h3, h4, h5⟩
      · simp [h1] at h
      · simp only [h1] at h
        obtain ⟨i1, i2, i3⟩ := ih hg' h
        have hother : ∀ e' ∈ entries, e' ≠ e → e'.field ≠ e.field := fun e' he' hne hf =>
          hne (eq_of_map fields_nodup he' he hf)
        refine ⟨?_, ?_, ?_⟩
        · intro j hj
          have hje : j ≠ e.field := by
            intro hje
            have := hj e he hje.symm
            rw [on_cons, if_pos hpe] at this
            simp at this
          rw [i1 j, h3 j hje]
          intro e' he' hf
          have := hj e' he' hf
          rw [on_cons] at this
          split at this
          · simp at this
          · exact this
        · intro e' he' hl
          rw [i2 e' he' hl, on_cons]
          by_cases hee : e' = e
          · subst hee
            rw [if_pos hpe, h4 hl]
            simp
          · rw [if_neg (fun h => hee (hpe' e' he' h)), h3 _ (hother e' he' hee)]
        · intro e' he' ht v hv s hs
          rw [on_cons] at hv
          by_cases hee : e' = e
          · subst hee
            rw [if_pos hpe] at hv
            cases hon : on e' l with
            | nil =>
              rw [hon] at hv
              simp only [List.getLast?_singleton, Option.some.injEq] at hv
              subst hv
              rw [i1 e'.field, h5 ht s hs]
              intro e'' he'' hf
              rw [eq_of_map fields_nodup he'' he hf]
              exact hon
            | cons w m =>
              rw [hon] at hv
              refine i3 e' he' ht v ?_ s hs
              rw [hon]
              simpa [List.getLast?_cons_cons] using hv
          · rw [if_neg (fun h => hee (hpe' e' he' h))] at hv
            exact i3 e' he' ht v hv s hs
    · have hp' : ∀ e ∈ entries, p.1 ≠ keyText e.key := fun e he h => hp ⟨e, he, h⟩
      simp only [run, step_none hp'] at h
      obtain ⟨i1, i2, i3⟩ := ih hg' h
      have hon : ∀ e ∈ entries, on e (p :: l) = on e l := fun e he => by rw [on_cons, if_neg (hp' e he)]
      refine ⟨fun j hj => i1 j fun e he hf => by rw [← hon e he]; exact hj e he hf, fun e he hl => ?_, ?_⟩
      · rw [hon e he]
        exact i2 e he hl
      · intro e he ht v hv
        rw [hon e he] at hv
        exact i3 e he ht v hv

end Verif.LeftOut
