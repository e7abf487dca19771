/-
The values of a product in terms of its element, and the entries of the statement of volumes.
-/
import Verif.Model.Products
import Verif.Spec.Products
import Verif.Props.Shapes
import Verif.Lemmas.Params
import Verif.Lemmas.LangText

namespace Verif.Products

open Verif.Xml Verif.Shapes
open Verif.Xml.Spec (WellNamed Name)
open Verif.Shapes.Spec (Text)
open Verif.Products.Spec (attr kids Texts)

/-- The value of an element with attributes or children is a dictionary of these. -/
theorem dict_of_some (e : Elem) (he : WellNamed e) (ha : e.attrs ≠ [] ∨ e.children ≠ []) :
    ∃ d, elem2dict e = .dict d ∧ (∀ n, Name n → aget ('@' :: n) d = (attr e n).map .str) ∧
      ∀ n, Name n → aget n d = children (kids e n) := by
  have hr := element_represented e he
  generalize hv : elem2dict e = v at hr
  cases hr with
  | text tag s tail => simp [Elem.attrs, Elem.children] at ha
  | dict tag attrs text chs tail d value h1 h2 h3 h4 h5 h6 h7 =>
    refine ⟨d, rfl, fun n hn => ?_, fun n hn => ?_⟩
    · unfold attr
      simp only [Elem.attrs]
      cases hf : attrs.find? fun a => decide (localName a.1 = n) with
      | none =>
        rw [List.find?_eq_none] at hf
        cases hg : aget ('@' :: n) d with
        | none => rfl
        | some v =>
          obtain ⟨a, ham, h, _⟩ := (h3 n v hn).1 hg
          exact absurd (by simpa using h) (hf a ham)
      | some a =>
        have hm := List.mem_of_find?_eq_some hf
        have hp := List.find?_some hf
        simp only [decide_eq_true_eq] at hp
        exact (h3 n (.str a.2) hn).2 ⟨a, hm, hp, rfl⟩
    · by_cases hc : ∃ c ∈ chs, localName c.tag = n
      · obtain ⟨d', hd', h⟩ := children_value _ he n hn (by simpa [Elem.children] using hc)
        rw [hv] at hd'
        cases hd'
        exact h
      · have hk : kids (.mk tag attrs text chs tail) n = [] := by
          unfold kids
          simp only [Elem.children]
          rw [List.filter_eq_nil_iff]
          intro c hcm h
          exact hc ⟨c, hcm, by simpa using h⟩
        have := h4 n hn
        unfold kids at hk
        simp only [Elem.children] at hk
        rw [show kids (.mk tag attrs text chs tail) n = [] from hk, children]
        rw [hk] at this
        cases hg : aget n d with
        | none => rfl
        | some v =>
          rw [hg] at this
          rcases this with h | ⟨l, _, h, h'⟩
          · simp at h
          · rw [← h] at h'
            simp at h'

/-- The value of an element with attributes is a dictionary of its attributes and children. -/
theorem dict_of (e : Elem) (he : WellNamed e) (ha : e.attrs ≠ []) :
    ∃ d, elem2dict e = .dict d ∧ (∀ n, Name n → aget ('@' :: n) d = (attr e n).map .str) ∧
      ∀ n, Name n → aget n d = children (kids e n) := dict_of_some e he (.inl ha)

theorem texts_children {e : Elem} {n : Str} {l : List Text} (h : Texts e n l) :
    ∃ tag, kids e n = l.map (elem tag) := h

/-- The name returned for a list of texts. -/
theorem returnText_texts (tag : Str) (t : Text) (l : List Text)
    (h : t.lang ≠ none ∨ (l = [] ∧ t.content ≠ [])) :
    ∃ v, children ((t :: l).map (elem tag)) = some v ∧ Naming.returnText v = .ok t.content := by
  have hv := leaf_value tag t
  cases l with
  | nil =>
    refine ⟨_, rfl, ?_⟩
    rw [hv]
    obtain ⟨lang, text⟩ := t
    cases lang with
    | some x => simp [Naming.returnText, Naming.textAt, aget]
    | none =>
      have hc : (Text.mk none text).content ≠ [] := by
        rcases h with h | h
        · simp at h
        · exact h.2
      simp [Naming.returnText, hc]
  | cons t' l =>
    refine ⟨_, rfl, ?_⟩
    simp only [List.map_cons, hv]
    obtain ⟨lang, text⟩ := t
    cases lang with
    | some x => simp [Naming.returnText, Naming.textAt, aget]
    | none =>
      rcases h with h | h
      · simp at h
      · simp at h

/-- Otherwise the conversion stops. -/
theorem returnText_stops (tag : Str) (t : Text) (l : List Text)
    (h : ¬(t.lang ≠ none ∨ (l = [] ∧ t.content ≠ []))) :
    ∃ v e, children ((t :: l).map (elem tag)) = some v ∧ Naming.returnText v = .error e := by
  have hv := leaf_value tag t
  obtain ⟨lang, text⟩ := t
  simp only [ne_eq, not_or, Decidable.not_not, not_and] at h
  obtain ⟨rfl, h⟩ := h
  cases l with
  | nil =>
    simp only at hv
    rw [if_pos (h rfl)] at hv
    exact ⟨_, .keyError, rfl, by rw [hv]; rfl⟩
  | cons t' l =>
    refine ⟨_, (if (Text.mk none text).content = [] then .keyError else .typeError), rfl, ?_⟩
    simp only [List.map_cons, hv]
    by_cases hc : (Text.mk none text).content = [] <;> simp [hc, Naming.returnText, Naming.textAt, aget]

/-- `ensure_list` of some texts. -/
def given (l : List Text) : Prop :=
  (∀ t ∈ l, t.lang ≠ none ∨ t.content ≠ [])

theorem anyList_texts (tag : Str) (l : List Text) (h : given l) :
    anyList ((children (l.map (elem tag))).getD (.dict [])) = .ok (l.map asDict) := by
  have one : ∀ t : Text, (t.lang ≠ none ∨ t.content ≠ []) → member (elem2dict (elem tag t)) = asDict t := by
    intro t ht
    obtain ⟨v, h1, h2, h3⟩ := member_value tag t
    rw [h1]
    rw [leaf_value] at h1
    unfold asDict
    obtain ⟨lang, text⟩ := t
    cases lang with
    | some x =>
      simp only [member, PyVal.dict.injEq, List.cons.injEq, Prod.mk.injEq, true_and, and_true] at h1
      rw [h1.2]
    | none =>
      rw [h3 (by simpa using ht)]
  match l with
  | [] => rfl
  | [t] =>
    have ht := h t (by simp)
    simp only [List.map_cons, List.map_nil, children, Option.getD_some]
    have := one t ht
    rw [leaf_value] at this ⊢
    obtain ⟨lang, text⟩ := t
    cases lang with
    | some x => simp [anyList, asDict, Text.language]
    | none =>
      have hc : (Text.mk none text).content ≠ [] := by simpa using ht
      simp [anyList, asDict, Text.language, hc, english]
  | t :: t' :: l =>
    simp only [List.map_cons, children, Option.getD_some, anyList, Except.ok.injEq]
    rw [List.map_map, one t (h _ (by simp)), one t' (h _ (by simp))]
    simp only [List.cons.injEq, true_and, List.map_map]
    exact List.map_congr_left fun x hx => one x (h x (by simp [hx]))

theorem textsOf_texts (l : List Text) : textsOf (l.map asDict) = .ok (l.map fun t => .str t.content) := by
  induction l with
  | nil => rfl
  | cons t l ih =>
    have h : direct (asDict t) = .ok (.str t.content) := by simp [asDict, direct, aget]
    simp only [List.map_cons, textsOf, h, ih, bind, Except.bind]

theorem strs_texts (l : List Text) : strs (l.map fun t => .str t.content) = .ok (l.map (·.content)) := by
  induction l with
  | nil => rfl
  | cons t l ih => simp only [List.map_cons, strs, ih, bind, Except.bind]

theorem filter_texts (l : List Text) : (l.map asDict).filter truthy = l.map asDict := by
  rw [List.filter_eq_self]
  intro a ha
  obtain ⟨t, _, rfl⟩ := List.mem_map.1 ha
  simp [asDict, truthy]

/-! ### The entries of the volumes -/

open LangText (Entry)

/-- The entries of the lines `l`, numbered from `n`. -/
def numbered : Int → List Str → List Entry
  | _, [] => []
  | n, t :: l => ⟨n, c!"en", t⟩ :: numbered (n + 1) l

theorem numbered_append (n : Int) (l : List Str) (t : Str) :
    numbered n (l ++ [t]) = numbered n l ++ [⟨n + l.length, c!"en", t⟩] := by
  induction l generalizing n with
  | nil => simp [numbered]
  | cons a l ih =>
    simp only [List.cons_append, numbered, ih, List.length_cons, List.cons.injEq, true_and]
    congr 3
    push_cast
    omega

theorem numbered_bounds (n : Int) (l : List Str) :
    ∀ e ∈ numbered n l, n ≤ e.index ∧ e.index < n + l.length ∧ e.lang = c!"en" ∧ e.text ∈ l := by
  induction l generalizing n with
  | nil => simp [numbered]
  | cons a l ih =>
    intro e he
    simp only [numbered, List.mem_cons] at he
    rcases he with rfl | he
    · simp
      omega
    · obtain ⟨h1, h2, h3, h4⟩ := ih _ e he
      simp only [List.length_cons, List.mem_cons]
      push_cast
      exact ⟨by omega, by omega, h3, .inr h4⟩

theorem mergeOne_new (t : LangText.TextCls) (x : List Entry) (e : Entry) (h : ∀ m ∈ x, m.index ≠ e.index) :
    LangText.mergeOne t x e = x ++ [e] := by
  induction x with
  | nil => rfl
  | cons m x ih =>
    have hm := h m (by simp)
    simp only [LangText.mergeOne, hm, false_and, if_false, List.cons_append, List.cons.injEq, true_and]
    exact ih fun m hm => h m (by simp [hm])

/-- A line is added at the end. -/
theorem add_line (langs : Option (List Str)) (hen : LangText.langOk langs c!"en" = true) (n : Int) (l : List Str)
    (t : Str) (ht : LangText.notBlank t = true) :
    LangText.add LangText.ilcdString (LangText.validateEntry langs) (numbered n l)
      (Naming.entryDict (n + l.length) (.str c!"en") t) = .ok (numbered n (l ++ [t])) := by
  have hv : LangText.validateEntry langs (Naming.entryDict (n + l.length) (.str c!"en") t) =
      .ok ⟨n + l.length, c!"en", t⟩ := by
    simp [LangText.validateEntry, LangText.validateText, Naming.entryDict, LangText.dictGet, LangText.validateIndex,
      PyVal.toInt, LangText.validateLang, hen]
  have ha : LangText.asList (Naming.entryDict (n + l.length) (.str c!"en") t) =
      [Naming.entryDict (n + l.length) (.str c!"en") t] := rfl
  unfold LangText.add LangText.retrieve
  rw [ha]
  simp only [LangText.validateAll, hv, List.filter, ht]
  rw [numbered_append]
  simp only [LangText.addMerged, List.foldl_cons, List.foldl_nil, Except.ok.injEq]
  apply mergeOne_new
  intro m hm
  have := (numbered_bounds n l m hm).2.1
  simp only
  omega

theorem foldl_en (n : Int) (l : List Str) (v : Str) (hv : v ≠ []) :
    (numbered n l).foldl LangText.concatLang [(c!"en", v)] = [(c!"en", join c!"\n" (v :: l))] := by
  induction l generalizing n v with
  | nil => rfl
  | cons t l ih =>
    have : v.isEmpty = false := by cases v <;> simp_all
    simp only [numbered, List.foldl_cons, LangText.concatLang, if_true, this]
    simp only [Bool.false_eq_true, if_false]
    rw [ih (n + 1) _ (by simp [hv])]
    cases l <;> simp [join]

theorem byLang_numbered (n : Int) (l : List Str) (hl : ∀ t ∈ l, t ≠ []) :
    LangText.byLang (numbered n l) = Spec.english l := by
  have hs : sortBy LangText.byIndex (numbered n l) = numbered n l := by
    apply Params.sortBy_self
    clear hl
    induction l generalizing n with
    | nil => exact .nil
    | cons t l ih =>
      refine .cons (fun e he => ?_) (ih (n + 1))
      have := (numbered_bounds _ _ e he).1
      simp only [LangText.byIndex, decide_eq_true_eq]
      omega
  unfold LangText.byLang
  rw [hs]
  cases l with
  | nil => rfl
  | cons t l =>
    simp only [numbered, List.foldl_cons, LangText.concatLang]
    rw [foldl_en _ _ _ (hl t (by simp))]
    simp [Spec.english, sortBy, insertBy]

/-- The lines of the products, in order. -/
theorem volumesFrom_lines {K : Type} (env : Env K) (std : UncKind → Str) (langs : Option (List Str))
    (hen : LangText.langOk langs c!"en" = true) (ps : List Product) (os : List (Option Str))
    (h : List.Forall₂ (fun p o => volumeText env std p.unit p.unc p.dict = .ok o) ps os)
    (hb : ∀ o ∈ os, ∀ t, o = some t → LangText.notBlank t = true) (l : List Str) (n : Int) :
    volumesFrom env std langs (n + l.length) (numbered n l) ps = .ok (numbered n (l ++ os.filterMap id)) := by
  induction h generalizing l with
  | nil => simp [volumesFrom]
  | @cons p o ps os hp _ ih =>
    have ih := ih fun o ho => hb o (by simp [ho])
    simp only [volumesFrom, hp, bind, Except.bind]
    cases o with
    | none =>
      simp only
      rw [ih l]
      simp
    | some t =>
      simp only [add_line langs hen n l t (hb _ (by simp) t rfl)]
      have := ih (l ++ [t])
      simp only [List.length_append, List.length_cons, List.length_nil] at this
      rw [show n + (l.length : Int) + 1 = n + ((l.length + (0 + 1) : Nat) : Int) by push_cast; omega, this]
      simp

end Verif.Products
