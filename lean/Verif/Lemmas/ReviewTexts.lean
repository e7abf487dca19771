/-
Texts of a review: its scopes and indicators as values, lines, and entries with different numbers.
-/
import Verif.Model.ReviewTexts
import Verif.Spec.ReviewTexts
import Verif.Props.ExchComments
import Verif.Props.Reviews

namespace Verif.ReviewTexts

open Verif.Xml Verif.Shapes
open Verif.Xml.Spec (WellNamed Name)
open Products.Spec (attr kids)
open Products (dict_of_some)
open LangText (Entry notBlank addMerged)
open Spec (Scope closed)

/-! ### Values -/

theorem wellNamed_child {e c : Elem} (he : WellNamed e) (hc : c ∈ e.children) : WellNamed c := by
  cases he with
  | mk tag attrs text chs tail _ _ _ h => exact h c hc

theorem kids_child {e c : Elem} {n : Str} (hc : c ∈ kids e n) : c ∈ e.children := (List.mem_filter.1 hc).1

theorem attrs_of_attr {e : Elem} {n s : Str} (h : attr e n = some s) : e.attrs ≠ [] := by
  intro h'
  simp [attr, h'] at h

/-- Elements with attributes are the members of the value of all of them. -/
theorem asMembers_children : ∀ {l : List Elem}, (∀ c ∈ l, WellNamed c ∧ ∃ s, attr c c!"name" = some s) →
    asMembers ((children l).getD (.dict [])) = .ok (l.map elem2dict) ∧
      (l ≠ [] → ∃ v, children l = some v ∧ asMembers v = .ok (l.map elem2dict)) := by
  have key : ∀ c : Elem, (WellNamed c ∧ ∃ s, attr c c!"name" = some s) → ∃ p d, elem2dict c = .dict (p :: d) := by
    rintro c ⟨hc, s, hs⟩
    obtain ⟨d, hd, h, _⟩ := dict_of_some c hc (.inl (attrs_of_attr hs))
    have := h c!"name" (by decide)
    rw [hs] at this
    cases d with
    | nil => simp [aget] at this
    | cons p d => exact ⟨p, d, hd⟩
  intro l hl
  match l, hl with
  | [], _ => exact ⟨rfl, fun h => absurd rfl h⟩
  | [c], hl =>
    obtain ⟨p, d, h⟩ := key c (hl c (by simp))
    have : asMembers (elem2dict c) = .ok [elem2dict c] := by rw [h]; rfl
    exact ⟨this, fun _ => ⟨_, rfl, this⟩⟩
  | a :: b :: l, hl =>
    have hm : ((a :: b :: l).map elem2dict).map member = (a :: b :: l).map elem2dict := by
      rw [List.map_map]
      refine List.map_congr_left fun c hc => ?_
      obtain ⟨p, d, h⟩ := key c (hl c hc)
      simp [h, member]
    have : asMembers (.list ((a :: b :: l).map elem2dict)) = .ok ((a :: b :: l).map elem2dict) := by
      rw [asMembers, hm]
    exact ⟨this, fun _ => ⟨_, rfl, this⟩⟩

theorem related {α β : Type} {R : α → β → Prop} {l : List α} {m : List β} (h : List.Forall₂ R l m) :
    ∀ a ∈ l, ∃ b ∈ m, R a b := by
  induction h with
  | nil => simp
  | cons h1 _ ih =>
    intro a ha
    rcases List.mem_cons.1 ha with rfl | ha
    · exact ⟨_, by simp, h1⟩
    · obtain ⟨b, hb, h⟩ := ih a ha
      exact ⟨b, by simp [hb], h⟩

theorem nameOf_elem {e : Elem} (he : WellNamed e) {s : Str} (h : attr e c!"name" = some s) :
    nameOf (elem2dict e) = .ok s := by
  obtain ⟨d, hd, ha, _⟩ := dict_of_some e he (.inl (attrs_of_attr h))
  have := ha c!"name" (by decide)
  rw [h] at this
  rw [hd, nameOf, show (c!"@name" : Str) = '@' :: c!"name" from rfl, this]
  rfl

theorem required_elem {e : Elem} (he : WellNamed e) {n s : Str} (hn : Name n) (h : attr e n = some s) :
    required ('@' :: n) (elem2dict e) = .ok s := by
  obtain ⟨d, hd, ha, _⟩ := dict_of_some e he (.inl (attrs_of_attr h))
  have := ha n hn
  rw [h] at this
  rw [hd, required, this]
  rfl

theorem methodLines_elems {l : List Elem} {ns : List Str} (hw : ∀ c ∈ l, WellNamed c)
    (h : List.Forall₂ (fun m n => attr m c!"name" = some n) l ns) :
    methodLines (l.map elem2dict) = .ok (closed (ns.map fun m => c!"\t\t" ++ m)) := by
  induction h with
  | nil => rfl
  | @cons c n l ns h1 h2 ih =>
    rw [List.map_cons, methodLines, nameOf_elem (hw c (by simp)) h1, ih fun c hc => hw c (by simp [hc])]
    simp [bind, Except.bind, closed]

theorem methods_elem {e : Elem} (he : WellNamed e) {s : Str} (hs : attr e c!"name" = some s) {ns : List Str}
    (h : List.Forall₂ (fun m n => attr m c!"name" = some n) (kids e c!"method") ns) :
    methods (elem2dict e) = .ok (closed (ns.map fun m => c!"\t\t" ++ m)) := by
  obtain ⟨d, hd, _, hc⟩ := dict_of_some e he (.inl (attrs_of_attr hs))
  have hw : ∀ c ∈ kids e c!"method", WellNamed c := fun c hc => wellNamed_child he (kids_child hc)
  have hn : ∀ c ∈ kids e c!"method", ∃ s, attr c c!"name" = some s := fun c hc => by
    obtain ⟨n, _, h⟩ := related h c hc
    exact ⟨n, h⟩
  rw [hd, methods]
  have := hc c!"method" (by decide)
  by_cases hk : kids e c!"method" = []
  · rw [hk] at this h
    cases h
    simp only [this, children]
    rfl
  · obtain ⟨v, h1, h2⟩ := (asMembers_children fun c hc => ⟨hw c hc, hn c hc⟩).2 hk
    rw [h1] at this
    simp only [this, h2, bind, Except.bind]
    exact methodLines_elems hw h

theorem scopeLines_elems {l : List Elem} {ss : List Scope} (hw : ∀ c ∈ l, WellNamed c)
    (h : List.Forall₂ (fun k s => attr k c!"name" = some s.name ∧
      List.Forall₂ (fun m n => attr m c!"name" = some n) (kids k c!"method") s.methods) l ss) :
    scopeLines (l.map elem2dict) = .ok (closed (ss.flatMap Spec.scopeLines)) := by
  induction h with
  | nil => rfl
  | @cons c s l ss h1 h2 ih =>
    have hc := hw c (by simp)
    rw [List.map_cons, scopeLines, nameOf_elem hc h1.1, methods_elem hc h1.1 h1.2, ih fun c hc => hw c (by simp [hc])]
    simp [bind, Except.bind, closed, Spec.scopeLines]

/-- The scopes of a review as text. -/
theorem scopeText_elem {e : Elem} (he : WellNamed e) {d : List (Str × PyVal)} (hd : elem2dict e = .dict d)
    (hc : e.attrs ≠ [] ∨ e.children ≠ []) {ss : List Scope} (h : Spec.Scopes e ss) :
    scopeText d = .ok (Spec.scopesText ss) := by
  obtain ⟨d', hd', _, hk⟩ := dict_of_some e he hc
  rw [hd'] at hd
  cases hd
  have hw : ∀ c ∈ kids e c!"scope", WellNamed c := fun c hc => wellNamed_child he (kids_child hc)
  have this := hk c!"scope" (by decide)
  unfold Spec.Scopes at h
  unfold scopeText
  by_cases hs : kids e c!"scope" = []
  · rw [hs] at this h
    cases h
    simp only [this, children]
    rfl
  · obtain ⟨v, h1, h2⟩ := (asMembers_children fun c hc => ⟨hw c hc, by
      obtain ⟨s, _, h, _⟩ := related h c hc
      exact ⟨_, h⟩⟩).2 hs
    have hne : ss ≠ [] := by
      rintro rfl
      rw [List.forall₂_nil_right_iff] at h
      exact hs h
    rw [h1] at this
    simp only [this, h2, bind, Except.bind]
    rw [scopeLines_elems hw h, Spec.scopesText, if_neg hne]
    simp [closed]

theorem indicatorLines_elems {l : List Elem} {ps : List (Str × Str)} (hw : ∀ c ∈ l, WellNamed c)
    (h : List.Forall₂ (fun q p => attr q c!"name" = some p.1 ∧ attr q c!"value" = some p.2) l ps) :
    indicatorLines (l.map elem2dict) = .ok (closed (ps.map fun p => c!"\t" ++ p.1 ++ c!": " ++ p.2)) := by
  induction h with
  | nil => rfl
  | @cons c s l ss h1 h2 ih =>
    have hc := hw c (by simp)
    rw [List.map_cons, indicatorLines, show (c!"@name" : Str) = '@' :: c!"name" from rfl,
      show (c!"@value" : Str) = '@' :: c!"value" from rfl, required_elem hc (by decide) h1.1,
      required_elem hc (by decide) h1.2, ih fun c hc => hw c (by simp [hc])]
    simp [bind, Except.bind, closed]

/-- The indicators of a review as text. -/
theorem indicatorText_elem {e : Elem} (he : WellNamed e) {d : List (Str × PyVal)} (hd : elem2dict e = .dict d)
    (hc : e.attrs ≠ [] ∨ e.children ≠ []) {ps : List (Str × Str)} (h : Spec.Indicators e ps) :
    indicatorText d = .ok (Spec.indicatorsText ps) := by
  obtain ⟨d', hd', _, hk⟩ := dict_of_some e he hc
  rw [hd'] at hd
  cases hd
  have this := hk c!"dataQualityIndicators" (by decide)
  unfold indicatorText
  rcases h with ⟨rfl, h⟩ | ⟨hne, k, hkk, h⟩
  · rw [h] at this
    simp only [this, children]
    rfl
  · have hw : WellNamed k := wellNamed_child he (kids_child (n := c!"dataQualityIndicators") (by rw [hkk]; simp))
    have hkn : kids k c!"dataQualityIndicator" ≠ [] := by
      intro hn
      rw [hn] at h
      cases h
      exact hne rfl
    have hch : k.children ≠ [] := by
      intro hn
      exact hkn (by simp [kids, hn])
    obtain ⟨q, hq, _, hqk⟩ := dict_of_some k hw (.inr hch)
    have hw' : ∀ c ∈ kids k c!"dataQualityIndicator", WellNamed c := fun c hc => wellNamed_child hw (kids_child hc)
    rw [hkk] at this
    have hqk := hqk c!"dataQualityIndicator" (by decide)
    rw [show children [k] = some (.dict q) by rw [children, hq]] at this
    simp only [this, hqk]
    rw [(asMembers_children fun c hc => ⟨hw' c hc, by
      obtain ⟨s, _, h, _⟩ := related h c hc
      exact ⟨_, h⟩⟩).1]
    simp only [bind, Except.bind]
    rw [indicatorLines_elems hw' h, Spec.indicatorsText, if_neg hne]
    simp [closed]

/-! ### Lines -/

theorem line_end {a b x y : Str} (ha : '\n' ∉ a) (hb : '\n' ∉ b) (h : a ++ '\n' :: x = b ++ '\n' :: y) : a = b ∧ x = y := by
  induction a generalizing b with
  | nil =>
    cases b with
    | nil => exact ⟨rfl, by simpa using h⟩
    | cons c b =>
      simp only [List.nil_append, List.cons_append, List.cons.injEq] at h
      exact absurd (List.mem_cons.2 (.inl h.1)) hb
  | cons c a ih =>
    cases b with
    | nil =>
      simp only [List.nil_append, List.cons_append, List.cons.injEq] at h
      exact absurd (List.mem_cons.2 (.inl h.1.symm)) ha
    | cons c' b =>
      simp only [List.cons_append, List.cons.injEq] at h
      obtain ⟨h1, h2⟩ := ih (fun h => ha (by simp [h])) (fun h => hb (by simp [h])) h.2
      exact ⟨by rw [h.1, h1], h2⟩

/-- Lines are seen in the text they make. -/
theorem closed_inj {l m : List Str} (hl : ∀ x ∈ l, '\n' ∉ x) (hm : ∀ x ∈ m, '\n' ∉ x) (h : closed l = closed m) :
    l = m := by
  induction l generalizing m with
  | nil =>
    cases m with
    | nil => rfl
    | cons b m => simp [closed] at h
  | cons a l ih =>
    cases m with
    | nil => simp [closed] at h
    | cons b m =>
      have : a ++ '\n' :: closed l = b ++ '\n' :: closed m := by simpa [closed] using h
      obtain ⟨h1, h⟩ := line_end (hl a (by simp)) (hm b (by simp)) this
      rw [h1, ih (fun x hx => hl x (by simp [hx])) (fun x hx => hm x (by simp [hx])) h]

/-! ### Entries -/

/-- Entries with different numbers are only collected. -/
theorem mergeOne_fresh (t : LangText.TextCls) : ∀ {x : List Entry} {e : Entry}, (∀ a ∈ x, a.index ≠ e.index) →
    LangText.mergeOne t x e = x ++ [e]
  | [], _, _ => rfl
  | a :: x, e, h => by
    rw [LangText.mergeOne, if_neg fun h' => h a (by simp) h'.1, mergeOne_fresh t fun a ha => h a (by simp [ha])]
    rfl

theorem addMerged_fresh (t : LangText.TextCls) : ∀ {es x : List Entry},
    ((x ++ es).map (·.index)).Nodup → addMerged t x es = x ++ es
  | [], x, _ => by simp [addMerged]
  | e :: es, x, h => by
    have hf : ∀ a ∈ x, a.index ≠ e.index := by
      intro a ha heq
      rw [List.map_append, List.nodup_append] at h
      exact h.2.2 a.index (List.mem_map_of_mem ha) e.index (by simp) heq
    have := addMerged_fresh t (es := es) (x := x ++ [e]) (by simpa using h)
    unfold addMerged at this ⊢
    rw [List.foldl_cons, mergeOne_fresh t hf, this]
    simp

theorem endValidate_fits {κ : Type} (n : Nat) (ignore : Bool) (sent : Str → List Str) : ∀ (l : List (κ × Str)),
    (ignore = true ∨ ∀ p ∈ l, p.2.length ≤ n) → LangText.endValidate (LangText.base n) ignore sent l = .ok l
  | [], _ => rfl
  | (k, s) :: l, h => by
    have hp : LangText.pieces (LangText.base n) ignore sent s = .ok [s] := by
      unfold LangText.pieces
      simp only [LangText.base, LangText.upper]
      rcases h with h | h
      · subst h
        simp [Validators.limEnd]
      · have hs := h (k, s) (by simp)
        have hle : ¬ s.length > n := by simpa using hs
        have hh : (Validators.Limit.upper n).holds s.length = true := by simpa [Validators.Limit.holds] using hs
        simp [hle, Validators.limEnd, hh]
    rw [LangText.endValidate, hp]
    simp only
    rw [endValidate_fits n ignore sent l (h.imp id fun h p hp => h p (by simp [hp]))]
    rfl

end Verif.ReviewTexts
