/-
Paragraphs of comments, and what is made of the values given to a comment.
-/
import Verif.Model.ExchComments
import Verif.Spec.ExchComments
import Verif.Lemmas.Products
import Verif.Lemmas.UncText

namespace Verif.ExchComments

open LangText (Entry TextCls notBlank addMerged byLang)
open LangText.Spec (Given combine textsOf Visible IsText)
open Spec (Paragraphs)
open UncText (strict_ext map_given)
open Naming (entryDict)

/-! ### Paragraphs -/

theorem textsOf_nil_iff {es : List Given} {i : Int} {L : Str} :
    textsOf es i L = [] ↔ ¬ ∃ e ∈ es, e.lang = L ∧ e.index = i := by
  unfold textsOf
  rw [List.map_eq_nil_iff, List.filter_eq_nil_iff]
  simp only [decide_eq_true_eq, not_exists, not_and]
  exact ⟨fun h e he hl hi => h e he hi hl, fun h e he hi hl => h e he hl hi⟩

theorem isText_iff {sep : Option Str} {es : List Given} {L t : Str} :
    IsText sep es L t ↔ ∃ ps, Paragraphs sep es L ps ∧ t = join c!"\n" ps := by
  constructor
  · rintro ⟨idx, h1, h2, h3⟩
    exact ⟨_, ⟨idx, h1, h2, rfl⟩, h3⟩
  · rintro ⟨_, ⟨idx, h1, h2, rfl⟩, h3⟩
    exact ⟨idx, h1, h2, h3⟩

theorem paragraphs_unique {sep : Option Str} {es : List Given} {L : Str} {ps qs : List Str} (h : Paragraphs sep es L ps)
    (h' : Paragraphs sep es L qs) : ps = qs := by
  obtain ⟨a, ha, hm, rfl⟩ := h
  obtain ⟨b, hb, hm', rfl⟩ := h'
  rw [strict_ext ha hb fun i => (hm i).trans (hm' i).symm]

theorem paragraphs_nil_iff {sep : Option Str} {es : List Given} {L : Str} {ps : List Str} (h : Paragraphs sep es L ps) :
    ps = [] ↔ ¬ ∃ e ∈ es, e.lang = L := by
  obtain ⟨idx, _, hm, rfl⟩ := h
  rw [List.map_eq_nil_iff]
  constructor
  · rintro rfl ⟨e, he, hl⟩
    exact absurd ((hm e.index).2 ⟨e, he, hl, rfl⟩) (by simp)
  · intro h
    cases idx with
    | nil => rfl
    | cons i idx =>
      obtain ⟨e, he, hl, _⟩ := (hm i).1 (by simp)
      exact absurd ⟨e, he, hl⟩ h

/-- Paragraphs only depend on the texts of each index. -/
theorem paragraphs_congr {sep : Option Str} {es es' : List Given} {L : Str} {ps : List Str}
    (h : ∀ i, textsOf es i L = textsOf es' i L) (hp : Paragraphs sep es L ps) : Paragraphs sep es' L ps := by
  obtain ⟨idx, h1, h2, rfl⟩ := hp
  refine ⟨idx, h1, fun i => ?_, ?_⟩
  · rw [h2]
    have := h i
    have ha := textsOf_nil_iff (es := es) (i := i) (L := L)
    have hb := textsOf_nil_iff (es := es') (i := i) (L := L)
    rw [this] at ha
    exact not_iff_not.1 (ha.symm.trans hb)
  · exact List.map_congr_left fun i _ => by rw [h i]

theorem textsOf_append (a b : List Given) (i : Int) (L : Str) : textsOf (a ++ b) i L = textsOf a i L ++ textsOf b i L := by
  simp [textsOf]

theorem textsOf_none {a : List Given} {i : Int} {L : Str} (h : ∀ e ∈ a, e.index ≠ i) : textsOf a i L = [] :=
  textsOf_nil_iff.2 fun ⟨e, he, _, hi⟩ => h e he hi

/-- The paragraphs of smaller indices come first. -/
theorem paragraphs_append {sep : Option Str} {a b : List Given} {L : Str} {ps qs : List Str}
    (h : ∀ x ∈ a, ∀ y ∈ b, x.index < y.index) (ha : Paragraphs sep a L ps) (hb : Paragraphs sep b L qs) :
    Paragraphs sep (a ++ b) L (ps ++ qs) := by
  obtain ⟨ia, a1, a2, rfl⟩ := ha
  obtain ⟨ib, b1, b2, rfl⟩ := hb
  refine ⟨ia ++ ib, ?_, ?_, ?_⟩
  · rw [List.pairwise_append]
    refine ⟨a1, b1, fun i hi j hj => ?_⟩
    obtain ⟨x, hx, _, rfl⟩ := (a2 i).1 hi
    obtain ⟨y, hy, _, rfl⟩ := (b2 j).1 hj
    exact h x hx y hy
  · intro i
    rw [List.mem_append, a2, b2]
    simp only [List.mem_append]
    constructor
    · rintro (⟨e, he, h⟩ | ⟨e, he, h⟩)
      · exact ⟨e, .inl he, h⟩
      · exact ⟨e, .inr he, h⟩
    · rintro ⟨e, he | he, h⟩
      · exact .inl ⟨e, he, h⟩
      · exact .inr ⟨e, he, h⟩
  · rw [List.map_append]
    congr 1
    · refine List.map_congr_left fun i hi => ?_
      obtain ⟨x, hx, _, rfl⟩ := (a2 i).1 hi
      rw [textsOf_append, textsOf_none (a := b) fun y hy => by have := h x hx y hy; omega, List.append_nil]
    · refine List.map_congr_left fun i hi => ?_
      obtain ⟨y, hy, _, rfl⟩ := (b2 i).1 hi
      rw [textsOf_append, textsOf_none (a := a) fun x hx => by have := h x hx y hy; omega, List.nil_append]

theorem paragraphs_empty (sep : Option Str) (L : Str) : Paragraphs sep [] L [] := ⟨[], by simp, by simp, rfl⟩

theorem paragraphs_one (sep : Option Str) (g : Given) (L : Str) :
    Paragraphs sep [g] L (if g.lang = L then [g.text] else []) := by
  by_cases h : g.lang = L
  · refine ⟨[g.index], by simp, by simp [h, eq_comm], ?_⟩
    simp [h, textsOf, LangText.combine_single]
  · exact ⟨[], by simp, by simp [h], by simp [h]⟩

/-- With distinct indices each text is a paragraph. -/
theorem paragraphs_sorted (sep : Option Str) (L : Str) : ∀ {es : List Given},
    (es.Pairwise fun a b => a.index < b.index) →
      Paragraphs sep es L ((es.filter fun e => decide (e.lang = L)).map (·.text))
  | [], _ => paragraphs_empty sep L
  | g :: es, h => by
    have h' := List.pairwise_cons.1 h
    have := paragraphs_append (a := [g]) (by simpa using h'.1) (paragraphs_one sep g L) (paragraphs_sorted sep L h'.2)
    by_cases hg : g.lang = L
    · simpa [hg] using this
    · simpa [hg] using this

/-- With one index all texts are one paragraph. -/
theorem paragraphs_same (sep : Option Str) (L : Str) {es : List Given} {i : Int} (h : ∀ e ∈ es, e.index = i) :
    Paragraphs sep es L (if (es.filter fun e => decide (e.lang = L)).map (·.text) = [] then [] else
      [combine sep ((es.filter fun e => decide (e.lang = L)).map (·.text))]) := by
  have ht : textsOf es i L = (es.filter fun e => decide (e.lang = L)).map (·.text) := by
    unfold textsOf
    congr 1
    refine List.filter_congr fun e he => ?_
    simp [h e he]
  split
  · rename_i hn
    refine ⟨[], by simp, fun j => ?_, by simp⟩
    simp only [List.not_mem_nil, false_iff]
    rintro ⟨e, he, hl, _⟩
    rw [List.map_eq_nil_iff, List.filter_eq_nil_iff] at hn
    exact hn e he (by simpa using hl)
  · rename_i hn
    refine ⟨[i], by simp, fun j => ?_, by simp [ht]⟩
    simp only [List.mem_singleton]
    constructor
    · rintro rfl
      by_contra hc
      exact hn (ht ▸ textsOf_nil_iff.2 hc)
    · rintro ⟨e, he, _, rfl⟩
      exact h e he

/-! ### Values given to the field -/

theorem add_value (t : TextCls) (langs : Option (List Str)) (x : List Entry) (e : Entry)
    (h : LangText.langOk langs e.lang = true) :
    LangText.add t (LangText.validateEntry langs) x (valueOf e) =
      .ok (addMerged t x ([e].filter fun e => notBlank e.text)) := by
  have hv : LangText.validateEntry langs (valueOf e) = .ok e := by
    simp [valueOf, LangText.validateEntry, LangText.validateText, entryDict, LangText.dictGet, LangText.validateIndex,
      PyVal.toInt, LangText.validateLang, h]
  have ha : LangText.asList (valueOf e) = [valueOf e] := rfl
  unfold LangText.add LangText.retrieve
  rw [ha]
  simp only [LangText.validateAll, hv]

theorem addMerged_append (t : TextCls) (x a b : List Entry) : addMerged t x (a ++ b) = addMerged t (addMerged t x a) b :=
  List.foldl_append

theorem putAll_values (t : TextCls) (langs : Option (List Str)) : ∀ (es x : List Entry),
    (∀ e ∈ es, LangText.langOk langs e.lang = true) →
      putAll t langs x (es.map valueOf) = .ok (addMerged t x (es.filter fun e => notBlank e.text))
  | [], _, _ => rfl
  | e :: es, x, h => by
    rw [List.map_cons, putAll, add_value t langs x e (h e (by simp))]
    simp only [bind, Except.bind]
    rw [putAll_values t langs es _ fun e he => h e (by simp [he]), ← addMerged_append, ← List.filter_append]
    rfl

theorem add_refused (t : TextCls) (langs : Option (List Str)) (x : List Entry) (e : Entry)
    (h : LangText.langOk langs e.lang = false) :
    ∃ err, LangText.add t (LangText.validateEntry langs) x (valueOf e) = .error err := by
  have hv : ∃ err, LangText.validateEntry langs (valueOf e) = .error err := by
    simp [valueOf, LangText.validateEntry, LangText.validateText, entryDict, LangText.dictGet, LangText.validateIndex,
      PyVal.toInt, LangText.validateLang, h]
  obtain ⟨err, hv⟩ := hv
  have ha : LangText.asList (valueOf e) = [valueOf e] := rfl
  unfold LangText.add LangText.retrieve
  rw [ha]
  simp [LangText.validateAll, hv]

theorem putAll_refused (t : TextCls) (langs : Option (List Str)) : ∀ (es x : List Entry),
    (∃ e ∈ es, LangText.langOk langs e.lang = false) → ∃ err, putAll t langs x (es.map valueOf) = .error err
  | [], _, h => by obtain ⟨e, he, _⟩ := h; simp at he
  | e :: es, x, h => by
    rw [List.map_cons, putAll]
    cases hl : LangText.langOk langs e.lang with
    | false =>
      obtain ⟨err, hr⟩ := add_refused t langs x e hl
      exact ⟨err, by rw [hr]; rfl⟩
    | true =>
      rw [add_value t langs x e hl]
      obtain ⟨e', he', h'⟩ := h
      refine putAll_refused t langs es _ ⟨e', ?_, h'⟩
      rcases List.mem_cons.1 he' with rfl | he'
      · rw [hl] at h'; cases h'
      · exact he'

/-- A field whose values have the paragraphs `ps` says them, if no text is over the limit. -/
theorem says_of {t : TextCls} {sep : Str} {lim : Validators.Limit} {b : Bool} (ht : t = ⟨some sep, some lim, b⟩) {n : Nat}
    (hn : LangText.upper lim = n) (hlow : ∀ k, 1 ≤ k → k ≤ n → lim.holds k = true)
    (ignore : Bool) (sent : Str → List Str)
    (es : List Entry) (hv : ∀ e ∈ es, notBlank e.text = true) {ps : Str → List Str}
    (hps : ∀ L, Paragraphs (some sep) (es.map Entry.given) L (ps L))
    (hfit : ignore = true ∨ ∀ L, (join c!"\n" (ps L)).length ≤ n) :
    ∃ out, LangText.endMulti t ignore sent (addMerged t [] es) = .ok out ∧ Spec.Says out ps := by
  have hsep : t.sep = some sep := by rw [ht]
  have hm := LangText.addMerged_eq t (es.map Entry.given)
  rw [map_given] at hm
  have hne : ∀ e ∈ addMerged t [] es, e.text ≠ [] := by
    rw [hm]
    intro e he
    obtain ⟨k, hk, rfl⟩ := List.mem_map.1 he
    refine LangText.merged_ne_nil _ _ ?_ k (Validators.mem_firstOccurrences.1 hk)
    intro g hg
    obtain ⟨e, he, rfl⟩ := List.mem_map.1 hg
    exact (LangText.notBlank_iff _).1 (hv e he)
  have hb := LangText.byLang_eq _ hne
  have hnd : ((byLang (addMerged t [] es)).map Prod.fst).Nodup :=
    hb.1.imp fun {a b} h heq => by subst heq; exact LangText.not_before_self _ h
  have hL : ∀ L, L ∈ (byLang (addMerged t [] es)).map Prod.fst ↔ ps L ≠ [] := by
    intro L
    rw [hb.2.1 L, ne_eq, paragraphs_nil_iff (hps L), Decidable.not_not, hm]
    constructor
    · rintro ⟨e, he, rfl⟩
      obtain ⟨k, hk, rfl⟩ := List.mem_map.1 he
      obtain ⟨g, hg, rfl⟩ := List.mem_map.1 (Validators.mem_firstOccurrences.1 hk)
      exact ⟨g, hg, rfl⟩
    · rintro ⟨g, hg, rfl⟩
      exact ⟨LangText.merged _ _ (LangText.key g), List.mem_map_of_mem (Validators.mem_firstOccurrences.2
        (List.mem_map_of_mem hg)), rfl⟩
  have hT : ∀ p ∈ byLang (addMerged t [] es), p.2 = join c!"\n" (ps p.1) ∧ p.2 ≠ [] := by
    intro p hp
    constructor
    · have h := LangText.langText_isText t.sep (es.map Entry.given) p.1
      rw [← hm, ← hb.2.2 p hp, hsep] at h
      obtain ⟨qs, hq, h⟩ := isText_iff.1 h
      rw [h, paragraphs_unique hq (hps p.1)]
    · rw [hb.2.2 p hp]
      obtain ⟨e, he, hl⟩ := (hb.2.1 p.1).1 (List.mem_map_of_mem hp)
      unfold LangText.langText
      refine LangText.join_ne_nil _ _ ?_ ?_
      · have : e ∈ (sortBy LangText.byIndex (addMerged t [] es)).filter fun e => e.lang = p.1 :=
          List.mem_filter.2 ⟨(mem_sortBy _).2 he, by simp [hl]⟩
        exact List.ne_nil_of_mem (List.mem_map_of_mem this)
      · intro x hx
        obtain ⟨e, he, rfl⟩ := List.mem_map.1 hx
        exact hne e ((mem_sortBy _).1 (List.mem_filter.1 he).1)
  refine ⟨byLang (addMerged t [] es), ?_, hnd, fun L s => ?_⟩
  · unfold LangText.endMulti
    have hp1 : ∀ s : Str, s ≠ [] → (ignore = true ∨ s.length ≤ n) → LangText.pieces t ignore sent s = .ok [s] := by
      intro s hs hl
      unfold LangText.pieces
      rw [ht]
      simp only [hn]
      rcases hl with h | h
      · subst h
        simp [Validators.limEnd]
      · have hle : ¬ s.length > n := by omega
        have hh := hlow s.length (List.length_pos_iff.2 hs) h
        simp [hle, Validators.limEnd, hh]
    have : ∀ l : List (Str × Str), (∀ p ∈ l, p.2 ≠ [] ∧ (ignore = true ∨ p.2.length ≤ n)) →
        LangText.endValidate t ignore sent l = .ok l := by
      intro l
      induction l with
      | nil => intro _; rfl
      | cons p l ih =>
        intro h
        have hp := h p (by simp)
        rw [LangText.endValidate, hp1 p.2 hp.1 hp.2]
        simp only
        rw [ih fun q hq => h q (by simp [hq])]
        rfl
    refine this _ fun p hp => ⟨(hT p hp).2, ?_⟩
    rcases hfit with h | h
    · exact .inl h
    · rw [(hT p hp).1]
      exact .inr (h _)
  · constructor
    · intro h
      exact ⟨(hL L).1 (List.mem_map_of_mem (f := Prod.fst) h), (hT _ h).1⟩
    · rintro ⟨h, rfl⟩
      obtain ⟨⟨L', s⟩, hp, rfl⟩ := List.mem_map.1 ((hL L).2 h)
      have := (hT _ hp).1
      simp only at this ⊢
      rw [← this]
      exact hp

end Verif.ExchComments
