/-
Property C14 for every history: the order in which indexed paragraphs are written.
-/
import Verif.Props.LangText
import Verif.Props.OutputName

namespace Verif.LangText
open Verif.Validators (firstOccurrences_snoc mem_firstOccurrences firstOccurrences_nodup Limit)
open Verif.Validators.Spec (firstOccurrences)

theorem intStr_inj {i j : Int} (h : intStr i = intStr j) : i = j := by
  have hd : ∀ a b : Nat, natStr a ≠ '-' :: natStr b := by
    intro a b h
    have : '-' ∈ natStr a := by rw [h]; simp
    exact absurd (natStr_digit this) (by decide)
  cases i with
  | ofNat a =>
    cases j with
    | ofNat b => rw [Output.natStr_inj (m := a) (n := b) h]
    | negSucc b => exact absurd h (hd a (b + 1))
  | negSucc a =>
    cases j with
    | ofNat b => exact absurd h.symm (hd b (a + 1))
    | negSucc b =>
      have : natStr (a + 1) = natStr (b + 1) := by
        simp only [intStr, List.cons.injEq, true_and] at h
        exact h
      have := Output.natStr_inj this
      rw [show a = b by omega]

/-- Every language accepted has two characters. -/
theorem accepted_lang {langs : Option (List Str)} {os : List PyVal} {es : List Spec.Given}
    (h : Spec.Accepted langs os es) : ∀ e ∈ es, e.lang.length = 2 := by
  induction h with
  | nil => simp
  | @good o os es r hf _ ih =>
    intro e he
    rcases List.mem_append.1 he with h' | he
    · replace he := (List.mem_filter.1 h').1
      clear h'
      clear ih
      generalize Spec.items o = l at hf
      induction hf with
      | nil => simp at he
      | cons hx _ ih =>
        rcases List.mem_cons.1 he with rfl | he
        · obtain ⟨d, v, -, -, -, -, -, -, h2, -⟩ := hx
          exact h2
        · exact ih he
    · exact ih e he
  | bad _ _ ih => exact ih

/-- C14, exactly and for every history: a text-and-image field lists one entry per index and
language, ordered by the text made of the decimal digits of the index and the language. -/
theorem indexed_by_digits (t : TextCls) (langs : Option (List Str)) (os : List PyVal)
    (es : List Spec.Given) (h : Spec.Accepted langs os es) (ignore : Bool) (sent : Str → List Str)
    (out : List ((Int × Str) × Str))
    (hout : endIndexedMulti t ignore sent (history (add t (validateEntry langs)) [] os) = .ok out)
    (hfit : ∀ i L, Fits t ignore (Spec.combine t.sep (Spec.textsOf es i L))) :
    (out.map Prod.fst).Pairwise (fun a b => Spec.Before (intStr a.1 ++ a.2) (intStr b.1 ++ b.2)) ∧
    (∀ k, k ∈ out.map Prod.fst ↔ ∃ e ∈ es, k = (e.index, e.lang)) ∧
    ∀ p ∈ out, p.2 = Spec.combine t.sep (Spec.textsOf es p.1.1 p.1.2) := by
  have hlang := accepted_lang h
  rw [history_merge t langs os es h, addMerged_eq] at hout
  generalize hx : (firstOccurrences (es.map key)).map (merged t.sep es) = x at hout
  have hxm : ∀ e, e ∈ x ↔ ∃ g ∈ es, e = merged t.sep es (key g) := by
    intro e
    rw [← hx, List.mem_map]
    constructor
    · rintro ⟨k, hk, rfl⟩
      obtain ⟨g, hg, rfl⟩ := List.mem_map.1 (mem_firstOccurrences.1 hk)
      exact ⟨g, hg, rfl⟩
    · rintro ⟨g, hg, rfl⟩
      exact ⟨key g, mem_firstOccurrences.2 (List.mem_map_of_mem hg), rfl⟩
  have hout' := endValidate_fits (by
    intro p hp
    obtain ⟨e, he, rfl⟩ := List.mem_map.1 hp
    obtain ⟨g, hg, rfl⟩ := (hxm e).1 ((mem_sortBy _).1 he)
    exact hfit _ _) hout
  rw [hout', List.map_map]
  refine ⟨?_, ?_, ?_⟩
  · rw [List.pairwise_map]
    have hs := sortBy_sorted (fun a b : Entry => strLe (indexLangKey a) (indexLangKey b))
      (fun a b => strLe_total _ _) (fun a b c => strLe_trans) x
    have hn : (sortBy (fun a b : Entry => strLe (indexLangKey a) (indexLangKey b)) x).Pairwise
        fun a b => (a.index, a.lang) ≠ (b.index, b.lang) := by
      have : ((sortBy (fun a b : Entry => strLe (indexLangKey a) (indexLangKey b)) x).map
          fun e => (e.index, e.lang)).Nodup := by
        refine ((sortBy_perm _ x).map _).nodup_iff.2 ?_
        rw [← hx, List.map_map]
        have : ((fun e : Entry => (e.index, e.lang)) ∘ merged t.sep es) = id := rfl
        rw [this, List.map_id]
        exact firstOccurrences_nodup _
      exact List.pairwise_map.1 this
    refine (hs.and hn).imp_of_mem ?_
    intro a b ha hb hab
    obtain ⟨g, hg, rfl⟩ := (hxm a).1 ((mem_sortBy _).1 ha)
    obtain ⟨g', hg', rfl⟩ := (hxm b).1 ((mem_sortBy _).1 hb)
    refine before_of_strLe hab.1 ?_
    intro he
    have he : intStr g.index ++ g.lang = intStr g'.index ++ g'.lang := he
    have hl := List.append_inj' he (by rw [hlang g hg, hlang g' hg'])
    apply hab.2
    show (g.index, g.lang) = (g'.index, g'.lang)
    rw [intStr_inj hl.1, hl.2]
  · intro k
    rw [List.mem_map]
    constructor
    · rintro ⟨e, he, rfl⟩
      obtain ⟨g, hg, rfl⟩ := (hxm e).1 ((mem_sortBy _).1 he)
      exact ⟨g, hg, rfl⟩
    · rintro ⟨g, hg, rfl⟩
      exact ⟨merged t.sep es (key g), (mem_sortBy _).2 ((hxm _).2 ⟨g, hg, rfl⟩), rfl⟩
  · intro p hp
    obtain ⟨e, he, rfl⟩ := List.mem_map.1 hp
    obtain ⟨g, hg, rfl⟩ := (hxm e).1 ((mem_sortBy _).1 he)
    rfl

example : endIndexedMulti (base 32000) false (fun s => [s])
    (history (add (base 32000) (validateEntry none)) []
      [para 9 c!"i", para 12 c!"l", para 100 c!"c", para (-1) c!"z"]) =
    .ok [((-1, c!"en"), c!"z"), ((100, c!"en"), c!"c"), ((12, c!"en"), c!"l"), ((9, c!"en"), c!"i")] := by
  decide

theorem Spec.Before.head {x y : Char} {a b : Str} (h : Spec.Before (x :: a) (y :: b)) : x ≤ y := by
  rcases h with ⟨t, -, h⟩ | ⟨p, u, v, s, t, h1, h2, h3⟩
  · simp only [List.cons_append, List.cons.injEq] at h
    rw [h.1]
  · cases p with
    | nil =>
      simp only [List.nil_append, List.cons.injEq] at h1 h2
      rw [h1.1, h2.1]
      exact le_of_lt h3
    | cons c p =>
      simp only [List.cons_append, List.cons.injEq] at h1 h2
      rw [h1.1, h2.1]

/-- C14 fails for every history with a paragraph from 2 to 9 and one from 10 to 19, whatever their
languages: the later paragraph is written in front of the earlier one. -/
theorem later_first (t : TextCls) (langs : Option (List Str)) (os : List PyVal)
    (es : List Spec.Given) (h : Spec.Accepted langs os es) (ignore : Bool) (sent : Str → List Str)
    (out : List ((Int × Str) × Str))
    (hout : endIndexedMulti t ignore sent (history (add t (validateEntry langs)) [] os) = .ok out)
    (hfit : ∀ i L, Fits t ignore (Spec.combine t.sep (Spec.textsOf es i L)))
    (e f : Spec.Given) (he : e ∈ es) (hf : f ∈ es) (hi : 2 ≤ e.index ∧ e.index ≤ 9)
    (hj : 10 ≤ f.index ∧ f.index ≤ 19) :
    ∃ a b c, out.map Prod.fst = a ++ (f.index, f.lang) :: b ++ (e.index, e.lang) :: c := by
  obtain ⟨h1, h2, -⟩ := indexed_by_digits t langs os es h ignore sent out hout hfit
  have hme := (h2 _).2 ⟨e, he, rfl⟩
  have hmf := (h2 _).2 ⟨f, hf, rfl⟩
  generalize out.map Prod.fst = l at h1 hme hmf
  have hdig : ∀ k : Fin 8, ∃ d, intStr ((k.val : Int) + 2) = [d] ∧ '1' < d := by
    intro k
    refine ⟨(k.val + 2).digitChar, ?_, ?_⟩ <;> revert k <;> decide
  have hten : ∀ k : Fin 10, ∃ d, intStr ((k.val : Int) + 10) = ['1', d] := by
    intro k
    refine ⟨k.val.digitChar, ?_⟩
    revert k
    decide
  obtain ⟨d, hd, hlt⟩ := hdig ⟨(e.index - 2).toNat, by omega⟩
  obtain ⟨d', hd'⟩ := hten ⟨(f.index - 10).toNat, by omega⟩
  rw [show ((e.index - 2).toNat : Int) + 2 = e.index by omega] at hd
  rw [show ((f.index - 10).toNat : Int) + 10 = f.index by omega] at hd'
  obtain ⟨a, r, rfl⟩ := List.append_of_mem hmf
  rcases List.mem_append.1 hme with hm | hm
  · have := (List.pairwise_append.1 h1).2.2 _ hm _ (List.mem_cons_self)
    simp only [hd, hd', List.cons_append, List.nil_append] at this
    exact absurd this.head (not_le.2 hlt)
  · rcases List.mem_cons.1 hm with hm | hm
    · have : e.index = f.index := congrArg Prod.fst hm
      omega
    · obtain ⟨b, c, rfl⟩ := List.append_of_mem hm
      exact ⟨a, b, c, by simp⟩

example : ∃ es, Spec.Accepted none [para 2 c!"second", para 10 c!"tenth"] es ∧
    ∃ e ∈ es, ∃ f ∈ es, (2 ≤ e.index ∧ e.index ≤ 9) ∧ (10 ≤ f.index ∧ f.index ≤ 19) := by
  have hp : ∀ (i : Int) (s : Str), Spec.IsEntry none (para i s) ⟨i, c!"en", s⟩ := by
    intro i s
    refine ⟨_, .int i, rfl, by simp, ⟨[(c!"@index", .int i), (c!"@lang", .str c!"en")], [], rfl, ?_⟩,
      ⟨[], _, rfl, by simp⟩, rfl, ⟨[(c!"@index", .int i)], _, rfl, ?_⟩, rfl, by simp⟩
    · simp
    · simp
  refine ⟨_, .good (.cons (hp 2 c!"second") .nil) (.good (.cons (hp 10 c!"tenth") .nil) .nil),
    ⟨2, c!"en", c!"second"⟩, by decide, ⟨10, c!"en", c!"tenth"⟩, by decide, by decide, by decide⟩

end Verif.LangText
