/-
The variables and formulas of an ILCD data set converted to EcoSpold2.
-/
import Verif.Lemmas.IlcdVars
import Mathlib.Data.List.Induction
import Mathlib.Data.List.Nodup

namespace Verif.IlcdVars
open Spec

/-! ### Renaming in formulas -/

/-- C39, where it holds: if no name that has to be renamed stands inside another word of the formula, then
renaming once keeps the meaning: with the same values under the new names, the words and values are the
same. -/
theorem rename_keeps_meaning_partial {α : Type} {names : List Str} {f : Str} {old new : Str → Option α}
    (hn : ∀ n ∈ names, IsWord n ∧ conform n = false) (hnd : names.Nodup) (hsep : Separate names f)
    (hval : ∀ t ∈ tokens f, (t ∈ names → ∃ v, old t = some v ∧ new (c!"uc" ++ t) = some v) ∧
      (t ∉ names → new t = old t)) :
    meaning new (rename (dictOf names) f) = meaning old f := by
  unfold meaning
  rw [rename_words hn hnd hsep, List.map_map]
  apply List.map_congr_left
  intro t ht
  simp only [Function.comp, ren]
  by_cases hm : t ∈ names
  · obtain ⟨v, h1, h2⟩ := (hval t ht).1 hm
    rw [if_pos hm, h1, h2]
  · rw [if_neg hm, (hval t ht).2 hm]

/-- C39 fails when a name stands inside another: the variable `b_a` is not renamed, but the formula that
uses it is changed to use `buc_a`, which is no variable. -/
theorem rename_inside :
    rename (dictOf [c!"_a"]) c!"2*b_a" = c!"2*buc_a" ∧ c!"b_a" ∈ tokens c!"2*b_a" ∧
    c!"b_a" ∉ tokens c!"2*buc_a" ∧ newName c!"b_a" = c!"b_a" := by decide

/-- C39 fails when a formula is renamed again: a formula that was renamed is changed once more. -/
theorem rename_again (n : Str) (hn : IsWord n) (hc : conform n = false) :
    rename (dictOf [n]) n = c!"uc" ++ n ∧ rename (dictOf [n]) (rename (dictOf [n]) n) = c!"ucuc" ++ n := by
  have h1 : rename (dictOf [n]) n = c!"uc" ++ n := by
    simp only [dictOf, List.map_cons, List.map_nil, rename]
    rw [if_pos (isInfix_iff.2 ⟨[], [], by simp⟩), replaceAll, if_neg hn.1]
    have := replaceAux_hit (old := n) (new := c!"uc" ++ n) (s := []) hn.1
    simpa [replaceAux] using this
  refine ⟨h1, ?_⟩
  rw [h1]
  simp only [dictOf, List.map_cons, List.map_nil, rename]
  rw [if_pos (isInfix_iff.2 ⟨c!"uc", [], by simp⟩), replaceAll, if_neg hn.1]
  have hmiss : ∀ x s, isLetter x = true → ¬ ∃ r, x :: s = n ++ r := by
    rintro x s hx ⟨r, hr⟩
    cases n with
    | nil => exact hn.1 rfl
    | cons y n =>
      simp only [List.cons_append, List.cons.injEq] at hr
      simp only [conform] at hc
      rw [← hr.1, hx] at hc
      simp at hc
  have hh := replaceAux_hit (old := n) (new := c!"uc" ++ n) (s := []) hn.1
  simp only [List.append_nil, replaceAux] at hh
  rw [List.cons_append, List.cons_append, List.nil_append, replaceAux_miss (hmiss _ _ (by decide)),
    replaceAux_miss (hmiss _ _ (by decide))]
  exact congrArg (fun l => 'u' :: 'c' :: l) hh

/-! ### Variables defined once -/

/-- The variable a source makes. -/
def varOf (x : Source) : Var := ⟨x.name, newName x.name, formulaOf x⟩

/-- The names that have to be renamed. -/
def badNames (vars : List Source) : List Str := (vars.map Source.name).filter fun n => !conform n

/-- The definition expected of a source. -/
def defOf (vars : List Source) (x : Source) : Def :=
  ⟨newName x.name, changeFormula (dictOf (badNames vars)) (formulaOf x)⟩

theorem aset_map {α β : Type} {name : α → Str} {g : α → β} {k : Str} {v : β} : ∀ {l : List α},
    (l.map name).Nodup → k ∈ l.map name →
    aset k v (l.map fun x => (name x, g x)) = l.map fun x => (name x, if name x = k then v else g x)
  | [], _, h => by simp at h
  | x :: l, hnd, h => by
    simp only [List.map_cons, List.nodup_cons, List.mem_cons] at hnd h
    by_cases e : name x = k
    · have hk : k ∉ l.map name := e ▸ hnd.1
      simp only [List.map_cons, aset, e, if_true]
      congr 1
      apply List.map_congr_left
      intro y hy
      rw [if_neg]
      intro e'
      exact hk (List.mem_map.2 ⟨y, hy, e'⟩)
    · have hk : k ∈ l.map name := by
        rcases h with h | h
        · exact absurd h.symm e
        · exact h
      simp only [List.map_cons, aset, e, if_false]
      rw [aset_map hnd.2 hk]

theorem aget_map {α β : Type} {name : α → Str} {g : α → β} : ∀ {l : List α} {x : α},
    (l.map name).Nodup → x ∈ l → aget (name x) (l.map fun x => (name x, g x)) = some (g x)
  | [], _, _, h => by simp at h
  | y :: l, x, hnd, h => by
    simp only [List.map_cons, List.nodup_cons] at hnd
    rcases List.mem_cons.1 h with rfl | h
    · simp [aget]
    · have : name y ≠ name x := fun e => hnd.1 (e ▸ List.mem_map.2 ⟨x, h, rfl⟩)
      simp only [List.map_cons, aget, this, if_false]
      exact aget_map hnd.2 h

theorem constructAll_eq (vars : List Source) (h : (vars.map Source.name).Nodup) :
    constructAll .empty vars = ⟨vars.map fun x => (x.name, (false, varOf x)), dictOf (badNames vars)⟩ := by
  induction vars using List.reverseRecOn with
  | nil => rfl
  | append_singleton l x ih =>
    have hl : (l.map Source.name).Nodup := by
      rw [List.map_append] at h; exact h.sublist (List.sublist_append_left _ _)
    have hx : x.name ∉ l.map Source.name := by
      rw [List.map_append, List.nodup_append] at h
      intro hm
      exact h.2.2 _ hm _ (by simp) rfl
    have e := ih hl
    unfold constructAll at e ⊢
    rw [List.foldl_append, e]
    simp only [List.foldl_cons, List.foldl_nil, construct]
    congr 1
    · rw [aset_of_notMem _ (by simpa [List.map_map, Function.comp] using hx)]
      simp [varOf]
    · by_cases hc : conform x.name = true
      · simp [hc, badNames, List.filter_append]
      · have hc' : conform x.name = false := by simpa using hc
        rw [if_neg hc, aset_of_notMem]
        · simp [badNames, List.filter_append, hc', dictOf]
        · simp only [dictOf, badNames, List.map_map]
          intro hm
          simp only [List.mem_map, List.mem_filter] at hm
          obtain ⟨n, ⟨⟨y, hy, rfl⟩, -⟩, e'⟩ := hm
          exact hx (List.mem_map.2 ⟨y, hy, e'⟩)

/-- The entry of a source after the names in `used` were used. -/
def entry (vars : List Source) (used : List Str) (x : Source) : Bool × Var :=
  if x.name ∈ used then (true, { varOf x with formula := (defOf vars x).formula }) else (false, varOf x)

theorem useAll_eq {vars : List Source} (hnd : (vars.map Source.name).Nodup) (source : Str → Source) :
    ∀ {uses : List Use} {used : List Str},
    (uses.map Use.var).Nodup → (∀ u ∈ uses, u.var ∉ used) →
    (∀ u ∈ uses, u.var ∈ vars.map Source.name ∧ u.factor = c!"1.0" ∧ u.converted = true) →
    ∃ ds, useAll source ⟨vars.map fun x => (x.name, entry vars used x), dictOf (badNames vars)⟩ uses =
      .ok (⟨vars.map fun x => (x.name, entry vars (used ++ uses.map Use.var) x), dictOf (badNames vars)⟩, ds) ∧
      ds.map Def.name = uses.map (fun u => newName u.var) ∧
      ds.Perm ((vars.filter fun x => decide (x.name ∈ uses.map Use.var)).map (defOf vars))
  | [], used, _, _, _ => ⟨[], by simp [useAll], rfl, by simp⟩
  | u :: uses, used, hu, hfree, hok => by
    obtain ⟨hin, hf, hconv⟩ := hok u (by simp)
    obtain ⟨x, hx, hxn⟩ := List.mem_map.1 hin
    have hnot : u.var ∉ used := hfree u (by simp)
    have hu' := List.nodup_cons.1 hu
    have hget : aget u.var (vars.map fun x => (x.name, entry vars used x)) = some (false, varOf x) := by
      rw [← hxn, aget_map hnd hx, entry, if_neg (by rw [hxn]; exact hnot)]
    have hstep : useVariable source ⟨vars.map fun x => (x.name, entry vars used x), dictOf (badNames vars)⟩ u =
        .ok (⟨vars.map fun x => (x.name, entry vars (used ++ [u.var]) x), dictOf (badNames vars)⟩, [defOf vars x]) := by
      simp only [useVariable, getVariable, hget, hf, if_true, hconv]
      congr 2
      · congr 1
        rw [aset_map hnd hin]
        apply List.map_congr_left
        intro y hy
        congr 1
        unfold entry
        by_cases e : y.name = u.var
        · have : y = x := List.inj_on_of_nodup_map hnd hy hx (by rw [e, hxn])
          subst this
          simp [e, varOf, defOf]
        · simp [e]
    obtain ⟨ds, h1, h2, h3⟩ := useAll_eq hnd source (uses := uses) (used := used ++ [u.var]) hu'.2
      (by
        intro w hw hm
        rcases List.mem_append.1 hm with hm | hm
        · exact hfree w (by simp [hw]) hm
        · simp only [List.mem_singleton] at hm
          exact hu'.1 (hm ▸ List.mem_map.2 ⟨w, hw, rfl⟩))
      (fun w hw => hok w (by simp [hw]))
    refine ⟨defOf vars x :: ds, ?_, ?_, ?_⟩
    · simp only [useAll, hstep, h1]
      simp [List.append_assoc]
    · simp [h2, defOf, hxn]
    · have hperm : ((vars.filter fun x => decide (x.name ∈ (u :: uses).map Use.var))).Perm
          (x :: vars.filter fun x => decide (x.name ∈ uses.map Use.var)) := by
        have hvn : vars.Nodup := List.Nodup.of_map _ hnd
        rw [List.perm_ext_iff_of_nodup (hvn.filter _)]
        · intro y
          simp only [List.mem_filter, List.map_cons, List.mem_cons, decide_eq_true_eq]
          constructor
          · rintro ⟨hy, e | e⟩
            · exact .inl (List.inj_on_of_nodup_map hnd hy hx (by rw [e, hxn]))
            · exact .inr ⟨hy, e⟩
          · rintro (rfl | ⟨hy, e⟩)
            · exact ⟨hx, .inl hxn⟩
            · exact ⟨hy, .inr e⟩
        · rw [List.nodup_cons]
          refine ⟨?_, hvn.filter _⟩
          intro hm
          have := (List.mem_filter.1 hm).2
          rw [decide_eq_true_eq, hxn] at this
          exact hu'.1 this
      have := (hperm.map (defOf vars)).symm
      rw [List.map_cons] at this
      exact (h3.cons _).trans this

/-- C38 and C39, where they hold: if the variables have different names and the exchanges that refer to
variables refer to different ones, as a whole (`meanAmount` is `1.0`), and are converted, then every variable
is defined exactly once, by a parameter or by the exchange that refers to it, and its formula is renamed
once. -/
theorem variables_once_partial {vars : List Source} {uses : List Use} (hnd : (vars.map Source.name).Nodup)
    (hu : (uses.map Use.var).Nodup)
    (hok : ∀ u ∈ uses, u.var ∈ vars.map Source.name ∧ u.factor = c!"1.0" ∧ u.converted = true) :
    ∃ ps ds, convert vars uses = .ok (ps, ds) ∧ (ps ++ ds).Perm (vars.map (defOf vars)) ∧
      ds.map Def.name = uses.map (fun u => newName u.var) := by
  obtain ⟨ds, h1, h2, h3⟩ := useAll_eq hnd (sourceOf vars) (uses := uses) (used := []) hu (by simp) hok
  refine ⟨(vars.filter fun x => decide (x.name ∉ uses.map Use.var)).map (defOf vars), ds, ?_, ?_, h2⟩
  · have e0 : (vars.map fun x => (x.name, entry vars [] x)) = vars.map fun x => (x.name, (false, varOf x)) := by
      simp [entry]
    rw [convert, constructAll_eq _ hnd, ← e0, h1]
    simp only [List.nil_append, createParameters]
    congr 2
    rw [List.filter_map, List.map_map]
    have : (vars.filter ((fun p : Str × (Bool × Var) => !p.2.1) ∘ fun x => (x.name, entry vars (uses.map Use.var) x))) =
        vars.filter fun x => decide (x.name ∉ uses.map Use.var) := by
      apply List.filter_congr
      intro x _
      simp only [Function.comp, entry]
      split <;> simp_all
    rw [this]
    apply List.map_congr_left
    intro x hx
    have hx' : x.name ∉ uses.map Use.var := by simpa using (List.mem_filter.1 hx).2
    simp [Function.comp, entry, hx', varOf, defOf]
  · have hp := (List.filter_append_perm (fun x => decide (x.name ∉ uses.map Use.var)) vars).map (defOf vars)
    rw [List.map_append] at hp
    refine List.Perm.trans ?_ hp
    refine List.Perm.append_left _ (h3.trans ?_)
    apply List.Perm.of_eq
    congr 1
    apply List.filter_congr
    intro x _
    by_cases h : x.name ∈ uses.map Use.var <;> simp only [h, not_true, not_false_eq_true, decide_true, decide_false, Bool.not_true, Bool.not_false]

/-- C38 and C39 together, where they hold: each variable with a formula comes out with its new name and a
formula that reads as the old one with the new names in place of the old. -/
theorem formulas_kept_partial {vars : List Source} {uses : List Use} (hnd : (vars.map Source.name).Nodup)
    (hu : (uses.map Use.var).Nodup)
    (hok : ∀ u ∈ uses, u.var ∈ vars.map Source.name ∧ u.factor = c!"1.0" ∧ u.converted = true)
    (hw : ∀ x ∈ vars, IsWord x.name) {x : Source} (hx : x ∈ vars) {f : Str} (hf : x.formula = some f) (hne : f ≠ [])
    (hsep : Separate ((vars.map Source.name).filter fun n => !conform n) f) :
    ∃ ps ds, convert vars uses = .ok (ps, ds) ∧ ∃ d ∈ ps ++ ds, d.name = newName x.name ∧
      ∃ g, d.formula = some g ∧ tokens g = (tokens f).map fun t =>
        if t ∈ vars.map Source.name then newName t else t := by
  obtain ⟨ps, ds, h1, h2, -⟩ := variables_once_partial hnd hu hok
  refine ⟨ps, ds, h1, defOf vars x, h2.mem_iff.2 (List.mem_map.2 ⟨x, hx, rfl⟩), rfl,
    rename (dictOf (badNames vars)) f, ?_, ?_⟩
  · cases f with
    | nil => exact absurd rfl hne
    | cons c t => simp [defOf, formulaOf, hf, changeFormula]
  · rw [rename_words (names := badNames vars) ?_ (hnd.sublist List.filter_sublist) hsep]
    · apply List.map_congr_left
      intro t _
      unfold ren newName badNames
      by_cases h1 : t ∈ vars.map Source.name
      · by_cases h2 : conform t = true
        · rw [if_neg (by simp [h2]), if_pos h1, if_pos h2]
        · rw [if_pos (List.mem_filter.2 ⟨h1, by simpa using h2⟩), if_pos h1, if_neg h2]
      · rw [if_neg (fun h => h1 (List.mem_filter.1 h).1), if_neg h1]
    · intro n hn
      obtain ⟨hn1, hn2⟩ := List.mem_filter.1 hn
      obtain ⟨y, hy, rfl⟩ := List.mem_map.1 hn1
      exact ⟨hw y hy, by simpa using hn2⟩

/-- C38 fails for an exchange with a factor: with a variable `x` and `meanAmount` other than `1.0`, the
exchange is given the name `x` and the formula `(x)*factor`, that is, it is defined by itself; the parameter
`x` is given the same definition, and the formula of `x` is lost. -/
theorem factor_circular {source : Str → Source} {s : St} {x : Str} {factor : Str} {b : Bool} {v : Var}
    (hget : aget x s.avail = some (b, v)) (ho : v.oName = x) (hs : (source x).name = x)
    (hc : conform x = true) (hr : s.renamed = []) (hw : IsWord x) (hf : factor ≠ c!"1.0") :
    ∃ s' d, useVariable source s ⟨x, factor, true⟩ = .ok (s', [d]) ∧ Circular d ∧ d.name = x ∧
      d ∈ createParameters s' ∧
      aget x s'.avail = some (false, ⟨x, x, some (c!"(" ++ x ++ c!")*" ++ factor)⟩) := by
  have hne : x ≠ x ++ c!"_original" := by simp
  let n1 : Var := ⟨x, x, some (c!"(" ++ x ++ c!")*" ++ factor)⟩
  have hx : x ≠ [] := hw.1
  have hcf : changeFormulaBy [] factor (some x) = some (c!"(" ++ x ++ c!")*" ++ factor) := by
    cases x with
    | nil => exact absurd rfl hx
    | cons c t => rfl
  have hcc : changeFormula [] (some (c!"(" ++ x ++ c!")*" ++ factor)) = some (c!"(" ++ x ++ c!")*" ++ factor) := rfl
  refine ⟨⟨aset (x ++ c!"_original") (true, n1) (aset x (false, n1) (aset x (false, n1)
      (aset x (false, ⟨x, x, formulaOf (source x)⟩) (aset x (true, { v with formula := changeFormula [] v.formula }) s.avail)))),
      []⟩, ⟨x, some (c!"(" ++ x ++ c!")*" ++ factor)⟩, ?_, ?_, rfl, ?_, ?_⟩
  · simp only [useVariable, getVariable, hget, hf, if_false, construct, ho, hs, hc, if_true, hr, newName, hcf,
      unuse, aget_aset_self, held]
    rfl
  · refine ⟨_, rfl, ?_⟩
    show x ∈ tokens _
    have : tokens (c!"(" ++ x ++ c!")*" ++ factor) = c!"(" :: tokens (x ++ (c!")*" ++ factor)) := by
      rw [List.append_assoc, List.append_assoc]
      exact tokens_other (by decide)
    rw [this, tokens_word hw (by rfl)]
    simp
  · unfold createParameters
    refine List.mem_map.2 ⟨(x, (false, n1)), List.mem_filter.2 ⟨?_, rfl⟩, ?_⟩
    · apply aget_mem
      rw [aget_aset, if_neg hne, aget_aset_self]
    · simp only [n1, hcc]
  · rw [aget_aset, if_neg hne, aget_aset_self]

/-- C38 fails for a variable used by two exchanges: both define it. -/
theorem used_twice (x : Source) : ∃ d1 d2, convert [x] [⟨x.name, c!"1.0", true⟩, ⟨x.name, c!"1.0", true⟩] =
    .ok ([], [d1, d2]) ∧ d1.name = newName x.name ∧ d2.name = newName x.name := by
  refine ⟨⟨newName x.name, ?_⟩, ⟨newName x.name, ?_⟩, ?_, rfl, rfl⟩
  · exact changeFormula (construct .empty x).1.renamed (formulaOf x)
  · exact changeFormula (construct .empty x).1.renamed (changeFormula (construct .empty x).1.renamed (formulaOf x))
  · simp [convert, constructAll, construct, St.empty, aset, useAll, useVariable, getVariable, aget, createParameters]

/-- C38 fails when one of two exchanges of a variable is not converted: the variable is defined by the
other exchange and again by a parameter. -/
theorem defined_twice (x : Source) : ∃ d1 d2, convert [x] [⟨x.name, c!"1.0", true⟩, ⟨x.name, c!"1.0", false⟩] =
    .ok ([d1], [d2]) ∧ d1.name = newName x.name ∧ d2.name = newName x.name := by
  refine ⟨⟨newName x.name, ?_⟩, ⟨newName x.name, ?_⟩, ?_, rfl, rfl⟩
  · exact changeFormula (construct .empty x).1.renamed (changeFormula (construct .empty x).1.renamed
      (changeFormula (construct .empty x).1.renamed (formulaOf x)))
  · exact changeFormula (construct .empty x).1.renamed (formulaOf x)
  · simp [convert, constructAll, construct, St.empty, aset, useAll, useVariable, getVariable, aget,
      createParameters, resetVariable]

/-- C38 fails for a variable whose name is that of another with `_original`: it is lost when that other is
used with a factor. -/
theorem original_lost : convert [⟨c!"x", some c!"2"⟩, ⟨c!"x_original", some c!"3"⟩] [⟨c!"x", c!"5.0", true⟩] =
    .ok ([⟨c!"x", some c!"(x)*5.0"⟩], [⟨c!"x", some c!"(x)*5.0"⟩]) := by decide

/-- C38 fails for new names that are already in use. -/
theorem new_name_taken : convert [⟨c!"_a", none⟩, ⟨c!"uc_a", none⟩] [] =
    .ok ([⟨c!"uc_a", none⟩, ⟨c!"uc_a", none⟩], []) := by decide

/-- C39 fails for a formula used twice: in the second exchange it has been renamed twice. -/
theorem formula_renamed_twice :
    convert [⟨c!"_a", none⟩, ⟨c!"b", some c!"_a*2"⟩] [⟨c!"b", c!"1.0", true⟩, ⟨c!"b", c!"1.0", true⟩] =
    .ok ([⟨c!"uc_a", none⟩], [⟨c!"b", some c!"uc_a*2"⟩, ⟨c!"b", some c!"ucuc_a*2"⟩]) := by decide

/-! ### Examples -/

/-- The hypotheses of `rename_keeps_meaning_partial`. -/
example : (∀ n ∈ [c!"_a", c!"__kg__"], IsWord n ∧ conform n = false) ∧ [c!"_a", c!"__kg__"].Nodup ∧
    Separate [c!"_a", c!"__kg__"] c!"2*(_a+b)/__kg__" := by
  refine ⟨?_, by decide, ?_⟩
  · intro n hn
    simp only [List.mem_cons, List.not_mem_nil, or_false] at hn
    rcases hn with rfl | rfl
    · exact ⟨⟨by decide, by decide⟩, by decide⟩
    · exact ⟨⟨by decide, by decide⟩, by decide⟩
  · intro t ht n hn h
    rw [← isInfix_iff] at h
    revert t n
    decide

/-- The hypotheses of `variables_once_partial`, and what comes out. -/
example : convert [⟨c!"_a", none⟩, ⟨c!"b", some c!"_a*2"⟩, ⟨c!"c", some c!"b+1"⟩] [⟨c!"c", c!"1.0", true⟩] =
    .ok ([⟨c!"uc_a", none⟩, ⟨c!"b", some c!"uc_a*2"⟩], [⟨c!"c", some c!"b+1"⟩]) := by decide

example : ([⟨c!"_a", none⟩, ⟨c!"b", some c!"_a*2"⟩] : List Source).map Source.name |>.Nodup := by decide

/-- The hypotheses of `factor_circular`. -/
example : aget c!"x" (constructAll .empty [⟨c!"x", some c!"2"⟩]).avail =
      some (false, ⟨c!"x", c!"x", some c!"2"⟩) ∧
    (constructAll .empty [⟨c!"x", some c!"2"⟩]).renamed = [] ∧ conform c!"x" = true ∧
    (sourceOf [⟨c!"x", some c!"2"⟩] c!"x").name = c!"x" := by decide

/-! ### Names -/

theorem isLetter_iff (c : Char) : isLetter c = c.isAlpha := by
  rw [Bool.eq_iff_iff]
  simp only [isLetter, Char.isAlpha, Char.isLower, Char.isUpper, Bool.or_eq_true, Bool.and_eq_true, decide_eq_true_eq]
  exact or_comm

/-- C38: exactly the names that do not begin with a letter are changed, and the new name begins with one. -/
theorem name_kept_iff (n : Str) : newName n = n ↔ ∃ c s, n = c :: s ∧ c.isAlpha = true := by
  cases n with
  | nil => simp [newName, conform]
  | cons c s =>
    simp only [newName, conform, isLetter_iff]
    by_cases h : c.isAlpha = true
    · simp [h]
    · rw [if_neg h]
      constructor
      · intro he
        have := congrArg List.length he
        simp at this
        omega
      · rintro ⟨c', s', he, h'⟩
        cases he
        exact absurd h' h

theorem name_begins_with_letter (n : Str) : ∃ c s, newName n = c :: s ∧ c.isAlpha = true := by
  by_cases h : newName n = n
  · obtain ⟨c, s, h1, h2⟩ := (name_kept_iff n).1 h
    exact ⟨c, s, h.trans h1, h2⟩
  · refine ⟨'u', 'c' :: n, ?_, by decide⟩
    unfold newName at h ⊢
    by_cases hc : conform n = true
    · rw [if_pos hc] at h; exact absurd rfl h
    · rw [if_neg hc]; rfl

/-- C38: an exchange that refers to a variable the data set does not define makes the conversion fail. -/
theorem unknown_variable {vars : List Source} {u : Use} {uses : List Use}
    (h : ∀ x ∈ vars, x.name ≠ u.var) : convert vars (u :: uses) = .error .keyError := by
  have hk : ∀ (l : List Source) (s : St), (∀ x ∈ l, x.name ≠ u.var) → aget u.var s.avail = none →
      aget u.var (constructAll s l).avail = none := by
    intro l
    induction l with
    | nil => intro s _ h; exact h
    | cons x l ih =>
      intro s hl hs
      exact ih _ (fun y hy => hl y (List.mem_cons_of_mem _ hy))
        (by simp only [construct]; rw [aget_aset, if_neg (Ne.symm (hl x List.mem_cons_self)), hs])
  have := hk vars .empty h rfl
  simp only [convert, useAll, useVariable, getVariable, this]

example : ∀ x ∈ [(⟨c!"a", none⟩ : Source)], x.name ≠ (⟨c!"b", c!"1.0", true⟩ : Use).var := by decide

/-- A variable without a formula, or with an empty one, is defined without a formula. -/
theorem no_formula_partial {vars : List Source} {uses : List Use} (hnd : (vars.map Source.name).Nodup)
    (hu : (uses.map Use.var).Nodup)
    (hok : ∀ u ∈ uses, u.var ∈ vars.map Source.name ∧ u.factor = c!"1.0" ∧ u.converted = true)
    {x : Source} (hx : x ∈ vars) (hf : x.formula = none ∨ x.formula = some []) :
    ∃ ps ds, convert vars uses = .ok (ps, ds) ∧ ⟨newName x.name, none⟩ ∈ ps ++ ds := by
  obtain ⟨ps, ds, h1, h2, -⟩ := variables_once_partial hnd hu hok
  refine ⟨ps, ds, h1, h2.mem_iff.2 (List.mem_map.2 ⟨x, hx, ?_⟩)⟩
  have : formulaOf x = none := by
    unfold formulaOf
    rcases hf with h | h <;> rw [h]
  simp only [defOf, this, changeFormula]

example : ∃ ps ds, convert [⟨c!"a", some []⟩] [] = .ok (ps, ds) ∧ ⟨c!"a", none⟩ ∈ ps ++ ds :=
  no_formula_partial (by decide) (by decide) (by simp) (x := ⟨c!"a", some []⟩) (by simp) (.inr rfl)

/-- C39 fails for a variable whose name is empty: its new name is put around every character of every formula. -/
theorem nameless_breaks (f : Str) :
    rename (dictOf [[]]) f = c!"uc" ++ f.flatMap (fun c => c :: c!"uc") := by
  have h : isInfix [] f = true := isInfix_iff.2 ⟨[], f, by simp⟩
  simp only [dictOf, List.map_cons, List.map_nil, rename, h, if_true, replaceAll, List.append_nil]

/-- C38 fails for a name the data set does not define: after a variable was used with a factor, a reference to its
name with `_original` is taken for a reference to a variable, and the definition made of it is circular. -/
theorem original_reached : convert [⟨c!"x", some c!"2"⟩] [⟨c!"x", c!"5.0", true⟩, ⟨c!"x_original", c!"3.0", true⟩] =
    .ok ([⟨c!"x", some c!"(x_original)*3.0"⟩, ⟨c!"x", some c!"(x)*5.0"⟩],
      [⟨c!"x", some c!"(x)*5.0"⟩, ⟨c!"x", some c!"(x)*5.0"⟩]) := by decide

end Verif.IlcdVars
