import Verif.Lemmas.Params
import Verif.Props.EcsVars
import Verif.Props.OutputName
import Verif.Props.Validators

/-! C142–C146: parameters, their units and comments, and the names made for conversions of units. -/

namespace Verif.Params
open Spec LangText
open UncText (commentCls commentEntries searchFirst back join_back textsAt textsAt_append textsAt_none textsAt_one)
open UncText.Spec (Visible)

/-! ### C142: which parameters are written -/

section Written
open EcsVars EcsVars.Spec
variable {K : Type} [DecidableEq K] [Mul K] [One K]

/-- Neither a name nor a formula is given. -/
def Nameless (q : Quantity K) : Prop := (q.name = none ∨ q.name = some []) ∧ (q.math = none ∨ q.math = some [])

omit [DecidableEq K] [Mul K] [One K] in
theorem given_none {o : Option Str} : given o = none ↔ o = none ∨ o = some [] := by
  cases o with
  | none => simp [given]
  | some s => cases s <;> simp [given]

omit [DecidableEq K] [Mul K] [One K] in
theorem varOf_none {k : Nat} {q : Quantity K} : varOf k q = none ↔ Nameless q := by
  unfold varOf Nameless
  rw [← given_none, ← given_none]
  split
  · rename_i h1 h2; simp [h1, h2]
  · rename_i h
    simp only [reduceCtorEq, false_iff]
    exact fun hc => h hc.1 hc.2

omit [DecidableEq K] [Mul K] [One K] in
theorem nameAll_insert {q : Quantity K} (hq : Nameless q) (b : List (Quantity K)) : ∀ (a : List (Quantity K)) (k : Nat),
    ∃ x y, (nameAll k (a ++ b)).1 = x ++ y ∧ (nameAll k (a ++ q :: b)).1 = x ++ (q, none) :: y ∧
      (nameAll k (a ++ q :: b)).2 = (nameAll k (a ++ b)).2
  | [], k => by
    refine ⟨[], (nameAll k b).1, rfl, ?_, ?_⟩
    · show (nameAll k (q :: b)).1 = _
      simp [nameAll, varOf_none.2 hq]
    · show (nameAll k (q :: b)).2 = _
      simp [nameAll, varOf_none.2 hq]
  | p :: a, k => by
    obtain ⟨x, y, h1, h2, h3⟩ := nameAll_insert hq b a (if (varOf k p).isSome then k + 1 else k)
    refine ⟨(p, varOf k p) :: x, y, ?_, ?_, ?_⟩
    · simp [nameAll, h1]
    · simp [nameAll, h2]
    · simp [nameAll, h3]

theorem constructAll_insert {env : Env K} {q : Quantity K} (hc : ¬ Converted q)
    (y : List (Quantity K × Option (Str × Option Str))) : ∀ (x : List (Quantity K × Option (Str × Option Str))) (s : St K),
    (constructAll env s (x ++ (q, none) :: y)).map Prod.fst = (constructAll env s (x ++ y)).map Prod.fst
  | [], s => by
    unfold Converted at hc
    simp only [List.nil_append, constructAll, construct, hc, if_false]
    cases constructAll env s y <;> rfl
  | (p, v) :: x, s => by
    simp only [List.cons_append, constructAll]
    cases construct env s p v with
    | error e => rfl
    | ok r =>
      obtain ⟨s1, n⟩ := r
      have ih := constructAll_insert hc y x s1 (env := env)
      simp only
      cases h1 : constructAll env s1 (x ++ (q, none) :: y) with
      | error e =>
        rw [h1] at ih
        cases h2 : constructAll env s1 (x ++ y) with
        | error e' => rw [h2] at ih; simpa [Except.map] using ih
        | ok r => rw [h2] at ih; cases ih
      | ok r =>
        rw [h1] at ih
        cases h2 : constructAll env s1 (x ++ y) with
        | error e' => rw [h2] at ih; cases ih
        | ok r' => rw [h2] at ih; simpa [Except.map] using ih

/-- C142 fails for parameters without a name and without a formula: the variables of the data set are those it would have
without the parameter. -/
theorem nameless_lost (env : Env K) (a b : List (Quantity K)) {q : Quantity K} (hk : q.kind = c!"parameter")
    (hq : Nameless q) : (convert env (a ++ q :: b)).map Prod.fst = (convert env (a ++ b)).map Prod.fst := by
  have hc : ¬ Converted q := fun h => absurd (hk.symm.trans h.2) (by decide)
  obtain ⟨x, y, h1, h2, h3⟩ := nameAll_insert hq b a 1
  unfold convert
  simp only [h1, h2, h3]
  have := constructAll_insert hc y x ⟨[], [], (nameAll 1 (a ++ b)).2⟩ (env := env)
  cases h4 : constructAll env ⟨[], [], (nameAll 1 (a ++ b)).2⟩ (x ++ (q, none) :: y) with
  | error e =>
    rw [h4] at this
    cases h5 : constructAll env ⟨[], [], (nameAll 1 (a ++ b)).2⟩ (x ++ y) with
    | error e' => rw [h5] at this; simpa [Except.map] using this
    | ok r => rw [h5] at this; cases this
  | ok r =>
    rw [h4] at this
    cases h5 : constructAll env ⟨[], [], (nameAll 1 (a ++ b)).2⟩ (x ++ y) with
    | error e' => rw [h5] at this; cases this
    | ok r' =>
      rw [h5] at this
      have hs : r.1 = r'.1 := by simpa [Except.map] using this
      simp [Except.map, hs]

theorem construct_result {env : Env K} {s s' : St K} {q : Quantity K} {v : Option (Str × Option Str)} {r : Option Str}
    (hc : ¬ Converted q) (h : construct env s q v = .ok (s', r)) : r = v.map Prod.fst := by
  unfold Converted at hc
  unfold construct at h
  simp only [hc, if_false] at h
  split at h
  · split at h
    · cases h
    · cases h; rfl
  · cases h; rfl

theorem constructAll_result {env : Env K} : ∀ {l : List (Quantity K × Option (Str × Option Str))} {s s' : St K}
    {rs : List (Quantity K × Option Str)}, constructAll env s l = .ok (s', rs) → ∀ q r, (q, r) ∈ rs → ¬ Converted q →
    ∃ v, (q, v) ∈ l ∧ r = v.map Prod.fst
  | [], s, s', rs, h, q, r, hm, _ => by
    cases h; cases hm
  | (p, v) :: l, s, s', rs, h, q, r, hm, hc => by
    rw [constructAll] at h
    split at h
    · cases h
    · rename_i s1 r1 h1
      split at h
      · cases h
      · rename_i s2 rs2 h2
        cases h
        rcases List.mem_cons.1 hm with he | hm
        · cases he
          exact ⟨v, by simp, construct_result hc h1⟩
        · obtain ⟨v', hv, hr⟩ := constructAll_result h2 q r hm hc
          exact ⟨v', by simp [hv], hr⟩

omit [DecidableEq K] [Mul K] [One K] in
theorem nameAll_of : ∀ {qs : List (Quantity K)} {k : Nat} {q : Quantity K} {v}, (q, v) ∈ (nameAll k qs).1 → ∃ k', v = varOf k' q
  | [], k, q, v, h => by cases h
  | p :: qs, k, q, v, h => by
    rw [nameAll] at h
    rcases List.mem_cons.1 h with he | h
    · cases he; exact ⟨k, rfl⟩
    · exact nameAll_of h

/-- C142, where it holds: a parameter that has a name or a formula is written as a variable, under its name if one is
given. -/
theorem parameter_written_partial {env : Env K} {qs : List (Quantity K)} {ps : List (Param K)}
    {rs : List (Quantity K × Option Str)} (h : convert env qs = .ok (ps, rs)) {q : Quantity K} (hm : q ∈ qs)
    (hk : q.kind = c!"parameter") (hq : ¬ Nameless q) :
    ∃ n, (q, some n) ∈ rs ∧ n ∈ ps.map Param.name ∧ ∀ m, q.name = some m → n = m := by
  have hc : ¬ Converted q := fun h => absurd (hk.symm.trans h.2) (by decide)
  obtain ⟨s, hps, i, -, hrs, hdef, -⟩ := convert_inv h
  rw [← hrs] at hm
  obtain ⟨⟨q', r⟩, hr, rfl⟩ := List.mem_map.1 hm
  unfold convert at h
  simp only at h
  split at h
  · cases h
  · rename_i s1 rs1 h1
    have h2 : rs1 = rs := congrArg Prod.snd (Except.ok.inj h)
    subst h2
    obtain ⟨v, hv, hrv⟩ := constructAll_result h1 q' r hr hc
    obtain ⟨k, hk'⟩ := nameAll_of hv
    cases hv2 : varOf k q' with
    | none => exact absurd (varOf_none.1 hv2) hq
    | some w =>
      obtain ⟨n, m⟩ := w
      have hrn : r = some n := by rw [hrv, hk', hv2]; rfl
      subst hrn
      refine ⟨n, hr, by rw [← hps]; exact (names_perm i).1 (hdef q' n hr), ?_⟩
      intro m' hm'
      unfold varOf at hv2
      split at hv2
      · cases hv2
      · rw [hm'] at hv2
        exact (congrArg Prod.fst (Option.some.inj hv2)).symm

end Written

/-! ### C143: the unit -/

/-- C143: the text of a unit is the one `pint` shows exactly if it has no blank, slash, star or point. -/
theorem unit_text_iff {s : Str} : strUnit s = s ↔ ∀ c ∈ c!" /*.", c ∉ s :=
  ⟨fun h c hc hm => strUnit_clean (s := s) hc (by rw [h]; exact hm), strUnit_self⟩

theorem visible_unit (u : Str) : notBlank (c!"[" ++ u ++ c!"]") = true := by
  rw [notBlank_iff]
  exact ⟨'[', by simp, by decide⟩

theorem merged_texts {es : List Entry} (hv : ∀ e ∈ es, notBlank e.text = true) :
    ∀ e ∈ addMerged commentCls [] es, e.text ≠ [] := by
  have hm := addMerged_eq commentCls (es.map Entry.given)
  rw [UncText.map_given] at hm
  rw [hm]
  intro e he
  obtain ⟨k, hk, rfl⟩ := List.mem_map.1 he
  refine merged_ne_nil _ _ ?_ k (Validators.mem_firstOccurrences.1 hk)
  intro g hg
  obtain ⟨e, he, rfl⟩ := List.mem_map.1 hg
  exact (notBlank_iff _).1 (hv e he)

theorem back_line (B : List Str) : back B = [] ∨ ∃ r, back B = '\n' :: r := by
  unfold back
  split
  · exact Or.inl rfl
  · exact Or.inr ⟨_, rfl⟩

theorem no_newline {u : Str} (h : '\n' ∉ u) : '\n' ∉ strUnit u := fun hm => h (strUnit_mem (by decide) hm)

/-- The first paragraph of the English text is the unit. -/
theorem english_first {unc : List Entry} {u : Str} {i : Int} {cs : List (Str × Str)} {t : Str} (hi : 0 ≤ i)
    (hunc : ∀ e ∈ unc, 0 ≤ e.index)
    (ht : LangText.Spec.IsText (some c!"; ") (((varEntries unc u i cs).filter fun e => notBlank e.text).map Entry.given) c!"en" t) :
    ∃ rest, t = c!"[" ++ strUnit u ++ c!"]" ++ back rest := by
  obtain ⟨idx, hsort, hmem, rfl⟩ := ht
  have hge : ∀ e ∈ (varEntries unc u i cs).filter fun e => notBlank e.text,
      0 ≤ e.index ∨ e = ⟨-1, c!"en", c!"[" ++ strUnit u ++ c!"]"⟩ := by
    intro e he
    have he := (List.mem_filter.1 he).1
    rcases List.mem_append.1 he with he | he
    · exact Or.inl (hunc e he)
    · rcases List.mem_cons.1 he with he | he
      · exact Or.inr he
      · have := (UncText.commentEntries_ge cs i e he).1
        left; omega
  have hin : (⟨-1, c!"en", c!"[" ++ strUnit u ++ c!"]"⟩ : Entry) ∈ (varEntries unc u i cs).filter fun e => notBlank e.text :=
    List.mem_filter.2 ⟨by simp [varEntries], visible_unit _⟩
  have h1 : (-1 : Int) ∈ idx := (hmem _).2 ⟨_, List.mem_map_of_mem hin, rfl, rfl⟩
  have h2 : ∀ j ∈ idx, -1 ≤ j := by
    intro j hj
    obtain ⟨g, hg, -, rfl⟩ := (hmem j).1 hj
    obtain ⟨e, he, rfl⟩ := List.mem_map.1 hg
    rcases hge e he with h | rfl
    · show -1 ≤ e.index; omega
    · exact Int.le_refl _
  cases idx with
  | nil => cases h1
  | cons j idx =>
    have hj : j = -1 := by
      rcases List.mem_cons.1 h1 with h | h
      · exact h.symm
      · have := (List.pairwise_cons.1 hsort).1 _ h
        have := h2 j (by simp)
        omega
    subst hj
    rw [List.map_cons, join_back]
    refine ⟨_, congrArg (· ++ back _) ?_⟩
    show join c!"; " (LangText.Spec.textsOf _ (-1) c!"en") = _
    rw [UncText.textsOf_given]
    have : textsAt ((varEntries unc u i cs).filter fun e => notBlank e.text) (-1) c!"en" = [c!"[" ++ strUnit u ++ c!"]"] := by
      unfold varEntries
      rw [List.filter_append, List.filter_cons, if_pos (visible_unit _), textsAt_append, textsAt_none,
        show ∀ (a : Entry) l, a :: l = [a] ++ l from fun _ _ => rfl, textsAt_append, textsAt_none (a := List.filter _ _)]
      · simp [textsAt]
      · intro e he
        have := (UncText.commentEntries_ge cs i e (List.mem_filter.1 he).1).1
        left; omega
      · intro e he
        have := hunc e (List.mem_filter.1 he).1
        left; omega
    rw [this]
    rfl

/-- A language after English: no brackets. -/
theorem later_clean {unc : List Entry} {u : Str} {i : Int} {cs : List (Str × Str)} {L t : Str} (hi : 900 ≤ i) (hL : L ≠ c!"en")
    (hunc : ∀ e ∈ unc, e.index < 900 ∧ (e.lang = L → '[' ∉ e.text)) (hcs : ∀ c ∈ cs, c.1 = L → ¬ Bracketed c.2)
    (ht : LangText.Spec.IsText (some c!"; ") (((varEntries unc u i cs).filter fun e => notBlank e.text).map Entry.given) L t) :
    ¬ Bracketed t := by
  obtain ⟨idx, hsort, hmem, rfl⟩ := ht
  intro hb
  obtain ⟨x, hx, hb⟩ := bracketed_join hb
  obtain ⟨j, hj, rfl⟩ := List.mem_map.1 hx
  have hb : Bracketed (join c!"; " (LangText.Spec.textsOf (((varEntries unc u i cs).filter fun e => notBlank e.text).map Entry.given) j L)) := hb
  rw [UncText.textsOf_given] at hb
  unfold varEntries at hb
  rw [List.filter_append, List.filter_cons, if_pos (visible_unit _), textsAt_append,
    show ∀ (a : Entry) l, a :: l = [a] ++ l from fun _ _ => rfl, textsAt_append, textsAt_none (a := [_])] at hb
  · by_cases hj9 : j < 900
    · rw [textsAt_none (a := List.filter _ (commentEntries i cs))] at hb
      · -- only the uncertainty
        obtain ⟨a, b, c, he, -⟩ := hb
        have hm : '[' ∈ join c!"; " (textsAt (unc.filter fun e => notBlank e.text) j L ++ ([] ++ [])) := by rw [he]; simp
        have : UncText.Spec.Occurs ['['] (join c!"; " (textsAt (unc.filter fun e => notBlank e.text) j L ++ ([] ++ []))) :=
          ⟨a, b ++ ']' :: c, by rw [he]; simp⟩
        obtain ⟨y, hy, ho⟩ := UncText.occurs_joined (by decide) (by decide) this
        simp only [List.append_nil] at hy
        unfold textsAt at hy
        obtain ⟨e, he2, rfl⟩ := List.mem_map.1 hy
        have hf := List.mem_filter.1 he2
        have hjl : e.index = j ∧ e.lang = L := by simpa using hf.2
        obtain ⟨a', b', hab⟩ := ho
        exact (hunc e (List.mem_filter.1 hf.1).1).2 hjl.2 (by rw [hab]; simp)
      · intro e he
        have := (UncText.commentEntries_ge cs i e (List.mem_filter.1 he).1).1
        left; omega
    · rw [textsAt_none (a := List.filter _ unc)] at hb
      · rw [List.nil_append, List.nil_append] at hb
        by_cases hex : ∃ e ∈ (commentEntries i cs).filter (fun e => notBlank e.text), e.index = j ∧ e.lang = L
        · obtain ⟨e, he, rfl, rfl⟩ := hex
          rw [textsAt_one ((UncText.commentEntries_sorted cs i).filter _) he] at hb
          have hb : Bracketed e.text := hb
          have hc : (e.lang, e.text) ∈ cs := by
            have h1 := (List.mem_filter.1 he).1
            have key : ∀ (cs : List (Str × Str)) (i : Int), e ∈ commentEntries i cs → (e.lang, e.text) ∈ cs := by
              intro cs
              induction cs with
              | nil => intro i h1; cases h1
              | cons c cs ih =>
                obtain ⟨l, t⟩ := c
                intro i h1
                rcases List.mem_cons.1 h1 with rfl | h1
                · simp
                · exact List.mem_cons_of_mem _ (ih _ h1)
            exact key cs i h1

          exact hcs _ hc rfl hb
        · rw [textsAt_none] at hb
          · exact not_bracketed_nil hb
          · intro e he
            by_contra hc
            exact hex ⟨e, he, by tauto⟩
      · intro e he
        have := (hunc e (List.mem_filter.1 he).1).1
        left; omega
  · intro e he
    rw [List.mem_singleton.1 he]
    right
    exact Ne.symm hL

theorem unitOf_eq {p : EParam} {s : Str} (h : UnitOf p.units s) : unitOf p = s := by
  obtain ⟨us, cs⟩ := p
  cases h <;> rfl

/-- C143, where it holds: the unit that is read is the text of the unit, when no comment of a language that comes after
English has a pair of brackets on a line, and the texts are not split. -/
theorem unit_back_partial {print : Str → Py Str} {ignore : Bool} {sent : Str → List Str} {unc : List Entry} {i : Int}
    {p : EParam} {s u : Str} (hs : UnitOf p.units s) (hp : print s = .ok u) (hline : '\n' ∉ u) (hi : 1000 ≤ i)
    (hunc : ∀ e ∈ unc, 800 ≤ e.index ∧ e.index < 900 ∧ (LangText.Spec.Before c!"en" e.lang → '[' ∉ e.text))
    (hcs : ∀ c ∈ p.comments, LangText.Spec.Before c!"en" c.1 → ¬ Bracketed c.2)
    (hshort : ignore = true ∨ ∀ L t, LangText.Spec.IsText (some c!"; ")
      (((varEntries unc u i p.comments).filter fun e => notBlank e.text).map Entry.given) L t → t.length ≤ 500) :
    ∃ ts, toIlcd print ignore sent unc i p = .ok ts ∧ (readComments ⟨none, []⟩ ts).unit = some (strUnit u) := by
  rw [← unitOf_eq hs] at hp
  generalize hes : (varEntries unc u i p.comments).filter (fun e => notBlank e.text) = es at hshort
  have hv : ∀ e ∈ es, notBlank e.text = true := by
    rw [← hes]; exact fun e he => (List.mem_filter.1 he).2
  have hb := UncText.byLang_texts es hv
  have hord := (byLang_eq _ (merged_texts hv)).1
  have hen : c!"en" ∈ (byLang (addMerged commentCls [] es)).map Prod.fst := by
    rw [hb.2.1]
    refine ⟨⟨-1, c!"en", c!"[" ++ strUnit u ++ c!"]"⟩, ?_, rfl⟩
    rw [← hes]
    exact List.mem_filter.2 ⟨by simp [varEntries], visible_unit _⟩
  obtain ⟨⟨k, t⟩, hmem, hk⟩ := List.mem_map.1 hen
  cases hk
  refine ⟨byLang (addMerged commentCls [] es), ?_, ?_⟩
  · unfold toIlcd
    rw [hp]
    show writeComment ignore sent (varEntries unc u i p.comments) = _
    unfold writeComment
    rw [hes]
    refine UncText.endValidate_short ignore sent fun p hp => ⟨(hb.2.2 p hp).2, ?_⟩
    rcases hshort with h | h
    · exact Or.inl h
    · exact Or.inr (h _ _ (hb.2.2 p hp).1)
  · obtain ⟨a, b, hab⟩ := List.append_of_mem hmem
    have htext := (hb.2.2 _ hmem).1
    have hlater : ∀ p ∈ b, ¬ Bracketed p.2 := by
      intro q hq
      have hqm : q ∈ byLang (addMerged commentCls [] es) := by rw [hab]; simp [hq]
      have hbef : LangText.Spec.Before c!"en" q.1 := by
        rw [hab, List.map_append, List.map_cons, List.pairwise_append, List.pairwise_cons] at hord
        exact hord.2.1.1 q.1 (List.mem_map_of_mem hq)
      have ht := (hb.2.2 q hqm).1
      rw [← hes] at ht
      refine later_clean (by omega) ?_ ?_ ?_ ht
      · intro he; rw [he] at hbef; exact not_before_self _ hbef
      · exact fun e he => ⟨(hunc e he).2.1, fun hl => (hunc e he).2.2 (by rw [hl]; exact hbef)⟩
      · exact fun c hc hl => hcs c hc (by rw [hl]; exact hbef)
    rw [hab, readComments_append]
    rw [← hes] at htext
    obtain ⟨rest, rfl⟩ := english_first (by omega) (fun e he => by have := (hunc e he).1; omega) htext
    rw [readComments, if_neg (by simp)]
    have hs : searchFirst unitAt (c!"[" ++ strUnit u ++ c!"]" ++ back rest) =
        some (c!"[" ++ strUnit u ++ c!"]", strUnit u) :=
      UncText.searchFirst_hit (unitAt_first (no_newline hline) (back_line rest))
    rw [hs]
    rw [readComments_unit b _ hlater]

theorem unitName_some {ignore : Bool} {sent : Str → List Str} {r : Read} {u : Str} (h : r.unit = some u) (hv : Visible u)
    (hl : ignore = true ∨ u.length ≤ 40) : unitName ignore sent r = .ok [(c!"en", u)] := by
  unfold unitName
  rw [h]
  have hb : notBlank u = true := (UncText.notBlank_visible u).2 hv
  show endMulti _ ignore sent (addMerged _ [] (List.filter _ [⟨0, c!"en", u⟩])) = _
  rw [List.filter_cons, if_pos hb, List.filter_nil]
  have : byLang (addMerged ⟨none, some (.upper 40), true⟩ [] [⟨0, c!"en", u⟩]) = [(c!"en", u)] := by
    simp [addMerged, mergeOne, byLang, sortBy, insertBy, concatLang]
  unfold endMulti
  rw [this]
  refine endValidate_within (lim := .upper 40) rfl fun p hp => ?_
  rw [List.mem_singleton.1 hp]
  rcases hl with h | h
  · exact Or.inl h
  · exact Or.inr ⟨h, by simpa [Validators.Limit.holds] using h⟩

/-- C143: the unit of the parameter that is written back is the one of the source exactly if the text `pint` shows for it is
the name in the source and has no blank, slash, star or point. -/
theorem unit_written_iff {ignore : Bool} {sent : Str → List Str} {r : Read} {u name : Str} (h : r.unit = some (strUnit u))
    (hv : Visible (strUnit u)) (hl : ignore = true ∨ (strUnit u).length ≤ 40) (hn : u = name) :
    unitName ignore sent r = .ok [(c!"en", name)] ↔ ∀ c ∈ c!" /*.", c ∉ name := by
  rw [unitName_some h hv hl, ← hn, ← unit_text_iff]
  simp

/-- C143 fails for units without dimension: nothing is written. -/
theorem dimensionless_lost (ignore : Bool) (sent : Str → List Str) (r : Read) (h : r.unit = some (strUnit [])) :
    unitName ignore sent r = .ok [] := by
  unfold unitName
  rw [h]
  rfl

/-- C143 fails: a comment of a language after English that has text in brackets gives the unit. -/
theorem bracketed_comment_is_unit (sent : Str → List Str) :
    (match toIlcd .ok false sent [] 1000 ⟨[c!"kg"], [(c!"fr", c!"valeur [estimation] moyenne")]⟩ with
      | .ok ts => (readComments ⟨none, []⟩ ts).unit
      | .error _ => none) = some c!"estimation" := by rfl

/-- C143 fails: a composed unit comes back in another form. -/
theorem composed_unit_changed : strUnit c!"kg / m ** 3" = c!"kg_per_m3" ∧ strUnit c!"m ** 0.5" = c!"m0_5" := by
  decide +kernel

/-! ### C144: the comments -/

/-- C144 fails for texts in brackets: no comment that is read has a pair of brackets on a line, whatever was written. -/
theorem brackets_lost (ts : List (Str × Str)) : ∀ c ∈ (readComments ⟨none, []⟩ ts).comments, ¬ Bracketed c.2 := by
  have key : ∀ (ts : List (Str × Str)) (r : Read), (∀ c ∈ r.comments, ¬ Bracketed c.2) →
      ∀ c ∈ (readComments r ts).comments, ¬ Bracketed c.2 := by
    intro ts
    induction ts with
    | nil => exact fun r h => h
    | cons p ts ih =>
      obtain ⟨l, t⟩ := p
      intro r h
      rw [readComments]
      split
      · exact ih r h
      · split
        · refine ih _ fun c hc => ?_
          rcases List.mem_append.1 hc with hc | hc
          · exact h c hc
          · rw [List.mem_singleton.1 hc]
            exact fun hb => remove_clean t.length t (Nat.le_refl _)
              (bracketed_infix (Sentences.strip_infix _) hb)
        · rename_i hn
          refine ih _ fun c hc => ?_
          rcases List.mem_append.1 hc with hc | hc
          · exact h c hc
          · rw [List.mem_singleton.1 hc]
            exact search_none.1 hn
  exact key ts _ (by simp)

theorem visible_join {l : List Str} {t : Str} (ht : t ∈ l) (hv : Visible t) : Visible (join c!"\n" l) := by
  obtain ⟨c, hc, hs⟩ := hv
  refine ⟨c, ?_, hs⟩
  induction l with
  | nil => cases ht
  | cons a l ih =>
    cases l with
    | nil => rw [List.mem_singleton.1 ht] at hc; exact hc
    | cons b l =>
      have hj : join c!"\n" (a :: b :: l) = a ++ c!"\n" ++ join c!"\n" (b :: l) := by simp [join]
      rw [hj]
      rcases List.mem_cons.1 ht with rfl | ht
      · simp [hc]
      · have := ih ht
        simp only [List.mem_append]
        exact Or.inr this

theorem visible_strip {t : Str} : Visible (strip t) ↔ Visible t := by
  have h := Sentences.filter_strip (fun c => !pySpace c) (fun c hc => by simp [hc]) t
  constructor
  · rintro ⟨c, hc, hs⟩
    exact ⟨c, (Sentences.strip_infix t).subset hc, hs⟩
  · rintro ⟨c, hc, hs⟩
    have : c ∈ (strip t).filter fun c => !pySpace c := by
      rw [h]; exact List.mem_filter.2 ⟨hc, by simp [hs]⟩
    exact ⟨c, (List.mem_filter.1 this).1, hs⟩

theorem strip_newline (t : Str) : strip ('\n' :: t) = strip t := by
  unfold strip lstrip
  rw [List.dropWhile_cons, if_pos (by decide)]

theorem nodup_of_before {l : List Str} (h : l.Pairwise LangText.Spec.Before) : l.Nodup :=
  h.imp fun {a b} h he => by subst he; exact not_before_self _ h

/-- Entries of distinct languages are kept as they are. -/
theorem byLang_distinct (t : TextCls) {cs : List (Str × Str)} (i : Int) (hn : (cs.map Prod.fst).Nodup) (L x : Str) :
    (L, x) ∈ byLang (addMerged t [] ((commentEntries i cs).filter fun e => notBlank e.text)) ↔ (L, x) ∈ cs ∧ Visible x := by
  have hs : ((commentEntries i cs).filter fun e => notBlank e.text).Pairwise fun a b => a.index < b.index :=
    (UncText.commentEntries_sorted cs i).filter _
  have hb := byLang_sorted t hs fun e he => (List.mem_filter.1 he).2
  have htext : ∀ p ∈ byLang (addMerged t [] ((commentEntries i cs).filter fun e => notBlank e.text)),
      p.2 = join c!"\n" (inLang cs p.1) := by
    intro p hp
    rw [hb.2.2 p hp, inLang_entries]
  have hone : ∀ L x, (L, x) ∈ cs → Visible x → inLang cs L = [x] := by
    intro L x hm hv
    obtain ⟨a, b, rfl, hne⟩ := UncText.split_unique hn hm
    unfold inLang
    rw [List.filter_append, List.filter_cons, if_pos (by simp [hv]), List.filter_eq_nil_iff.2, List.filter_eq_nil_iff.2]
    · rfl
    · intro p hp; simp [hne p (by simp [hp])]
    · intro p hp; simp [hne p (by simp [hp])]
  have hlang : ∀ L, L ∈ (byLang (addMerged t [] ((commentEntries i cs).filter fun e => notBlank e.text))).map Prod.fst ↔
      inLang cs L ≠ [] := by
    intro L
    rw [hb.2.1 L, ← inLang_entries L cs i]
    constructor
    · rintro ⟨e, he, rfl⟩
      exact List.ne_nil_of_mem (List.mem_map_of_mem (List.mem_filter.2 ⟨he, by simp⟩))
    · intro h
      obtain ⟨y, hy⟩ := List.exists_mem_of_ne_nil _ h
      obtain ⟨e, he, rfl⟩ := List.mem_map.1 hy
      have := List.mem_filter.1 he
      exact ⟨e, this.1, by simpa using this.2⟩
  constructor
  · intro h
    have hL := (hlang L).1 (List.mem_map_of_mem h)
    obtain ⟨y, hy⟩ := List.exists_mem_of_ne_nil _ hL
    have hy := mem_inLang.1 hy
    have := htext _ h
    rw [hone L y hy.1 hy.2] at this
    have hx : x = y := this
    rw [hx]; exact hy
  · rintro ⟨hm, hv⟩
    have hL : inLang cs L ≠ [] := by rw [hone L x hm hv]; simp
    obtain ⟨⟨l, y⟩, hp, hl⟩ := List.mem_map.1 ((hlang L).2 hL)
    have hl : l = L := hl
    subst hl
    have := htext _ hp
    rw [hone l x hm hv] at this
    have hy : y = x := this
    rw [← hy]; exact hp

/-- C144, where it holds: the comments of a parameter without uncertainty come back, joined by line, in every language;
those in English without the blanks at both ends. No comment has a pair of brackets on a line, and the texts are not
split. -/
theorem comments_back_partial {print : Str → Py Str} {ignore : Bool} {sent sent' : Str → List Str} {i j : Int} {p : EParam}
    {s u : Str} (hs : UnitOf p.units s) (hp : print s = .ok u) (hline : '\n' ∉ u) (hi : 0 ≤ i) (hcs : ∀ c ∈ p.comments, ¬ Bracketed c.2)
    (hshort : ignore = true ∨ ∀ L, (join c!"\n" ((c!"[" ++ strUnit u ++ c!"]") :: inLang p.comments L)).length ≤ 500) :
    ∃ ts out, toIlcd print ignore sent [] i p = .ok ts ∧
      paramComment ignore sent' j (readComments ⟨none, []⟩ ts) = .ok out ∧
      ∀ L t, (L, t) ∈ out ↔ inLang p.comments L ≠ [] ∧
        t = if L = c!"en" then strip (join c!"\n" (inLang p.comments L)) else join c!"\n" (inLang p.comments L) := by
  rw [← unitOf_eq hs] at hp
  generalize hes : (varEntries [] u i p.comments).filter (fun e => notBlank e.text) = es
  have hes' : es = ⟨-1, c!"en", c!"[" ++ strUnit u ++ c!"]"⟩ :: (commentEntries i p.comments).filter fun e => notBlank e.text := by
    rw [← hes]
    unfold varEntries
    rw [List.nil_append, List.filter_cons, if_pos (visible_unit _)]
  have hv : ∀ e ∈ es, notBlank e.text = true := by
    rw [← hes]; exact fun e he => (List.mem_filter.1 he).2
  have hs : es.Pairwise fun a b => a.index < b.index := by
    rw [hes', List.pairwise_cons]
    refine ⟨fun e he => ?_, (UncText.commentEntries_sorted _ i).filter _⟩
    have := (UncText.commentEntries_ge _ i e (List.mem_filter.1 he).1).1
    show -1 < e.index
    omega
  have hb := byLang_sorted commentCls hs hv
  -- the texts of a language
  have hfil : ∀ L, (es.filter fun e => e.lang = L).map (·.text) =
      (if L = c!"en" then [c!"[" ++ strUnit u ++ c!"]"] else []) ++ inLang p.comments L := by
    intro L
    rw [hes', List.filter_cons]
    by_cases hL : L = c!"en"
    · subst hL
      rw [if_pos (by simp), if_pos rfl, List.map_cons, inLang_entries]
      rfl
    · have : ¬ (c!"en" = L) := fun h => hL h.symm
      rw [if_neg (by simpa using this), if_neg hL, inLang_entries]
      rfl
  have htext : ∀ q ∈ byLang (addMerged commentCls [] es), q.2 = join c!"\n"
      ((if q.1 = c!"en" then [c!"[" ++ strUnit u ++ c!"]"] else []) ++ inLang p.comments q.1) := by
    intro q hq
    rw [hb.2.2 q hq, hfil]
  have hlang : ∀ L, L ∈ (byLang (addMerged commentCls [] es)).map Prod.fst ↔ L = c!"en" ∨ inLang p.comments L ≠ [] := by
    intro L
    rw [hb.2.1 L]
    have : (∃ e ∈ es, e.lang = L) ↔ (es.filter fun e => e.lang = L).map (·.text) ≠ [] := by
      constructor
      · rintro ⟨e, he, rfl⟩
        exact List.ne_nil_of_mem (List.mem_map_of_mem (List.mem_filter.2 ⟨he, by simp⟩))
      · intro h
        obtain ⟨y, hy⟩ := List.exists_mem_of_ne_nil _ h
        obtain ⟨e, he, rfl⟩ := List.mem_map.1 hy
        have := List.mem_filter.1 he
        exact ⟨e, this.1, by simpa using this.2⟩
    rw [this, hfil]
    by_cases hL : L = c!"en" <;> simp [hL]
  have hne : ∀ q ∈ byLang (addMerged commentCls [] es), q.2 ≠ [] ∧ (ignore = true ∨ q.2.length ≤ 500) := by
    intro q hq
    rw [htext q hq]
    by_cases hL : q.1 = c!"en"
    · rw [if_pos hL]
      refine ⟨?_, ?_⟩
      · rw [List.singleton_append, join_back]; simp
      · rcases hshort with h | h
        · exact Or.inl h
        · exact Or.inr (h q.1)
    · rw [if_neg hL, List.nil_append]
      have hin : inLang p.comments q.1 ≠ [] := by
        rcases (hlang q.1).1 (List.mem_map_of_mem hq) with h | h
        · exact absurd h hL
        · exact h
      refine ⟨?_, ?_⟩
      · obtain ⟨y, hy⟩ := List.exists_mem_of_ne_nil _ hin
        exact visible_ne_nil (visible_join hy (mem_inLang.1 hy).2)
      · rcases hshort with h | h
        · exact Or.inl h
        · have := h q.1
          rw [join_back] at this
          unfold back at this
          rw [if_neg hin] at this
          simp only [List.length_append] at this
          exact Or.inr (by omega)
  have hclean : ∀ L, ¬ Bracketed (join c!"\n" (inLang p.comments L)) := by
    intro L h
    obtain ⟨t, ht, h⟩ := bracketed_join h
    exact hcs _ (mem_inLang.1 ht).1 h
  -- what is read
  have hread : ∀ q ∈ byLang (addMerged commentCls [] es), readText q.2 =
      if q.1 = c!"en" then strip (join c!"\n" (inLang p.comments q.1)) else join c!"\n" (inLang p.comments q.1) := by
    intro q hq
    rw [htext q hq]
    by_cases hL : q.1 = c!"en"
    · rw [if_pos hL, if_pos hL, List.singleton_append, join_back]
      unfold readText
      rw [UncText.searchFirst_hit (unitAt_first (no_newline hline) (back_line _))]
      simp only
      rw [remove_first (no_newline hline) (back_line _)]
      by_cases hin : inLang p.comments q.1 = []
      · rw [hin]; rfl
      · have hbk : back (inLang p.comments q.1) = '\n' :: join c!"\n" (inLang p.comments q.1) := by
          unfold back; rw [if_neg hin]; rfl
        rw [hbk, remove_none, strip_newline]
        rw [bracketed_cons, not_or]
        exact ⟨fun h => absurd h.1 (by decide), hclean _⟩
    · rw [if_neg hL, if_neg hL, List.nil_append]
      unfold readText
      rw [search_none.2 (hclean _)]
  let ts := byLang (addMerged commentCls [] es)
  let rs : List (Str × Str) := ts.map fun q => (q.1, readText q.2)
  have hts : toIlcd print ignore sent [] i p = .ok ts := by
    unfold toIlcd
    rw [hp]
    show writeComment ignore sent (varEntries [] u i p.comments) = _
    unfold writeComment
    rw [hes]
    exact UncText.endValidate_short ignore sent hne
  have hrs : (readComments ⟨none, []⟩ ts).comments = rs := by
    rw [readComments_comments ts _ fun q hq => (hne q hq).1]
    rfl
  have hrsn : (rs.map Prod.fst).Nodup := by
    have : rs.map Prod.fst = ts.map Prod.fst := by
      rw [List.map_map]; rfl
    rw [this]
    exact nodup_of_before hb.1
  have hmem : ∀ L t, (L, t) ∈ rs ∧ Visible t ↔ inLang p.comments L ≠ [] ∧
      t = if L = c!"en" then strip (join c!"\n" (inLang p.comments L)) else join c!"\n" (inLang p.comments L) := by
    intro L t
    constructor
    · rintro ⟨h, hvis⟩
      obtain ⟨q, hq, he⟩ := List.mem_map.1 h
      cases he
      rw [hread q hq] at hvis
      refine ⟨?_, hread q hq⟩
      intro hnil
      rw [hnil] at hvis
      split at hvis
      · exact absurd hvis (by decide)
      · exact absurd hvis (by decide)
    · rintro ⟨h, rfl⟩
      obtain ⟨q, hq, hqL⟩ := List.mem_map.1 ((hlang L).2 (Or.inr h))
      subst hqL
      refine ⟨List.mem_map.2 ⟨q, hq, by rw [hread q hq]⟩, ?_⟩
      obtain ⟨y, hy⟩ := List.exists_mem_of_ne_nil _ h
      have hvj := visible_join hy (mem_inLang.1 hy).2
      split
      · exact visible_strip.2 hvj
      · exact hvj
  refine ⟨ts, byLang (addMerged paramCls [] ((commentEntries j rs).filter fun e => notBlank e.text)), hts, ?_, ?_⟩
  · unfold paramComment endMulti
    rw [hrs]
    refine endValidate_within (lim := .upper 32000) rfl fun q hq => ?_
    have hq := (byLang_distinct paramCls j hrsn q.1 q.2).1 hq
    rcases hshort with h | h
    · exact Or.inl h
    · right
      have h1 : q.2.length ≤ 500 := by
        obtain ⟨y, hy, he⟩ := List.mem_map.1 hq.1
        have h1 : y.1 = q.1 := (Prod.mk.inj he).1
        have h2 : readText y.2 = q.2 := (Prod.mk.inj he).2
        rw [← h2, hread y hy]
        have h3 := h y.1
        have h4 : (join c!"\n" (inLang p.comments y.1)).length ≤ 500 := by
          rw [join_back] at h3
          unfold back at h3
          split at h3
          · rename_i hn; rw [hn]; simp [join]
          · simp only [List.length_append] at h3; omega
        split
        · exact Nat.le_trans (strip_length_le _) h4
        · exact h4
      have h2 : q.2.length ≤ 32000 := by omega
      exact ⟨h2, by simpa [Validators.Limit.holds] using h2⟩
  · intro L t
    rw [byLang_distinct paramCls j hrsn L t]
    exact hmem L t

/-! ### C145: the names of conversions -/

/-- C145, where it holds: the conversions of units whose symbols have no digit, underscore or character of the formula have
different names. -/
theorem conversion_names_distinct_partial {o f o' f' : UnitExpr} (ho : o.Plain) (hf : f.Plain) (ho' : o'.Plain)
    (hf' : f'.Plain) (h : conversionName o.shown f.shown = conversionName o'.shown f'.shown) : o = o' ∧ f = f' := by
  unfold conversionName EcsVars.convStr at h
  rw [strUnit_shown ho, strUnit_shown hf, strUnit_shown ho', strUnit_shown hf'] at h
  have h1 : flat (tokens o) ++ '_' :: (c!"to" ++ '_' :: (flat (tokens f) ++ c!"__")) =
      flat (tokens o') ++ '_' :: (c!"to" ++ '_' :: (flat (tokens f') ++ c!"__")) := by
    have : c!"__" ++ (flat (tokens o) ++ '_' :: (c!"to" ++ '_' :: (flat (tokens f) ++ c!"__"))) =
        c!"__" ++ (flat (tokens o') ++ '_' :: (c!"to" ++ '_' :: (flat (tokens f') ++ c!"__"))) := by
      simpa using h
    exact List.append_cancel_left this
  obtain ⟨h2, h3⟩ := toks_inj (by decide) (toks_of ho (by decide) (by decide)) (toks_of ho' (by decide) (by decide)) h1
  have h4 : flat (tokens f) ++ '_' :: ([] ++ '_' :: []) = flat (tokens f') ++ '_' :: ([] ++ '_' :: []) := h3
  obtain ⟨h5, -⟩ := toks_inj (by decide) (toks_of hf (by decide) (by decide)) (toks_of hf' (by decide) (by decide)) h4
  exact ⟨tokens_inj ho ho' h2, tokens_inj hf hf' h5⟩

example : (⟨[⟨c!"kg", 1⟩, ⟨c!"m", 2⟩], [⟨c!"s", 3⟩]⟩ : UnitExpr).Plain ∧ (⟨[], [⟨c!"s", 1⟩]⟩ : UnitExpr).Plain ∧
    conversionName (UnitExpr.shown ⟨[⟨c!"kg", 1⟩, ⟨c!"m", 2⟩], [⟨c!"s", 3⟩]⟩) (UnitExpr.shown ⟨[], [⟨c!"s", 1⟩]⟩) =
      c!"__kg_times_m2_per_s3_to_1_per_s__" := by
  decide +kernel

/-- C145 fails for symbols with digits: a unit of that kind and a power have one name. The unit `EUR2005` of the registry
(ECS2_to_ILCD1_conversion.py:56) is such a symbol. -/
theorem conversion_names_collide (x : Str) :
    conversionName (UnitExpr.shown ⟨[⟨c!"EUR", 2005⟩], []⟩) x = conversionName (UnitExpr.shown ⟨[⟨c!"EUR2005", 1⟩], []⟩) x := by
  unfold conversionName
  rw [show strUnit (UnitExpr.shown ⟨[⟨c!"EUR", 2005⟩], []⟩) = strUnit (UnitExpr.shown ⟨[⟨c!"EUR2005", 1⟩], []⟩) by decide +kernel]

section Collide
open EcsVars EcsVars.Spec
variable {K : Type} [DecidableEq K] [Mul K] [One K]

/-- C145: of two conversions with one name and different factors, one has no parameter with its factor, whatever
else is converted. -/
theorem collision_wrong_factor {env : Env K} {qs : List (Quantity K)} {ps : List (Param K)}
    {rs : List (Quantity K × Option Str)} (h : convert env qs = .ok (ps, rs)) {q q' : Quantity K}
    (hn : convStr q.unitFrom q.unitTo = convStr q'.unitFrom q'.unitTo) (hf : q.factor ≠ q'.factor) :
    (∀ p ∈ ps, p.name = convStr q.unitFrom q.unitTo → p.value ≠ q.factor) ∨
    ∀ p ∈ ps, p.name = convStr q'.unitFrom q'.unitTo → p.value ≠ q'.factor := by
  have hd := parameters_distinct h
  by_cases h1 : ∃ p ∈ ps, p.name = convStr q.unitFrom q.unitTo ∧ p.value = q.factor
  · obtain ⟨p, hp, hpn, hpv⟩ := h1
    right
    intro p' hp' hpn' hpv'
    have : p' = p := List.inj_on_of_nodup_map hd hp' hp (by rw [hpn', hpn, hn])
    exact hf (by rw [← hpv, ← hpv', this])
  · left
    exact fun p hp hpn hpv => h1 ⟨p, hp, hpn, hpv⟩

end Collide

/-! ### C146: the names on the way back -/

/-- Letters are word characters. -/
def LetterWord (u : Validators.CharClasses) : Prop := ∀ c, IlcdVars.isLetter c = true → u.word c = true

/-- C146: with limits on, a variable of an ILCD data set is written under its new name exactly if the name has
at most forty characters, or thirty-eight if it does not begin with a letter; else the conversion stops. -/
theorem name_written_iff {u : Validators.CharClasses} (hu : LetterWord u) (n : Str) :
    writeName u false n =
      if n.length ≤ (if IlcdVars.conform n then 40 else 38) then .ok (IlcdVars.newName n) else .error .valueError := by
  have hw : ∃ c t, IlcdVars.newName n = c :: t ∧ u.word c = true := by
    unfold IlcdVars.newName
    split
    · rename_i hc
      cases n with
      | nil => cases hc
      | cons c t => exact ⟨c, t, rfl, hu c hc⟩
    · exact ⟨'u', 'c' :: n, rfl, hu _ (by decide)⟩
  have h1 := (Validators.variable_name_accepts_iff u _).2 hw
  have hl : (IlcdVars.newName n).length ≤ 40 ↔ n.length ≤ (if IlcdVars.conform n then 40 else 38) := by
    unfold IlcdVars.newName
    split
    · exact Iff.rfl
    · simp only [List.length_append, List.length_cons, List.length_nil]; omega
  unfold writeName Validators.variableNameAdd Validators.addLast
  rw [h1]
  unfold Validators.variableNameEnd Validators.limEnd
  simp only [Validators.Limit.off, Validators.Limit.holds, Bool.false_or, Bool.or_false, decide_eq_true_eq]
  by_cases h2 : n.length ≤ (if IlcdVars.conform n then 40 else 38)
  · rw [if_pos h2, if_pos (by simp [hl.2 h2])]
  · rw [if_neg h2, if_neg (by simpa using Nat.lt_of_not_le fun h => h2 (hl.1 h))]

theorem letterWord_ascii : LetterWord Validators.ascii := by
  intro c h
  unfold IlcdVars.isLetter at h
  simp only [Validators.ascii, Char.isAlphanum, Char.isAlpha, Char.isUpper, Char.isLower, Bool.or_eq_true, Bool.and_eq_true,
    decide_eq_true_eq] at h ⊢
  rcases h with ⟨h1, h2⟩ | ⟨h1, h2⟩
  · left; left; right; exact ⟨h1, h2⟩
  · left; left; left; exact ⟨h1, h2⟩

/-- The name of a conversion has at most as many characters as are needed. -/
theorem conv_length (a b : Str) : (EcsVars.convStr a b).length = a.length + b.length + 8 := by
  simp [EcsVars.convStr]; omega

/-- C146, where it holds: the variable of a conversion that ILCD accepts (at most fifty characters) can be read back exactly
if the texts of its units have thirty characters together. -/
theorem conversion_back_iff {u : Validators.CharClasses} (hu : LetterWord u) (a b : Str) :
    writeName u false (EcsVars.convStr a b) = .ok (c!"uc" ++ EcsVars.convStr a b) ↔ a.length + b.length ≤ 30 := by
  have hc : IlcdVars.conform (EcsVars.convStr a b) = false := rfl
  rw [name_written_iff hu, hc]
  simp only [Bool.false_eq_true, if_false, IlcdVars.newName, hc, conv_length]
  constructor
  · intro h
    split at h
    · omega
    · cases h
  · intro h
    rw [if_pos (by omega)]

theorem beforeFrom_exact : ∀ (n r : Str), ¬ c!"__from" <:+: n → EcsVars.beforeFrom (n ++ (c!"__from_" ++ r)) = n
  | [], r, _ => by
    show EcsVars.beforeFrom ('_' :: (c!"_from_" ++ r)) = []
    have : startsWith c!"__from" ('_' :: (c!"_from_" ++ r)) = true := IlcdVars.startsWith_iff.2 ⟨'_' :: r, rfl⟩
    rw [EcsVars.beforeFrom, if_pos this]
  | c :: n, r, h => by
    rw [List.cons_append, EcsVars.beforeFrom, if_neg, beforeFrom_exact n r fun hi => h (hi.trans (List.suffix_cons c n).isInfix)]
    intro hs
    obtain ⟨t, ht⟩ := IlcdVars.startsWith_iff.1 hs
    rcases n with _ | ⟨c2, _ | ⟨c3, _ | ⟨c4, _ | ⟨c5, _ | ⟨c6, n⟩⟩⟩⟩⟩
    · simp at ht
    · simp at ht
    · simp at ht
    · simp at ht
    · simp at ht
    · apply h
      simp only [List.cons_append, List.nil_append, List.cons.injEq] at ht
      obtain ⟨rfl, rfl, rfl, rfl, rfl, rfl, -⟩ := ht
      exact ⟨[], n, rfl⟩

/-- C146: the variable of an exchange in another unit, made from a name that begins with a letter, can be read back
exactly if the whole name has forty characters, or if it was cut for ILCD and the name in the source has thirty-six.
Names of forty-one to fifty characters are accepted by ILCD and stop the way back. -/
theorem converted_back_iff {u : Validators.CharClasses} (hu : LetterWord u) {n conv : Str} (hn : IlcdVars.conform n = true)
    (hf : ¬ c!"__from" <:+: n) (hv : 2 ≤ conv.length) :
    writeName u false (EcsVars.convertedName n conv) = .ok (EcsVars.convertedName n conv) ↔
      n.length + conv.length + 5 ≤ 40 ∨ (50 < n.length + conv.length + 5 ∧ n.length ≤ 36) := by
  have hl : (n ++ c!"__from_" ++ conv.drop 2).length = n.length + conv.length + 5 := by
    simp only [List.length_append, List.length_drop, List.length_cons, List.length_nil]; omega
  have hcut : EcsVars.beforeFrom (n ++ c!"__from_" ++ conv.drop 2) = n := by
    rw [List.append_assoc]; exact beforeFrom_exact n _ hf
  have hc : ∀ r, IlcdVars.conform (n ++ r) = true := by
    intro r
    cases n with
    | nil => cases hn
    | cons c n => exact hn
  have hw : ∀ m, IlcdVars.conform m = true → (writeName u false m = .ok m ↔ m.length ≤ 40) := by
    intro m hm
    rw [name_written_iff hu, hm]
    simp only [if_true, IlcdVars.newName, hm]
    constructor
    · intro h
      split at h
      · assumption
      · cases h
    · intro h; rw [if_pos h]
  unfold EcsVars.convertedName
  simp only [hl, hcut]
  split
  · rw [hw _ (by rw [List.append_assoc]; exact hc _), hl]; omega
  · rw [hw _ (hc _)]
    simp only [List.length_append, List.length_cons, List.length_nil]
    omega

/-- C146 fails: an amount named `annual_production_volume_DE` in tons that is converted to kilograms has a name of
forty-three characters in ILCD, and the data set cannot be converted back. -/
theorem converted_name_stops :
    EcsVars.convertedName c!"annual_production_volume_DE" (conversionName c!"t" c!"kg") =
      c!"annual_production_volume_DE__from_t_to_kg__" ∧
    writeName Validators.ascii false c!"annual_production_volume_DE__from_t_to_kg__" = .error .valueError := by
  decide +kernel

/-! ### Cases that meet the hypotheses -/

/-- C142: a data set with a parameter that has neither name nor formula, and one with a name. -/
example : Nameless (⟨none, some [], 3, c!"parameter", 1, [], []⟩ : EcsVars.Quantity Int) ∧
    ¬ Nameless (⟨some c!"y", none, 3, c!"parameter", 1, [], []⟩ : EcsVars.Quantity Int) :=
  ⟨⟨Or.inl rfl, Or.inr rfl⟩, fun h => by rcases h.1 with h | h <;> cases h⟩

example : EcsVars.convert EcsVars.env0 [⟨none, none, 3, c!"parameter", 1, [], []⟩, ⟨some c!"y", none, 4, c!"parameter", 1, [], []⟩] =
    .ok ([⟨c!"y", none, 4⟩], [(⟨none, none, 3, c!"parameter", 1, [], []⟩, none),
      (⟨some c!"y", none, 4, c!"parameter", 1, [], []⟩, some c!"y")]) := by decide +kernel

/-- C143: a variable whose comment states no unit becomes a parameter without one. -/
theorem no_unit_no_name (ignore : Bool) (sent : Str → List Str) {r : Read} (h : r.unit = none) :
    unitName ignore sent r = .ok [] := by
  unfold unitName
  rw [h]

example : unitName false (fun s => [s]) (readComments ⟨none, []⟩ [(c!"en", c!"a note")]) = .ok [] :=
  no_unit_no_name _ _ (by decide +kernel)

/-- C143: a parameter in `m2` with an uncertainty and comments in two languages. -/
example : ∃ ts, toIlcd (fun _ => .ok c!"m2") true (fun s => [s]) [⟨850, c!"en", c!"Uncertainty: [x]"⟩] 1000
      ⟨[c!"m2"], [(c!"en", c!"see [1]"), (c!"fr", c!"surface")]⟩ = .ok ts ∧
    (readComments ⟨none, []⟩ ts).unit = some (strUnit c!"m2") :=
  unit_back_partial (p := ⟨[c!"m2"], [(c!"en", c!"see [1]"), (c!"fr", c!"surface")]⟩) (.first _ _) rfl (by decide) (by decide)
    (by
      intro e he
      rw [List.mem_singleton.1 he]
      refine ⟨by decide, by decide, fun h => absurd h ?_⟩
      exact LangText.not_before_self _)
    (by
      intro c hc hb
      simp only [List.mem_cons, List.not_mem_nil, or_false] at hc
      rcases hc with rfl | rfl
      · exact absurd hb (LangText.not_before_self _)
      · rintro ⟨a, b, c, h, -⟩
        have h' : c!"surface" = a ++ '[' :: (b ++ ']' :: c) := h
        have : '[' ∈ c!"surface" := by rw [h']; simp
        exact absurd this (by decide))
    (Or.inl rfl)

example : Visible (strUnit c!"m2") ∧ (strUnit c!"m2").length ≤ 40 ∧ strUnit c!"m2" = c!"m2" := by decide +kernel

/-- C144: comments in two languages. -/
example : ∃ ts out, toIlcd (fun _ => .ok c!"kg") true (fun s => [s]) [] 1000
      ⟨[c!"kg"], [(c!"en", c!" a note "), (c!"fr", c!"une note"), (c!"en", c!"more")]⟩ = .ok ts ∧
    paramComment true (fun s => [s]) 0 (readComments ⟨none, []⟩ ts) = .ok out ∧
    (c!"en", c!"a note \nmore") ∈ out ∧ (c!"fr", c!"une note") ∈ out := by
  have hcs : ∀ c ∈ (⟨[c!"kg"], [(c!"en", c!" a note "), (c!"fr", c!"une note"), (c!"en", c!"more")]⟩ : EParam).comments,
      ¬ Bracketed c.2 := by
    rintro c hc ⟨a, b, d, h, -⟩
    have hm : '[' ∈ c.2 := by rw [h]; simp
    simp only [List.mem_cons, List.not_mem_nil, or_false] at hc
    rcases hc with rfl | rfl | rfl <;> exact absurd hm (by decide)
  obtain ⟨ts, out, h1, h2, h3⟩ := comments_back_partial (print := fun _ => .ok c!"kg") (ignore := true) (sent := fun s => [s])
    (sent' := fun s => [s]) (i := 1000) (j := 0)
    (p := ⟨[c!"kg"], [(c!"en", c!" a note "), (c!"fr", c!"une note"), (c!"en", c!"more")]⟩) (.first _ _) rfl (by decide) (by decide) hcs (Or.inl rfl)
  refine ⟨ts, out, h1, h2, (h3 _ _).2 ?_, (h3 _ _).2 ?_⟩ <;> decide +kernel

/-- C145: two exchanges whose conversions have one name. -/
example : EcsVars.convStr (strUnit (UnitExpr.shown ⟨[⟨c!"EUR", 2005⟩], []⟩)) c!"x" = EcsVars.convStr (strUnit c!"EUR2005") c!"x" ∧
    (EcsVars.convert EcsVars.env0 [⟨some c!"a", none, 1, c!"flow", 2, c!"EUR2005", c!"x"⟩,
      ⟨some c!"b", none, 1, c!"flow", 3, c!"EUR2005", c!"x"⟩]).map Prod.fst =
      .ok [⟨c!"a", none, 1⟩, ⟨c!"a__from_EUR2005_to_x__", none, 2⟩, ⟨c!"__EUR2005_to_x__", none, 2⟩, ⟨c!"b", none, 1⟩,
        ⟨c!"b__from_EUR2005_to_x__", none, 3⟩] := by
  decide +kernel

/-- C146. -/
example : LetterWord Validators.ascii ∧ IlcdVars.conform c!"yield" = true ∧ ¬ c!"__from" <:+: c!"yield" ∧
    2 ≤ (conversionName c!"t" c!"kg").length ∧ c!"yield".length + (conversionName c!"t" c!"kg").length + 5 ≤ 40 :=
  ⟨letterWord_ascii, by decide, by decide, by decide +kernel, by decide +kernel⟩

end Verif.Params
