/-
Properties of names, identifiers, location and synonyms: C116 (the entry of the index agrees with the data set),
C117 (the identifier of the name belongs to the name), C118 (the name in the master data), C119 (the geography),
C120 (synonyms), C121 (names without a language).
-/
import Verif.Lemmas.Naming
import Verif.Props.PlaceIndex

namespace Verif.Naming
open Verif.LangText Spec
open Verif.LangText.Spec (Has Visible Given)

/-! ### C116: the index entry -/

/-- What the entry of the index and the master data share with the data set. -/
structure Agrees (st : State) : Prop where
  id : st.indexId = st.id
  nameId : st.indexNameId = st.nameId
  masterNameId : st.masterNameId = st.nameId
  special : st.indexSpecial = st.special
  start : st.indexStart = st.start
  stop : st.indexStop = st.stop
  geo : st.indexGeoId = st.geoId
  system : st.indexSystemId = st.systemId
  /-- An entry of the master data for the geography is that of the data set. -/
  geos : ∀ g ∈ st.geos, st.geoId = some g.id
  /-- There is at most one. -/
  one : st.geos.length ≤ 1
  /-- Without a location there is none. -/
  fresh : st.geoId = none → st.geos = []

theorem step_agrees (env : Env) (st st' : State) (i : Item) (h : Agrees st) (hs : step env st i = .ok st') :
    Agrees st' := by
  cases i with
  | uuid x =>
    obtain ⟨u, -, -, -, -, rfl⟩ := step_uuid.1 hs
    exact ⟨rfl, h.nameId, h.masterNameId, h.special, h.start, h.stop, h.geo, h.system, h.geos, h.one, h.fresh⟩
  | baseName x =>
    obtain ⟨d, l, s, -, -, -, rfl⟩ := step_base.1 hs
    exact ⟨h.id, rfl, rfl, h.special, h.start, h.stop, h.geo, h.system, h.geos, h.one, h.fresh⟩
  | namePart x =>
    obtain ⟨l, s, -, -, rfl⟩ := step_part.1 hs
    exact ⟨h.id, h.nameId, h.masterNameId, h.special, h.start, h.stop, h.geo, h.system, h.geos, h.one, h.fresh⟩
  | comment x =>
    obtain ⟨l, s, g, r, p, -, -, -, -, rfl⟩ := step_comment.1 hs
    cases hn : g.nameId with
    | none =>
      cases hk : g.subtype with
      | none =>
        exact ⟨h.id, h.nameId, h.masterNameId, h.special, h.start, h.stop, h.geo, h.system, h.geos, h.one, h.fresh⟩
      | some k =>
        exact ⟨h.id, h.nameId, h.masterNameId, rfl, h.start, h.stop, h.geo, h.system, h.geos, h.one, h.fresh⟩
    | some n =>
      cases hk : g.subtype with
      | none => exact ⟨h.id, rfl, rfl, h.special, h.start, h.stop, h.geo, h.system, h.geos, h.one, h.fresh⟩
      | some k => exact ⟨h.id, rfl, rfl, rfl, h.start, h.stop, h.geo, h.system, h.geos, h.one, h.fresh⟩
  | year x =>
    obtain ⟨-, -, -, rfl⟩ := step_year.1 hs
    exact ⟨h.id, h.nameId, h.masterNameId, h.special, rfl, h.stop, h.geo, h.system, h.geos, h.one, h.fresh⟩
  | validUntil x =>
    obtain ⟨-, -, -, rfl⟩ := step_until.1 hs
    exact ⟨h.id, h.nameId, h.masterNameId, h.special, h.start, rfl, h.geo, h.system, h.geos, h.one, h.fresh⟩
  | location x =>
    obtain ⟨g, hg, -, h1, -, rfl⟩ := step_location.1 hs
    have h0 := h.fresh h1
    refine ⟨h.id, h.nameId, h.masterNameId, h.special, h.start, h.stop, rfl, h.system, ?_, ?_, by simp⟩
    · intro e he
      simp only [h0, List.nil_append] at he
      split at he
      · rename_i hn
        simp only [List.mem_singleton] at he
        subst he
        rcases hg with hg | ⟨-, rfl⟩
        · rw [aget_listed.2 hg] at hn; cases hn
        · rfl
      · cases he
    · simp only [h0, List.nil_append]
      split <;> simp

/-- C116: in every conversion that ends, the entry of the activity index has the identifiers, the dates, the kind of
activity and the system model of the data set; the entry of the master data for the name has the identifier of the
name, and the entry for the geography, if there is one, that of the geography. -/
theorem index_agrees (env : Env) (items : List Item) (original : Option Str) (approaches : List Str) (st : State)
    (h : convert env items original approaches = .ok st) : Agrees st := by
  obtain ⟨s, m, h1, -, -, -, -, rfl⟩ := convert_iff.1 h
  have := run_induct (fun a b i ha hb => step_agrees env a b i ha hb) h1
    ⟨rfl, rfl, rfl, rfl, rfl, rfl, rfl, rfl, by simp, by simp, by simp⟩
  exact ⟨this.id, this.nameId, this.masterNameId, this.special, this.start, this.stop, this.geo, rfl, this.geos,
    this.one, this.fresh⟩

/-! ### C117: the identifier of the name -/

/-- The search for the first line with an identifier. -/
theorem search_link (p t u : Str) : Comments.search (Comments.uuidMatch p) t = some u ↔
    ∃ a r, t = a ++ (p ++ c!" " ++ u ++ '\n' :: r) ∧ Validators.Spec.UuidText u ∧
      ∀ a' u' r', t = a' ++ (p ++ c!" " ++ u' ++ '\n' :: r') → Validators.Spec.UuidText u' → a.length ≤ a'.length := by
  induction t with
  | nil =>
    simp only [Comments.search, reduceCtorEq, false_iff]
    rintro ⟨a, r, h, -⟩
    simp at h
  | cons c t ih =>
    rw [Comments.search]
    cases hm : Comments.uuidMatch p (c :: t) with
    | some gk =>
      obtain ⟨g, k⟩ := gk
      obtain ⟨hu, ⟨r, hr⟩, -⟩ := (Comments.uuidMatch_iff _ _ _ _).1 hm
      simp only [Option.some.injEq]
      constructor
      · rintro rfl
        exact ⟨[], r, by simpa using hr, hu, by simp⟩
      · rintro ⟨a, r', h1, h2, h3⟩
        have := h3 [] g r (by simpa using hr) hu
        have ha : a = [] := by cases a with | nil => rfl | cons => simp at this
        subst ha
        rw [List.nil_append] at h1
        have h4 : Comments.uuidMatch p (c :: t) = some (u, (p ++ c!" " ++ u ++ c!"\n").length) :=
          (Comments.uuidMatch_iff _ _ _ _).2 ⟨h2, ⟨r', h1⟩, rfl⟩
        rw [hm] at h4
        injection h4 with h4
        exact (Prod.mk.inj h4).1
    | none =>
      have hno : ∀ u' r', c :: t = (p ++ c!" " ++ u' ++ '\n' :: r') → ¬ Validators.Spec.UuidText u' := by
        intro u' r' h hu
        rw [(Comments.uuidMatch_iff p (c :: t) u' _).2 ⟨hu, ⟨r', h⟩, rfl⟩] at hm
        cases hm
      simp only [ih]
      constructor
      · rintro ⟨a, r, rfl, h2, h3⟩
        refine ⟨c :: a, r, rfl, h2, ?_⟩
        intro a' u' r' h hu
        cases a' with
        | nil => exact absurd hu (hno u' r' (by simpa using h))
        | cons d a' =>
          simp only [List.cons_append, List.cons.injEq] at h
          have := h3 a' u' r' h.2 hu
          simpa using this
      · rintro ⟨a, r, h1, h2, h3⟩
        cases a with
        | nil => exact absurd h2 (hno u r (by simpa using h1))
        | cons d a =>
          simp only [List.cons_append, List.cons.injEq] at h1
          refine ⟨a, r, h1.2, h2, ?_⟩
          intro a' u' r' h hu
          have := h3 (c :: a') u' r' (by simp [h]) hu
          simpa using this

theorem comment_link {s : Str} {g : Comments.General} {r : Str} (h : Comments.generalComment s = .ok (g, r))
    (u : Str) : g.nameId = some u ↔ Link s u := by
  have hg : g.nameId = (Comments.getUuid c!"Activity Linkable Id:" s).1 := by
    simp only [Comments.generalComment] at h
    split at h
    · cases h
    · split at h
      · cases h
      · injection h with h
        rw [← (Prod.mk.inj h).1]
  have h2 : (Comments.getUuid c!"Activity Linkable Id:" s).1 =
      Comments.search (Comments.uuidMatch c!"Activity Linkable Id:") s := by
    unfold Comments.getUuid
    cases Comments.search (Comments.uuidMatch c!"Activity Linkable Id:") s <;> rfl
  rw [hg, h2, search_link]
  simp only [Link, List.append_assoc, List.cons_append, List.nil_append]

theorem lastSome_none {α : Type} (ids : List (Option α)) : lastSome (none :: ids) = lastSome ids := by
  simp [lastSome]

theorem lastSome_some {α : Type} (a : Option α) (u : α) (ids : List (Option α)) :
    (lastSome (some u :: ids) <|> a) = (lastSome ids <|> some u) := by
  have : List.filterMap id (some u :: ids) = u :: List.filterMap id ids := rfl
  simp only [lastSome, this]
  generalize List.filterMap id ids = m
  cases m with
  | nil => simp
  | cons c l => simp [List.getLast?_cons]

/-- What the elements tell about the identifier of the name, after what was known. -/
theorem run_nameId {env : Env} {items : List Item} {st st' : State} (h : run env st items = .ok st') :
    ∃ ids, List.Forall₂ (Tells env.hash) items ids ∧ st'.nameId = (lastSome ids <|> st.nameId) := by
  induction items generalizing st with
  | nil => simp [run] at h; exact ⟨[], .nil, by simp [lastSome, h]⟩
  | cons i l ih =>
    obtain ⟨s, h1, h2⟩ := run_cons.1 h
    obtain ⟨ids, h3, h4⟩ := ih h2
    cases i with
    | uuid x =>
      obtain ⟨u, -, -, -, -, rfl⟩ := step_uuid.1 h1
      exact ⟨none :: ids, .cons .uuid h3, by rw [lastSome_none]; exact h4⟩
    | baseName x =>
      obtain ⟨d, l, s, -, hs, -, rfl⟩ := step_base.1 h1
      exact ⟨some (env.hash s) :: ids, .cons (.base hs) h3, by rw [lastSome_some]; exact h4⟩
    | namePart x =>
      obtain ⟨l, s, -, -, rfl⟩ := step_part.1 h1
      exact ⟨none :: ids, .cons .part h3, by rw [lastSome_none]; exact h4⟩
    | comment x =>
      obtain ⟨lang, s, g, r, p, hx, -, hg, -, rfl⟩ := step_comment.1 h1
      cases hn : g.nameId with
      | none =>
        refine ⟨none :: ids, .cons (.noLink hx fun u hu => ?_) h3, ?_⟩
        · rw [← comment_link hg, hn] at hu; cases hu
        · rw [lastSome_none, h4, hn]; cases g.subtype <;> rfl
      | some u =>
        refine ⟨some u :: ids, .cons (.link hx ((comment_link hg u).1 hn)) h3, ?_⟩
        rw [lastSome_some, h4, hn]; cases g.subtype <;> rfl
    | year x =>
      obtain ⟨-, -, -, rfl⟩ := step_year.1 h1
      exact ⟨none :: ids, .cons .year h3, by rw [lastSome_none]; exact h4⟩
    | validUntil x =>
      obtain ⟨-, -, -, rfl⟩ := step_until.1 h1
      exact ⟨none :: ids, .cons .validUntil h3, by rw [lastSome_none]; exact h4⟩
    | location x =>
      obtain ⟨g, -, -, -, -, rfl⟩ := step_location.1 h1
      exact ⟨none :: ids, .cons .location h3, by rw [lastSome_none]; exact h4⟩

/-! The parts of the name -/

theorem part_unique {i : Item} {p q : Str × Str} (h : Part i p) (h' : Part i q) : p = q := by
  cases h with
  | base h => cases h' with
    | base h' => exact Prod.ext (says_unique h h').1 (says_unique h h').2
  | part h => cases h' with
    | part h' => exact Prod.ext (says_unique h h').1 (says_unique h h').2

theorem forall₂_unique {α β : Type} {R : α → β → Prop} (hR : ∀ a b c, R a b → R a c → b = c) :
    ∀ {l : List α} {m n : List β}, List.Forall₂ R l m → List.Forall₂ R l n → m = n
  | [], _, _, .nil, .nil => rfl
  | _ :: _, _, _, .cons h t, .cons h' t' => by
    obtain rfl := hR _ _ _ h h'
    rw [forall₂_unique hR t t']

theorem parts_unique {items : List Item} {ps qs : List (Str × Str)} (h : Parts items ps) (h' : Parts items qs) :
    ps = qs := by
  obtain ⟨a, ha, rfl⟩ := h
  obtain ⟨b, hb, rfl⟩ := h'
  have := forall₂_unique (R := Part) (fun _ _ _ h h' => part_unique h h') ha hb
  rw [this]

/-- The entry of a part. -/
def entry1 (p : Str × Str) : Entry := ⟨1, p.1, p.2⟩

theorem shown_map (l s : Str) : shown 1 l s = (([(l, s)] : List (Str × Str)).filter fun p => Visible p.2).map entry1 := by
  unfold shown
  by_cases h : Visible s <;> simp [h, entry1]

theorem run_name {env : Env} {items : List Item} {st st' : State} (h : run env st items = .ok st') :
    ∃ ps, Parts items ps ∧ st'.name = st.name ++ ps.map entry1 ∧
      st'.masterName = addMerged (base 120) st.masterName (ps.map entry1) := by
  induction items generalizing st with
  | nil => simp [run] at h; subst h; exact ⟨[], ⟨[], .nil, rfl⟩, by simp, rfl⟩
  | cons i l ih =>
    obtain ⟨s, h1, h2⟩ := run_cons.1 h
    obtain ⟨ps, ⟨qs, h3, rfl⟩, h4, h5⟩ := ih h2
    have skip : isName i = false → s.name = st.name → s.masterName = st.masterName →
        ∃ ps, Parts (i :: l) ps ∧ st'.name = st.name ++ ps.map entry1 ∧
          st'.masterName = addMerged (base 120) st.masterName (ps.map entry1) := by
      intro hi e1 e2
      exact ⟨_, ⟨qs, by simpa [hi] using h3, rfl⟩, by rw [h4, e1], by rw [h5, e2]⟩
    have take : ∀ lang t, Part i (lang, t) → isName i = true → s.name = st.name ++ shown 1 lang t →
        s.masterName = addMerged (base 120) st.masterName (shown 1 lang t) →
        ∃ ps, Parts (i :: l) ps ∧ st'.name = st.name ++ ps.map entry1 ∧
          st'.masterName = addMerged (base 120) st.masterName (ps.map entry1) := by
      intro lang t hp hi e1 e2
      refine ⟨_, ⟨(lang, t) :: qs, by rw [List.filter_cons, if_pos hi]; exact .cons hp h3, rfl⟩, ?_, ?_⟩
      · rw [h4, e1, shown_map, List.append_assoc, ← List.map_append, ← List.filter_append]; rfl
      · rw [h5, e2, shown_map, addMerged, addMerged, addMerged, ← List.foldl_append, ← List.map_append,
          ← List.filter_append]; rfl
    cases i with
    | uuid x => obtain ⟨u, -, -, -, -, rfl⟩ := step_uuid.1 h1; exact skip rfl rfl rfl
    | baseName x =>
      obtain ⟨d, lang, t, -, hs, -, rfl⟩ := step_base.1 h1
      exact take lang t (.base hs) rfl rfl rfl
    | namePart x =>
      obtain ⟨lang, t, hs, -, rfl⟩ := step_part.1 h1
      exact take lang t (.part hs) rfl rfl rfl
    | comment x =>
      obtain ⟨lang, t, g, r, p, -, -, -, -, rfl⟩ := step_comment.1 h1
      refine skip rfl ?_ ?_ <;> cases g.nameId <;> cases g.subtype <;> rfl
    | year x => obtain ⟨-, -, -, rfl⟩ := step_year.1 h1; exact skip rfl rfl rfl
    | validUntil x => obtain ⟨-, -, -, rfl⟩ := step_until.1 h1; exact skip rfl rfl rfl
    | location x => obtain ⟨g, -, -, -, -, rfl⟩ := step_location.1 h1; exact skip rfl rfl rfl

theorem sortBy_sorted_self {α : Type} (le : α → α → Bool) : ∀ {l : List α}, l.Pairwise (fun a b => le a b = true) →
    sortBy le l = l
  | [], _ => rfl
  | a :: l, h => by
    rw [List.pairwise_cons] at h
    rw [sortBy, sortBy_sorted_self le h.2]
    cases l with
    | nil => rfl
    | cons b l => rw [insertBy, if_pos (h.1 b (by simp))]

theorem sorted_entry1 (ps : List (Str × Str)) : sortBy byIndex (ps.map entry1) = ps.map entry1 := by
  refine sortBy_sorted_self byIndex ?_
  rw [List.pairwise_map]
  exact List.pairwise_of_forall (by intro a b; simp [byIndex, entry1])

theorem fits_base {n : Nat} {ignore : Bool} {s : Str} (h : s.length ≤ n ∨ ignore = true) :
    Fits (base n) ignore s := by
  intro lim hl _ hi
  simp only [base, Option.some.injEq] at hl
  subst hl
  rcases h with h | h
  · exact h
  · rw [h] at hi; cases hi

theorem pieces_base {n : Nat} {ignore : Bool} (sent : Str → List Str) {s : Str} (h : s.length ≤ n ∨ ignore = true) :
    pieces (base n) ignore sent s = .ok [s] := by
  have hf : ¬ (ignore = false ∧ n < s.length) := by
    rintro ⟨h1, h2⟩
    rcases h with h | h
    · omega
    · rw [h] at h1; cases h1
  have hc : (true && !ignore && decide (s.length > upper (.upper n))) = false := by
    rcases h with h | h
    · simp [upper, h]
    · simp [h]
  have hl : Validators.limEnd (.upper n) ignore (some s) = .ok s := by
    unfold Validators.limEnd
    rcases h with h | h
    · simp [Validators.Limit.holds, h]
    · simp [h]
  simp only [pieces, base, hc, hl]
  rfl

/-- C117, the name: the first part of the name that shows is written, with its language; if it is within 120
characters it is whole. -/
theorem name_first_partial {env : Env} {items : List Item} {original : Option Str} {approaches : List Str}
    {st : State} (h : convert env items original approaches = .ok st) {l s : Str} {ps : List (Str × Str)}
    (hp : Parts items ((l, s) :: ps)) (ignore : Bool) (sent : Str → List Str)
    (hs : s.length ≤ 120 ∨ ignore = true) : writtenName ignore sent st = .ok (some (l, s)) := by
  obtain ⟨st0, m, h1, -, -, -, -, rfl⟩ := convert_iff.1 h
  obtain ⟨qs, h2, h3, -⟩ := run_name h1
  rw [parts_unique h2 hp] at h3
  simp only [writtenName, h3, List.nil_append, endName, sortedPlain, sorted_entry1]
  simp only [List.map_cons, entry1, endValidate, pieces_base sent hs, List.map_nil, List.append_nil]

/-- Nothing shows: no name is written. -/
theorem name_none {env : Env} {items : List Item} {original : Option Str} {approaches : List Str}
    {st : State} (h : convert env items original approaches = .ok st) (hp : Parts items []) (ignore : Bool)
    (sent : Str → List Str) : writtenName ignore sent st = .ok none := by
  obtain ⟨st0, m, h1, -, -, -, -, rfl⟩ := convert_iff.1 h
  obtain ⟨qs, h2, h3, -⟩ := run_name h1
  rw [parts_unique h2 hp] at h3
  simp only [writtenName, h3]
  rfl

/-- C117: the identifier of the name is the last one told by the base names and the comment; it stands in the data
set, in the index and in the master data. -/
theorem name_id {env : Env} {items : List Item} {original : Option Str} {approaches : List Str}
    {st : State} (h : convert env items original approaches = .ok st) :
    ∃ ids, List.Forall₂ (Tells env.hash) items ids ∧ st.nameId = lastSome ids ∧ st.indexNameId = lastSome ids ∧
      st.masterNameId = lastSome ids := by
  have ha := index_agrees env items original approaches st h
  obtain ⟨st0, m, h1, -, -, -, -, rfl⟩ := convert_iff.1 h
  obtain ⟨ids, h2, h3⟩ := run_nameId h1
  have h4 : st0.nameId = lastSome ids := by
    rw [h3]
    cases lastSome ids <;> rfl
  exact ⟨ids, h2, h4, ha.nameId.trans h4, ha.masterNameId.trans h4⟩

theorem lastSome_all {α : Type} {u : α} {ids : List (Option α)} (h : ∀ v, some v ∈ ids → v = u) (hm : some u ∈ ids) :
    lastSome ids = some u := by
  unfold lastSome
  have hmem : u ∈ ids.filterMap id := List.mem_filterMap.2 ⟨some u, hm, rfl⟩
  cases hl : (ids.filterMap id).getLast? with
  | none => rw [List.getLast?_eq_none_iff] at hl; rw [hl] at hmem; cases hmem
  | some v =>
    have := List.mem_of_getLast? hl
    obtain ⟨w, hw, hv⟩ := List.mem_filterMap.1 this
    simp only [id] at hv
    subst hv
    rw [h v hw]

theorem forall₂_left {α β : Type} {R : α → β → Prop} : ∀ {l : List α} {m : List β}, List.Forall₂ R l m →
    ∀ {a : α}, a ∈ l → ∃ b ∈ m, R a b
  | _, _, .cons h t, a, ha => by
    rcases List.mem_cons.1 ha with rfl | ha
    · exact ⟨_, by simp, h⟩
    · obtain ⟨b, hb, hr⟩ := forall₂_left t ha
      exact ⟨b, by simp [hb], hr⟩

theorem forall₂_right {α β : Type} {R : α → β → Prop} : ∀ {l : List α} {m : List β}, List.Forall₂ R l m →
    ∀ {b : β}, b ∈ m → ∃ a ∈ l, R a b
  | _, _, .cons h t, b, hb => by
    rcases List.mem_cons.1 hb with rfl | hb
    · exact ⟨_, by simp, h⟩
    · obtain ⟨a, ha, hr⟩ := forall₂_right t hb
      exact ⟨a, by simp [ha], hr⟩

/-- C117, what holds: a data set whose base names all have the same text, shown first, and whose comments name no
identifier gets that name and the identifier computed of it. -/
theorem id_of_name_partial {env : Env} {items : List Item} {original : Option Str} {approaches : List Str}
    {st : State} (h : convert env items original approaches = .ok st) {l s : Str} {ps : List (Str × Str)}
    (hp : Parts items ((l, s) :: ps)) (ignore : Bool) (sent : Str → List Str)
    (hs : s.length ≤ 120 ∨ ignore = true)
    (hb : ∃ x, .baseName x ∈ items) (hall : ∀ x l' t, .baseName x ∈ items → Says x l' t → t = s)
    (hc : ∀ x l' t u, .comment x ∈ items → Says x l' t → ¬ Link t u) :
    writtenName ignore sent st = .ok (some (l, s)) ∧ st.nameId = some (env.hash s) := by
  refine ⟨name_first_partial h hp ignore sent hs, ?_⟩
  obtain ⟨ids, h1, h2, -⟩ := name_id h
  rw [h2]
  refine lastSome_all ?_ ?_
  · intro v hv
    obtain ⟨i, hi, ht⟩ := forall₂_right h1 hv
    cases ht with
    | base hx => rw [hall _ _ _ hi hx]
    | link hx hl => exact absurd hl (hc _ _ _ _ hi hx)
  · obtain ⟨x, hx⟩ := hb
    obtain ⟨o, ho, ht⟩ := forall₂_left h1 hx
    cases ht with
    | base hx' => rw [← hall _ _ _ hx hx']; exact ho

theorem says_reread (p : Str × Str) : Says (reread p) p.1 p.2 :=
  .tagged ⟨[(c!"@lang", .str p.1)], [], rfl, by simp⟩ ⟨[], _, rfl, by simp⟩

/-- A data set of two base names, of any languages and texts. -/
def twoNames (p q : Str × Str) : List Item := [.baseName (reread p), .baseName (reread q)]

/-- C117 in full is false: of two base names the first is written as the name, and the identifier is that of the
second. -/
theorem name_first_id_last (env : Env) (p q : Str × Str) (hp : p.1.length = 2) (hq : q.1.length = 2)
    (hv : Visible p.2) (hl : p.2.length ≤ 120) (sent : Str → List Str) :
    ∃ st, convert env (twoNames p q) none [] = .ok st ∧ writtenName false sent st = .ok (some p) ∧
      st.nameId = some (env.hash q.2) ∧ st.masterNameId = some (env.hash q.2) := by
  have h1 : ∃ st, run env {} (twoNames p q) = .ok st ∧ st.nameId = some (env.hash q.2) ∧ st.systemId = none ∧
      st.indexSystemId = none := by
    refine ⟨_, run_cons.2 ⟨_, step_base.2 ⟨_, _, _, rfl, says_reread p, hp, rfl⟩, run_cons.2 ⟨_, step_base.2
      ⟨_, _, _, rfl, says_reread q, hq, rfl⟩, rfl⟩⟩, rfl, rfl, rfl⟩
  obtain ⟨st, hr, hn, hs1, hs2⟩ := h1
  have hc : convert env (twoNames p q) none [] = .ok { st with
      systemId := some c!"8b738ea0-f89e-4627-8679-433616064e82"
      indexSystemId := some c!"8b738ea0-f89e-4627-8679-433616064e82" } :=
    convert_iff.2 ⟨st, (c!"8b738ea0-f89e-4627-8679-433616064e82", c!"Undefined"), hr, rfl, by decide, hs1, hs2, rfl⟩
  refine ⟨_, hc, ?_, hn, ?_⟩
  · have hparts : ∃ ps, Parts (twoNames p q) (p :: ps) := by
      refine ⟨[q].filter fun p => Visible p.2, [p, q], .cons (.base (says_reread p)) (.cons (.base (says_reread q)) .nil), ?_⟩
      simp [List.filter_cons, hv]
    obtain ⟨ps, hps⟩ := hparts
    exact name_first_partial hc hps false sent (Or.inl hl)
  · exact (index_agrees _ _ _ _ _ hc).masterNameId.trans hn

/-- So the identifier is that of another name. -/
theorem id_of_other_name (env : Env) (hinj : Function.Injective env.hash) (p q : Str × Str) (hp : p.1.length = 2)
    (hq : q.1.length = 2) (hv : Visible p.2) (hl : p.2.length ≤ 120) (hne : p.2 ≠ q.2) (sent : Str → List Str) :
    ∃ st, convert env (twoNames p q) none [] = .ok st ∧ writtenName false sent st = .ok (some p) ∧
      st.nameId ≠ some (env.hash p.2) := by
  obtain ⟨st, h1, h2, h3, -⟩ := name_first_id_last env p q hp hq hv hl sent
  refine ⟨st, h1, h2, ?_⟩
  rw [h3]
  intro h
  injection h with h
  exact hne (hinj h).symm

theorem forall₂_append_left {α β : Type} {R : α → β → Prop} : ∀ {k l : List α} {m : List β},
    List.Forall₂ R (k ++ l) m → ∃ a b, List.Forall₂ R k a ∧ List.Forall₂ R l b ∧ m = a ++ b
  | [], _, m, h => ⟨[], m, .nil, h, rfl⟩
  | _ :: _, _, _, .cons h t => by
    obtain ⟨a, b, ha, hb, rfl⟩ := forall₂_append_left t
    exact ⟨_ :: a, b, .cons h ha, hb, rfl⟩

/-- C117, round trip: an identifier given by a line of the comment after the names stands in all three places. -/
theorem linked_id {env : Env} {pre post : List Item} {x : PyVal} {original : Option Str} {approaches : List Str}
    {st : State} (h : convert env (pre ++ .comment x :: post) original approaches = .ok st) {l t u : Str}
    (hx : Says x l t) (hu : Link t u) (hb : ∀ y, .baseName y ∉ post)
    (hc : ∀ y l' t' u', .comment y ∈ post → Says y l' t' → ¬ Link t' u') :
    st.nameId = some u ∧ st.indexNameId = some u ∧ st.masterNameId = some u := by
  obtain ⟨ids, h1, h2, h3, h4⟩ := name_id h
  have : lastSome ids = some u := by
    obtain ⟨a, b, ha, hb', rfl⟩ := forall₂_append_left h1
    cases hb' with
    | @cons _ v _ ids' hv hrest =>
      have hv' : v = some u := by
        cases hv with
        | link hx' hl' =>
          obtain ⟨-, rfl⟩ := says_unique hx hx'
          obtain ⟨a1, r1, e1, hu1, m1⟩ := hu
          obtain ⟨a2, r2, e2, hu2, m2⟩ := hl'
          have hlen : a1.length = a2.length := by
            have := m1 a2 _ r2 e2 hu2
            have := m2 a1 _ r1 e1 hu1
            omega
          rw [e1] at e2
          obtain ⟨-, e2⟩ := List.append_inj e2 hlen
          have e3 := List.append_cancel_left e2
          have hl1 := Validators.uuidText_length hu1
          have hl2 := Validators.uuidText_length hu2
          rw [(List.append_inj e3 (by rw [hl1, hl2])).1]
        | noLink hx' hl' =>
          obtain ⟨-, rfl⟩ := says_unique hx hx'
          exact absurd hu (hl' u)
      subst hv'
      have hnone : ∀ v ∈ ids', v = none := by
        intro v hv
        obtain ⟨i, hi, ht⟩ := forall₂_right hrest hv
        cases ht with
        | base _ => exact absurd hi (hb _)
        | link hx' hl' => exact absurd hl' (hc _ _ _ _ hi hx')
        | _ => rfl
      have h0 : ids'.filterMap id = [] := by
        rw [List.filterMap_eq_nil_iff]
        intro v hv
        rw [hnone v hv]; rfl
      rw [lastSome, List.filterMap_append, List.filterMap_cons, h0]
      simp
  exact ⟨h2.trans this, h3.trans this, h4.trans this⟩

/-! ### C118: the name in the master data -/

/-- The part as given to the field. -/
def given1 (p : Str × Str) : Given := ⟨1, p.1, p.2⟩

theorem map_entry1 (ps : List (Str × Str)) : ps.map entry1 = (ps.map given1).map ofGiven := by
  rw [List.map_map]; rfl

theorem byLang_added (t : TextCls) (es : List Given) (hv : ∀ e ∈ es, Visible e.text) :
    Shows t.sep es (byLang (addMerged t [] (es.map ofGiven))) := by
  rw [addMerged_eq]
  obtain ⟨h1, h2, h3⟩ := byLang_eq ((Validators.Spec.firstOccurrences (es.map key)).map (merged t.sep es)) (by
    intro e he
    obtain ⟨k, hk, rfl⟩ := List.mem_map.1 he
    exact merged_ne_nil _ _ hv _ (Validators.mem_firstOccurrences.1 hk))
  refine ⟨h1, fun L => ?_, fun p hp => ?_⟩
  · rw [h2]
    constructor
    · rintro ⟨e, he, rfl⟩
      obtain ⟨k, hk, rfl⟩ := List.mem_map.1 he
      obtain ⟨g, hg, rfl⟩ := List.mem_map.1 (Validators.mem_firstOccurrences.1 hk)
      exact ⟨g, hg, rfl⟩
    · rintro ⟨g, hg, rfl⟩
      exact ⟨_, List.mem_map_of_mem (Validators.mem_firstOccurrences.2 (List.mem_map_of_mem hg)), rfl⟩
  · rw [h3 p hp]
    exact langText_isText t.sep es p.1

theorem pairwise_lt_single {i : Int} : ∀ {l : List Int}, l.Pairwise (· < ·) → (∀ j, j ∈ l ↔ j = i) → l = [i]
  | [], _, h => by have := (h i).2 rfl; cases this
  | [a], _, h => by rw [(h a).1 (by simp)]
  | a :: b :: l, hp, h => by
    have h1 := (h a).1 (by simp)
    have h2 := (h b).1 (by simp)
    have := (List.pairwise_cons.1 hp).1 b (by simp)
    omega

theorem textsOf_given1 (L : Str) (ps : List (Str × Str)) : textsOf (ps.map given1) 1 L = inLang L ps := by
  simp only [textsOf, inLang, List.filter_map, List.map_map]
  have : (fun e : Given => decide (e.index = 1 ∧ e.lang = L)) ∘ given1 = fun p : Str × Str => decide (p.1 = L) := by
    funext p; simp only [Function.comp, given1, true_and]
  rw [this]
  rfl

theorem isText_given1 {sep : Str} {ps : List (Str × Str)} {L s : Str} (h : IsText (some sep) (ps.map given1) L s)
    (hL : L ∈ ps.map Prod.fst) : s = join sep (inLang L ps) := by
  obtain ⟨idx, h1, h2, rfl⟩ := h
  have : idx = [1] := by
    refine pairwise_lt_single h1 ?_
    intro j
    rw [h2]
    constructor
    · rintro ⟨e, he, -, rfl⟩
      obtain ⟨p, -, rfl⟩ := List.mem_map.1 he
      rfl
    · rintro rfl
      obtain ⟨p, hp, rfl⟩ := List.mem_map.1 hL
      exact ⟨given1 p, List.mem_map_of_mem hp, rfl, rfl⟩
  rw [this]
  simp [join, combine, textsOf_given1]

/-- One text for each language, the texts of a language being joined. -/
theorem joined_entries {t : TextCls} (ht : t.sep = some c!"; ") (ps : List (Str × Str))
    (hv : ∀ p ∈ ps, Visible p.2) : Joined ps (byLang (addMerged t [] (ps.map entry1))) := by
  rw [map_entry1]
  obtain ⟨h1, h2, h3⟩ := byLang_added t (ps.map given1) (by
    intro e he
    obtain ⟨p, hp, rfl⟩ := List.mem_map.1 he
    exact hv p hp)
  have h4 : ∀ L, (∃ e ∈ ps.map given1, e.lang = L) ↔ L ∈ ps.map Prod.fst := by
    intro L
    simp [given1]
  refine ⟨h1, fun L => (h2 L).trans (h4 L), fun q hq => ?_⟩
  rw [ht] at h3
  exact isText_given1 (h3 q hq) ((h4 _).1 ((h2 _).1 (List.mem_map_of_mem hq)))

theorem parts_visible {items : List Item} {ps : List (Str × Str)} (h : Parts items ps) : ∀ p ∈ ps, Visible p.2 := by
  obtain ⟨qs, -, rfl⟩ := h
  intro p hp
  simpa using (List.mem_filter.1 hp).2

theorem endValidate_base {κ : Type} {n : Nat} {ignore : Bool} (sent : Str → List Str) :
    ∀ {l : List (κ × Str)}, (∀ p ∈ l, p.2.length ≤ n ∨ ignore = true) →
      endValidate (base n) ignore sent l = .ok l
  | [], _ => rfl
  | (k, s) :: l, h => by
    have ih := endValidate_base (ignore := ignore) sent (l := l) fun p hp => h p (List.mem_cons_of_mem _ hp)
    simp only [endValidate, pieces_base sent (h (k, s) (by simp)), ih]
    rfl

/-- C118: the name in the master data has all the parts of the name, those of one language joined by semicolons, as
long as they stay within 120 characters. -/
theorem master_joined_partial {env : Env} {items : List Item} {original : Option Str} {approaches : List Str}
    {st : State} (h : convert env items original approaches = .ok st) {ps : List (Str × Str)} (hp : Parts items ps)
    (ignore : Bool) (sent : Str → List Str)
    (hs : ∀ L ∈ ps.map Prod.fst, (join c!"; " (inLang L ps)).length ≤ 120 ∨ ignore = true) :
    ∃ out, writtenMaster ignore sent st = .ok out ∧ Joined ps out := by
  obtain ⟨st0, m, h1, -, -, -, -, rfl⟩ := convert_iff.1 h
  obtain ⟨qs, h2, -, h3⟩ := run_name h1
  rw [parts_unique h2 hp] at h3
  have hj := joined_entries (t := base 120) rfl ps (parts_visible hp)
  refine ⟨_, ?_, hj⟩
  simp only [writtenMaster, h3, endMulti]
  refine endValidate_base sent ?_
  intro q hq
  rw [hj.2.2 q hq]
  exact hs q.1 ((hj.2.1 _).1 (List.mem_map_of_mem hq))

theorem join_longer {sep : Str} {s : Str} (hsep : sep ≠ []) : ∀ {l : List Str}, l ≠ [] → join sep (s :: l) ≠ s
  | t :: l, _, h => by
    have := congrArg List.length h
    simp only [join, List.length_append] at this
    have := List.length_pos_iff.2 hsep
    omega

/-- The name of the data set and that of the master data, under one identifier, are different as soon as a second
part has the language of the first. -/
theorem master_other_name {env : Env} {items : List Item} {original : Option Str} {approaches : List Str}
    {st : State} (h : convert env items original approaches = .ok st) {l s t : Str} {ps : List (Str × Str)}
    (hp : Parts items ((l, s) :: ps)) (ht : (l, t) ∈ ps) (sent : Str → List Str) :
    ∃ out, writtenName true sent st = .ok (some (l, s)) ∧ writtenMaster true sent st = .ok out ∧
      (l, s) ∉ out ∧ st.masterNameId = st.nameId := by
  obtain ⟨out, h1, h2⟩ := master_joined_partial h hp true sent fun _ _ => Or.inr rfl
  refine ⟨out, name_first_partial h hp true sent (Or.inr rfl), h1, ?_, (index_agrees _ _ _ _ _ h).masterNameId⟩
  intro hm
  have h3 := h2.2.2 _ hm
  have h4 : inLang l ((l, s) :: ps) = s :: inLang l ps := by simp [inLang, List.filter_cons]
  rw [h4] at h3
  refine join_longer (by decide) ?_ h3.symm
  intro h0
  have : t ∈ inLang l ps := List.mem_map.2 ⟨(l, t), List.mem_filter.2 ⟨ht, by simp⟩, rfl⟩
  rw [h0] at this
  cases this

/-- The name is lost but for its first part. -/
theorem parts_lost {env : Env} {items : List Item} {original : Option Str} {approaches : List Str}
    {st : State} (h : convert env items original approaches = .ok st) {ps : List (Str × Str)}
    (hp : Parts items ps) (sent : Str → List Str) : writtenName true sent st = .ok ps.head? := by
  cases ps with
  | nil => exact name_none h hp true sent
  | cons p ps => exact name_first_partial h hp true sent (Or.inr rfl)

/-! ### C119: the location -/

theorem step_geo {env : Env} {st st' : State} {i : Item} (h : step env st i = .ok st') :
    (st'.geoId = st.geoId ∧ st'.geos = st.geos ∧ st'.shortname = st.shortname ∧ ∀ x, i ≠ .location x) ∨
      ∃ x, i = .location x ∧ st.geoId = none := by
  cases i with
  | uuid x => obtain ⟨u, -, -, -, -, rfl⟩ := step_uuid.1 h; exact .inl ⟨rfl, rfl, rfl, by simp⟩
  | baseName x => obtain ⟨d, l, t, -, -, -, rfl⟩ := step_base.1 h; exact .inl ⟨rfl, rfl, rfl, by simp⟩
  | namePart x => obtain ⟨l, t, -, -, rfl⟩ := step_part.1 h; exact .inl ⟨rfl, rfl, rfl, by simp⟩
  | comment x =>
    obtain ⟨l, t, g, r, p, -, -, -, -, rfl⟩ := step_comment.1 h
    refine .inl ⟨?_, ?_, ?_, by simp⟩ <;> cases g.nameId <;> cases g.subtype <;> rfl
  | year x => obtain ⟨-, -, -, rfl⟩ := step_year.1 h; exact .inl ⟨rfl, rfl, rfl, by simp⟩
  | validUntil x => obtain ⟨-, -, -, rfl⟩ := step_until.1 h; exact .inl ⟨rfl, rfl, rfl, by simp⟩
  | location x => obtain ⟨g, -, -, h1, -, -⟩ := step_location.1 h; exact .inr ⟨x, rfl, h1⟩

theorem run_no_place {env : Env} {items : List Item} {st st' : State} (h : run env st items = .ok st')
    (hn : ∀ x, .location x ∉ items) : st'.geoId = st.geoId ∧ st'.geos = st.geos ∧ st'.shortname = st.shortname := by
  induction items generalizing st with
  | nil => simp [run] at h; subst h; exact ⟨rfl, rfl, rfl⟩
  | cons i l ih =>
    obtain ⟨s, h1, h2⟩ := run_cons.1 h
    obtain ⟨a, b, c⟩ := ih h2 fun x hx => hn x (by simp [hx])
    rcases step_geo h1 with ⟨a', b', c', -⟩ | ⟨x, rfl, -⟩
    · exact ⟨a.trans a', b.trans b', c.trans c'⟩
    · exact absurd (by simp) (hn x)

theorem run_place_set {env : Env} {items : List Item} {st st' : State} (h : run env st items = .ok st')
    (hg : st.geoId ≠ none) : (∀ x, .location x ∉ items) := by
  induction items generalizing st with
  | nil => intro x hx; cases hx
  | cons i l ih =>
    obtain ⟨s, h1, h2⟩ := run_cons.1 h
    intro x hx
    rcases step_geo h1 with ⟨a', -, -, d'⟩ | ⟨y, rfl, e⟩
    · rcases List.mem_cons.1 hx with rfl | hx
      · exact d' x rfl
      · exact ih h2 (by rw [a']; exact hg) x hx
    · exact hg e

/-- C119: the identifier of the location, in the data set and in the index, is the listed one or is computed of the
text, and then the location stands in the master data with this identifier; there is one location. -/
theorem place_identified {env : Env} {items : List Item} {original : Option Str} {approaches : List Str}
    {st : State} (h : convert env items original approaches = .ok st) {x : Str} (hx : .location x ∈ items) :
    (∃ g, PlaceId env.hash x g ∧ st.geoId = some g ∧ st.indexGeoId = some g ∧
      (∀ g', Listed x g' → st.geos = []) ∧ (Unlisted x → st.geos = [⟨g, shown 1 c!"en" x, shown 1 c!"en" x⟩])) ∧
      st.shortname = shown 1 c!"en" x ∧ ∀ y, .location y ∈ items → y = x := by
  have ha := index_agrees env items original approaches st h
  obtain ⟨st0, m, h1, -, -, -, -, rfl⟩ := convert_iff.1 h
  obtain ⟨pre, post, rfl⟩ := List.append_of_mem hx
  obtain ⟨s1, h2, h3⟩ := run_append.1 h1
  obtain ⟨s2, h4, h5⟩ := run_cons.1 h3
  obtain ⟨g, h6, h7, h8, h9, rfl⟩ := step_location.1 h4
  have hpost := run_place_set h5 (by simp)
  obtain ⟨e1, e2, e3⟩ := run_no_place h5 hpost
  have hpre : ∀ y, .location y ∉ pre := by
    intro y hy
    obtain ⟨a, b, rfl⟩ := List.append_of_mem hy
    obtain ⟨t1, -, k2⟩ := run_append.1 h2
    obtain ⟨t2, k3, k4⟩ := run_cons.1 k2
    obtain ⟨g', -, -, -, -, rfl⟩ := step_location.1 k3
    have := (run_no_place k4 (run_place_set k4 (by simp))).1
    rw [h8] at this
    cases this
  obtain ⟨f1, f2, f3⟩ := run_no_place h2 hpre
  simp only [f2, f3, List.nil_append] at e2 e3
  rw [show addMerged (base 40) ({} : State).shortname (shown 1 c!"en" x) = shown 1 c!"en" x from
    addMerged_nil_shown _ _ _ _] at e3
  refine ⟨⟨g, h6, e1, ha.geo.trans e1, ?_, ?_⟩, e3, ?_⟩
  · intro g' hg'
    rw [← aget_listed] at hg'
    rw [hg'] at e2
    simpa using e2
  · intro hu
    have hg : g = env.hash x := by
      rcases h6 with hl | ⟨-, hg⟩
      · rw [← aget_listed] at hl
        rw [← aget_unlisted, hl] at hu
        cases hu
      · exact hg
    rw [← aget_unlisted] at hu
    rw [if_pos hu] at e2
    rw [hg]
    simpa [geoEntry] using e2
  · intro y hy
    rcases List.mem_append.1 hy with hy | hy
    · exact absurd hy (hpre y)
    · rcases List.mem_cons.1 hy with hy | hy
      · injection hy
      · exact absurd hy (hpost y)

/-- No location: no identifier. -/
theorem no_place {env : Env} {items : List Item} {original : Option Str} {approaches : List Str}
    {st : State} (h : convert env items original approaches = .ok st) (hx : ∀ x, .location x ∉ items) :
    st.geoId = none ∧ st.geos = [] := by
  obtain ⟨st0, m, h1, -, -, -, -, rfl⟩ := convert_iff.1 h
  obtain ⟨a, b, -⟩ := run_no_place h1 hx
  exact ⟨a, b⟩

/-- Every listed identifier has the form of one. -/
theorem listed_valid : ∀ p ∈ geographies, uuidOk p.2 = true := by decide +kernel

/-- A number for a text. -/
def rank (s : Str) : Nat := s.foldl (fun a c => a * 1114112 + c.toNat) 0

def rising : List Nat → Bool
  | a :: b :: l => Nat.blt a b && rising (b :: l)
  | _ => true

theorem rising_pairwise : ∀ {l : List Nat}, rising l = true → l.Pairwise (· < ·)
  | [], _ => .nil
  | [a], _ => by simp
  | a :: b :: l, h => by
    simp only [rising, Bool.and_eq_true] at h
    have ih := rising_pairwise h.2
    have hab : a < b := Nat.le_of_ble_eq_true h.1
    refine List.pairwise_cons.2 ⟨?_, ih⟩
    intro c hc
    rcases List.mem_cons.1 hc with rfl | hc
    · exact hab
    · exact Nat.lt_trans hab ((List.pairwise_cons.1 ih).1 c hc)

/-- Two listed locations have different identifiers. -/
theorem listed_distinct : (geographies.map Prod.snd).Nodup := by
  have h : rising (geographies.map fun p => rank p.2) = true := by decide +kernel
  have h' := rising_pairwise h
  rw [List.pairwise_map] at h'
  rw [List.Nodup, List.pairwise_map]
  exact h'.imp fun hlt heq => by rw [heq] at hlt; exact Nat.lt_irrefl _ hlt

theorem listed_injective {x y g : Str} (hx : Listed x g) (hy : Listed y g) : x = y := by
  obtain ⟨a, b, h, -⟩ := hx
  obtain ⟨c, d, h', -⟩ := hy
  have h1 : (x, g) ∈ geographies := by rw [h]; simp
  have h2 : (y, g) ∈ geographies := by rw [h']; simp
  have := List.inj_on_of_nodup_map listed_distinct h1 h2 rfl
  exact congrArg Prod.fst this

/-- The form of an identifier is never in the way of a listed location. -/
theorem location_accepted {env : Env} {st : State} {x : Str} (h1 : st.geoId = none) (h2 : st.indexGeoId = none) :
    (∃ st', step env st (.location x) = .ok st') ↔ (∃ g, Listed x g) ∨ uuidOk (env.hash x) = true := by
  constructor
  · rintro ⟨st', h⟩
    obtain ⟨g, hg | ⟨-, rfl⟩, hu, -⟩ := step_location.1 h
    · exact .inl ⟨g, hg⟩
    · exact .inr hu
  · intro h
    cases hx : aget x geographies with
    | some g =>
      have hm : (x, g) ∈ geographies := by
        obtain ⟨a, b, e, -⟩ := aget_listed.1 hx
        rw [e]; simp
      exact ⟨_, step_location.2 ⟨g, .inl (aget_listed.1 hx), listed_valid _ hm, h1, h2, rfl⟩⟩
    | none =>
      rcases h with ⟨g, hg⟩ | h
      · rw [← aget_listed, hx] at hg; cases hg
      · exact ⟨_, step_location.2 ⟨_, .inr ⟨aget_unlisted.1 hx, rfl⟩, h, h1, h2, rfl⟩⟩

/-! The way back -/

theorem ilcd_texts {langs : List Str} {n : Int} {l s : Str} (hl : l.length = 2) (hm : l ∈ langs) :
    add ilcdString (validateEntry (some langs)) [] (entryDict n (.str l) s) = .ok (shown n l s) := by
  rw [add_entry]
  exact ⟨l, rfl, hl, by intro ls h; injection h with h; exact h ▸ hm, (addMerged_nil_shown _ _ _ _).symm⟩

/-- The name and the short name of an EcoSpold2 file in ILCD. -/
theorem to_ilcd {langs : List Str} {n m : Int} {l s l' x : Str} (hl : l.length = 2) (hm : l ∈ langs)
    (he : c!"en" ∈ langs) : toIlcd langs n m [reread (l, s)] [reread (l', x)] =
      .ok ⟨shown n l s, shown (n + 1 + m) c!"en" x, some x⟩ := by
  have h1 : ilcdName langs n {} (reread (l, s)) = .ok { base := shown n l s } := by
    rw [ilcdName]
    exact bind_ok.2 ⟨_, (says_iff _ n l s).1 (says_reread (l, s)), bind_ok.2 ⟨_, ilcd_texts hl hm, rfl⟩⟩
  have h2 : ∀ b, ilcdShortname langs (n + 1 + m) { base := b } (reread (l', x)) =
      .ok ⟨b, shown (n + 1 + m) c!"en" x, some x⟩ := by
    intro b
    rw [ilcdShortname]
    exact bind_ok.2 ⟨x, rfl, bind_ok.2 ⟨some x, rfl, bind_ok.2 ⟨_, ilcd_texts rfl he, rfl⟩⟩⟩
  simp only [toIlcd, toIlcd.go]
  refine bind_ok.2 ⟨{ base := shown n l s }, bind_ok.2 ⟨_, h1, rfl⟩, bind_ok.2 ⟨_, h2 _, rfl⟩⟩

theorem written_shown {n : Int} {l s : Str} (hv : Visible s) (hl : s.length ≤ 500) (ignore : Bool)
    (sent : Str → List Str) : endMulti ilcdString ignore sent (shown n l s) = .ok [(l, s)] := by
  have h0 : s ≠ [] := visible_ne_nil hv
  have h1 : 1 ≤ s.length := List.length_pos_iff.2 h0
  have h2 : ¬ 500 < s.length := by omega
  simp only [shown, if_pos hv, endMulti, byLang, sortBy, insertBy, List.foldl, concatLang]
  simp [endValidate, pieces, ilcdString, upper, Validators.limEnd, Validators.Limit.holds, h2, h1, hl]

/-- The elements of the ILCD file written for a name and a short name, as they are read again. -/
def written (l s x : Str) : List Item :=
  [.baseName (reread (l, s)), .namePart (reread (c!"en", x)), .location x]

/-- C118 and C119, there and back: the name is kept and its identifier is computed of it; the location is kept, and
its identifier is the listed one or computed. -/
theorem there_and_back {env : Env} {langs : List Str} {n m : Int} {l s l' x g : Str} (hl : l.length = 2)
    (hm : l ∈ langs) (he : c!"en" ∈ langs) (hs : Visible s) (hsl : s.length ≤ 120) (hx : Visible x)
    (hxl : x.length ≤ 40) (hg : PlaceId env.hash x g) (hu : uuidOk (env.hash x) = true)
    (sent sent' : Str → List Str) :
    ∃ i, toIlcd langs n m [reread (l, s)] [reread (l', x)] = .ok i ∧
      endMulti ilcdString false sent i.base = .ok [(l, s)] ∧ endMulti ilcdString false sent i.mix = .ok [(c!"en", x)] ∧
      i.location = some x ∧
    ∃ st, convert env (written l s x) none [] = .ok st ∧ writtenName false sent' st = .ok (some (l, s)) ∧
      st.nameId = some (env.hash s) ∧ st.geoId = some g ∧ st.shortname = [⟨1, c!"en", x⟩] := by
  refine ⟨_, to_ilcd hl hm he, written_shown hs (by omega) _ _, written_shown hx (by omega) _ _, rfl, ?_⟩
  obtain ⟨s3, h3⟩ := (location_accepted (env := env) (x := x)
    (st := withName (withName (setNameId {} (some (env.hash s))) l s) c!"en" x) rfl rfl).2 (.inr hu)
  have hr : run env {} (written l s x) = .ok s3 := by
    refine run_cons.2 ⟨_, step_base.2 ⟨_, l, s, rfl, says_reread (l, s), hl, rfl⟩, run_cons.2
      ⟨_, step_part.2 ⟨c!"en", x, says_reread (c!"en", x), rfl, rfl⟩, run_cons.2 ⟨s3, h3, rfl⟩⟩⟩
  obtain ⟨g', hg', -, -, -, e⟩ := step_location.1 h3
  have hc : convert env (written l s x) none [] = .ok { s3 with
      systemId := some c!"8b738ea0-f89e-4627-8679-433616064e82"
      indexSystemId := some c!"8b738ea0-f89e-4627-8679-433616064e82" } :=
    convert_iff.2 ⟨s3, (c!"8b738ea0-f89e-4627-8679-433616064e82", c!"Undefined"), hr, rfl, by decide,
      by rw [e]; rfl, by rw [e]; rfl, rfl⟩
  have hparts : Parts (written l s x) [(l, s), (c!"en", x)] :=
    ⟨[(l, s), (c!"en", x)], .cons (.base (says_reread (l, s))) (.cons (.part (says_reread (c!"en", x))) .nil),
      by simp [List.filter_cons, hs, hx]⟩
  obtain ⟨h6, h7⟩ := id_of_name_partial hc hparts false sent' (.inl hsl) ⟨reread (l, s), by simp [written]⟩ (by
    intro y l' t hy ht
    simp only [written, List.mem_cons, Item.baseName.injEq, reduceCtorEq, List.not_mem_nil, or_false] at hy
    subst hy
    exact (says_unique ht (says_reread (l, s))).2) (by
    intro y l' t u hy
    simp [written] at hy)
  refine ⟨_, hc, h6, h7, ?_, ?_⟩
  · obtain ⟨⟨g'', k1, k2, -⟩, -, -⟩ := place_identified hc (x := x) (by simp [written])
    rw [k2]
    have hun : ∀ a b, PlaceId env.hash x a → PlaceId env.hash x b → a = b := by
      intro a b ha hb
      rcases ha with ha | ⟨ha, rfl⟩ <;> rcases hb with hb | ⟨hb, rfl⟩
      · rw [← aget_listed] at ha hb; rw [ha] at hb; injection hb
      · rw [← aget_listed] at ha; rw [← aget_unlisted, ha] at hb; cases hb
      · rw [← aget_listed] at hb; rw [← aget_unlisted, hb] at ha; cases ha
      · rfl
    rw [hun _ _ k1 hg]
  · rw [(place_identified hc (x := x) (by simp [written])).2.1]
    simp [shown, hx]

/-- C118 there and back: an English name is in the master data with the short name of the location behind it. -/
theorem back_other_name {env : Env} {s x : Str} (hs : Visible s) (hx : Visible x) {st : State}
    (h : convert env (written c!"en" s x) none [] = .ok st) (sent : Str → List Str) :
    writtenName true sent st = .ok (some (c!"en", s)) ∧
      writtenMaster true sent st = .ok [(c!"en", s ++ c!"; " ++ x)] := by
  have hparts : Parts (written c!"en" s x) [(c!"en", s), (c!"en", x)] :=
    ⟨[(c!"en", s), (c!"en", x)], .cons (.base (says_reread (c!"en", s)))
      (.cons (.part (says_reread (c!"en", x))) .nil), by simp [List.filter_cons, hs, hx]⟩
  refine ⟨name_first_partial h hparts true sent (.inr rfl), ?_⟩
  obtain ⟨out, h1, h2, h3, h4⟩ := master_joined_partial h hparts true sent fun _ _ => .inr rfl
  rw [h1]
  have hfst : ∀ q ∈ out, q = (c!"en", s ++ c!"; " ++ x) := by
    intro q hq
    have he : q.1 = c!"en" := by simpa using (h3 q.1).1 (List.mem_map_of_mem hq)
    refine Prod.ext he ?_
    rw [h4 q hq, he]
    simp [inLang, join]
  cases out with
  | nil => have := (h3 c!"en").2 (by simp); cases this
  | cons a out =>
    cases out with
    | nil => rw [hfst a (by simp)]
    | cons b out =>
      rw [hfst a (by simp), hfst b (by simp)] at h2
      exact absurd ((List.pairwise_cons.1 h2).1 c!"en" (by simp)) (not_before_self _)

/-- C119 in full is false: a location that is not listed comes back with another identifier than it had, unless it
had the computed one. -/
theorem unlisted_place_renumbered {env : Env} {x g₀ : Str} (hu : Unlisted x) (hne : g₀ ≠ env.hash x) :
    ¬ PlaceId env.hash x g₀ := by
  rintro (hl | ⟨-, h⟩)
  · rw [← aget_listed] at hl
    rw [← aget_unlisted, hl] at hu
    cases hu
  · exact hne h

/-- Two short names of a location, in two languages, stop the conversion to ILCD. -/
theorem two_shortnames_stop {langs : List Str} {n m : Int} {names : List PyVal} {a b : PyVal} {more : List PyVal} :
    ∃ e, toIlcd langs n m names (a :: b :: more) = .error e := by
  cases h : toIlcd langs n m names (a :: b :: more) with
  | error e => exact ⟨e, rfl⟩
  | ok i =>
    simp only [toIlcd, toIlcd.go, bind_ok] at h
    obtain ⟨st, -, s1, h1, s2, h2, -⟩ := h
    simp only [ilcdShortname, bind_ok, setOnce_iff, pure_ok] at h1 h2
    obtain ⟨t1, -, _, ⟨-, -, rfl⟩, m1, -, rfl⟩ := h1
    obtain ⟨t2, -, _, ⟨h3, -, -⟩, -⟩ := h2
    cases h3

/-! ### C120: the synonyms -/

open Verif.Comments (splitSemi splitSemi_plain startsWith_prefix not_infix_tail)

theorem splitSemi_sep : ∀ {t : Str} (r : Str), ¬ c!"; " <:+: t →
    splitSemi false (t ++ (c!"; " ++ r)) = t :: splitSemi false r
  | [], r, _ => by
    have h : startsWith c!"; " (';' :: ' ' :: r) = true := by
      rw [startsWith_prefix]; exact ⟨r, rfl⟩
    show splitSemi false (';' :: ' ' :: r) = _
    rw [splitSemi.eq_def]
    simp only [h, if_true]
    rfl
  | c :: t, r, h => by
    have h1 : startsWith c!"; " (c :: (t ++ (c!"; " ++ r))) = false := by
      rw [Bool.eq_false_iff, ne_eq, startsWith_prefix]
      intro h2
      cases t with
      | nil => simp [List.cons_prefix_cons] at h2
      | cons d t =>
        apply h
        simp [List.cons_prefix_cons] at h2
        obtain ⟨rfl, rfl⟩ := h2
        exact ⟨[], t, rfl⟩
    rw [List.cons_append, splitSemi.eq_def]
    simp only [h1, Bool.false_eq_true, if_false, splitSemi_sep r (not_infix_tail h)]

theorem splitSemi_join : ∀ {ts : List Str}, ts ≠ [] → (∀ t ∈ ts, ¬ c!"; " <:+: t) →
    splitSemi false (join c!"; " ts) = ts
  | [t], _, h => by simpa [join] using splitSemi_plain (h t (by simp))
  | t :: t' :: ts, _, h => by
    have ih := splitSemi_join (ts := t' :: ts) (by simp) fun u hu => h u (List.mem_cons_of_mem _ hu)
    have : join c!"; " (t :: t' :: ts) = t ++ (c!"; " ++ join c!"; " (t' :: ts)) := by simp [join]
    rw [this, splitSemi_sep _ (h t (by simp)), ih]

/-- The synonyms of an EcoSpold2 file as held for ILCD. -/
theorem ilcdSynonyms_ok {langs : List Str} : ∀ {ps : List (Str × Str)} (st : List Entry),
    (∀ p ∈ ps, p.1.length = 2 ∧ p.1 ∈ langs ∧ Visible p.2) →
      ilcdSynonyms langs st (ps.map reread) = .ok (addMerged unlimited st (ps.map entry1))
  | [], st, _ => rfl
  | (l, s) :: ps, st, h => by
    obtain ⟨h1, h2, h3⟩ := h (l, s) (by simp)
    have ih := ilcdSynonyms_ok (langs := langs) (ps := ps) (addMerged unlimited st (shown 1 l s))
      fun p hp => h p (List.mem_cons_of_mem _ hp)
    rw [List.map_cons, ilcdSynonyms]
    refine bind_ok.2 ⟨_, (says_iff _ 1 l s).1 (says_reread (l, s)), bind_ok.2 ⟨_, (add_entry _ _ _ _ _ _ _).2
      ⟨l, rfl, h1, by intro ls h; injection h with h; exact h ▸ h2, rfl⟩, ?_⟩⟩
    rw [ih]
    simp only [shown, if_pos h3, addMerged, List.map_cons, List.foldl_cons, List.foldl_nil]
    rfl

theorem joined_unlimited (ps : List (Str × Str)) (hv : ∀ p ∈ ps, Visible p.2) :
    Joined ps (byLang (addMerged unlimited [] (ps.map entry1))) :=
  joined_entries rfl ps hv

theorem endValidate_unlimited {κ : Type} {ignore : Bool} (sent : Str → List Str) :
    ∀ {l : List (κ × Str)}, (∀ p ∈ l, p.2.length ≤ 100000000) → endValidate unlimited ignore sent l = .ok l
  | [], _ => rfl
  | (k, s) :: l, h => by
    have ih := endValidate_unlimited (ignore := ignore) sent (l := l) fun p hp => h p (List.mem_cons_of_mem _ hp)
    have h1 : s.length ≤ 100000000 := h (k, s) (by simp)
    have h2 : pieces unlimited ignore sent s = .ok [s] := by
      simp [pieces, unlimited, Validators.limEnd, Validators.Limit.holds, h1]
    simp only [endValidate, h2, ih]
    rfl

/-- The entries of texts with running numbers. -/
def numberedEntries : Int → List Str → List Entry
  | _, [] => []
  | n, t :: ts => ⟨n, c!"en", t⟩ :: numberedEntries (n + 1) ts

theorem numberedEntries_append : ∀ (n : Int) (a b : List Str),
    numberedEntries n (a ++ b) = numberedEntries n a ++ numberedEntries (n + a.length) b
  | n, [], b => by simp [numberedEntries]
  | n, t :: a, b => by
    simp only [List.cons_append, numberedEntries, numberedEntries_append (n + 1) a b, List.length_cons]
    congr 3
    push_cast
    omega

theorem numbered_valid : ∀ (n : Int) (ts : List Str), (∀ t ∈ ts, Visible t) →
    validateAll (validateEntry none) (synonymsBack.numbered n ts) = .ok (numberedEntries n ts)
  | n, [], _ => rfl
  | n, t :: ts, h => by
    have h1 : validateEntry none (entryDict n (.str c!"en") t) = .ok ⟨n, c!"en", t⟩ :=
      (validate_entry none n (.str c!"en") t ⟨n, c!"en", t⟩).2 ⟨_, rfl, rfl, by simp, rfl⟩
    simp only [synonymsBack.numbered, validateAll, h1, numbered_valid (n + 1) ts fun u hu => h u (by simp [hu])]
    rfl

theorem numberedEntries_text : ∀ (n : Int) (ts : List Str), (numberedEntries n ts).map (·.text) = ts
  | _, [] => rfl
  | n, t :: ts => by simp [numberedEntries, numberedEntries_text (n + 1) ts]

theorem numberedEntries_mem : ∀ {n : Int} {ts : List Str} {e : Entry}, e ∈ numberedEntries n ts → n ≤ e.index ∧ e.text ∈ ts
  | _, [], _, h => by cases h
  | n, t :: ts, e, h => by
    rcases List.mem_cons.1 h with rfl | h
    · simp
    · obtain ⟨h1, h2⟩ := numberedEntries_mem h
      exact ⟨by omega, List.mem_cons_of_mem _ h2⟩

theorem numberedEntries_sorted : ∀ (n : Int) (ts : List Str),
    (numberedEntries n ts).Pairwise fun a b => byIndex a b = true
  | _, [] => .nil
  | n, t :: ts => by
    refine List.pairwise_cons.2 ⟨?_, numberedEntries_sorted (n + 1) ts⟩
    intro e he
    have := (numberedEntries_mem he).1
    simp only [byIndex, decide_eq_true_eq]
    omega

theorem numberedEntries_written : ∀ (n : Int) (ts : List Str),
    ((numberedEntries n ts).map fun e => (e.lang, e.text)) = ts.map fun t => (c!"en", t)
  | _, [] => rfl
  | n, t :: ts => by simp [numberedEntries, numberedEntries_written (n + 1) ts]

/-- The synonyms of an ILCD file, the texts of which are joined synonyms. -/
theorem synonymsBack_ok (ts : Str × Str → List Str) : ∀ (n : Int) (st : List Entry) (qs : List (Str × Str)),
    (∀ q ∈ qs, q.2 = join c!"; " (ts q) ∧ ts q ≠ [] ∧ ∀ t ∈ ts q, ¬ c!"; " <:+: t ∧ Visible t) →
      synonymsBack n st (qs.map reread) = .ok (st ++ numberedEntries n (qs.flatMap ts))
  | n, st, [], _ => by simp [synonymsBack, numberedEntries]
  | n, st, q :: qs, h => by
    obtain ⟨h1, h2, h3⟩ := h q (by simp)
    have hsp : splitSemi false q.2 = ts q := by rw [h1]; exact splitSemi_join h2 fun t ht => (h3 t ht).1
    have ht : textAt (reread q) = .ok q.2 := rfl
    have ha : addName st (.list (synonymsBack.numbered n (ts q))) = .ok (st ++ numberedEntries n (ts q)) := by
      have hall : ∀ e ∈ numberedEntries n (ts q), notBlank e.text = true := fun e he =>
        (notBlank_iff _).2 (h3 _ (numberedEntries_mem he).2).2
      simp only [addName, addPlain, retrieve, asList, numbered_valid n (ts q) fun t ht => (h3 t ht).2,
        List.filter_eq_self.2 hall]
    rw [List.map_cons, synonymsBack]
    refine bind_ok.2 ⟨_, ht, ?_⟩
    rw [hsp]
    refine bind_ok.2 ⟨_, ha, ?_⟩
    rw [synonymsBack_ok ts _ _ qs fun q hq => h q (List.mem_cons_of_mem _ hq), List.flatMap_cons,
      numberedEntries_append, List.append_assoc]

theorem numbered_synonyms (n : Int) (ts : List Str) (ignore : Bool) (sent : Str → List Str) :
    endSynonyms (base 80) ignore sent 80 (numberedEntries n ts) =
      .ok ((ts.filter fun t => t.length ≤ 80).map fun t => (c!"en", t)) := by
  simp only [endSynonyms, sortedPlain, sortBy_sorted_self byIndex (numberedEntries_sorted n ts),
    numberedEntries_written]
  rw [List.filter_map]
  refine endValidate_base sent ?_
  intro p hp
  obtain ⟨t, ht, rfl⟩ := List.mem_map.1 hp
  exact .inl (by simpa using (List.mem_filter.1 ht).2)

/-- The synonyms after conversion to ILCD and back. -/
def synonymsThereAndBack (langs : List Str) (n : Int) (ignore : Bool) (sent : Str → List Str)
    (ps : List (Str × Str)) : Py (List (Str × Str)) :=
  ilcdSynonyms langs [] (ps.map reread) >>= fun held =>
    endMulti unlimited ignore sent held >>= fun out =>
      synonymsBack n [] (out.map reread) >>= fun entries => endSynonyms (base 80) ignore sent 80 entries

/-- C120, what holds: each synonym of at most eighty characters comes back, as an English one, language by language
and in the order of the file within a language. -/
theorem synonyms_back_partial {langs : List Str} {n : Int} {ps : List (Str × Str)} (ignore : Bool)
    (sent : Str → List Str)
    (h : ∀ p ∈ ps, p.1.length = 2 ∧ p.1 ∈ langs ∧ Visible p.2 ∧ ¬ c!"; " <:+: p.2)
    (hl : ∀ L, (join c!"; " (inLang L ps)).length ≤ 100000000) :
    ∃ Ls : List Str, Ls.Pairwise Before ∧ (∀ L, L ∈ Ls ↔ L ∈ ps.map Prod.fst) ∧
      synonymsThereAndBack langs n ignore sent ps = .ok (((Ls.flatMap fun L => inLang L ps).filter
        fun t => t.length ≤ 80).map fun t => (c!"en", t)) := by
  have hj := joined_unlimited ps fun p hp => (h p hp).2.2.1
  generalize hout : byLang (addMerged unlimited [] (ps.map entry1)) = out at hj
  refine ⟨out.map Prod.fst, hj.1, hj.2.1, ?_⟩
  refine bind_ok.2 ⟨_, ilcdSynonyms_ok [] fun p hp => ⟨(h p hp).1, (h p hp).2.1, (h p hp).2.2.1⟩, bind_ok.2 ⟨out, ?_,
    bind_ok.2 ⟨_, synonymsBack_ok (fun q => inLang q.1 ps) n [] out ?_, ?_⟩⟩⟩
  · rw [endMulti, hout]
    exact endValidate_unlimited sent fun q hq => by rw [hj.2.2 q hq]; exact hl q.1
  · intro q hq
    refine ⟨hj.2.2 q hq, ?_, ?_⟩
    · intro h0
      obtain ⟨p, hp, he⟩ := List.mem_map.1 ((hj.2.1 _).1 (List.mem_map_of_mem hq))
      have : p.2 ∈ inLang q.1 ps := List.mem_map.2 ⟨p, List.mem_filter.2 ⟨hp, by simpa using he⟩, rfl⟩
      rw [h0] at this
      cases this
    · intro t ht
      obtain ⟨p, hp, rfl⟩ := List.mem_map.1 ht
      have := h p (List.mem_filter.1 hp).1
      exact ⟨this.2.2.2, this.2.2.1⟩
  · rw [List.nil_append, numbered_synonyms, List.flatMap_map]

/-- English synonyms of at most eighty characters are kept as they are. -/
theorem english_synonyms_kept {langs : List Str} {n : Int} {ps : List (Str × Str)} (ignore : Bool)
    (sent : Str → List Str) (he : c!"en" ∈ langs)
    (h : ∀ p ∈ ps, p.1 = c!"en" ∧ Visible p.2 ∧ p.2.length ≤ 80 ∧ ¬ c!"; " <:+: p.2)
    (hl : (join c!"; " (ps.map Prod.snd)).length ≤ 100000000) :
    synonymsThereAndBack langs n ignore sent ps = .ok ps := by
  have hin : inLang c!"en" ps = ps.map Prod.snd := by
    rw [inLang, List.filter_eq_self.2 fun p hp => by simpa using (h p hp).1]
  have hno : ∀ L, L ≠ c!"en" → inLang L ps = [] := by
    intro L hL
    rw [inLang, List.filter_eq_nil_iff.2 fun p hp => by
      rw [decide_eq_true_eq, (h p hp).1]; exact fun e => hL e.symm]
    rfl
  obtain ⟨Ls, h1, h2, h3⟩ := synonyms_back_partial (langs := langs) (n := n) (ps := ps) ignore sent
    (fun p hp => ⟨by rw [(h p hp).1]; rfl, by rw [(h p hp).1]; exact he, (h p hp).2.1, (h p hp).2.2.2⟩) (by
      intro L
      by_cases hL : L = c!"en"
      · rw [hL, hin]; exact hl
      · rw [hno L hL]; simp [join])
  rw [h3]
  have hLs : Ls.flatMap (fun L => inLang L ps) = ps.map Prod.snd := by
    cases Ls with
    | nil =>
      cases ps with
      | nil => rfl
      | cons p ps => have := (h2 p.1).2 (by simp); cases this
    | cons L Ls =>
      have hen : ∀ M ∈ L :: Ls, M = c!"en" := by
        intro M hM
        obtain ⟨p, hp, rfl⟩ := List.mem_map.1 ((h2 M).1 hM)
        exact (h p hp).1
      cases Ls with
      | nil => rw [hen L (by simp)]; simp [hin]
      | cons M Ls =>
        rw [hen L (by simp), hen M (by simp)] at h1
        exact absurd ((List.pairwise_cons.1 h1).1 c!"en" (by simp)) (not_before_self _)
  rw [hLs, List.filter_map, List.filter_eq_self.2 fun p hp => by simpa using (h p hp).2.2.1, List.map_map]
  refine congrArg _ ((List.map_congr_left ?_).trans (List.map_id ps))
  intro p hp
  exact Prod.ext (h p hp).1.symm rfl

/-- C120 in full is false: a synonym of any other language comes back as an English one. -/
theorem synonym_turned_english {langs : List Str} {n : Int} {l s : Str} (ignore : Bool) (sent : Str → List Str)
    (h1 : l.length = 2) (h2 : l ∈ langs) (hv : Visible s) (hs : ¬ c!"; " <:+: s) (hl : s.length ≤ 80) :
    synonymsThereAndBack langs n ignore sent [(l, s)] = .ok [(c!"en", s)] := by
  obtain ⟨Ls, h3, h4, h5⟩ := synonyms_back_partial (langs := langs) (n := n) (ps := [(l, s)]) ignore sent
    (by intro p hp; simp at hp; subst hp; exact ⟨h1, h2, hv, hs⟩) (by
      intro L
      by_cases hL : l = L
      · simp [inLang, hL, join]; omega
      · simp [inLang, hL, join])
  have hLs : Ls = [l] := by
    have hen : ∀ M ∈ Ls, M = l := by intro M hM; simpa using (h4 M).1 hM
    cases Ls with
    | nil => have := (h4 l).2 (by simp); cases this
    | cons L Ls =>
      cases Ls with
      | nil => rw [hen L (by simp)]
      | cons M Ls =>
        rw [hen L (by simp), hen M (by simp)] at h3
        exact absurd ((List.pairwise_cons.1 h3).1 l (by simp)) (not_before_self _)
  rw [h5, hLs]
  simp [inLang, List.filter_cons, hl]

/-- And a synonym with a semicolon and a space in it comes back as two. -/
theorem synonym_divided {langs : List Str} {n : Int} {a b : Str} (ignore : Bool) (sent : Str → List Str)
    (he : c!"en" ∈ langs) (ha : Visible a) (hb : Visible b) (ha' : ¬ c!"; " <:+: a) (hb' : ¬ c!"; " <:+: b)
    (hl : a.length + b.length ≤ 78) :
    synonymsThereAndBack langs n ignore sent [(c!"en", a ++ c!"; " ++ b)] = .ok [(c!"en", a), (c!"en", b)] := by
  have hv : Visible (a ++ c!"; " ++ b) := by
    obtain ⟨c, hc, hs⟩ := ha
    exact ⟨c, by simp [hc], hs⟩
  have hps : ∀ p ∈ [(c!"en", a ++ c!"; " ++ b)], p.1.length = 2 ∧ p.1 ∈ langs ∧ Visible p.2 := by
    intro p hp; simp only [List.mem_singleton] at hp; subst hp; exact ⟨rfl, he, hv⟩
  refine bind_ok.2 ⟨_, ilcdSynonyms_ok [] hps, bind_ok.2 ⟨[(c!"en", a ++ c!"; " ++ b)], ?_,
    bind_ok.2 ⟨_, synonymsBack_ok (fun _ => [a, b]) n [] _ ?_, ?_⟩⟩⟩
  · have : byLang (addMerged unlimited [] ([(c!"en", a ++ c!"; " ++ b)].map entry1)) = [(c!"en", a ++ c!"; " ++ b)] := by
      simp [addMerged, mergeOne, byLang, sortBy, insertBy, entry1, concatLang]
    rw [endMulti, this]
    refine endValidate_unlimited sent ?_
    intro p hp
    simp only [List.mem_singleton] at hp
    subst hp
    simp
    omega
  · intro q hq
    simp only [List.mem_singleton] at hq
    subst hq
    refine ⟨by simp [join], by simp, ?_⟩
    intro t ht
    simp only [List.mem_cons, List.not_mem_nil, or_false] at ht
    rcases ht with rfl | rfl
    · exact ⟨ha', ha⟩
    · exact ⟨hb', hb⟩
  · rw [List.nil_append, numbered_synonyms]
    have h1 : a.length ≤ 80 := by omega
    have h2 : b.length ≤ 80 := by omega
    simp [List.filter_cons, h1, h2]

/-! ### C121: names without a language -/

/-- A base name is accepted if and only if it is read as a dictionary with its text and a language of two letters, or
none. -/
theorem base_name_iff {env : Env} {st : State} {x : PyVal} :
    (∃ st', step env st (.baseName x) = .ok st') ↔ ∃ d l s, x = .dict d ∧ Says x l s ∧ l.length = 2 := by
  constructor
  · rintro ⟨st', h⟩
    obtain ⟨d, l, s, h1, h2, h3, -⟩ := step_base.1 h
    exact ⟨d, l, s, h1, h2, h3⟩
  · rintro ⟨d, l, s, h1, h2, h3⟩
    exact ⟨_, step_base.2 ⟨d, l, s, h1, h2, h3, rfl⟩⟩

/-- Any other part of the name is accepted also as a bare text. -/
theorem name_part_iff {env : Env} {st : State} {x : PyVal} :
    (∃ st', step env st (.namePart x) = .ok st') ↔ ∃ l s, Says x l s ∧ l.length = 2 := by
  constructor
  · rintro ⟨st', h⟩
    obtain ⟨l, s, h2, h3, -⟩ := step_part.1 h
    exact ⟨l, s, h2, h3⟩
  · rintro ⟨l, s, h2, h3⟩
    exact ⟨_, step_part.2 ⟨l, s, h2, h3, rfl⟩⟩

theorem run_stops {env : Env} {items : List Item} {i : Item} (hi : i ∈ items)
    (h : ∀ st st', step env st i ≠ .ok st') : ∀ (st st' : State), run env st items ≠ .ok st' := by
  intro st st' hr
  obtain ⟨pre, post, rfl⟩ := List.append_of_mem hi
  obtain ⟨s1, -, h3⟩ := run_append.1 hr
  obtain ⟨s2, h4, -⟩ := run_cons.1 h3
  exact h s1 s2 h4

/-- C121 in full is false: a base name without the attribute `xml:lang`, which ILCD allows and means English, stops the
conversion, whatever else the file has; the same for a synonym. -/
theorem bare_name_stops {env : Env} {items : List Item} {tag s : Str} {original : Option Str} {approaches : List Str}
    (ht : Xml.Spec.Name (Xml.localName tag)) (hs : Xml.Spec.Visible s)
    (h : .baseName (Xml.elem2dict (PlaceIndex.bareText tag s)) ∈ items) :
    ∀ st, convert env items original approaches ≠ .ok st := by
  intro st hc
  obtain ⟨st0, m, h1, -⟩ := convert_iff.1 hc
  refine run_stops h ?_ _ _ h1
  intro a b hab
  rw [(PlaceIndex.no_language_refused 0 tag s none (base 0) [] ht hs).1] at hab
  obtain ⟨d, -, -, hd, -⟩ := step_base.1 hab
  cases hd

/-! ### A data set that meets the hypotheses -/

/-- Every computed identifier is the same one. -/
def exEnv : Env := ⟨fun _ => c!"123e4567-e89b-12d3-a456-426614174000", .ok, fun _ => true⟩

/-- Two parts of a name, a comment with an identifier of the name, and a location. -/
def exItems : List Item :=
  [.uuid c!"123e4567-e89b-12d3-a456-426614174001", .baseName (reread (c!"en", c!"steel production")),
    .namePart (.str c!"from scrap"),
    .comment (reread (c!"en", c!"Activity Linkable Id: 123e4567-e89b-12d3-a456-426614174002\nA text.")),
    .year c!"2010", .validUntil c!"2015", .location c!"BR"]

/-- The same without the comment, in a place that is not listed. -/
def exItems' : List Item :=
  [.baseName (reread (c!"en", c!"steel production")), .namePart (.str c!"from scrap"), .location c!"Here"]

def accepted {α : Type} : Py α → Bool
  | .ok _ => true
  | .error _ => false

theorem accepted_iff {α : Type} {x : Py α} : accepted x = true ↔ ∃ a, x = .ok a := by
  cases x <;> simp [accepted]

/-- `index_agrees`, `name_id`, `place_identified`. -/
example : (∃ st, convert exEnv exItems none [] = .ok st) ∧ .location c!"BR" ∈ exItems ∧
    ∃ g, Listed c!"BR" g := by
  refine ⟨accepted_iff.1 (by decide +kernel), by simp [exItems], ?_⟩
  have : ∃ g, aget c!"BR" geographies = some g := Option.isSome_iff_exists.1 (by decide +kernel)
  obtain ⟨g, hg⟩ := this
  exact ⟨g, aget_listed.1 hg⟩

/-- `place_identified` and `location_accepted`, a location that is not listed. -/
example : (∃ st, convert exEnv exItems' none [] = .ok st) ∧ .location c!"Here" ∈ exItems' ∧ Unlisted c!"Here" ∧
    uuidOk (exEnv.hash c!"Here") = true :=
  ⟨accepted_iff.1 (by decide +kernel), by simp [exItems'], aget_unlisted.1 (by decide +kernel), by decide +kernel⟩

theorem exItems_parts : Parts exItems [(c!"en", c!"steel production"), (c!"en", c!"from scrap")] :=
  ⟨[(c!"en", c!"steel production"), (c!"en", c!"from scrap")],
    .cons (.base (says_reread (c!"en", c!"steel production"))) (.cons (.part (.bare _)) .nil), by decide⟩

/-- `name_first_partial`, `master_joined_partial`, `master_other_name`. -/
example : Parts exItems [(c!"en", c!"steel production"), (c!"en", c!"from scrap")] ∧
    (join c!"; " (inLang c!"en" [(c!"en", c!"steel production"), (c!"en", c!"from scrap")])).length ≤ 120 :=
  ⟨exItems_parts, by decide⟩

/-- `id_of_name_partial`. -/
example : Parts exItems' [(c!"en", c!"steel production"), (c!"en", c!"from scrap")] ∧
    (∃ x, .baseName x ∈ exItems') ∧
    (∀ x l' t, .baseName x ∈ exItems' → Says x l' t → t = c!"steel production") ∧
    (∀ x l' t u, .comment x ∈ exItems' → Says x l' t → ¬ Link t u) := by
  refine ⟨⟨[(c!"en", c!"steel production"), (c!"en", c!"from scrap")],
    .cons (.base (says_reread (c!"en", c!"steel production"))) (.cons (.part (.bare _)) .nil), by decide⟩,
    ⟨reread (c!"en", c!"steel production"), by simp [exItems']⟩, ?_, ?_⟩
  · intro x l t hx ht
    simp only [exItems', List.mem_cons, Item.baseName.injEq, reduceCtorEq, List.not_mem_nil, or_false] at hx
    subst hx
    exact (says_unique ht (says_reread _)).2
  · intro x l t u hx
    simp [exItems'] at hx

theorem exUuid : Validators.Spec.UuidText c!"123e4567-e89b-12d3-a456-426614174002" := by
  obtain ⟨x, y, h, hx⟩ := (Validators.Re.isMatch_iff Validators.uuidRe
    c!"123e4567-e89b-12d3-a456-426614174002").1 (by decide +kernel)
  rw [Validators.uuidRe_lang] at hx
  have hl := congrArg List.length h
  rw [List.length_append, Validators.uuidText_length hx] at hl
  have hy : y = [] := List.length_eq_zero_iff.1 (by
    have e : (c!"123e4567-e89b-12d3-a456-426614174002").length = 36 := rfl
    rw [e] at hl; omega)
  rw [hy, List.append_nil] at h
  rw [h]
  exact hx

/-- `linked_id`. -/
example : Link c!"Activity Linkable Id: 123e4567-e89b-12d3-a456-426614174002\nA text."
    c!"123e4567-e89b-12d3-a456-426614174002" :=
  ⟨[], c!"A text.", rfl, exUuid, fun _ _ _ _ _ => Nat.zero_le _⟩

/-- `name_first_id_last`, `id_of_other_name`. -/
example : ((c!"en", c!"steel") : Str × Str).1.length = 2 ∧ ((c!"de", c!"Stahl") : Str × Str).1.length = 2 ∧
    Visible c!"steel" ∧ c!"steel" ≠ c!"Stahl" := by decide

/-- `there_and_back`, `back_other_name`. -/
example : PlaceId exEnv.hash c!"Here" (exEnv.hash c!"Here") ∧ Visible c!"steel" ∧
    ∃ st, convert exEnv (written c!"en" c!"steel" c!"Here") none [] = .ok st :=
  ⟨.inr ⟨aget_unlisted.1 (by decide +kernel), rfl⟩, by decide, accepted_iff.1 (by decide +kernel)⟩

/-- `synonyms_back_partial`, `english_synonyms_kept`, `synonym_turned_english`, `synonym_divided`. -/
example : (¬ c!"; " <:+: c!"steel;") ∧ Visible c!"steel;" ∧
    (join c!"; " (([(c!"en", c!"steel;"), (c!"en", c!"iron")] : List (Str × Str)).map Prod.snd)).length ≤ 100000000 := by
  decide

/-- `bare_name_stops`. -/
example : Xml.Spec.Name (Xml.localName c!"{http://lca.jrc.it/ILCD/Process}baseName") ∧ Xml.Spec.Visible c!"Steel" :=
  ⟨by decide, 'S', by decide, by decide⟩

/-- An identifier is accepted iff a prefix of it has the form of one: what follows is not looked at. -/
theorem uuidOk_iff (s : Str) : uuidOk s = true ↔ ∃ u r, s = u ++ r ∧ Validators.Spec.UuidText u := by
  unfold uuidOk
  rw [Validators.Re.isMatch_iff]
  constructor
  · rintro ⟨u, r, h, hu⟩
    exact ⟨u, r, h, (Validators.uuidRe_lang u).1 hu⟩
  · rintro ⟨u, r, h, hu⟩
    exact ⟨u, r, h, (Validators.uuidRe_lang u).2 hu⟩

/-- The values of which `return_text` takes a text: a text, an element with a text, or a list that begins with such an
element. An empty list is an error, and so is a list that begins with a plain text. -/
theorem returnText_iff (v : PyVal) (s : Str) : returnText v = .ok s ↔
    v = .str s ∨ ∃ d, aget c!"#text" d = some (.str s) ∧ (v = .dict d ∨ ∃ l, v = .list (.dict d :: l)) := by
  have ht : ∀ w, textAt w = .ok s ↔ ∃ d, aget c!"#text" d = some (.str s) ∧ w = .dict d := by
    intro w
    cases w with
    | dict d =>
      simp only [textAt, PyVal.dict.injEq, exists_eq_right']
      cases h : aget c!"#text" d with
      | none => simp
      | some x => cases x <;> simp
    | _ => simp [textAt]
  cases v with
  | dict d => simp only [returnText, ht]; simp
  | list l =>
    cases l with
    | nil => simp [returnText]
    | cons w l =>
      simp only [returnText, ht]
      simp
  | _ => simp [returnText]

end Verif.Naming
