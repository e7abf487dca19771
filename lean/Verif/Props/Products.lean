/-
Products of an EcoSpold2 data set: C148 (production volumes are stated), C149 (with their uncertainty), C150 (links to
activities and CAS numbers), C151 (names and synonyms).
-/
import Verif.Lemmas.Products
import Verif.Model.Schema

namespace Verif.Products

open Verif.Xml Verif.Shapes
open Verif.Xml.Spec (WellNamed Name)
open Verif.Shapes.Spec (Text)
open Verif.Products.Spec (attr kids Texts States)

/-! ### C148: the volumes -/

/-- A product and its element: well-formed, with the names `t :: l`, of which the first can be read. -/
structure Of (p : Product) (e : Elem) (t : Text) (l : List Text) : Prop where
  wellNamed : WellNamed e
  attrs : e.attrs ≠ []
  dict : elem2dict e = .dict p.dict
  names : Texts e c!"name" (t :: l)
  readable : t.lang ≠ none ∨ (l = [] ∧ t.content ≠ [])
  uncertainty : ∀ err, p.unc ≠ some (.error err)

theorem uncText_nil (std : UncKind → Str) (u : Option (Py UncKind)) (h : ∀ err, u ≠ some (.error err)) :
    uncText std u = .ok [] := by
  cases u with
  | none => rfl
  | some r =>
    cases r with
    | error e => exact absurd rfl (h e)
    | ok k => cases k <;> rfl

/-- **C148** The text made for the production volume of a product states its name, the number and the unit; without a
volume there is none. -/
theorem volume_stated {K : Type} (env : Env K) (std : UncKind → Str) {p : Product} {e : Elem} {t : Text}
    {l : List Text} (h : Of p e t l) {o : Option Str} (ho : States env.float env.text p.unit t.content e o) :
    volumeText env std p.unit p.unc p.dict = .ok o := by
  obtain ⟨d, hd, ha, hc⟩ := dict_of e h.wellNamed h.attrs
  have hdd := h.dict
  rw [hd] at hdd
  cases hdd
  obtain ⟨tag, hk⟩ := texts_children h.names
  obtain ⟨v, hv, hr⟩ := returnText_texts tag t l h.readable
  have hn : aget c!"name" p.dict = some v := by rw [hc c!"name" (by decide), hk, hv]
  have hA := ha c!"productionVolumeAmount" (by decide)
  simp only [volumeText, item, hn, hr, bind, Except.bind]
  cases ho with
  | without h =>
    rcases h with h | h <;> rw [h] at hA <;> simp [hA, truthy]
  | volume a k h1 h2 h3 =>
    rw [h1] at hA
    simp only [Option.map_some] at hA
    have hne : a.isEmpty = false := by cases a <;> simp_all
    simp [hA, truthy, toFloat, h3, uncText_nil std p.unc h.uncertainty, hne]

theorem states_notBlank {K : Type} {float : Str → Option K} {text : K → Str} {unit name : Str} {e : Elem} {t : Str}
    (h : States float text unit name e (some t)) : LangText.notBlank t = true := by
  cases h with
  | volume a k h1 h2 h3 =>
    rw [LangText.notBlank_iff]
    exact ⟨'P', by simp, by decide⟩

/-- **C148** The volumes of all products of a data set are stated in one English text, one line for each product with a
volume, in the order of the products, provided the limits of lengths are ignored or the text keeps to them. -/
theorem volumes_stated {K : Type} (env : Env K) (std : UncKind → Str) (langs : Option (List Str))
    (hen : LangText.langOk langs c!"en" = true) (ignore : Bool) (sent : Str → List Str)
    (ps : List (Product × Elem × Text × List Text)) (os : List (Option Str))
    (hp : ∀ p ∈ ps, Of p.1 p.2.1 p.2.2.1 p.2.2.2)
    (hs : List.Forall₂ (fun p o => States env.float env.text p.1.unit p.2.2.1.content p.2.1 o) ps os)
    (hfit : ignore = true ∨ (join c!"\n" (os.filterMap id)).length ≤ 500) :
    ∃ x, volumes env std langs (ps.map Prod.fst) = .ok x ∧
      LangText.endMulti LangText.ilcdString ignore sent x = .ok (Spec.english (os.filterMap id)) := by
  have hv : List.Forall₂ (fun (p : Product) o => volumeText env std p.unit p.unc p.dict = .ok o) (ps.map Prod.fst) os := by
    rw [List.forall₂_map_left_iff]
    refine List.Forall₂.imp ?_ ((List.forall₂_and_left _ _).2 ⟨hp, hs⟩)
    rintro p o ⟨h1, h2⟩
    exact volume_stated env std h1 h2
  have hb : ∀ o ∈ os, ∀ t, o = some t → LangText.notBlank t = true := by
    clear hv hfit hp
    induction hs with
    | nil => simp
    | cons h _ ih =>
      intro o ho t hot
      simp only [List.mem_cons] at ho
      rcases ho with rfl | ho
      · subst hot
        exact states_notBlank h
      · exact ih o ho t hot
  have hne : ∀ t ∈ os.filterMap id, LangText.notBlank t = true := by
    intro t ht
    simp only [List.mem_filterMap, id] at ht
    obtain ⟨o, ho, h⟩ := ht
    exact hb o ho t h
  have := volumesFrom_lines env std langs hen _ os hv hb [] (-1000)
  simp only [List.length_nil, Int.ofNat_zero, Int.add_zero, numbered, List.nil_append] at this
  refine ⟨_, this, ?_⟩
  unfold LangText.endMulti
  rw [byLang_numbered _ _ (fun t ht h => by
    have := hne t ht
    rw [h] at this
    simp [LangText.notBlank] at this)]
  unfold Spec.english
  split
  · rfl
  · rename_i hl
    have hlen : 1 ≤ (join c!"\n" (os.filterMap id)).length := by
      have := LangText.join_ne_nil c!"\n" _ hl (fun t ht h => by
        have := hne t ht
        rw [h] at this
        simp [LangText.notBlank] at this)
      exact List.length_pos_iff.2 this
    generalize join c!"\n" (os.filterMap id) = s at *
    have hp : LangText.pieces LangText.ilcdString ignore sent s = .ok [s] := by
      unfold LangText.pieces LangText.ilcdString
      simp only [LangText.upper]
      rcases hfit with h | h
      · subst h
        simp [Validators.limEnd]
      · have hle : ¬ s.length > 500 := by omega
        have hh : (Validators.Limit.range 1 500).holds s.length = true := by
          simp [Validators.Limit.holds]
          omega
        simp [hle, Validators.limEnd, hh]
    simp [LangText.endValidate, hp]

/-- A volume that is no number stops the conversion. -/
theorem volume_no_number {K : Type} (env : Env K) (std : UncKind → Str) {p : Product} {e : Elem} {t : Text}
    {l : List Text} (h : Of p e t l) {a : Str} (ha : attr e c!"productionVolumeAmount" = some a) (hne : a ≠ [])
    (hf : env.float a = none) : volumeText env std p.unit p.unc p.dict = .error .valueError := by
  obtain ⟨d, hd, hat, hc⟩ := dict_of e h.wellNamed h.attrs
  have hdd := h.dict
  rw [hd] at hdd
  cases hdd
  obtain ⟨tag, hk⟩ := texts_children h.names
  obtain ⟨v, hv, hr⟩ := returnText_texts tag t l h.readable
  have hn : aget c!"name" p.dict = some v := by rw [hc c!"name" (by decide), hk, hv]
  have hA := hat c!"productionVolumeAmount" (by decide)
  rw [ha] at hA
  simp only [Option.map_some] at hA
  have hne : a.isEmpty = false := by cases a <;> simp_all
  simp [volumeText, item, hn, hr, bind, Except.bind, hA, truthy, toFloat, hf, hne]

/-- A first name without a language, beside others or empty, stops the conversion. -/
theorem name_unreadable {K : Type} (env : Env K) (std : UncKind → Str) (p : Product) (e : Elem) (he : WellNamed e)
    (ha : e.attrs ≠ []) (hd : elem2dict e = .dict p.dict) (t : Text) (l : List Text)
    (hn : Texts e c!"name" (t :: l)) (h : ¬(t.lang ≠ none ∨ (l = [] ∧ t.content ≠ []))) :
    (∃ err, volumeText env std p.unit p.unc p.dict = .error err) ∧ ∃ err, flow p.dict = .error err := by
  obtain ⟨d, hd', hat, hc⟩ := dict_of e he ha
  rw [hd'] at hd
  cases hd
  obtain ⟨tag, hk⟩ := texts_children hn
  obtain ⟨v, err, hv, hr⟩ := returnText_stops tag t l h
  have hnm : aget c!"name" p.dict = some v := by rw [hc c!"name" (by decide), hk, hv]
  exact ⟨⟨err, by simp [volumeText, item, hnm, hr, bind, Except.bind]⟩,
    ⟨err, by simp [flow, item, hnm, hr, bind, Except.bind]⟩⟩

/-- A product without a name stops the conversion. -/
theorem no_name {K : Type} (env : Env K) (std : UncKind → Str) (p : Product) (e : Elem) (he : WellNamed e)
    (ha : e.attrs ≠ []) (hd : elem2dict e = .dict p.dict) (hn : kids e c!"name" = []) :
    volumeText env std p.unit p.unc p.dict = .error .keyError ∧ flow p.dict = .error .keyError := by
  obtain ⟨d, hd', -, hc⟩ := dict_of e he ha
  rw [hd'] at hd
  cases hd
  have hnm := hc c!"name" (by decide)
  rw [hn, children] at hnm
  exact ⟨by simp [volumeText, item, hnm, bind, Except.bind], by simp [flow, item, hnm, bind, Except.bind]⟩

/-- **C148** Every comment of a volume is kept in its language, marked as such and in order. -/
theorem volume_comments_kept (dflt : PyVal) (e : Elem) (he : WellNamed e) (ha : e.attrs ≠ [])
    {d : List (Str × PyVal)} (hd : elem2dict e = .dict d) (l : List Text)
    (hl : Texts e c!"productionVolumeComment" l) (hg : ∀ t ∈ l, t.lang ≠ none ∨ t.content ≠ []) :
    volumeComments dflt d = .ok (l.map fun t => (.str t.language, c!"Production Volume Comment: " ++ t.content)) := by
  obtain ⟨d', hd', _, hc⟩ := dict_of e he ha
  rw [hd'] at hd
  cases hd
  obtain ⟨tag, hk⟩ := texts_children hl
  unfold volumeComments
  rw [hc _ (by decide), hk, anyList_texts tag l hg]
  simp only [bind, Except.bind]
  have : ∀ m : List Text, prefixAll dflt c!"Production Volume Comment: " (m.map asDict) =
      .ok (m.map fun t => (.str t.language, c!"Production Volume Comment: " ++ t.content)) := by
    intro m
    induction m with
    | nil => rfl
    | cons t m ih =>
      have h : addIndex dflt c!"Production Volume Comment: " (asDict t) =
          .ok (.str t.language, c!"Production Volume Comment: " ++ t.content) := by simp [asDict, addIndex, aget]
      simp only [List.map_cons, prefixAll, h, bind, Except.bind, ih]
  exact this l

/-! ### C149: the uncertainty -/

/-- **C149** is false: whatever the uncertainty of a volume, the statement is the one without it. -/
theorem volume_uncertainty_lost {K : Type} (env : Env K) (std : UncKind → Str) (unit : Str) (k : UncKind)
    (d : List (Str × PyVal)) :
    volumeText env std unit (some (.ok k)) d = volumeText env std unit none d := by
  have h : uncText std (some (.ok k)) = uncText std none := by cases k <;> rfl
  unfold volumeText
  rw [h]

/-- So no reading of the field can give the uncertainty back. -/
theorem volume_uncertainty_not_read {K : Type} (env : Env K) (std : UncKind → Str) (langs : Option (List Str)) :
    ¬∃ reader : Py (List LangText.Entry) → List (Option UncKind), ∀ ps : List (List (Str × PyVal) × Option UncKind),
      reader (volumes env std langs (ps.map fun p => ⟨p.1, c!"kg", p.2.map .ok⟩)) = ps.map Prod.snd := by
  rintro ⟨reader, h⟩
  have h1 := h [([], some .normal)]
  have h2 := h [([], none)]
  have : volumes env std langs ([(([] : List (Str × PyVal)), some UncKind.normal)].map fun p => ⟨p.1, c!"kg", p.2.map .ok⟩) =
      volumes env std langs ([(([] : List (Str × PyVal)), (none : Option UncKind))].map fun p => ⟨p.1, c!"kg", p.2.map .ok⟩) := rfl
  rw [this, h2] at h1
  simp at h1

/-- An uncertainty that cannot be read or calculated stops the conversion. -/
theorem volume_uncertainty_stops {K : Type} (env : Env K) (std : UncKind → Str) {p : Product} {e : Elem} {t : Text}
    {l : List Text} (h : Of p e t l) {a : Str} {k : K} (ha : attr e c!"productionVolumeAmount" = some a) (hne : a ≠ [])
    (hf : env.float a = some k) (err : PyErr) :
    volumeText env std p.unit (some (.error err)) p.dict = .error err := by
  obtain ⟨d, hd, hat, hc⟩ := dict_of e h.wellNamed h.attrs
  have hdd := h.dict
  rw [hd] at hdd
  cases hdd
  obtain ⟨tag, hk⟩ := texts_children h.names
  obtain ⟨v, hv, hr⟩ := returnText_texts tag t l h.readable
  have hn : aget c!"name" p.dict = some v := by rw [hc c!"name" (by decide), hk, hv]
  have hA := hat c!"productionVolumeAmount" (by decide)
  rw [ha] at hA
  simp only [Option.map_some] at hA
  have hne : a.isEmpty = false := by cases a <;> simp_all
  simp [volumeText, item, hn, hr, bind, Except.bind, hA, truthy, toFloat, hf, hne, uncText]

/-! ### C150: links and CAS numbers -/

/-- The structure of EcoSpold2 has both as attributes of an exchange. -/
theorem link_and_cas_are_attributes :
    ∃ f g, (c!"activityLinkId", f) ∈ Schema.ecs2_IntermediateExchange ∧ f.xmlType = some c!"attribute" ∧
      (c!"casNumber", g) ∈ Schema.ecs2_IntermediateExchange ∧ g.xmlType = some c!"attribute" := by
  refine ⟨Schema.fld (.leaf c!"UUID") false 0 true Schema.xAttr none,
    Schema.fld (.leaf c!"CASNumber") false 0 true Schema.xAttr none, ?_, rfl, ?_, rfl⟩
  · simp [Schema.ecs2_IntermediateExchange]
  · simp [Schema.ecs2_IntermediateExchange]

/-- **C150** is false: whatever the attributes of a product, without a child element of the name no link to an activity
is written. -/
theorem link_lost (e : Elem) (he : WellNamed e) (ha : e.attrs ≠ []) {d : List (Str × PyVal)}
    (hd : elem2dict e = .dict d) (hk : kids e c!"activityLinkId" = []) : linkComment d = none := by
  obtain ⟨d', hd', _, hc⟩ := dict_of e he ha
  rw [hd'] at hd
  cases hd
  have := hc c!"activityLinkId" (by decide)
  rw [hk, children] at this
  simp [linkComment, this]

/-- A child element of the name, which the format does not have, would be stated. -/
theorem link_of_child (e : Elem) (he : WellNamed e) (ha : e.attrs ≠ []) {d : List (Str × PyVal)}
    (hd : elem2dict e = .dict d) (t : Text) (hk : Texts e c!"activityLinkId" [t]) (hl : t.lang = none)
    (hne : t.content ≠ []) :
    linkComment d = some (c!"Ecoinvent activity linkable id: ", .str t.content) := by
  obtain ⟨d', hd', _, hc⟩ := dict_of e he ha
  rw [hd'] at hd
  cases hd
  obtain ⟨tag, hk⟩ := texts_children hk
  have := hc c!"activityLinkId" (by decide)
  have hv := leaf_value tag t
  rw [hl] at hv
  simp only [if_neg hne] at hv
  rw [hk] at this
  simp only [List.map_cons, List.map_nil, children, hv] at this
  have hne' : t.content.isEmpty = false := by
    cases h : t.content with
    | nil => exact absurd h hne
    | cons c l => rfl
  simp [linkComment, this, truthy, hne']

/-- **C150** is false: nor is a CAS number. -/
theorem cas_lost (e : Elem) (he : WellNamed e) (ha : e.attrs ≠ []) {d : List (Str × PyVal)}
    (hd : elem2dict e = .dict d) (hk : kids e c!"casNumber" = []) {f : Flow} (hf : flow d = .ok f) : f.cas = none := by
  obtain ⟨d', hd', _, hc⟩ := dict_of e he ha
  rw [hd'] at hd
  cases hd
  have := hc c!"casNumber" (by decide)
  rw [hk, children] at this
  unfold flow at hf
  simp only [bind, Except.bind, this, Option.any_none, Bool.false_eq_true, if_false] at hf
  repeat' split at hf
  all_goals cases hf
  all_goals rfl

/-! ### C151: names and synonyms -/

/-- The flow made of a product with the names `t :: l` and the synonyms `s`. -/
theorem flow_of (e : Elem) (he : WellNamed e) (ha : e.attrs ≠ []) {d : List (Str × PyVal)}
    (hd : elem2dict e = .dict d) (t : Text) (l s : List Text) (hn : Texts e c!"name" (t :: l))
    (hr : t.lang ≠ none ∨ (l = [] ∧ t.content ≠ [])) (hg : ∀ x ∈ l, x.lang ≠ none ∨ x.content ≠ [])
    (hs : Texts e c!"synonym" s) (hsg : ∀ x ∈ s, x.lang ≠ none ∨ x.content ≠ []) :
    ∃ f, flow d = .ok f ∧ f.baseName = (c!"en", .str t.content) ∧
      f.synonyms = some (join c!"; " (s.map (·.content))) := by
  obtain ⟨d', hd', _, hc⟩ := dict_of e he ha
  rw [hd'] at hd
  cases hd
  obtain ⟨tag, hk⟩ := texts_children hn
  obtain ⟨tag', hk'⟩ := texts_children hs
  obtain ⟨v, hv, hrt⟩ := returnText_texts tag t l hr
  have hnm : aget c!"name" d = some v := by rw [hc c!"name" (by decide), hk, hv]
  have hall : given (t :: l) := by
    intro x hx
    simp only [List.mem_cons] at hx
    rcases hx with rfl | hx
    · exact hr.imp id fun h => h.2
    · exact hg x hx
  have hlist := anyList_texts tag (t :: l) hall
  rw [hv, Option.getD_some] at hlist
  have hsl := anyList_texts tag' s hsg
  rw [← hk', ← hc c!"synonym" (by decide)] at hsl
  refine ⟨_, by
    unfold flow
    simp only [item, hnm, hrt, hlist, hsl, bind, Except.bind, textsOf_texts, filter_texts, strs_texts]
    rfl, rfl, rfl⟩

/-- **C151** (`_partial`: the first name only, and only if it is English) A product with an English name first gets
this name; all synonyms are listed, in order. -/
theorem name_kept_partial (e : Elem) (he : WellNamed e) (ha : e.attrs ≠ []) {d : List (Str × PyVal)}
    (hd : elem2dict e = .dict d) (t : Text) (l s : List Text) (hn : Texts e c!"name" (t :: l))
    (hen : t.lang = some c!"en") (hg : ∀ x ∈ l, x.lang ≠ none ∨ x.content ≠ [])
    (hs : Texts e c!"synonym" s) (hsg : ∀ x ∈ s, x.lang ≠ none ∨ x.content ≠ []) :
    ∃ f, flow d = .ok f ∧ f.baseName = (t.language, .str t.content) ∧
      f.synonyms = some (join c!"; " (s.map (·.content))) := by
  obtain ⟨f, h1, h2, h3⟩ := flow_of e he ha hd t l s hn (.inl (by simp [hen])) hg hs hsg
  exact ⟨f, h1, by simp [h2, Text.language, hen], h3⟩

/-- **C151** is false: two products that differ only in the language of the first name, in all the other names and in
the languages of the synonyms give the same names and synonyms. -/
theorem languages_lost (e e' : Elem) (he : WellNamed e) (he' : WellNamed e') (ha : e.attrs ≠ []) (ha' : e'.attrs ≠ [])
    {d d' : List (Str × PyVal)} (hd : elem2dict e = .dict d) (hd' : elem2dict e' = .dict d')
    (t t' : Text) (l l' s s' : List Text) (hn : Texts e c!"name" (t :: l)) (hn' : Texts e' c!"name" (t' :: l'))
    (hl : ∀ x ∈ t :: l, x.lang ≠ none) (hl' : ∀ x ∈ t' :: l', x.lang ≠ none) (hs : Texts e c!"synonym" s)
    (hs' : Texts e' c!"synonym" s') (hsl : ∀ x ∈ s, x.lang ≠ none) (hsl' : ∀ x ∈ s', x.lang ≠ none)
    (h : t.content = t'.content) (hss : s.map (·.content) = s'.map (·.content)) :
    ∃ f f', flow d = .ok f ∧ flow d' = .ok f' ∧ f.baseName = f'.baseName ∧ f.synonyms = f'.synonyms := by
  obtain ⟨f, h1, h2, h3⟩ := flow_of e he ha hd t l s hn (.inl (hl t (by simp))) (fun x hx => .inl (hl x (by simp [hx])))
    hs fun x hx => .inl (hsl x hx)
  obtain ⟨f', h1', h2', h3'⟩ := flow_of e' he' ha' hd' t' l' s' hn' (.inl (hl' t' (by simp)))
    (fun x hx => .inl (hl' x (by simp [hx]))) hs' fun x hx => .inl (hsl' x hx)
  exact ⟨f, f', h1, h1', by rw [h2, h2', h], by rw [h3, h3', hss]⟩

/-- A product without synonyms gets an empty element of synonyms. -/
theorem no_synonyms (e : Elem) (he : WellNamed e) (ha : e.attrs ≠ []) {d : List (Str × PyVal)}
    (hd : elem2dict e = .dict d) (t : Text) (hn : Texts e c!"name" [t]) (hc : t.content ≠ [])
    (hs : kids e c!"synonym" = []) : ∃ f, flow d = .ok f ∧ f.synonyms = some [] := by
  obtain ⟨f, h1, _, h3⟩ := flow_of e he ha hd t [] [] hn (.inr ⟨rfl, hc⟩) (by simp) ⟨[], by simpa using hs⟩ (by simp)
  exact ⟨f, h1, h3⟩

/-! ### The hypotheses are met -/

/-- A product with a German and an English name, a volume, a link, a CAS number and a comment. -/
def sample : Elem :=
  .mk c!"{e}intermediateExchange"
    [(c!"id", c!"1"), (c!"productionVolumeAmount", c!"5"), (c!"activityLinkId", c!"a1"), (c!"casNumber", c!"7-0-0")]
    none
    [elem c!"{e}name" ⟨some c!"de", some c!"Stahl"⟩, elem c!"{e}name" ⟨some c!"en", some c!"steel"⟩,
     elem c!"{e}synonym" ⟨some c!"en", some c!"iron alloy"⟩,
     elem c!"{e}productionVolumeComment" ⟨some c!"en", some c!"a guess"⟩] none

theorem elem_wellNamed (tag : Str) (t : Text) (h : Name (localName tag)) : WellNamed (elem tag t) := by
  obtain ⟨lang, text⟩ := t
  cases lang with
  | none => exact .mk _ _ _ _ _ h (by simp) (by simp) (by simp)
  | some l =>
    refine .mk _ _ _ _ _ h ?_ (by simp) (by simp)
    intro a ha
    simp only [Option.toList, List.map_cons, List.map_nil, List.mem_singleton] at ha
    subst ha
    exact (by decide : Name (localName xmlLang))

theorem sample_wellNamed : WellNamed sample := by
  refine .mk _ _ _ _ _ (by decide) (by decide) (by decide) ?_
  intro e he
  simp only [List.mem_cons, List.not_mem_nil, or_false] at he
  rcases he with rfl | rfl | rfl | rfl <;> exact elem_wellNamed _ _ (by decide)

def sampleDict : List (Str × PyVal) :=
  match elem2dict sample with
  | .dict d => d
  | _ => []

theorem sample_dict : elem2dict sample = .dict sampleDict := rfl

theorem sample_names : Texts sample c!"name" [⟨some c!"de", some c!"Stahl"⟩, ⟨some c!"en", some c!"steel"⟩] :=
  ⟨c!"{e}name", rfl⟩

theorem sample_of : Of ⟨sampleDict, c!"kilogram", some (.ok .lognormal)⟩ sample ⟨some c!"de", some c!"Stahl"⟩
    [⟨some c!"en", some c!"steel"⟩] :=
  ⟨sample_wellNamed, by simp [sample, Elem.attrs], rfl, sample_names, .inl (by simp), by simp⟩

/-- Numbers of one digit. -/
def digit : Env Char := ⟨fun s => match s with | [c] => if c.isDigit then some c else none | _ => none, fun c => [c, '.', '0']⟩

example : ∃ x, volumes digit (fun _ => []) none [⟨sampleDict, c!"kilogram", some (.ok .lognormal)⟩] = .ok x ∧
    LangText.endMulti LangText.ilcdString false (fun s => [s]) x =
      .ok [(c!"en", c!"Production volume for Stahl is 5.0 kilogram")] :=
  volumes_stated digit (fun _ => []) none (by decide) false (fun s => [s])
    [(⟨sampleDict, c!"kilogram", some (.ok .lognormal)⟩, sample, ⟨some c!"de", some c!"Stahl"⟩,
      [⟨some c!"en", some c!"steel"⟩])]
    [some c!"Production volume for Stahl is 5.0 kilogram"]
    (by simpa using sample_of)
    (.cons (.volume c!"5" '5' (by decide) (by decide) (by decide)) .nil) (.inr (by decide))

example : volumeText digit (fun _ => []) c!"kilogram" (some (.error .valueError)) sampleDict = .error .valueError :=
  volume_uncertainty_stops digit (fun _ => []) sample_of (a := c!"5") (k := '5') (by decide) (by decide) (by decide) _

example : volumeComments .none sampleDict = .ok [(.str c!"en", c!"Production Volume Comment: a guess")] :=
  volume_comments_kept .none sample sample_wellNamed (by simp [sample, Elem.attrs]) sample_dict
    [⟨some c!"en", some c!"a guess"⟩] ⟨c!"{e}productionVolumeComment", rfl⟩ (by simp)

/-- A product without a name but with a link as a child. -/
def odd : Elem :=
  .mk c!"intermediateExchange" [(c!"id", c!"1")] none [elem c!"activityLinkId" ⟨none, some c!"a1"⟩] none

theorem odd_wellNamed : WellNamed odd := by
  refine .mk _ _ _ _ _ (by decide) (by decide) (by decide) ?_
  intro e he
  simp only [List.mem_cons, List.not_mem_nil, or_false] at he
  subst he
  exact elem_wellNamed _ _ (by decide)

def oddDict : List (Str × PyVal) :=
  match elem2dict odd with
  | .dict d => d
  | _ => []

example : flow oddDict = .error .keyError ∧
    linkComment oddDict = some (c!"Ecoinvent activity linkable id: ", .str c!"a1") :=
  ⟨(no_name digit (fun _ => []) ⟨oddDict, c!"kg", none⟩ odd odd_wellNamed (by simp [odd, Elem.attrs]) rfl rfl).2,
    link_of_child odd odd_wellNamed (by simp [odd, Elem.attrs]) rfl ⟨none, some c!"a1"⟩ ⟨c!"activityLinkId", rfl⟩ rfl
      (by decide)⟩

/-- The product is linked to an activity, and has a CAS number; neither is written. -/
theorem sample_loses : attr sample c!"activityLinkId" = some c!"a1" ∧ attr sample c!"casNumber" = some c!"7-0-0" ∧
    linkComment sampleDict = none ∧ ∃ f, flow sampleDict = .ok f ∧ f.cas = none :=
  ⟨by decide, by decide, link_lost sample sample_wellNamed (by simp [sample, Elem.attrs]) sample_dict rfl,
    ⟨_, rfl, rfl⟩⟩

/-- **C151** is false: the German name of the product is given as its English one. -/
theorem german_name_as_english : ∃ e d f, WellNamed e ∧ elem2dict e = .dict d ∧ flow d = .ok f ∧
    Texts e c!"name" [⟨some c!"de", some c!"Stahl"⟩, ⟨some c!"en", some c!"steel"⟩] ∧
    f.baseName = (c!"en", .str c!"Stahl") :=
  ⟨sample, sampleDict, _, sample_wellNamed, rfl, rfl, sample_names, rfl⟩

end Verif.Products
