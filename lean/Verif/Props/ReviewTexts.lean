/-
Texts of reviews of ILCD in EcoSpold2: C184 (type, scopes, methods, indicators and details are stated), C185 (the text
tells which they were).
-/
import Verif.Lemmas.ReviewTexts

namespace Verif.ReviewTexts

open Verif.Xml Verif.Shapes
open Verif.Xml.Spec (WellNamed Name)
open Verif.Shapes.Spec (Text)
open Products.Spec (attr kids Texts)
open Products (dict_of_some texts_children)
open LangText (Entry notBlank addMerged)
open ExchComments (valueOf)
open Naming (entryDict)
open Spec (Scope Scopes Indicators closed scopesText indicatorsText Stated OneName)

/-! ### C184: what the review states -/

/-- The review `e`, read as `d`, with its type, scopes, indicators and details. -/
structure Source (e : Elem) (d : List (Str × PyVal)) (typ : Option Str) (ss : List Scope) (ps : List (Str × Str))
    (ts : List Text) : Prop where
  wellNamed : WellNamed e
  some : e.attrs ≠ [] ∨ e.children ≠ []
  dict : elem2dict e = .dict d
  type : attr e c!"type" = typ
  scopes : Scopes e ss
  indicators : Indicators e ps
  details : Texts e c!"reviewDetails" ts

theorem each_texts (dflt : PyVal) {e : Elem} (he : WellNamed e) (ha : e.attrs ≠ [] ∨ e.children ≠ [])
    {d : List (Str × PyVal)} (hd : elem2dict e = .dict d) {k : Str} (hk : Name k) {l : List Text} (hl : Texts e k l) :
    Shapes.each dflt ((aget k d).getD (.dict [])) = .ok ((full l).map fun t => (.str t.language, t.content)) := by
  obtain ⟨d', hd', _, hc⟩ := dict_of_some e he ha
  rw [hd'] at hd
  cases hd
  obtain ⟨tag, h⟩ := texts_children hl
  rw [hc _ hk, h]
  exact comments_read dflt tag l

theorem typeText_elem {e : Elem} {d : List (Str × PyVal)} {typ : Option Str} {ss : List Scope} {ps : List (Str × Str)}
    {ts : List Text} (h : Source e d typ ss ps ts) : typeText d = .ok (typ.map fun t => c!"Review type: " ++ t) := by
  obtain ⟨d', hd', ha, _⟩ := dict_of_some e h.wellNamed h.some
  rw [h.dict] at hd'
  cases hd'
  have := ha c!"type" (by decide)
  rw [h.type] at this
  unfold typeText
  rw [show (c!"@type" : Str) = '@' :: c!"type" from rfl, this]
  cases typ <;> rfl

/-- The text has no line with a version or a date of the review. -/
def Plain (s : Str) : Prop := ¬ c!"Review Version: " <:+: s ∧ ¬ c!"Date of Review: " <:+: s

theorem stripped_plain (date : Str → Option Str) {s : Str} (h : Plain s) : stripped date s = .ok s := by
  unfold stripped
  rw [Comments.search_none Reviews.marks_version h.1]
  simp only
  rw [Comments.search_none Reviews.marks_date h.2]

theorem stripAll_plain (date : Str → Option Str) : ∀ {l : List (PyVal × Str)}, (∀ p ∈ l, Plain p.2) →
    stripAll date l = .ok l
  | [], _ => rfl
  | (a, x) :: l, h => by
    rw [stripAll, stripped_plain date (h (a, x) (by simp)), stripAll_plain date fun p hp => h p (by simp [hp])]
    rfl

/-- Texts with every second number. -/
def twice : Int → List Text → List Entry
  | _, [] => []
  | n, t :: l => ⟨n + 1, t.language, t.content⟩ :: twice (n + 2) l

theorem countedTwice_texts : ∀ (n : Int) (l : List Text),
    countedTwice n (l.map fun t => (.str t.language, t.content)) = (twice n l).map valueOf
  | _, [] => rfl
  | n, t :: l => by
    simp only [List.map_cons, countedTwice, twice, countedTwice_texts (n + 2) l]
    rfl

theorem mem_twice {n : Int} {l : List Text} {e : Entry} :
    e ∈ twice n l ↔ ∃ (k : Nat) (x : Text), l[k]? = some x ∧ e = ⟨n + 1 + 2 * k, x.language, x.content⟩ := by
  induction l generalizing n with
  | nil => simp [twice]
  | cons t l ih =>
    rw [twice, List.mem_cons, ih]
    constructor
    · rintro (rfl | ⟨k, x, hk, rfl⟩)
      · exact ⟨0, t, rfl, by simp⟩
      · refine ⟨k + 1, x, by simpa using hk, ?_⟩
        congr 1
        omega
    · rintro ⟨k, x, hk, rfl⟩
      cases k with
      | zero =>
        simp only [List.getElem?_cons_zero, Option.some.injEq] at hk
        subst hk
        exact .inl (by simp)
      | succ k =>
        refine .inr ⟨k, x, by simpa using hk, ?_⟩
        congr 1
        omega

theorem twice_nodup : ∀ (n : Int) (l : List Text), ((twice n l).map (·.index)).Nodup
  | _, [] => by simp [twice]
  | n, t :: l => by
    rw [twice, List.map_cons, List.nodup_cons]
    refine ⟨fun h => ?_, twice_nodup (n + 2) l⟩
    obtain ⟨e, he, hi⟩ := List.mem_map.1 h
    obtain ⟨k, x, _, rfl⟩ := mem_twice.1 he
    simp only at hi
    omega

/-- All the entries. -/
def entries (n : Int) (typ : Option Str) (ss : List Scope) (ps : List (Str × Str)) (ts : List Text) : List Entry :=
  (typ.toList.map fun t => ⟨1, c!"en", c!"Review type: " ++ t⟩) ++ ((scopesText ss).toList.map fun t => ⟨2, c!"en", t⟩) ++
    ((indicatorsText ps).toList.map fun t => ⟨3, c!"en", t⟩) ++ twice n (full ts)

theorem mem_entries {n : Int} {typ : Option Str} {ss : List Scope} {ps : List (Str × Str)} {ts : List Text} {i : Int}
    {L t : Str} : (⟨i, L, t⟩ : Entry) ∈ entries n typ ss ps ts ↔ Stated n typ ss ps ts i L t := by
  unfold entries
  simp only [List.mem_append, List.mem_map, Option.mem_toList, Entry.mk.injEq, mem_twice]
  constructor
  · rintro (((⟨t, h, rfl, rfl, rfl⟩ | ⟨t, h, rfl, rfl, rfl⟩) | ⟨t, h, rfl, rfl, rfl⟩) | ⟨k, x, h, rfl, rfl, rfl⟩)
    · exact .type t h
    · exact .scopes t h
    · exact .indicators t h
    · exact .detail k x h
  · rintro (⟨t, h⟩ | ⟨t, h⟩ | ⟨t, h⟩ | ⟨k, x, h⟩)
    · exact .inl (.inl (.inl ⟨_, h, rfl, rfl, rfl⟩))
    · exact .inl (.inl (.inr ⟨_, h, rfl, rfl, rfl⟩))
    · exact .inl (.inr ⟨_, h, rfl, rfl, rfl⟩)
    · exact .inr ⟨k, x, h, rfl, rfl, rfl⟩

theorem entries_nodup {n : Int} (hn : 3 ≤ n) (typ : Option Str) (ss : List Scope) (ps : List (Str × Str))
    (ts : List Text) : ((entries n typ ss ps ts).map (·.index)).Nodup := by
  have hb : ∀ i ∈ (twice n (full ts)).map (·.index), 3 < i := by
    intro i hi
    obtain ⟨e, he, rfl⟩ := List.mem_map.1 hi
    obtain ⟨k, x, _, rfl⟩ := mem_twice.1 he
    simp only
    omega
  have ht := twice_nodup n (full ts)
  unfold entries
  generalize twice n (full ts) = l at hb ht
  simp only [List.map_append]
  have h1 := hb 1
  have h2 := hb 2
  have h3 := hb 3
  cases typ <;> cases scopesText ss <;> cases indicatorsText ps <;>
    simp only [Option.toList, List.map_nil, List.map_cons, List.nil_append, List.cons_append, List.nodup_cons,
      List.mem_cons] <;> simp_all

theorem entries_visible {n : Int} {typ : Option Str} {ss : List Scope} {ps : List (Str × Str)} {ts : List Text} {i : Int}
    {L t : Str} (h : Stated n typ ss ps ts i L t) : notBlank t = true := by
  cases h with
  | type t h => exact ExchComments.notBlank_prefix (by decide)
  | scopes _ h =>
    unfold scopesText at h
    split at h
    · cases h
    · cases h
      rw [closed, List.flatMap_cons, List.append_assoc]
      exact ExchComments.notBlank_prefix (by decide)
  | indicators _ h =>
    unfold indicatorsText at h
    split at h
    · cases h
    · cases h
      rw [closed, List.flatMap_cons, List.append_assoc]
      exact ExchComments.notBlank_prefix (by decide)
  | detail k x h =>
    rw [ExchComments.notBlank_content]
    exact (List.mem_filter.1 (List.mem_of_getElem? h)).2

/-- If `review_comment` leaves the texts `us`, these are the details. -/
theorem details_eq_left (date : Str → Option Str) (dflt : PyVal) {n : Int} (hn : 3 ≤ n) {e : Elem}
    {d : List (Str × PyVal)} {typ : Option Str} {ss : List Scope} {ps : List (Str × Str)} {ts us : List Text}
    (h : Source e d typ ss ps ts)
    (hp : stripAll date ((full ts).map fun t => (.str t.language, t.content)) =
      .ok ((full us).map fun t => (.str t.language, t.content)))
    (hl : ∀ t ∈ full us, t.language.length = 2) :
    details date dflt n d = .ok (entries n typ ss ps us) := by
  have hg : given date dflt n d = .ok ((entries n typ ss ps us).map valueOf) := by
    unfold given
    rw [typeText_elem h, scopeText_elem h.wellNamed h.dict h.some h.scopes,
      indicatorText_elem h.wellNamed h.dict h.some h.indicators,
      each_texts dflt h.wellNamed h.some h.dict (by decide) h.details]
    simp only [bind, Except.bind]
    rw [hp]
    simp only [countedTwice_texts, entries, List.map_append]
    cases typ <;> cases scopesText ss <;> cases indicatorsText ps <;> rfl
  unfold details
  rw [hg]
  simp only [bind, Except.bind]
  rw [ExchComments.putAll_values, List.filter_eq_self.2, addMerged_fresh, List.nil_append]
  · simpa using entries_nodup hn typ ss ps us
  · rintro ⟨i, L, t⟩ he
    exact entries_visible (mem_entries.1 he)
  · rintro ⟨i, L, t⟩ he
    have : L.length = 2 := by
      cases mem_entries.1 he with
      | type => rfl
      | scopes => rfl
      | indicators => rfl
      | detail k x h => exact hl x (List.mem_of_getElem? h)
    simp [LangText.langOk, this]

theorem left_stated (date : Str → Option Str) (dflt : PyVal) {n : Int} (hn : 3 ≤ n) {e : Elem}
    {d : List (Str × PyVal)} {typ : Option Str} {ss : List Scope} {ps : List (Str × Str)} {ts us : List Text}
    (h : Source e d typ ss ps ts)
    (hp : stripAll date ((full ts).map fun t => (.str t.language, t.content)) =
      .ok ((full us).map fun t => (.str t.language, t.content)))
    (hl : ∀ t ∈ full us, t.language.length = 2) (ignore : Bool) (sent : Str → List Str)
    (hfit : ignore = true ∨ ∀ i L t, Stated n typ ss ps us i L t → t.length ≤ 32000) :
    ∃ x out, details date dflt n d = .ok x ∧ written ignore sent x = .ok out ∧ (out.map fun p => p.1.1).Nodup ∧
      ∀ i L t, ((i, L), t) ∈ out ↔ Stated n typ ss ps us i L t := by
  refine ⟨_, _, details_eq_left date dflt hn h hp hl, endValidate_fits 32000 ignore sent _ ?_, ?_, ?_⟩
  · refine hfit.imp id fun hfit p hp => ?_
    obtain ⟨e, he, rfl⟩ := List.mem_map.1 hp
    exact hfit e.index e.lang e.text (mem_entries.1 ((mem_sortBy _).1 he))
  · rw [List.map_map]
    exact (((sortBy_perm _ _).map _).nodup_iff).2 (entries_nodup hn typ ss ps us)
  · intro i L t
    rw [← mem_entries, List.mem_map]
    constructor
    · rintro ⟨e, he, h⟩
      simp only [Prod.mk.injEq] at h
      obtain ⟨⟨rfl, rfl⟩, rfl⟩ := h
      exact (mem_sortBy _).1 he
    · intro h
      exact ⟨_, (mem_sortBy _).2 h, rfl⟩

/-- **C184** The details of the review in EcoSpold2 state the type, the scopes with their methods, the indicators of
quality and each of the details, in its language and with an index of its own, and nothing else, provided the limit of
32000 characters is ignored or kept. -/
theorem details_stated (date : Str → Option Str) (dflt : PyVal) {n : Int} (hn : 3 ≤ n) {e : Elem}
    {d : List (Str × PyVal)} {typ : Option Str} {ss : List Scope} {ps : List (Str × Str)} {ts : List Text}
    (h : Source e d typ ss ps ts) (hp : ∀ t ∈ full ts, Plain t.content) (hl : ∀ t ∈ full ts, t.language.length = 2)
    (ignore : Bool) (sent : Str → List Str)
    (hfit : ignore = true ∨ ∀ i L t, Stated n typ ss ps ts i L t → t.length ≤ 32000) :
    ∃ x out, details date dflt n d = .ok x ∧ written ignore sent x = .ok out ∧ (out.map fun p => p.1.1).Nodup ∧
      ∀ i L t, ((i, L), t) ∈ out ↔ Stated n typ ss ps ts i L t :=
  left_stated date dflt hn h (stripAll_plain date (by
    intro p hpm
    obtain ⟨t, ht, rfl⟩ := List.mem_map.1 hpm
    exact hp t ht)) hl ignore sent hfit

/-- **C184** The other details of the review are said, each in its language. -/
theorem other_said (dflt : PyVal) (n : Int) {e : Elem} (he : WellNamed e) (hs : e.attrs ≠ [] ∨ e.children ≠ [])
    {d : List (Str × PyVal)} (hd : elem2dict e = .dict d) {ts : List Text} (ht : Texts e c!"otherReviewDetails" ts)
    (hl : ∀ t ∈ full ts, t.language.length = 2) (ignore : Bool) (sent : Str → List Str)
    (hfit : ignore = true ∨ ∀ L, (join c!"\n" (ExchComments.Spec.inLang L ts)).length ≤ 32000) :
    ∃ x out, other dflt n d = .ok x ∧ LangText.endMulti (LangText.base 32000) ignore sent x = .ok out ∧
      ExchComments.Spec.Says out fun L => ExchComments.Spec.inLang L ts := by
  have h2 : (((full ts).map (ExchComments.pair [])).map fun p => (PyVal.str p.1, p.2)) =
      (full ts).map fun t => (PyVal.str t.language, t.content) := by
    simp [ExchComments.pair, Function.comp_def]
  have h1 := ExchComments.counted_entries n ((full ts).map (ExchComments.pair []))
  rw [h2] at h1
  obtain ⟨out, ho, hy⟩ := ExchComments.says_of (t := LangText.base 32000) rfl rfl ExchComments.base_limit ignore sent
    ((UncText.commentEntries n ((full ts).map (ExchComments.pair []))).filter fun e => notBlank e.text)
    (fun e he => (List.mem_filter.1 he).2) (ps := fun L => ExchComments.Spec.inLang L ts) (fun L => by
      have := ExchComments.numbered_paragraphs (some c!"; ") L n ((full ts).map (ExchComments.pair []))
      rwa [ExchComments.inLang_pairs] at this) hfit
  refine ⟨_, out, ?_, ho, hy⟩
  unfold other
  rw [each_texts dflt he hs hd (by decide) ht]
  simp only [bind, Except.bind]
  rw [h1]
  refine ExchComments.putAll_values _ _ _ _ fun e he => ?_
  obtain ⟨t, htm, hp⟩ := List.mem_map.1 (ExchComments.mem_commentEntries he)
  have : t.language = e.lang := congrArg Prod.fst hp
  rw [← this]
  simp [LangText.langOk, hl t htm]

theorem indicatorLines_ok {l : List Elem} (hw : ∀ c ∈ l, WellNamed c ∧ ∃ s, attr c c!"name" = some s)
    {r : Str} (h : indicatorLines (l.map elem2dict) = .ok r) : ∀ c ∈ l, ∃ s, attr c c!"value" = some s := by
  induction l generalizing r with
  | nil => simp
  | cons c l ih =>
    obtain ⟨hc, s, hs⟩ := hw c (by simp)
    rw [List.map_cons, indicatorLines, show (c!"@name" : Str) = '@' :: c!"name" from rfl,
      required_elem hc (by decide) hs] at h
    simp only [bind, Except.bind] at h
    cases hv : attr c c!"value" with
    | none =>
      obtain ⟨d, hd, ha, _⟩ := dict_of_some c hc (.inl (attrs_of_attr hs))
      have := ha c!"value" (by decide)
      rw [hv] at this
      rw [hd, required, show (c!"@value" : Str) = '@' :: c!"value" from rfl, this] at h
      simp at h
    | some v =>
      rw [show (c!"@value" : Str) = '@' :: c!"value" from rfl, required_elem hc (by decide) hv] at h
      cases hi : indicatorLines (l.map elem2dict) with
      | error e => rw [hi] at h; simp at h
      | ok r' =>
        intro x hx
        rcases List.mem_cons.1 hx with rfl | hx
        · exact ⟨v, hv⟩
        · exact ih (fun c hc => hw c (by simp [hc])) hi x hx

theorem bind_some {α β : Type} {x : Py α} {f : α → Py β} {b : β} (h : (x >>= f) = .ok b) :
    ∃ a, x = .ok a ∧ f a = .ok b := by
  cases x with
  | error e => cases h
  | ok a => exact ⟨a, rfl, h⟩

/-- **C184** The conversion of the review stops for an indicator without a value. -/
theorem indicator_value_needed {e k : Elem} (he : WellNamed e) {d : List (Str × PyVal)} (hd : elem2dict e = .dict d)
    (hk : kids e c!"dataQualityIndicators" = [k])
    (hn : ∀ c ∈ kids k c!"dataQualityIndicator", ∃ s, attr c c!"name" = some s)
    (hv : ∃ c ∈ kids k c!"dataQualityIndicator", attr c c!"value" = none) (date : Str → Option Str) (dflt : PyVal)
    (n : Int) : ∃ err, details date dflt n d = .error err := by
  cases hx : details date dflt n d with
  | error err => exact ⟨err, rfl⟩
  | ok x =>
    exfalso
    unfold details at hx
    obtain ⟨vs, hg, _⟩ := bind_some hx
    unfold given at hg
    obtain ⟨t, _, hg⟩ := bind_some hg
    obtain ⟨s, _, hg⟩ := bind_some hg
    obtain ⟨q, hq, _⟩ := bind_some hg
    have hke : k ∈ kids e c!"dataQualityIndicators" := by rw [hk]; simp
    have hw := wellNamed_child he (kids_child hke)
    obtain ⟨c, hc, hcv⟩ := hv
    obtain ⟨d', hd', _, hkd⟩ := dict_of_some e he (.inr (List.ne_nil_of_mem (kids_child hke)))
    rw [hd'] at hd
    cases hd
    obtain ⟨q', hq', _, hqk⟩ := dict_of_some k hw (.inr (List.ne_nil_of_mem (kids_child hc)))
    have this := hkd c!"dataQualityIndicators" (by decide)
    rw [hk, show children [k] = some (.dict q') by rw [children, hq']] at this
    have hqk := hqk c!"dataQualityIndicator" (by decide)
    have hw' : ∀ c ∈ kids k c!"dataQualityIndicator", WellNamed c ∧ ∃ s, attr c c!"name" = some s :=
      fun c hc => ⟨wellNamed_child hw (kids_child hc), hn c hc⟩
    unfold indicatorText at hq
    simp only [this, hqk] at hq
    rw [(asMembers_children hw').1] at hq
    obtain ⟨l, h1, hq⟩ := bind_some hq
    cases h1
    obtain ⟨r, hr, _⟩ := bind_some hq
    obtain ⟨v, hv⟩ := indicatorLines_ok hw' hr c hc
    rw [hcv] at hv
    cases hv

/-! ### C185: the text tells the scopes and the indicators -/

theorem methods_inj {a b : List Str} {x y : List Scope} (hx : ∀ s ∈ x, OneName s.name) (hy : ∀ s ∈ y, OneName s.name)
    (h : a.map (fun m => c!"\t\t" ++ m) ++ x.flatMap Spec.scopeLines = b.map (fun m => c!"\t\t" ++ m) ++ y.flatMap Spec.scopeLines) :
    a = b ∧ x.flatMap Spec.scopeLines = y.flatMap Spec.scopeLines := by
  have key : ∀ (x : List Scope), (∀ s ∈ x, OneName s.name) → ∀ (m : Str) (r : List Str),
      x.flatMap Spec.scopeLines ≠ (c!"\t\t" ++ m) :: r := by
    intro x hx m r h
    cases x with
    | nil => simp at h
    | cons s x =>
      have hs := (hx s (by simp)).2
      simp only [List.flatMap_cons, Spec.scopeLines, List.cons_append, List.cons.injEq] at h
      have h := h.1
      cases hn : s.name with
      | nil => simp [hn] at h
      | cons c n =>
        simp [hn] at h
        simp [hn, h.1] at hs
  induction a generalizing b with
  | nil =>
    cases b with
    | nil => exact ⟨rfl, by simpa using h⟩
    | cons m b => exact absurd (by simpa using h) (key x hx m _)
  | cons m a ih =>
    cases b with
    | nil => exact absurd (by simpa using h.symm) (key y hy m _)
    | cons m' b =>
      simp only [List.map_cons, List.cons_append, List.cons.injEq] at h
      obtain ⟨h1, h2⟩ := ih h.2
      have : m = m' := by simpa using h.1
      exact ⟨by rw [this, h1], h2⟩

theorem scopeLines_inj {x y : List Scope} (hx : ∀ s ∈ x, OneName s.name) (hy : ∀ s ∈ y, OneName s.name)
    (h : x.flatMap Spec.scopeLines = y.flatMap Spec.scopeLines) : x = y := by
  induction x generalizing y with
  | nil =>
    cases y with
    | nil => rfl
    | cons s y => simp [Spec.scopeLines] at h
  | cons s x ih =>
    cases y with
    | nil => simp [Spec.scopeLines] at h
    | cons s' y =>
      simp only [List.flatMap_cons, Spec.scopeLines, List.cons_append, List.cons.injEq] at h
      have hx' : ∀ s ∈ x, OneName s.name := fun s hs => hx s (by simp [hs])
      have hy' : ∀ s ∈ y, OneName s.name := fun s hs => hy s (by simp [hs])
      obtain ⟨h1, h2⟩ := methods_inj hx' hy' h.2
      have hn : s.name = s'.name := by
        have := h.1
        simp only [true_and, List.nil_append] at this
        exact List.append_cancel_right this
      rw [ih hx' hy' h2]
      obtain ⟨n, m⟩ := s
      obtain ⟨n', m'⟩ := s'
      simp only at hn h1
      rw [hn, h1]

theorem scopeLines_oneLine {x : List Scope} (h : ∀ s ∈ x, OneName s.name ∧ ∀ m ∈ s.methods, '\n' ∉ m) :
    ∀ l ∈ c!"Review done for Scopes:" :: x.flatMap Spec.scopeLines, '\n' ∉ l := by
  intro l hl
  rcases List.mem_cons.1 hl with rfl | hl
  · decide
  · obtain ⟨s, hs, hl⟩ := List.mem_flatMap.1 hl
    obtain ⟨h1, h2⟩ := h s hs
    rcases List.mem_cons.1 hl with rfl | hl
    · have := h1.1
      simp [this]
    · obtain ⟨m, hm, rfl⟩ := List.mem_map.1 hl
      have := h2 m hm
      simp [this]

/-- **C185** Reviews with the same text of scopes have the same scopes with the same methods in the same order, provided
the names are without line feeds and those of scopes do not begin with a tab. -/
theorem scopes_readable {x y : List Scope} (hx : ∀ s ∈ x, OneName s.name ∧ ∀ m ∈ s.methods, '\n' ∉ m)
    (hy : ∀ s ∈ y, OneName s.name ∧ ∀ m ∈ s.methods, '\n' ∉ m) (h : scopesText x = scopesText y) : x = y := by
  unfold scopesText at h
  split at h
  · rename_i hn
    split at h
    · rename_i hm
      rw [hn, hm]
    · cases h
  · split at h
    · cases h
    · injection h with h
      have := closed_inj (scopeLines_oneLine hx) (scopeLines_oneLine hy) h
      injection this with _ this
      exact scopeLines_inj (fun s hs => (hx s hs).1) (fun s hs => (hy s hs).1) this

theorem colon_inj {a b x y : Str} (ha : ':' ∉ a) (hb : ':' ∉ b) (h : a ++ ':' :: x = b ++ ':' :: y) : a = b ∧ x = y := by
  induction a generalizing b with
  | nil =>
    cases b with
    | nil => exact ⟨rfl, by simpa using h⟩
    | cons c b =>
      simp only [List.nil_append, List.cons_append, List.cons.injEq] at h
      exact absurd (List.mem_cons.2 (.inl h.1)) hb
  | cons c a ih =>
    cases b with
    | nil =>
      simp only [List.nil_append, List.cons_append, List.cons.injEq] at h
      exact absurd (List.mem_cons.2 (.inl h.1.symm)) ha
    | cons c' b =>
      simp only [List.cons_append, List.cons.injEq] at h
      obtain ⟨h1, h2⟩ := ih (fun h => ha (by simp [h])) (fun h => hb (by simp [h])) h.2
      exact ⟨by rw [h.1, h1], h2⟩

theorem indicator_lines_inj {x y : List (Str × Str)} (hx : ∀ p ∈ x, ':' ∉ p.1 ∧ '\n' ∉ p.1 ∧ '\n' ∉ p.2)
    (hy : ∀ p ∈ y, ':' ∉ p.1 ∧ '\n' ∉ p.1 ∧ '\n' ∉ p.2)
    (h : (x.map fun p => c!"\t" ++ p.1 ++ c!": " ++ p.2) = y.map fun p => c!"\t" ++ p.1 ++ c!": " ++ p.2) : x = y := by
  induction x generalizing y with
  | nil =>
    cases y with
    | nil => rfl
    | cons p y => simp at h
  | cons p x ih =>
    cases y with
    | nil => simp at h
    | cons q y =>
      simp only [List.map_cons, List.cons.injEq] at h
      have h1 : p.1 ++ ':' :: (' ' :: p.2) = q.1 ++ ':' :: (' ' :: q.2) := by simpa using h.1
      obtain ⟨h2, h3⟩ := colon_inj (hx p (by simp)).1 (hy q (by simp)).1 h1
      injection h3 with _ h3
      rw [ih (fun p hp => hx p (List.mem_cons_of_mem _ hp)) (fun p hp => hy p (List.mem_cons_of_mem _ hp)) h.2,
        Prod.ext h2 h3]

/-- **C185** Reviews with the same text of indicators have the same indicators with the same values in the same order,
provided names are without colons and line feeds, and values without line feeds. -/
theorem indicators_readable {x y : List (Str × Str)} (hx : ∀ p ∈ x, ':' ∉ p.1 ∧ '\n' ∉ p.1 ∧ '\n' ∉ p.2)
    (hy : ∀ p ∈ y, ':' ∉ p.1 ∧ '\n' ∉ p.1 ∧ '\n' ∉ p.2) (h : indicatorsText x = indicatorsText y) : x = y := by
  have key : ∀ z : List (Str × Str), (∀ p ∈ z, ':' ∉ p.1 ∧ '\n' ∉ p.1 ∧ '\n' ∉ p.2) →
      ∀ l ∈ c!"Data Quality Indicators:" :: z.map fun p => c!"\t" ++ p.1 ++ c!": " ++ p.2, '\n' ∉ l := by
    intro z hz l hl
    rcases List.mem_cons.1 hl with rfl | hl
    · decide
    · obtain ⟨p, hp, rfl⟩ := List.mem_map.1 hl
      obtain ⟨_, h1, h2⟩ := hz p hp
      simp [h1, h2]
  unfold indicatorsText at h
  split at h
  · rename_i hn
    split at h
    · rename_i hm
      rw [hn, hm]
    · cases h
  · split at h
    · cases h
    · injection h with h
      have := closed_inj (key x hx) (key y hy) h
      injection this with _ h
      exact indicator_lines_inj hx hy h

/-- **C185** The names of the format are such names. -/
theorem format_names : (∀ s ∈ Spec.scopeNames, OneName s) ∧ (∀ s ∈ Spec.methodNames, '\n' ∉ s) ∧
    (∀ s ∈ Spec.indicatorNames, ':' ∉ s ∧ '\n' ∉ s) ∧ ∀ s ∈ Spec.qualityNames, '\n' ∉ s := by
  unfold OneName
  decide +kernel

/-! ### Examples -/

def named (tag name : Str) (l : List Elem) : Elem := .mk tag [(c!"name", name)] none l none

def quality (name value : Str) : Elem :=
  .mk c!"{c}dataQualityIndicator" [(c!"name", name), (c!"value", value)] none [] none

def review : Elem := .mk c!"{i}review" [(c!"type", c!"Independent external review")] none
  [named c!"{c}scope" c!"Raw data" [named c!"{c}method" c!"Expert judgement" [], named c!"{c}method" c!"Mass balance" []],
   named c!"{c}scope" c!"Documentation" [],
   .mk c!"{c}dataQualityIndicators" [] none [quality c!"Precision" c!"Good"] none,
   elem c!"{c}reviewDetails" ⟨some c!"de", some c!"geprüft"⟩] none

def reviewDict : List (Str × PyVal) :=
  match elem2dict review with
  | .dict d => d
  | _ => []

def reviewScopes : List Scope := [⟨c!"Raw data", [c!"Expert judgement", c!"Mass balance"]⟩, ⟨c!"Documentation", []⟩]

theorem named_wellNamed {tag name : Str} {l : List Elem} (ht : Name (localName tag)) (hl : ∀ e ∈ l, WellNamed e) :
    WellNamed (named tag name l) :=
  .mk _ _ _ _ _ ht (fun a ha => by
    rw [List.mem_singleton.1 ha]
    show Name (localName c!"name")
    decide) (by simp) hl

theorem review_source : Source review reviewDict (some c!"Independent external review") reviewScopes
    [(c!"Precision", c!"Good")] [⟨some c!"de", some c!"geprüft"⟩] where
  wellNamed := by
    refine .mk _ _ _ _ _ (by decide) (by decide) (by decide) ?_
    intro e he
    simp only [List.mem_cons, List.not_mem_nil, or_false] at he
    rcases he with rfl | rfl | rfl | rfl
    · refine named_wellNamed (by decide) ?_
      intro e he
      simp only [List.mem_cons, List.not_mem_nil, or_false] at he
      rcases he with rfl | rfl <;> exact named_wellNamed (by decide) (by simp)
    · exact named_wellNamed (by decide) (by simp)
    · refine .mk _ _ _ _ _ (by decide) (by simp) (by simp) ?_
      intro e he
      simp only [List.mem_cons, List.not_mem_nil, or_false] at he
      subst he
      exact .mk _ _ _ _ _ (by decide) (by decide) (by decide) (by simp)
    · exact Products.elem_wellNamed _ _ (by decide)
  some := .inl (by simp [review, Elem.attrs])
  dict := rfl
  type := rfl
  scopes := by
    show List.Forall₂ _ [_, _] _
    exact .cons ⟨rfl, .cons rfl (.cons rfl .nil)⟩ (.cons ⟨rfl, .nil⟩ .nil)
  indicators := .inr ⟨by simp, _, rfl, .cons ⟨rfl, rfl⟩ .nil⟩
  details := ⟨c!"{c}reviewDetails", rfl⟩

example : ∃ x out, details some .none 1000 reviewDict = .ok x ∧ written false (fun s => [s]) x = .ok out ∧
    (out.map fun p => p.1.1).Nodup ∧ ∀ i L t, ((i, L), t) ∈ out ↔
      Stated 1000 (some c!"Independent external review") reviewScopes [(c!"Precision", c!"Good")]
        [⟨some c!"de", some c!"geprüft"⟩] i L t :=
  details_stated some .none (by decide) review_source (by unfold Plain; decide +kernel) (by decide) false _ (.inr (by
    intro i L t h
    have h := mem_entries.2 h
    have : ∀ e ∈ entries 1000 (some c!"Independent external review") reviewScopes [(c!"Precision", c!"Good")]
        [⟨some c!"de", some c!"geprüft"⟩], e.text.length ≤ 32000 := by decide +kernel
    exact this _ h))

/-- **C184** What is written of the example: the details come before the type, as the numbers are compared as texts. -/
theorem review_written : ∃ x, details some .none 1000 reviewDict = .ok x ∧ written false (fun s => [s]) x = .ok
    [((1001, c!"de"), c!"geprüft"), ((1, c!"en"), c!"Review type: Independent external review"),
     ((2, c!"en"), c!"Review done for Scopes:\n\tRaw data. Validation methods:\n\t\tExpert judgement\n\t\tMass balance\n\tDocumentation. Validation methods:\n"),
     ((3, c!"en"), c!"Data Quality Indicators:\n\tPrecision: Good\n")] :=
  ⟨_, rfl, by decide +kernel⟩

example : ∃ x out, other .none 1000 reviewDict = .ok x ∧
    LangText.endMulti (LangText.base 32000) true (fun s => [s]) x = .ok out ∧
      ExchComments.Spec.Says out fun L => ExchComments.Spec.inLang L [] :=
  other_said .none 1000 review_source.wellNamed review_source.some review_source.dict ⟨[], rfl⟩ (by simp [full]) true _
    (.inl rfl)

/-- A review with an indicator without a value. -/
def unrated : Elem := .mk c!"{i}review" [] none
  [.mk c!"{c}dataQualityIndicators" [] none [named c!"{c}dataQualityIndicator" c!"Precision" []] none] none

example : ∃ err, details some .none 1000
    [(c!"dataQualityIndicators", .dict [(c!"dataQualityIndicator", .dict [(c!"@name", .str c!"Precision")])])] =
      .error err := by
  refine indicator_value_needed (e := unrated) (k := .mk c!"{c}dataQualityIndicators" [] none
    [named c!"{c}dataQualityIndicator" c!"Precision" []] none) ?_ rfl rfl ?_ ?_ some .none 1000
  · refine .mk _ _ _ _ _ (by decide) (by simp) (by simp) ?_
    intro e he
    simp only [List.mem_cons, List.not_mem_nil, or_false] at he
    subst he
    refine .mk _ _ _ _ _ (by decide) (by simp) (by simp) ?_
    intro e he
    simp only [List.mem_cons, List.not_mem_nil, or_false] at he
    subst he
    exact named_wellNamed (by decide) (by simp)
  · intro c hc
    have : c = named c!"{c}dataQualityIndicator" c!"Precision" [] := by
      have : c ∈ [named c!"{c}dataQualityIndicator" c!"Precision" []] := hc
      simpa using this
    exact ⟨c!"Precision", by rw [this]; rfl⟩
  · refine ⟨named c!"{c}dataQualityIndicator" c!"Precision" [], ?_, rfl⟩
    show _ ∈ [named c!"{c}dataQualityIndicator" c!"Precision" []]
    simp

example : scopesText reviewScopes = scopesText reviewScopes → reviewScopes = reviewScopes :=
  scopes_readable (by unfold OneName; decide) (by unfold OneName; decide)

example : ([(c!"Precision", c!"Good")] : List (Str × Str)) = [(c!"Precision", c!"Good")] :=
  indicators_readable (by decide) (by decide) rfl

/-- **C185** Without the condition on the names they are not told apart. -/
theorem scopes_ambiguous : scopesText [⟨c!"a", []⟩, ⟨c!"\tb", []⟩] =
    scopesText [⟨c!"a", [c!"b. Validation methods:"]⟩] := by decide +kernel

end Verif.ReviewTexts
