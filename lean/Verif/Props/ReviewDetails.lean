/-
Details of reviews of EcoSpold2 in ILCD: C186 (what they say), C187 (what comes back), C188 (other details).
-/
import Verif.Model.ReviewDetails
import Verif.Spec.ReviewDetails
import Verif.Props.ReviewTexts
import Verif.Props.TextImage

namespace Verif.ReviewDetails

open Verif.Xml Verif.Shapes
open Verif.Xml.Spec (WellNamed Name Represents)
open Verif.Shapes.Spec (Text)
open Products.Spec (attr kids Texts)
open Products (dict_of_some texts_children)
open LangText (Entry notBlank addMerged ofGiven)
open LangText.Spec (Given Has IsEntry)
open ExchComments.Spec (Paragraphs Says)
open ReviewTexts (required required_elem wellNamed_child kids_child attrs_of_attr)
open TextImage.Spec (PlainVar)
open Spec

/-! ### Values of texts and variables -/

theorem dictGet_aget (k : Str) (d : List (Str × PyVal)) : LangText.dictGet k d = aget k d := by
  induction d with
  | nil => rfl
  | cons p d ih =>
    obtain ⟨k', v⟩ := p
    simp only [LangText.dictGet, aget, ih]

theorem has_iff (d : List (Str × PyVal)) (k : Str) (v : PyVal) : Has d k v ↔ aget k d = some v := by
  rw [← LangText.dictGet_iff, dictGet_aget]

/-- The text of an element with attributes. -/
theorem text_of {e : Elem} (he : WellNamed e) (ha : e.attrs ≠ []) {d : List (Str × PyVal)} (hd : elem2dict e = .dict d)
    {s : Str} (ht : e.text = some s) (hv : Xml.Spec.Visible s) : aget c!"#text" d = some (.str s) := by
  have hr := element_represented e he
  rw [hd] at hr
  cases hr with
  | dict tag attrs text chs tail d value h1 h2 h3 h4 h5 h6 h7 => exact h5 s ht hv

theorem keys_of {e : Elem} (he : WellNamed e) (hc : e.children = []) {d : List (Str × PyVal)}
    (hd : elem2dict e = .dict d) : ∀ k ∈ d.map Prod.fst, k = c!"#text" ∨ ∃ a ∈ e.attrs, k = '@' :: localName a.1 := by
  have hr := element_represented e he
  rw [hd] at hr
  cases hr with
  | dict tag attrs text chs tail d value h1 h2 h3 h4 h5 h6 h7 =>
    intro k hk
    rcases h7 k hk with h | h | ⟨c, h, _⟩
    · exact .inl h
    · exact .inr h
    · rw [show chs = [] from hc] at h
      cases h

/-- The value of a text, and what it says when the variables are filled in. -/
theorem fill_elem {langs : List Str} {vars : List (Str × Str)} (hp : ∀ v ∈ vars, PlainVar v) {k : Elem}
    (hk : WellNamed k) {t : Detail} (h : IsDetail k t) (hl : t.lang.length = 2) (hm : t.lang ∈ langs) :
    ∃ v, fill vars (elem2dict k) = .ok v ∧ IsEntry (some langs) v (t.given vars) := by
  obtain ⟨hc, ha, hlang, ⟨s, hs, hi⟩, ⟨x, hx, hv, hw⟩, hpl⟩ := h
  have hne := attrs_of_attr hlang
  obtain ⟨d, hd, hat, _⟩ := dict_of_some k hk (.inl hne)
  have htx := text_of hk hne hd hx hv
  have hsub : TextImage.subst vars x = TextImage.Spec.filled vars t.pieces := by
    rw [hw]
    exact TextImage.variables_filled vars t.pieces hpl hp
  have h1 := hat c!"lang" (by decide)
  have h2 := hat c!"index" (by decide)
  rw [hlang] at h1
  rw [hs] at h2
  have hkeys : ∀ p ∈ d, p.1 = c!"@index" ∨ p.1 = c!"@lang" ∨ p.1 = c!"#text" := by
    intro p hp
    rcases keys_of hk hc hd p.1 (List.mem_map_of_mem hp) with h | ⟨a, ham, h⟩
    · exact .inr (.inr h)
    · rw [h]
      rcases ha a ham with h | h
      · exact .inl (by rw [h])
      · exact .inr (.inl (by rw [h]))
  by_cases hvs : vars = []
  · refine ⟨elem2dict k, by unfold fill; rw [if_pos hvs], d, .str s, hd, hkeys, ?_, ?_, ?_, ?_, hl, ?_⟩
    · rw [has_iff, htx]
      show _ = some (PyVal.str (TextImage.Spec.filled vars t.pieces))
      rw [← hsub, hvs]
      rfl
    · rw [has_iff]; exact h2
    · exact hi
    · rw [has_iff]; exact h1
    · intro ls hls
      cases hls
      exact hm
  · refine ⟨.dict (aset c!"#text" (.str (TextImage.subst vars x)) d), ?_, _, .str s, rfl, ?_, ?_, ?_, ?_, ?_, hl, ?_⟩
    · unfold fill
      rw [if_neg hvs, hd]
      simp only [required, htx]
      rfl
    · intro p hp
      have : p.1 ∈ (aset c!"#text" (.str (TextImage.subst vars x)) d).map Prod.fst := List.mem_map_of_mem hp
      rw [aset_keys] at this
      have hin : c!"#text" ∈ d.map Prod.fst := List.mem_map_of_mem (f := Prod.fst) (aget_mem htx)
      rw [if_pos hin] at this
      obtain ⟨q, hq, hqe⟩ := List.mem_map.1 this
      rw [← hqe]
      exact hkeys q hq
    · rw [has_iff, aget_aset_self, hsub]
      rfl
    · rw [has_iff, aget_aset, if_neg (by decide)]; exact h2
    · exact hi
    · rw [has_iff, aget_aset, if_neg (by decide)]; exact h1
    · intro ls hls
      cases hls
      exact hm

theorem fillAll_elems {langs : List Str} {vars : List (Str × Str)} (hp : ∀ v ∈ vars, PlainVar v) {l : List Elem}
    (hw : ∀ c ∈ l, WellNamed c) {ts : List Detail} (h : List.Forall₂ IsDetail l ts)
    (hl : ∀ t ∈ ts, t.lang.length = 2 ∧ t.lang ∈ langs) :
    ∃ vs, fillAll vars (l.map elem2dict) = .ok vs ∧
      List.Forall₂ (IsEntry (some langs)) vs (ts.map (Detail.given vars)) := by
  induction h with
  | nil => exact ⟨[], rfl, .nil⟩
  | @cons k t l ts h1 h2 ih =>
    obtain ⟨vs, hvs, hf⟩ := ih (fun c hc => hw c (by simp [hc])) (fun t ht => hl t (by simp [ht]))
    have ht := hl t (by simp)
    obtain ⟨v, hv, he⟩ := fill_elem hp (hw k (by simp)) h1 ht.1 ht.2
    exact ⟨v :: vs, by rw [List.map_cons, fillAll, hv, hvs]; rfl, .cons he hf⟩

/-- The elements of a name as they are looped over. -/
theorem blockOf_children {l : List Elem} (h : ∀ c ∈ l, WellNamed c ∧ c.attrs ≠ []) (hne : l ≠ []) :
    ∃ v, children l = some v ∧ blockOf v = .ok (l.map elem2dict) := by
  match l, h, hne with
  | [c], h, _ =>
    obtain ⟨d, hd, _⟩ := dict_of_some c (h c (by simp)).1 (.inl (h c (by simp)).2)
    exact ⟨_, rfl, by rw [hd]; simp [blockOf, hd]⟩
  | a :: b :: l, _, _ => exact ⟨_, rfl, rfl⟩

theorem readVars_elems {l : List Elem} (hw : ∀ c ∈ l, WellNamed c) {vars : List (Str × Str)}
    (h : List.Forall₂ IsVariable l vars) : readVars (l.map elem2dict) = .ok vars := by
  induction h with
  | nil => rfl
  | @cons k v l vars h1 h2 ih =>
    have hk := hw k (by simp)
    obtain ⟨hn, ⟨ht, hv⟩, _⟩ := h1
    obtain ⟨d, hd, _⟩ := dict_of_some k hk (.inl (attrs_of_attr hn))
    have htx := text_of hk (attrs_of_attr hn) hd ht hv
    have h3 : required c!"#text" (elem2dict k) = .ok v.2 := by rw [hd, required, htx]
    rw [List.map_cons, readVars, show (c!"@name" : Str) = '@' :: c!"name" from rfl, required_elem hk (by decide) hn, h3,
      ih fun c hc => hw c (by simp [hc])]
    rfl

/-- The texts of the details. -/
theorem texts_elem {langs : List Str} {k : Elem} (hk : WellNamed k) (hc : k.children ≠ []) {vars : List (Str × Str)}
    {ts : List Detail} (hv : List.Forall₂ IsVariable (kids k c!"variable") vars)
    (ht : List.Forall₂ IsDetail (kids k c!"text") ts) (hl : ∀ t ∈ ts, t.lang.length = 2 ∧ t.lang ∈ langs)
    {d : List (Str × PyVal)} (hd : elem2dict k = .dict d) :
    ∃ vs, texts d = .ok vs ∧ List.Forall₂ (IsEntry (some langs)) vs (ts.map (Detail.given vars)) := by
  obtain ⟨d', hd', _, hch⟩ := dict_of_some k hk (.inr hc)
  rw [hd'] at hd
  cases hd
  have hpl : ∀ v ∈ vars, PlainVar v := by
    intro v hvm
    obtain ⟨c, _, h⟩ := ReviewTexts.related hv.flip v hvm
    exact h.2.2
  have hwk : ∀ n, ∀ c ∈ kids k n, WellNamed c := fun n c hc => wellNamed_child hk (kids_child hc)
  have h1 : readVariables d = .ok vars := by
    unfold readVariables
    rw [hch _ (by decide)]
    by_cases hn : kids k c!"variable" = []
    · rw [hn] at hv ⊢
      cases hv
      rfl
    · obtain ⟨v, hv1, hv2⟩ := blockOf_children (fun c hc => ⟨hwk _ c hc, by
        obtain ⟨v, _, h⟩ := ReviewTexts.related hv c hc
        exact attrs_of_attr h.1⟩) hn
      simp only [hv1, hv2, bind, Except.bind]
      exact readVars_elems (hwk _) hv
  unfold texts
  rw [h1, hch _ (by decide)]
  simp only [bind, Except.bind]
  by_cases hn : kids k c!"text" = []
  · rw [hn] at ht ⊢
    cases ht
    exact ⟨[], rfl, .nil⟩
  · obtain ⟨v, hv1, hv2⟩ := blockOf_children (fun c hc => ⟨hwk _ c hc, by
      obtain ⟨t, _, h⟩ := ReviewTexts.related ht c hc
      exact attrs_of_attr h.2.2.1⟩) hn
    simp only [hv1, hv2]
    exact fillAll_elems hpl (hwk _) ht hl

theorem putAll_entries (t : LangText.TextCls) (langs : Option (List Str)) {vs : List PyVal} {gs : List Given}
    (h : List.Forall₂ (IsEntry langs) vs gs) (x : List Entry) :
    ExchComments.putAll t langs x vs =
      .ok (addMerged t x ((gs.filter fun g => decide (LangText.Spec.Visible g.text)).map ofGiven)) := by
  induction h generalizing x with
  | nil => rfl
  | @cons v g vs gs h1 h2 ih =>
    have hi : LangText.Spec.items v = [v] := by
      obtain ⟨d, _, rfl, _⟩ := h1
      rfl
    have hr := LangText.retrieve_ok langs v [g] (by rw [hi]; exact .cons h1 .nil)
    rw [ExchComments.putAll, LangText.add, hr]
    simp only [bind, Except.bind]
    rw [ih, ← ExchComments.addMerged_append, ← List.map_append, ← List.filter_append]
    rfl

/-! ### C186: what the details say -/

/-- The review `e`, read as `d`: its date, the numbers of its version in the order in which they are written, and its
details. -/
structure Source (e : Elem) (d : List (Str × PyVal)) (date : Str) (v : Str × Str × Str × Str)
    (vars : List (Str × Str)) (ts : List Detail) : Prop where
  wellNamed : WellNamed e
  dict : elem2dict e = .dict d
  date : attr e c!"reviewDate" = some date
  majorRelease : attr e c!"reviewedMajorRelease" = some v.1
  majorRevision : attr e c!"reviewedMajorRevision" = some v.2.1
  minorRelease : attr e c!"reviewedMinorRelease" = some v.2.2.1
  minorRevision : attr e c!"reviewedMinorRevision" = some v.2.2.2
  details : Details e vars ts

/-- The entries of date and version. -/
def headEntries (date : Str) (v : Str × Str × Str × Str) : List Entry :=
  [⟨-2, c!"en", c!"Date of Review: " ++ date⟩,
   ⟨-1, c!"en", c!"Review Version: " ++ v.1 ++ c!"." ++ v.2.1 ++ c!"." ++ v.2.2.1 ++ c!"." ++ v.2.2.2⟩]

theorem details_eq {langs : List Str} (hen : c!"en" ∈ langs) {e : Elem} {d : List (Str × PyVal)} {date : Str}
    {v : Str × Str × Str × Str} {vars : List (Str × Str)} {ts : List Detail} (h : Source e d date v vars ts)
    (hl : ∀ t ∈ ts, t.lang.length = 2 ∧ t.lang ∈ langs) :
    details langs d = .ok (addMerged LangText.unlimited [] (headEntries date v ++ (said vars ts).map ofGiven)) := by
  have hr : ∀ n s, Name n → attr e n = some s → required ('@' :: n) (.dict d) = .ok s := by
    intro n s hn ha
    rw [← h.dict]
    exact required_elem h.wellNamed hn ha
  have hver : version d = .ok (v.1 ++ c!"." ++ v.2.1 ++ c!"." ++ v.2.2.1 ++ c!"." ++ v.2.2.2) := by
    unfold version
    have h1 := hr _ _ (by decide) h.majorRelease
    have h2 := hr _ _ (by decide) h.majorRevision
    have h3 := hr _ _ (by decide) h.minorRelease
    have h4 := hr _ _ (by decide) h.minorRevision
    show (required ('@' :: c!"reviewedMajorRelease") (.dict d) >>= _) = _
    rw [h1]
    show (required ('@' :: c!"reviewedMajorRevision") (.dict d) >>= _) = _
    rw [h2]
    show (required ('@' :: c!"reviewedMinorRelease") (.dict d) >>= _) = _
    rw [h3]
    show (required ('@' :: c!"reviewedMinorRevision") (.dict d) >>= _) = _
    rw [h4]
    simp [bind, Except.bind, join]
  have hok : LangText.langOk (some langs) c!"en" = true := by
    simp [LangText.langOk, hen]
  have hput : ExchComments.putAll LangText.unlimited (some langs) []
      [Naming.entryDict (-2) (.str c!"en") (c!"Date of Review: " ++ date),
        Naming.entryDict (-1) (.str c!"en")
          (c!"Review Version: " ++ (v.1 ++ c!"." ++ v.2.1 ++ c!"." ++ v.2.2.1 ++ c!"." ++ v.2.2.2))] =
      .ok (addMerged LangText.unlimited [] (headEntries date v)) := by
    have := ExchComments.putAll_values LangText.unlimited (some langs) (headEntries date v) [] (by
      intro e he
      simp only [headEntries, List.mem_cons, List.not_mem_nil, or_false] at he
      rcases he with rfl | rfl <;> exact hok)
    rw [List.filter_eq_self.2] at this
    · rw [← this]
      simp [headEntries, ExchComments.valueOf]
    · intro e he
      simp only [headEntries, List.mem_cons, List.not_mem_nil, or_false] at he
      rcases he with rfl | rfl
      · exact ExchComments.notBlank_prefix (by decide)
      · simp only [List.append_assoc]
        exact ExchComments.notBlank_prefix (by decide)
  unfold details
  rw [show (c!"@reviewDate" : Str) = '@' :: c!"reviewDate" from rfl, hr _ _ (by decide) h.date, hver]
  simp only [bind, Except.bind]
  rw [hput]
  simp only
  obtain ⟨d', hd', _, hch⟩ := dict_of_some e h.wellNamed (.inl (attrs_of_attr h.date))
  rw [h.dict] at hd'
  cases hd'
  rw [hch _ (by decide)]
  rcases h.details with ⟨rfl, rfl, hk⟩ | ⟨k, hk, hc, hv, ht⟩
  · rw [hk]
    simp [children, said]
  · have hw : WellNamed k := wellNamed_child h.wellNamed (kids_child (n := c!"details") (by rw [hk]; simp))
    obtain ⟨dk, hdk, _, hkc⟩ := dict_of_some k hw (.inr hc)
    have hne : dk ≠ [] := by
      rintro rfl
      obtain ⟨c, hcm⟩ := List.exists_mem_of_ne_nil _ hc
      have hn : Name (localName c.tag) := by
        have := wellNamed_child hw hcm
        cases this with
        | mk _ _ _ _ _ hn => exact hn
      have := hkc _ hn
      have hmem : c ∈ kids k (localName c.tag) := List.mem_filter.2 ⟨hcm, by simp⟩
      cases hkk : kids k (localName c.tag) with
      | nil => rw [hkk] at hmem; cases hmem
      | cons a l =>
        rw [hkk] at this
        cases l <;> simp [aget, children] at this
    obtain ⟨vs, h1, h2⟩ := texts_elem hw hc hv ht hl hdk
    rw [hk, show children [k] = some (.dict dk) by rw [children, hdk]]
    cases dk with
    | nil => exact absurd rfl hne
    | cons p dk =>
      simp only [h1]
      rw [putAll_entries _ _ h2, ExchComments.addMerged_append]
      rfl

theorem said_visible {vars : List (Str × Str)} {ts : List Detail} {g : Given} (h : g ∈ said vars ts) :
    LangText.Spec.Visible g.text := by
  simpa using (List.mem_filter.1 h).2

theorem head_paragraphs (date : Str) (v : Str × Str × Str × Str) (L : Str) :
    Paragraphs (some c!"; ") ((headEntries date v).map Entry.given) L (if L = c!"en" then headLines date v else []) := by
  have := ExchComments.paragraphs_sorted (some c!"; ") L (es := (headEntries date v).map Entry.given) (by
    simp [headEntries, Entry.given])
  by_cases h : L = c!"en"
  · subst h
    simpa [headEntries, Entry.given, headLines] using this
  · have h' : ¬ c!"en" = L := fun h' => h h'.symm
    simpa [headEntries, Entry.given, h, h'] using this

/-- There are paragraphs in each language. -/
theorem paragraphs_exist (sep : Option Str) (es : List Given) (L : Str) : ∃ ps, Paragraphs sep es L ps := by
  obtain ⟨ps, h, _⟩ := ExchComments.isText_iff.1 (LangText.langText_isText sep es L)
  exact ⟨ps, h⟩

/-- **C186** The details of a review say its date and its version, in English, and then, in each language, its texts with
the variables filled in, ordered by their indices. -/
theorem details_said {langs : List Str} (hen : c!"en" ∈ langs) {e : Elem} {d : List (Str × PyVal)} {date : Str}
    {v : Str × Str × Str × Str} {vars : List (Str × Str)} {ts : List Detail} (h : Source e d date v vars ts)
    (hl : ∀ t ∈ ts, t.lang.length = 2 ∧ t.lang ∈ langs) (hi : ∀ t ∈ ts, 0 ≤ t.index) {ps : Str → List Str}
    (hps : ∀ L, Paragraphs (some c!"; ") (said vars ts) L (ps L)) (ignore : Bool) (sent : Str → List Str)
    (hfit : ignore = true ∨ ∀ L, (join c!"\n" (withHead (headLines date v) ps L)).length ≤ 100000000) :
    ∃ x out, details langs d = .ok x ∧ written ignore sent x = .ok out ∧ Says out (withHead (headLines date v) ps) := by
  obtain ⟨out, ho, hs⟩ := ExchComments.says_of (t := LangText.unlimited) rfl rfl
    (fun k _ hk => by simpa [Validators.Limit.holds, LangText.upper] using hk) ignore sent
    (headEntries date v ++ (said vars ts).map ofGiven) (by
      intro e he
      rcases List.mem_append.1 he with he | he
      · simp only [headEntries, List.mem_cons, List.not_mem_nil, or_false] at he
        rcases he with rfl | rfl
        · exact ExchComments.notBlank_prefix (by decide)
        · simp only [List.append_assoc]
          exact ExchComments.notBlank_prefix (by decide)
      · obtain ⟨g, hg, rfl⟩ := List.mem_map.1 he
        exact (LangText.notBlank_iff _).2 (said_visible hg))
    (ps := withHead (headLines date v) ps) (fun L => by
      rw [List.map_append, List.map_map, show Entry.given ∘ ofGiven = id from rfl, List.map_id]
      refine ExchComments.paragraphs_append ?_ (head_paragraphs date v L) (hps L)
      intro x hx y hy
      have h1 : x.index < 0 := by
        simp only [headEntries, List.map_cons, List.map_nil, List.mem_cons, List.not_mem_nil, or_false] at hx
        rcases hx with rfl | rfl <;> simp [Entry.given]
      have h2 : 0 ≤ y.index := by
        obtain ⟨t, ht, rfl⟩ := List.mem_map.1 (List.mem_filter.1 hy).1
        exact hi t ht
      omega) hfit
  exact ⟨_, out, details_eq hen h hl, ho, hs⟩

/-! ### C187: there and back -/

theorem stripped_comment {date : Str → Option Str} {x : Str} {r r' : Reviews.Read}
    (h : Reviews.comment date x r = .ok r') :
    ∃ y, ReviewTexts.stripped date x = .ok y ∧ r'.texts = r.texts ++ Reviews.keep y := by
  unfold Reviews.comment at h
  unfold ReviewTexts.stripped
  cases hv : Comments.search Reviews.versionMatch x with
  | none =>
    simp only [hv] at h ⊢
    cases hd : Comments.search Reviews.dateMatch x with
    | none =>
      simp only [hd] at h ⊢
      cases h
      exact ⟨_, rfl, rfl⟩
    | some d =>
      simp only [hd] at h ⊢
      cases hdd : date d with
      | none => simp [hdd] at h
      | some d' =>
        simp only [hdd] at h ⊢
        cases h
        exact ⟨_, rfl, rfl⟩
  | some w =>
    simp only [hv] at h ⊢
    cases hd : Comments.search Reviews.dateMatch (Comments.remove Reviews.versionMatch 0 x) with
    | none =>
      simp only [hd] at h ⊢
      cases h
      exact ⟨_, rfl, rfl⟩
    | some d =>
      simp only [hd] at h ⊢
      cases hdd : date d with
      | none => simp [hdd] at h
      | some d' =>
        simp only [hdd] at h ⊢
        cases h
        exact ⟨_, rfl, rfl⟩

theorem keep_eq {x y : Str} (hx : notBlank x = true) (h : Reviews.keep y = Reviews.keep x) : y = x := by
  unfold Reviews.keep at h
  rw [if_pos hx] at h
  split at h
  · simpa using h
  · cases h

/-- The texts of the four numbers of a version, in the order in which they are written. -/
def numbers (v : Reviews.Version) : Str × Str × Str × Str :=
  (natStr v.majorRelease, natStr v.majorRevision, natStr v.minorRelease, natStr v.minorRevision)

/-- The line of the version. -/
def versionLine (v : Reviews.Version) : Str := c!"Review Version: " ++ Reviews.versionText v

theorem head_text (date : Str) (v : Reviews.Version) (ps : List Str) :
    headLines date (numbers v) ++ ps = (c!"Date of Review: " ++ date) :: (c!"Review Version: " ++ Reviews.versionText v) :: ps := by
  simp [headLines, numbers, Reviews.versionText]

/-- What is left of a text of the details. -/
def left (v : Reviews.Version) (ps : Str → List Str) (L : Str) : Str :=
  if L = c!"en" ∧ ps c!"en" = [] then versionLine v else join c!"\n" (ps L)

theorem stripped_text {dateOf : Str → Option Str} {date d' : Str} (hd : Reviews.Spec.DateText date)
    (hd' : dateOf date = some d') (v : Reviews.Version) {ps : Str → List Str} {L : Str}
    (hu : ReviewTexts.Plain (join c!"\n" (ps L))) (hv : ps L ≠ [] → notBlank (join c!"\n" (ps L)) = true) :
    ReviewTexts.stripped dateOf (join c!"\n" (withHead (headLines date (numbers v)) ps L)) = .ok (left v ps L) := by
  by_cases hL : L = c!"en"
  · subst hL
    have ht : join c!"\n" (withHead (headLines date (numbers v)) ps c!"en") =
        Reviews.text ⟨date, v, none, [], [], ps c!"en"⟩ := by
      rw [withHead, if_pos rfl, head_text]
      rfl
    rw [ht]
    by_cases hn : ps c!"en" = []
    · obtain ⟨y, hy, hk⟩ := stripped_comment (Reviews.no_details_back dateOf ⟨date, v, none, [], [], ps c!"en"⟩ d' hd hd'
        hn ⟨none, [], []⟩)
      rw [hy, left, if_pos ⟨rfl, hn⟩]
      have hb : notBlank (versionLine v) = true := ExchComments.notBlank_prefix (by decide)
      rw [keep_eq hb (y := y)]
      simp only [List.nil_append] at hk
      rw [← hk, Reviews.keep, if_pos hb]
      rfl
    · obtain ⟨y, hy, hk⟩ := stripped_comment (Reviews.details_back dateOf ⟨date, v, none, [], [], ps c!"en"⟩ d' hd hd'
        hn hu ⟨none, [], []⟩)
      rw [hy, left, if_neg fun h => hn h.2]
      rw [keep_eq (hv hn) (y := y)]
      simpa using hk.symm
  · rw [withHead, if_neg hL, List.nil_append, left, if_neg fun h => hL h.1]
    exact ReviewTexts.stripped_plain dateOf hu

theorem mem_join {sep x : Str} {c : Char} : ∀ {l : List Str}, x ∈ l → c ∈ x → c ∈ join sep l
  | [], h, _ => by cases h
  | [a], h, hc => by
    rw [List.mem_singleton.1 h] at hc
    exact hc
  | a :: b :: l, h, hc => by
    rw [join]
    rcases List.mem_cons.1 h with rfl | h
    · simp [hc]
    · have := mem_join (sep := sep) h hc
      simp [this]

/-- Paragraphs of visible texts are visible. -/
theorem paragraphs_visible {sep : Str} {es : List Given} {L : Str} {ps : List Str} (h : Paragraphs (some sep) es L ps)
    (hv : ∀ e ∈ es, LangText.Spec.Visible e.text) (hne : ps ≠ []) : notBlank (join c!"\n" ps) = true := by
  rw [LangText.notBlank_iff]
  obtain ⟨idx, _, hm, rfl⟩ := h
  cases idx with
  | nil => exact absurd rfl hne
  | cons i idx =>
    obtain ⟨e, he, hl, hi⟩ := (hm i).1 (by simp)
    obtain ⟨c, hc, hs⟩ := hv e he
    have h1 : e.text ∈ LangText.Spec.textsOf es i L :=
      List.mem_map_of_mem (List.mem_filter.2 ⟨he, by simp [hl, hi]⟩)
    have h2 : c ∈ LangText.Spec.combine (some sep) (LangText.Spec.textsOf es i L) := mem_join h1 hc
    exact ⟨c, mem_join (List.mem_map_of_mem (List.mem_cons_self (l := idx))) h2, hs⟩

theorem content_of_notBlank {L : Option Str} {s : Str} (h : notBlank s = true) : (Text.mk L (some s)).content = s := by
  have : isSpaceStr s = false := by
    unfold notBlank at h
    simp only [Bool.and_eq_true, Bool.not_eq_true'] at h
    exact h.2
  simp [Text.content, this]

theorem full_visible {l : List (Str × Str)} (h : ∀ p ∈ l, notBlank p.2 = true) :
    full (l.map fun p => ⟨some p.1, some p.2⟩) = l.map fun p => ⟨some p.1, some p.2⟩ := by
  unfold full
  rw [List.filter_eq_self]
  intro t ht
  obtain ⟨p, hp, rfl⟩ := List.mem_map.1 ht
  rw [content_of_notBlank (h p hp)]
  simpa using LangText.visible_ne_nil ((LangText.notBlank_iff _).1 (h p hp))

theorem stripAll_all {dateOf : Str → Option Str} {g : Str × Str → Str} : ∀ {l : List (Str × Str)},
    (∀ p ∈ l, ReviewTexts.stripped dateOf p.2 = .ok (g p)) →
      ReviewTexts.stripAll dateOf (l.map fun p => (.str p.1, p.2)) = .ok (l.map fun p => (.str p.1, g p))
  | [], _ => rfl
  | p :: l, h => by
    rw [List.map_cons, ReviewTexts.stripAll, h p (by simp), stripAll_all fun p hp => h p (by simp [hp])]
    rfl

/-- **C187** Details of a review that are written in ILCD and read again come back in each language as one text, with the
paragraphs in order, and without the lines on date and version. Without details in English the line on the version comes
back as a detail. -/
theorem details_back {dateOf : Str → Option Str} {date d' : Str} (hd : Reviews.Spec.DateText date)
    (hd' : dateOf date = some d') {v : Reviews.Version} {vars : List (Str × Str)} {ts : List Detail}
    {ps : Str → List Str} (hps : ∀ L, Paragraphs (some c!"; ") (said vars ts) L (ps L))
    (hu : ∀ L, ReviewTexts.Plain (join c!"\n" (ps L))) (hl : ∀ t ∈ ts, t.lang.length = 2) {out : List (Str × Str)}
    (hout : Says out (withHead (headLines date (numbers v)) ps)) (dflt : PyVal) {n : Int} (hn : 3 ≤ n) {e' : Elem}
    {x' : List (Str × PyVal)} {typ : Option Str}
    (he' : ReviewTexts.Source e' x' typ [] [] (out.map fun p => ⟨some p.1, some p.2⟩))
    (ignore : Bool) (sent : Str → List Str)
    (hfit : ignore = true ∨ ∀ L t, Back typ (versionLine v) ps L t → t.length ≤ 32000) :
    ∃ y out', ReviewTexts.details dateOf dflt n x' = .ok y ∧ ReviewTexts.written ignore sent y = .ok out' ∧
      (out'.map fun p => p.1.1).Nodup ∧
      ∀ L t, (∃ i, ((i, L), t) ∈ out') ↔ Back typ (versionLine v) ps L t := by
  have hvis : ∀ L, ps L ≠ [] → notBlank (join c!"\n" (ps L)) = true := fun L h =>
    paragraphs_visible (hps L) (fun g hg => said_visible hg) h
  have hin : ∀ p ∈ out, withHead (headLines date (numbers v)) ps p.1 ≠ [] ∧
      p.2 = join c!"\n" (withHead (headLines date (numbers v)) ps p.1) := fun p hp => (hout.2 p.1 p.2).1 hp
  have hleft : ∀ L, withHead (headLines date (numbers v)) ps L ≠ [] → notBlank (left v ps L) = true := by
    intro L h
    unfold left
    split
    · exact ExchComments.notBlank_prefix (by decide)
    · rename_i hc
      refine hvis L fun hn => ?_
      by_cases hL : L = c!"en"
      · exact hc ⟨hL, by rw [← hL]; exact hn⟩
      · rw [withHead, if_neg hL, hn] at h
        exact h rfl
  have hb1 : ∀ p ∈ out, notBlank p.2 = true := by
    intro p hp
    obtain ⟨h1, h2⟩ := hin p hp
    rw [h2]
    by_cases hL : p.1 = c!"en"
    · rw [withHead, if_pos hL, head_text, Comments.join_cons (by simp), List.append_assoc]
      exact ExchComments.notBlank_prefix (by decide)
    · rw [withHead, if_neg hL, List.nil_append] at h1 ⊢
      exact hvis _ h1
  have hb2 : ∀ p ∈ out.map (fun p => (p.1, left v ps p.1)), notBlank p.2 = true := by
    intro p hp
    obtain ⟨q, hq, rfl⟩ := List.mem_map.1 hp
    exact hleft _ (hin q hq).1
  have hs : ReviewTexts.stripAll dateOf ((full (out.map fun p => ⟨some p.1, some p.2⟩)).map
      fun t => (.str t.language, t.content)) =
      .ok ((full ((out.map fun p => (p.1, left v ps p.1)).map fun p => ⟨some p.1, some p.2⟩)).map
        fun t => (.str t.language, t.content)) := by
    rw [full_visible hb1, full_visible hb2]
    have h1 : (out.map fun p => Text.mk (some p.1) (some p.2)).map (fun t => (PyVal.str t.language, t.content)) =
        out.map fun p => (PyVal.str p.1, p.2) := by
      rw [List.map_map]
      exact List.map_congr_left fun p hp => by
        simp only [Function.comp_apply]
        rw [content_of_notBlank (hb1 p hp)]
        rfl
    have h2 : ((out.map fun p => (p.1, left v ps p.1)).map fun p => Text.mk (some p.1) (some p.2)).map
        (fun t => (PyVal.str t.language, t.content)) = out.map fun p => (PyVal.str p.1, left v ps p.1) := by
      rw [List.map_map, List.map_map]
      exact List.map_congr_left fun p hp => by
        simp only [Function.comp_apply]
        rw [content_of_notBlank (hleft _ (hin p hp).1)]
        rfl
    rw [h1, h2]
    refine stripAll_all fun p hp => ?_
    rw [(hin p hp).2]
    exact stripped_text hd hd' v (hu _) (hvis _)
  have hlang : ∀ L, ps L ≠ [] → L.length = 2 := by
    intro L h
    rw [ne_eq, ExchComments.paragraphs_nil_iff (hps L), Decidable.not_not] at h
    obtain ⟨g, hg, rfl⟩ := h
    obtain ⟨t, ht, rfl⟩ := List.mem_map.1 (List.mem_filter.1 hg).1
    exact hl t ht
  have hlen : ∀ L, withHead (headLines date (numbers v)) ps L ≠ [] → L.length = 2 := by
    intro L h
    by_cases hL : L = c!"en"
    · rw [hL]; rfl
    · rw [withHead, if_neg hL, List.nil_append] at h
      exact hlang L h
  have key : ∀ L t, (∃ i, ReviewTexts.Spec.Stated n typ [] []
      ((out.map fun p => (p.1, left v ps p.1)).map fun p => ⟨some p.1, some p.2⟩) i L t) ↔
      Back typ (versionLine v) ps L t := by
    intro L t
    constructor
    · rintro ⟨i, h⟩
      cases h with
      | type t h => exact .type t h
      | scopes _ h => cases h
      | indicators _ h => cases h
      | detail k x h =>
        have hm : x ∈ full _ := List.mem_of_getElem? h
        rw [full_visible hb2] at hm
        obtain ⟨q, hq, rfl⟩ := List.mem_map.1 hm
        rw [content_of_notBlank (hb2 q hq)]
        obtain ⟨p, hp, rfl⟩ := List.mem_map.1 hq
        show Back typ _ ps p.1 (left v ps p.1)
        unfold left
        split
        · rename_i hc
          rw [hc.1]
          exact .version hc.2
        · rename_i hc
          refine .details p.1 fun hn => ?_
          have := (hin p hp).1
          by_cases hL : p.1 = c!"en"
          · exact hc ⟨hL, by rw [← hL]; exact hn⟩
          · rw [withHead, if_neg hL, hn] at this
            exact this rfl
    · have hex : ∀ L, withHead (headLines date (numbers v)) ps L ≠ [] → ∃ i, ReviewTexts.Spec.Stated n typ [] []
          ((out.map fun p => (p.1, left v ps p.1)).map fun p => ⟨some p.1, some p.2⟩) i L (left v ps L) := by
        intro L h
        have hm := (hout.2 L _).2 ⟨h, rfl⟩
        have hm2 : Text.mk (some L) (some (left v ps L)) ∈
            full ((out.map fun p => (p.1, left v ps p.1)).map fun p => Text.mk (some p.1) (some p.2)) := by
          rw [full_visible hb2, List.map_map]
          exact List.mem_map.2 ⟨_, hm, rfl⟩
        obtain ⟨k, hk⟩ := List.mem_iff_getElem?.1 hm2
        have := ReviewTexts.Spec.Stated.detail (n := n) (typ := typ) (ss := []) (ps := []) k _ hk
        rw [content_of_notBlank (hleft L h)] at this
        exact ⟨_, this⟩
      intro h
      cases h with
      | type t h => exact ⟨1, .type t h⟩
      | details L h =>
        obtain ⟨i, hi⟩ := hex L (by
          unfold withHead
          simp [h])
        rw [left, if_neg (by
          rintro ⟨rfl, hc⟩
          exact h hc)] at hi
        exact ⟨i, hi⟩
      | version h =>
        obtain ⟨i, hi⟩ := hex c!"en" (by simp [withHead, headLines])
        rw [left, if_pos ⟨rfl, h⟩] at hi
        exact ⟨i, hi⟩
  obtain ⟨y, out', h1, h2, h3, h4⟩ := ReviewTexts.left_stated dateOf dflt hn he' hs (by
      intro t ht
      rw [full_visible hb2] at ht
      obtain ⟨q, hq, rfl⟩ := List.mem_map.1 ht
      obtain ⟨p, hp, rfl⟩ := List.mem_map.1 hq
      exact hlen _ (hin p hp).1) ignore sent (hfit.imp id fun hf i L t h => hf L t ((key L t).1 ⟨i, h⟩))
  refine ⟨y, out', h1, h2, h3, fun L t => ?_⟩
  rw [← key L t]
  exact exists_congr fun i => h4 i L t

/-- **C187** Exactly the reviews with details in English come back as they should. -/
theorem back_wanted_iff (typ : Option Str) (v : Reviews.Version) (ps : Str → List Str) :
    (∀ L t, Back typ (versionLine v) ps L t ↔ Wanted typ ps L t) ↔ ps c!"en" ≠ [] := by
  constructor
  · intro h hn
    generalize hL : c!"en" = L at h hn
    generalize ht : versionLine v = t at h
    have hw := (h L t).1 (by rw [← hL, ← ht] at *; exact .version hn)
    cases hw with
    | type t' _ =>
      unfold versionLine at ht
      have := congrArg (fun x : Str => x[7]?) ht
      simp at this
    | details _ hne => exact hne hn
  · intro hne L t
    constructor
    · rintro (⟨t, h⟩ | ⟨L, h⟩ | h)
      · exact .type t h
      · exact .details L h
      · exact absurd h hne
    · rintro (⟨t, h⟩ | ⟨L, h⟩)
      · exact .type t h
      · exact .details L h

/-! ### C188: other details -/

/-- **C188** The other details stop the conversion if they are given in several languages. -/
theorem other_stops (langs : List Str) (dflt : PyVal) {e : Elem} (he : WellNamed e) {d : List (Str × PyVal)}
    (hd : elem2dict e = .dict d) {ts : List Text} (ht : Texts e c!"otherDetails" ts) (h2 : 2 ≤ ts.length) :
    other langs dflt d = .error .attributeError := by
  obtain ⟨tag, hk⟩ := texts_children ht
  have hc : e.children ≠ [] := by
    intro h
    unfold kids at hk
    rw [h] at hk
    have := congrArg List.length hk
    simp at this
    omega
  obtain ⟨d', hd', _, hch⟩ := dict_of_some e he (.inr hc)
  rw [hd'] at hd
  cases hd
  match ts, h2 with
  | a :: b :: l, _ =>
    unfold other
    rw [hch _ (by decide), hk]
    rfl

/-- **C188** Other details in at most one language are said. -/
theorem other_said_partial {langs : List Str} (dflt : PyVal) {e : Elem} (he : WellNamed e)
    (hs : e.attrs ≠ [] ∨ e.children ≠ []) {d : List (Str × PyVal)}
    (hd : elem2dict e = .dict d) {ts : List Text} (ht : Texts e c!"otherDetails" ts) (h1 : ts.length ≤ 1)
    (hl : ∀ t ∈ ts, t.language.length = 2 ∧ t.language ∈ langs) (ignore : Bool) (sent : Str → List Str)
    (hfit : ignore = true ∨ ∀ t ∈ ts, t.content.length ≤ 100000000) :
    ∃ x out, other langs dflt d = .ok x ∧ written ignore sent x = .ok out ∧
      Says out fun L => ExchComments.Spec.inLang L ts := by
  obtain ⟨tag, hk⟩ := texts_children ht
  obtain ⟨d', hd', _, hch⟩ := dict_of_some e he hs
  rw [hd'] at hd
  cases hd
  unfold other
  rw [hch _ (by decide), hk]
  match ts, h1 with
  | [], _ =>
    refine ⟨[], [], rfl, rfl, by simp, fun L t => ?_⟩
    simp [ExchComments.Spec.inLang]
  | [t], _ =>
    have hok : LangText.langOk (some langs) t.language = true := by
      have := hl t (by simp)
      simp [LangText.langOk, this.1, this.2]
    have hput : ExchComments.putAll LangText.unlimited (some langs) []
        [Naming.entryDict 1 (.str t.language) t.content] =
        .ok (addMerged LangText.unlimited [] ([⟨1, t.language, t.content⟩].filter fun e => notBlank e.text)) :=
      ExchComments.putAll_values LangText.unlimited (some langs) [⟨1, t.language, t.content⟩] [] (by simpa using hok)
    have hval : (match (children ([t].map (elem tag))) with
        | none => .ok []
        | some v =>
          if truthy v then do
            let t ← addIndex dflt [] v
            ExchComments.putAll LangText.unlimited (some langs) [] [Naming.entryDict 1 t.1 t.2]
          else .ok [] : Py (List Entry)) =
        .ok (addMerged LangText.unlimited [] ([⟨1, t.language, t.content⟩].filter fun e => notBlank e.text)) := by
      have hv := leaf_value tag t
      simp only [List.map_cons, List.map_nil, children]
      rw [hv]
      obtain ⟨lang, text⟩ := t
      cases lang with
      | some l =>
        rw [← hput]
        rfl
      | none =>
        simp only
        by_cases hc : (Text.mk none text).content = []
        · rw [if_pos hc, hc]
          rfl
        · rw [if_neg hc, ← hput]
          have : truthy (.str (Text.mk none text).content) = true := by
            simp [truthy, hc]
          rw [if_pos this]
          rfl
    obtain ⟨out, ho, hy⟩ := ExchComments.says_of (t := LangText.unlimited) rfl rfl
      (fun k _ hk => by simpa [Validators.Limit.holds, LangText.upper] using hk) ignore sent
      ([⟨1, t.language, t.content⟩].filter fun e => notBlank e.text) (fun e he => (List.mem_filter.1 he).2)
      (ps := fun L => ExchComments.Spec.inLang L [t]) (fun L => by
        by_cases hb : notBlank t.content = true
        · have hne : t.content ≠ [] := LangText.visible_ne_nil ((LangText.notBlank_iff _).1 hb)
          have := ExchComments.paragraphs_one (some c!"; ") ⟨1, t.language, t.content⟩ L
          by_cases hL : t.language = L
          · simpa [hb, Entry.given, ExchComments.Spec.inLang, hne, hL] using this
          · simpa [hb, Entry.given, ExchComments.Spec.inLang, hne, hL] using this
        · have hne : t.content = [] := by
            by_contra hc
            exact hb (by rw [ExchComments.notBlank_content]; simpa using hc)
          have := ExchComments.paragraphs_empty (some c!"; ") L
          have hf : ([⟨1, t.language, t.content⟩] : List Entry).filter (fun e => notBlank e.text) = [] := by simp [hb]
          rw [hf]
          simpa [ExchComments.Spec.inLang, hne] using this)
      (hfit.imp id fun hf L => by
        have := hf t (by simp)
        unfold ExchComments.Spec.inLang
        by_cases hc : (decide (t.language = L) && decide (t.content ≠ [])) = true
        · simp only [List.filter_cons, hc, if_true, List.filter_nil, List.map_cons, List.map_nil, join]
          exact this
        · simp only [List.filter_cons, hc, List.filter_nil]
          simp [join])
    exact ⟨_, out, hval, ho, hy⟩

/-! ### Examples -/

def textElem (lang index text : Str) : Elem := .mk c!"{e}text" [(xmlLang, lang), (c!"index", index)] (some text) [] none

def detailsElem : Elem := .mk c!"{e}details" [] none
  [textElem c!"en" c!"2" c!"Checked by {{who}}.", textElem c!"de" c!"1" c!"geprüft", textElem c!"en" c!"1" c!"Complete.",
   .mk c!"{e}variable" [(c!"name", c!"who")] (some c!"NN") [] none] none

/-- A review of EcoSpold2. -/
def review : Elem := .mk c!"{e}review" [(c!"reviewDate", c!"2010-05-31"), (c!"reviewedMajorRelease", c!"3"),
  (c!"reviewedMajorRevision", c!"0"), (c!"reviewedMinorRelease", c!"1"), (c!"reviewedMinorRevision", c!"2")] none
  [detailsElem, elem c!"{e}otherDetails" ⟨some c!"en", some c!"none"⟩] none

def reviewDict : List (Str × PyVal) :=
  match elem2dict review with
  | .dict d => d
  | _ => []

def reviewTexts : List Detail := [⟨2, c!"en", [.lit c!"Checked by ", .var c!"who", .lit c!"."]⟩,
  ⟨1, c!"de", [.lit c!"geprüft"]⟩, ⟨1, c!"en", [.lit c!"Complete."]⟩]

theorem textElem_wellNamed (lang index text : Str) : WellNamed (textElem lang index text) := by
  refine .mk _ _ _ _ _ (by decide) ?_ (show [localName xmlLang, localName c!"index"].Nodup by decide +kernel) (by simp)
  intro a ha
  simp only [List.mem_cons, List.not_mem_nil, or_false] at ha
  rcases ha with rfl | rfl
  · show Name (localName xmlLang)
    decide +kernel
  · show Name (localName c!"index")
    decide +kernel

theorem textElem_isDetail {lang index text : Str} {i : Int} {ps : List TextImage.Spec.Piece}
    (hi : parseInt index = some i) (hv : Xml.Spec.Visible text) (ht : text = TextImage.Spec.written ps)
    (hp : ∀ p ∈ ps, p.Plain) : IsDetail (textElem lang index text) ⟨i, lang, ps⟩ := by
  have hx : localName xmlLang = c!"lang" := by decide +kernel
  have hy : localName c!"index" = c!"index" := by decide +kernel
  refine ⟨rfl, ?_, ?_, ⟨index, ?_, hi⟩, ⟨text, rfl, hv, ht⟩, hp⟩
  · intro a ha
    simp only [textElem, Elem.attrs, List.mem_cons, List.not_mem_nil, or_false] at ha
    rcases ha with rfl | rfl
    · exact .inr hx
    · exact .inl hy
  · simp [attr, textElem, Elem.attrs, hx]
  · simp [attr, textElem, Elem.attrs, hx, hy]

theorem review_source : Source review reviewDict c!"2010-05-31" (numbers ⟨3, 1, 0, 2⟩) [(c!"who", c!"NN")] reviewTexts where
  wellNamed := by
    refine .mk _ _ _ _ _ (by decide) (by decide +kernel) (by decide +kernel) ?_
    intro e he
    simp only [List.mem_cons, List.not_mem_nil, or_false] at he
    rcases he with rfl | rfl
    · refine .mk _ _ _ _ _ (by decide) (by simp) (by simp) ?_
      intro e he
      simp only [List.mem_cons, List.not_mem_nil, or_false] at he
      rcases he with rfl | rfl | rfl | rfl
      · exact textElem_wellNamed _ _ _
      · exact textElem_wellNamed _ _ _
      · exact textElem_wellNamed _ _ _
      · exact .mk _ _ _ _ _ (by decide) (by decide) (by decide) (by simp)
    · exact Products.elem_wellNamed _ _ (by decide)
  dict := rfl
  date := rfl
  majorRelease := by decide +kernel
  majorRevision := by decide +kernel
  minorRelease := by decide +kernel
  minorRevision := by decide +kernel
  details := by
    refine .inr ⟨detailsElem, rfl, by simp [detailsElem, Elem.children], ?_, ?_⟩
    · show List.Forall₂ IsVariable [_] _
      exact .cons ⟨rfl, ⟨rfl, 'N', by decide, by decide⟩, by decide⟩ .nil
    · show List.Forall₂ IsDetail [_, _, _] _
      exact .cons (textElem_isDetail (by decide +kernel) ⟨'C', by decide, by decide⟩ (by decide +kernel) (by decide +kernel))
        (.cons (textElem_isDetail (by decide +kernel) ⟨'g', by decide, by decide⟩ (by decide +kernel) (by decide +kernel))
        (.cons (textElem_isDetail (by decide +kernel) ⟨'C', by decide, by decide⟩ (by decide +kernel) (by decide +kernel)) .nil))

/-- The paragraphs of the example. -/
def reviewParagraphs (L : Str) : List Str :=
  if L = c!"en" then [c!"Complete.", c!"Checked by NN."] else if L = c!"de" then [c!"geprüft"] else []

theorem review_said : said [(c!"who", c!"NN")] reviewTexts =
    [⟨2, c!"en", c!"Checked by NN."⟩, ⟨1, c!"de", c!"geprüft"⟩, ⟨1, c!"en", c!"Complete."⟩] := by decide +kernel

theorem review_paragraphs (L : Str) : Paragraphs (some c!"; ") (said [(c!"who", c!"NN")] reviewTexts) L
    (reviewParagraphs L) := by
  rw [review_said]
  by_cases h1 : L = c!"en"
  · subst h1
    refine ⟨[1, 2], by decide, fun i => ?_, by decide +kernel⟩
    simp
    omega
  · by_cases h2 : L = c!"de"
    · subst h2
      exact ⟨[1], by decide, fun i => by simp [eq_comm], by decide +kernel⟩
    · refine ⟨[], by decide, fun i => ?_, by simp [reviewParagraphs, h1, h2]⟩
      simp [Ne.symm h1, Ne.symm h2]

example : ∃ x out, details [c!"en", c!"de"] reviewDict = .ok x ∧ written true (fun s => [s]) x = .ok out ∧
    Says out (withHead (headLines c!"2010-05-31" (numbers ⟨3, 1, 0, 2⟩)) reviewParagraphs) :=
  details_said (by decide) review_source (by decide) (by decide) review_paragraphs true _ (.inl rfl)

/-- **C186** What is written of the example. -/
theorem review_written : ∃ x, details [c!"en", c!"de"] reviewDict = .ok x ∧ written false (fun s => [s]) x = .ok
    [(c!"de", c!"geprüft"),
     (c!"en", c!"Date of Review: 2010-05-31\nReview Version: 3.0.1.2\nComplete.\nChecked by NN.")] :=
  ⟨_, rfl, by decide +kernel⟩

/-- What is written, as a review of ILCD. -/
def backElem : Elem := .mk c!"{i}review" [] none
  [elem c!"{c}reviewDetails" ⟨some c!"de", some c!"geprüft"⟩,
   elem c!"{c}reviewDetails" ⟨some c!"en", some c!"Date of Review: 2010-05-31\nReview Version: 3.0.1.2\nComplete.\nChecked by NN."⟩] none

def backDict : List (Str × PyVal) :=
  match elem2dict backElem with
  | .dict d => d
  | _ => []

def backOut : List (Str × Str) := [(c!"de", c!"geprüft"),
  (c!"en", c!"Date of Review: 2010-05-31\nReview Version: 3.0.1.2\nComplete.\nChecked by NN.")]

theorem back_says : Says backOut (withHead (headLines c!"2010-05-31" (numbers ⟨3, 1, 0, 2⟩)) reviewParagraphs) := by
  refine ⟨by decide, fun L t => ?_⟩
  by_cases h1 : L = c!"en"
  · subst h1
    have : join c!"\n" (withHead (headLines c!"2010-05-31" (numbers ⟨3, 1, 0, 2⟩)) reviewParagraphs c!"en") =
      c!"Date of Review: 2010-05-31\nReview Version: 3.0.1.2\nComplete.\nChecked by NN." := by decide +kernel
    rw [this]
    simp [backOut, withHead, reviewParagraphs]
  · by_cases h2 : L = c!"de"
    · subst h2
      simp [backOut, withHead, reviewParagraphs, join]
    · simp [backOut, withHead, reviewParagraphs, h1, h2]

theorem back_source : ReviewTexts.Source backElem backDict none [] [] (backOut.map fun p => ⟨some p.1, some p.2⟩) where
  wellNamed := by
    refine .mk _ _ _ _ _ (by decide) (by simp) (by simp) ?_
    intro e he
    simp only [List.mem_cons, List.not_mem_nil, or_false] at he
    rcases he with rfl | rfl <;> exact Products.elem_wellNamed _ _ (by decide)
  some := .inr (by simp [backElem, Elem.children])
  dict := rfl
  type := rfl
  scopes := .nil
  indicators := .inl ⟨rfl, rfl⟩
  details := ⟨c!"{c}reviewDetails", rfl⟩

theorem review_plain (L : Str) : ReviewTexts.Plain (join c!"\n" (reviewParagraphs L)) := by
  unfold reviewParagraphs
  split
  · unfold ReviewTexts.Plain; decide +kernel
  · split
    · unfold ReviewTexts.Plain; decide +kernel
    · unfold ReviewTexts.Plain; decide +kernel

example : ∃ y out', ReviewTexts.details some .none 1000 backDict = .ok y ∧
    ReviewTexts.written true (fun s => [s]) y = .ok out' ∧ (out'.map fun p => p.1.1).Nodup ∧
      ∀ L t, (∃ i, ((i, L), t) ∈ out') ↔ Back none (versionLine ⟨3, 1, 0, 2⟩) reviewParagraphs L t :=
  details_back (dateOf := some) (date := c!"2010-05-31") ⟨by decide, by decide⟩ rfl review_paragraphs review_plain
    (by decide) back_says .none (by decide) back_source true _ (.inl rfl)

example : ∃ x out, other [c!"en", c!"de"] .none reviewDict = .ok x ∧ written true (fun s => [s]) x = .ok out ∧
    Says out fun L => ExchComments.Spec.inLang L [⟨some c!"en", some c!"none"⟩] :=
  other_said_partial .none review_source.wellNamed (.inl (by simp [review, Elem.attrs])) review_source.dict
    ⟨c!"{e}otherDetails", rfl⟩ (by decide) (by decide) true _ (.inl rfl)

/-- Other details in two languages. -/
def twoElem : Elem := .mk c!"{e}review" [] none
  [elem c!"{e}otherDetails" ⟨some c!"en", some c!"none"⟩, elem c!"{e}otherDetails" ⟨some c!"de", some c!"keine"⟩] none

def twoDict : List (Str × PyVal) :=
  match elem2dict twoElem with
  | .dict d => d
  | _ => []

example : other [c!"en", c!"de"] .none twoDict = .error .attributeError :=
  other_stops _ .none (e := twoElem) (ts := [⟨some c!"en", some c!"none"⟩, ⟨some c!"de", some c!"keine"⟩]) (by
    refine .mk _ _ _ _ _ (by decide) (by simp) (by simp) ?_
    intro e he
    simp only [List.mem_cons, List.not_mem_nil, or_false] at he
    rcases he with rfl | rfl <;> exact Products.elem_wellNamed _ _ (by decide)) rfl ⟨c!"{e}otherDetails", rfl⟩ (by decide)

end Verif.ReviewDetails
