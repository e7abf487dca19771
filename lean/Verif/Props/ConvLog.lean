import Verif.Lemmas.ConvLog

/-! The list of flows that were not converted. -/

namespace Verif.ConvLog

open Spec

variable {word : Char → Bool}

/-- The search of `end_log` on the text of a log. -/
def found (word : Char → Bool) (l : List Entry) : List (Str × Str) := findAll word (render l).length (render l)

/-- **The list names exactly the flows whose beginning is directly followed by the message that they are not
converted**, in their order, for logs of any length. -/
theorem found_reported (hw : Words word) (l : List Event) (h : ∀ e ∈ l, Plain word e) :
    found word (l.map entry) = reported l := findAll_render hw l h 0

/-- The file of the list: a line with the identifier and the name of each of these flows; no file without flows. -/
theorem endLog_reported (hw : Words word) (l : List Event) (h : ∀ e ∈ l, Plain word e) :
    endLog word (render (l.map entry)) =
      if reported l = [] then none else some ((reported l).map fun p => p.2 ++ c!" : " ++ p.1) := by
  have := found_reported hw l h
  unfold found at this
  unfold endLog
  rw [this]

theorem asciiWord_words : Words asciiWord := by constructor <;> decide

/-- An identifier. -/
def exId : Str := c!"0a1b2c3d-0000-4444-8888-0123456789ab"

theorem quiet_of {e : Entry} (h : (e.msg.all fun c => c != '-') = true)
    (h2 : ∀ w r, e.msg = w ++ r → ∀ c, r.head? = some c → c ≠ 'S' ∧ c ≠ 'F') (word : Char → Bool) : Quiet word e := by
  refine ⟨?_, ?_⟩
  · rintro ⟨a, b, hab⟩
    have := List.all_eq_true.1 h '-' (by rw [hab]; simp)
    simp at this
  · intro w r hr _
    constructor
    · rintro - ⟨b, rfl⟩
      exact (h2 w _ hr 'S' rfl).1 rfl
    · rintro - ⟨b, rfl⟩
      exact (h2 w _ hr 'F' rfl).2 rfl

example : ∀ e ∈ [Event.start c!"Water, river" exId, .lost true, .start c!"Iron : II" exId, .other ⟨.info, c!"ok"⟩],
    Plain asciiWord e := by
  intro e he
  simp only [List.mem_cons, List.not_mem_nil, or_false] at he
  rcases he with rfl | rfl | rfl | rfl
  · refine ⟨⟨by decide, by decide⟩, ⟨by decide, by decide⟩, ?_⟩
    rintro ⟨a, b, h⟩
    have : '-' ∈ c!"Water, river" := by rw [h]; simp
    revert this; decide
  · trivial
  · refine ⟨⟨by decide, by decide⟩, ⟨by decide, by decide⟩, ?_⟩
    rintro ⟨a, b, h⟩
    have : '-' ∈ c!"Iron : II" := by rw [h]; simp
    revert this; decide
  · refine quiet_of (by decide) ?_ _
    intro w r h c hc
    have hm : c ∈ c!"ok" := by
      have h : c!"ok" = w ++ r := h
      rw [h]
      exact List.mem_append_right _ (List.mem_of_mem_head? hc)
    simp only [List.mem_cons, List.not_mem_nil, or_false] at hm
    rcases hm with rfl | rfl <;> decide

/-- The events of a flow. -/
def events (n i : Str) (pre : List Entry) : Fate → List Event
  | .lost b => .start n i :: pre.map .other ++ [.lost b]
  | .converted l => .start n i :: pre.map .other ++ l.map .other

theorem reported_others : ∀ (l : List Entry) (R : List Event), reported (l.map .other ++ R) = reported R
  | [], _ => rfl
  | e :: l, R => by
    show reported (Event.other e :: (l.map .other ++ R)) = _
    rw [show reported (Event.other e :: (l.map .other ++ R)) = reported (l.map .other ++ R) by simp [reported]]
    exact reported_others l R

theorem reported_lost (b : Bool) (R : List Event) : reported (.lost b :: R) = reported R := by simp [reported]

theorem reported_start_other (n i : Str) (l : List Entry) (R : List Event) (h : l ≠ [] ∨ ∀ b R', R ≠ .lost b :: R') :
    reported (.start n i :: (l.map .other ++ R)) = reported R := by
  cases l with
  | cons e l =>
    show reported (.start n i :: .other e :: (l.map .other ++ R)) = _
    rw [show reported (.start n i :: .other e :: (l.map .other ++ R)) = reported (.other e :: (l.map .other ++ R)) by
      simp [reported]]
    exact reported_others (e :: l) R
  | nil =>
    have h : ∀ b R', R ≠ .lost b :: R' := by simpa using h
    cases R with
    | nil => rfl
    | cons e R =>
      cases e with
      | lost b => exact absurd rfl (h b R)
      | start n i => simp [reported]
      | other e => simp [reported]

/-- What is reported of a run of flows: the lost ones without an entry in between. -/
theorem reported_run (fs : List ((Str × Str) × List Entry × Fate)) :
    reported (fs.flatMap fun f => events f.1.1 f.1.2 f.2.1 f.2.2) =
      (fs.filter fun f => decide (IsLost f.2.2 ∧ f.2.1 = [])).map (·.1) ∧
    ∀ b R, fs.flatMap (fun f => events f.1.1 f.1.2 f.2.1 f.2.2) ≠ .lost b :: R := by
  induction fs with
  | nil => exact ⟨rfl, by simp⟩
  | cons f fs ih =>
    rcases f with ⟨⟨n, i⟩, pre, fate⟩
    rw [List.flatMap_cons]
    obtain ⟨ih1, ih2⟩ := ih
    revert ih1 ih2
    generalize fs.flatMap (fun f => events f.1.1 f.1.2 f.2.1 f.2.2) = R
    intro ih1 ih2
    cases fate with
    | lost b =>
      refine ⟨?_, by intro b R; simp [events]⟩
      rw [show events ((n, i), pre, Fate.lost b).1.1 ((n, i), pre, Fate.lost b).1.2 ((n, i), pre, Fate.lost b).2.1
        ((n, i), pre, Fate.lost b).2.2 ++ R = .start n i :: (pre.map .other ++ .lost b :: R) by simp [events]]
      cases pre with
      | nil =>
        show reported (.start n i :: .lost b :: R) = _
        rw [show reported (.start n i :: .lost b :: R) = (n, i) :: reported (.lost b :: R) by simp [reported],
          reported_lost, ih1]
        simp [IsLost]
      | cons e pre =>
        rw [reported_start_other n i (e :: pre) _ (Or.inl (by simp)), reported_lost, ih1]
        simp [IsLost]
    | converted l =>
      refine ⟨?_, by intro b R; simp [events]⟩
      rw [show events ((n, i), pre, Fate.converted l).1.1 ((n, i), pre, Fate.converted l).1.2
        ((n, i), pre, Fate.converted l).2.1 ((n, i), pre, Fate.converted l).2.2 ++ R =
        .start n i :: ((pre ++ l).map .other ++ R) by simp [events]]
      rw [reported_start_other n i (pre ++ l) _ (Or.inr ih2), ih1]
      simp [IsLost]

theorem entries_others (l : List Entry) : l.map (entry ∘ Event.other) = l := List.map_id' l

/-- The name and the identifier of a flow can be read from its entry. -/
def Readable (n i : Str) : Prop := PlainName n ∧ PlainId i ∧ ¬ Occurs c!"INFO -" n

/-- **From EcoSpold2 to ILCD** the list names exactly the flows that were not converted, each once and in their order,
for any number of flows with names on one line and identifiers in small letters. -/
theorem ecs_list_partial (hw : Words word) (fs : List ((Str × Str) × Fate))
    (h : ∀ f ∈ fs, Readable f.1.1 f.1.2 ∧ QuietFate word f.2) :
    found word (fs.flatMap fun f => ecsFlow f.1.1 f.1.2 f.2) = (fs.filter fun f => decide (IsLost f.2)).map (·.1) := by
  have hl : ((fs.map fun f => (f.1, ([] : List Entry), f.2)).flatMap
      fun f => events f.1.1 f.1.2 f.2.1 f.2.2).map entry = fs.flatMap fun f => ecsFlow f.1.1 f.1.2 f.2 := by
    rw [List.flatMap_map, List.map_flatMap]
    congr 1
    funext f
    rcases f with ⟨⟨n, i⟩, fate⟩
    cases fate with
    | lost b => rfl
    | converted l => simp [events, ecsFlow, entry, entries_others]
  rw [← hl, found_reported hw, (reported_run _).1]
  · rw [List.filter_map, List.map_map]
    simp [Function.comp_def]
  · intro e he
    obtain ⟨f, hf, he⟩ := List.mem_flatMap.1 he
    obtain ⟨g, hg, rfl⟩ := List.mem_map.1 hf
    obtain ⟨h1, h2⟩ := h g hg
    rcases g with ⟨⟨n, i⟩, fate⟩
    cases fate with
    | lost b =>
      simp only [events, List.map_nil, List.append_nil, List.cons_append, List.nil_append, List.mem_cons,
        List.not_mem_nil, or_false] at he
      rcases he with rfl | rfl
      · exact h1
      · trivial
    | converted l =>
      simp only [events, List.map_nil, List.append_nil, List.cons_append, List.nil_append, List.mem_cons,
        List.mem_map] at he
      rcases he with rfl | ⟨x, hx, rfl⟩
      · exact h1
      · exact h2 x hx

theorem unc_quiet (x : Exch) (word : Char → Bool) (hw : Words word) : ∀ e ∈ uncEntries x, Quiet word e := by
  intro e he
  unfold uncEntries at he
  have hn : ∀ (m : Str), m = c!"\t\tnormal with no pedigree information" ∨
      m = c!"\t\tlognormal with no pedigree information" → Quiet word ⟨.info, m⟩ := by
    intro m hm
    refine quiet_of ?_ ?_ word
    · rcases hm with rfl | rfl <;> decide
    · intro w r h c hc
      have h : m = w ++ r := h
      have hmem : c ∈ m := by rw [h]; exact List.mem_append_right _ (List.mem_of_mem_head? hc)
      constructor
      · rintro rfl; rcases hm with rfl | rfl <;> revert hmem <;> decide
      · rintro rfl; rcases hm with rfl | rfl <;> revert hmem <;> decide
  split at he
  · rw [List.mem_singleton.1 he]; exact hn _ (Or.inl rfl)
  · split at he
    · rw [List.mem_singleton.1 he]; exact hn _ (Or.inr rfl)
    · cases he

theorem uncEntries_nil (x : Exch) : uncEntries x = [] ↔ ¬ NoBasic x := by
  unfold uncEntries NoBasic
  by_cases hb : x.basic = false
  · by_cases h1 : x.unc = some c!"normal"
    · simp [hb, h1]
    · by_cases h2 : x.unc = some c!"log-normal"
      · simp [hb, h2]
      · simp [hb, h1, h2]
  · simp [hb]

/-- **From ILCD to EcoSpold2** the list names exactly the lost flows that do not have a normal or lognormal distribution
without a basic variance. -/
theorem ilcd_list (hw : Words word) (fs : List (Exch × Fate))
    (h : ∀ f ∈ fs, Readable f.1.name f.1.id ∧ QuietFate word f.2) :
    found word (fs.flatMap fun f => ilcdFlow f.1 f.2) =
      (fs.filter fun f => decide (IsLost f.2 ∧ ¬ NoBasic f.1)).map fun f => (f.1.name, f.1.id) := by
  have hl : ((fs.map fun f => ((f.1.name, f.1.id), uncEntries f.1, f.2)).flatMap
      fun f => events f.1.1 f.1.2 f.2.1 f.2.2).map entry = fs.flatMap fun f => ilcdFlow f.1 f.2 := by
    rw [List.flatMap_map, List.map_flatMap]
    congr 1
    funext f
    rcases f with ⟨x, fate⟩
    cases fate with
    | lost b =>
      simp [events, ilcdFlow, entry, entries_others]
    | converted l => simp [events, ilcdFlow, entry, entries_others]
  rw [← hl, found_reported hw, (reported_run _).1]
  · rw [List.filter_map, List.map_map]
    simp only [Function.comp_def, uncEntries_nil]
  · intro e he
    obtain ⟨f, hf, he⟩ := List.mem_flatMap.1 he
    obtain ⟨g, hg, rfl⟩ := List.mem_map.1 hf
    obtain ⟨h1, h2⟩ := h g hg
    rcases g with ⟨x, fate⟩
    cases fate with
    | lost b =>
      simp only [events, List.cons_append, List.mem_cons, List.mem_append, List.mem_map, List.not_mem_nil,
        or_false] at he
      rcases he with rfl | ⟨y, hy, rfl⟩ | rfl
      · exact h1
      · exact unc_quiet x word hw y hy
      · trivial
    | converted l =>
      simp only [events, List.cons_append, List.mem_cons, List.mem_append, List.mem_map] at he
      rcases he with rfl | ⟨y, hy, rfl⟩ | ⟨y, hy, rfl⟩
      · exact h1
      · exact unc_quiet x word hw y hy
      · exact h2 y hy

/-- A lost flow with such a distribution is in no list. -/
theorem ilcd_list_misses (hw : Words word) (x : Exch) (b : Bool) (h : Readable x.name x.id) (hx : NoBasic x) :
    found word (ilcdFlow x (.lost b)) = [] := by
  have := ilcd_list hw [(x, .lost b)] (by
    intro f hf
    rw [List.mem_singleton.1 hf]
    exact ⟨h, trivial⟩)
  simpa [IsLost, hx] using this

theorem readable_ex : Readable c!"Water, river" exId := by
  refine ⟨⟨by decide, by decide⟩, ⟨by decide, by decide⟩, ?_⟩
  rintro ⟨a, b, h⟩
  have : '-' ∈ c!"Water, river" := by rw [h]; simp
  revert this; decide

example : ∃ x : Exch, Readable x.name x.id ∧ NoBasic x :=
  ⟨⟨c!"Water, river", exId, some c!"log-normal", false⟩, readable_ex, by decide⟩

example : found asciiWord ([((c!"Water, river", exId), Fate.lost true), ((c!"Iron", exId), .converted []),
    ((c!"Iron", exId), .lost false)].flatMap fun f => ecsFlow f.1.1 f.1.2 f.2) =
    [(c!"Water, river", exId), (c!"Iron", exId)] := by decide +kernel

/-- **From ILCD to ILCD** nothing is listed, whatever is lost: the log has no entry for the beginning of a flow. -/
theorem list_list_misses (hw : Words word) (l : List Entry)
    (h : ∀ e ∈ l, e = listEntry ∨ Quiet word e) : found word l = [] := by
  refine findAll_no_start hw l 0 ?_
  intro e he
  rcases h e he with rfl | hq
  · refine ⟨?_, by intro h2; cases h2⟩
    rintro ⟨a, b, hab⟩
    have hm : 'I' ∈ listEntry.msg := by rw [hab]; simp
    revert hm; decide
  · exact ⟨hq.1, fun hi w r h1 h2 => (hq.2 w r h1 h2).1 hi⟩

example : found asciiWord [listEntry, listEntry] = [] := by decide +kernel

/-- A lost flow with a tabulator (or another space that is no blank) in its name is in no list. -/
theorem tab_not_listed (hw : Words word) {a n i : Str} {c : Char} (hc : pySpace c = true) (hb : c ≠ ' ') (hn : c ≠ '\n')
    (ha : ∀ d ∈ a, pySpace d = false ∨ d = ' ')
    (ho : ¬ Occurs c!"INFO -" (started (a ++ c :: n) i).msg) (b : Bool) :
    found word (ecsFlow (a ++ c :: n) i (.lost b)) = [] := by
  have hm : matchAt word (render [started (a ++ c :: n) i, notConverted b]) = none := by
    rw [render_cons, matchAt_started hw]
    rw [show a ++ c :: n ++ c!" : " ++ i ++ '\n' :: render [notConverted b] =
      a ++ c :: (n ++ c!" : " ++ i ++ '\n' :: render [notConverted b]) by simp]
    refine lazyName_tab ?_ hn _ _ _ ?_
    · simp [nameChar, hc, hb]
    · intro d hd
      rcases ha d hd with h | h <;> simp [nameChar, h]
  have h1 := findAll_line (word := word) (render [notConverted b]).length _ ho hm
  have h2 := findAll_render hw [Event.lost b] (by intro e he; rw [List.mem_singleton.1 he]; trivial) 0
  have h2 : findAll word (render [notConverted b]).length (render [notConverted b]) = [] := h2
  rw [h2] at h1
  unfold found
  show findAll word (line (started (a ++ c :: n) i) ++ render [notConverted b]).length _ = _
  rw [List.length_append]
  exact h1

example : ∃ (a n i : Str) (c : Char), pySpace c = true ∧ c ≠ ' ' ∧ c ≠ '\n' ∧ (∀ d ∈ a, pySpace d = false ∨ d = ' ') ∧
    ¬ Occurs c!"INFO -" (started (a ++ c :: n) i).msg := by
  refine ⟨c!"Water,", c!"river", exId, '\t', by decide, by decide, by decide, by decide, ?_⟩
  rintro ⟨a, b, h⟩
  have hm : 'I' ∈ (started (c!"Water," ++ '\t' :: c!"river") exId).msg := by rw [h]; simp
  revert hm; decide

/-- A lost flow whose identifier is not of 36 small hexadecimal digits and hyphens is in no list. -/
theorem odd_id_not_listed (hw : Words word) {n i : Str} (hn : ∀ d ∈ n, pySpace d = false ∨ d = ' ')
    (hi : ∀ d ∈ i, pySpace d = false) (hp : ¬ PlainId i) (ho : ¬ Occurs c!"INFO -" (started n i).msg) (b : Bool) :
    found word (ecsFlow n i (.lost b)) = [] := by
  have hm : matchAt word (render [started n i, notConverted b]) = none := by
    rw [render_cons, matchAt_started hw]
    refine lazyName_odd _ _ ?_ ?_
    · intro d hd
      rcases List.mem_append.1 hd with hd | hd
      · rcases List.mem_append.1 hd with hd | hd
        · rcases hn d hd with h | h <;> simp [nameChar, h]
        · exact List.all_eq_true.1 (by decide : (c!" : ").all nameChar = true) d hd
      · simp [nameChar, hi d hd]
    · intro x j hx hj
      apply hp
      have h1 : ' ' ∉ i := by
        intro hm
        have := hi _ hm
        revert this; decide
      have h2 : ' ' ∉ j := by
        intro hm
        have := hj.2 _ hm
        revert this; decide
      have : i = j := by
        refine last_eq (c := ' ') (a := n ++ c!" :") (a' := x ++ c!" :") ?_ h1 h2
        simpa using hx
      rw [this]; exact hj
  have h1 := findAll_line (word := word) (render [notConverted b]).length _ ho hm
  have h2 := findAll_render hw [Event.lost b] (by intro e he; rw [List.mem_singleton.1 he]; trivial) 0
  have h2 : findAll word (render [notConverted b]).length (render [notConverted b]) = [] := h2
  rw [h2] at h1
  unfold found
  show findAll word (line (started n i) ++ render [notConverted b]).length _ = _
  rw [List.length_append]
  exact h1

example : ∃ n i : Str, (∀ d ∈ n, pySpace d = false ∨ d = ' ') ∧ (∀ d ∈ i, pySpace d = false) ∧ ¬ PlainId i ∧
    ¬ Occurs c!"INFO -" (started n i).msg := by
  refine ⟨c!"Water", c!"0A1B2C3D-0000-4444-8888-0123456789AB", by decide, by decide, ?_, ?_⟩
  · rintro ⟨_, h⟩
    exact absurd (h 'A' (by decide)) (by decide)
  · rintro ⟨a, b, h⟩
    have hm : 'I' ∈ (started c!"Water" c!"0A1B2C3D-0000-4444-8888-0123456789AB").msg := by rw [h]; simp
    revert hm; decide

/-- The list of a conversion is made from its own entries: the log is new. -/
theorem own_log (hw : Words word) (l : List Event) (h : ∀ e ∈ l, Plain word e) :
    findAll word (ecsLog [] (l.map entry)).length (ecsLog [] (l.map entry)) = reported l := by
  unfold ecsLog
  exact findAll_render hw l h 0

/-- **The list of an EcoSpold2 output names the flows of all earlier conversions with the same name again**, in front of
its own ones. -/
theorem earlier_listed (hw : Words word) (old new : List Event) (h1 : ∀ e ∈ old, Plain word e)
    (h2 : ∀ e ∈ new, Plain word e) (hn : ∀ b R, new ≠ .lost b :: R) :
    findAll word (ecsLog (old.map entry) (new.map entry)).length (ecsLog (old.map entry) (new.map entry)) =
      reported old ++ reported new := by
  have h := findAll_render hw (old ++ new) (by
    intro e he
    rcases List.mem_append.1 he with he | he
    · exact h1 e he
    · exact h2 e he) 0
  rw [List.map_append] at h
  unfold ecsLog
  refine h.trans ?_
  clear h h1 h2
  induction old with
  | nil => rfl
  | cons e old ih =>
    cases e with
    | other e => simpa [reported] using ih
    | lost b => simpa [reported] using ih
    | start n i =>
      cases old with
      | nil =>
        cases new with
        | nil => rfl
        | cons f new =>
          cases f with
          | lost b => exact absurd rfl (hn b new)
          | other e => simp [reported]
          | start n i => simp [reported]
      | cons f old =>
        cases f with
        | lost b => simpa [reported] using ih
        | other e => simpa [reported] using ih
        | start n i => simpa [reported] using ih

/-- So the list of a conversion that loses nothing can name flows. -/
theorem earlier_listed_witness : ∃ old new : List Event, (∀ e ∈ old, Plain asciiWord e) ∧ new = [] ∧
    endLog asciiWord (ecsLog (old.map entry) (new.map entry)) = some [exId ++ c!" : Water, river"] := by
  refine ⟨[.start c!"Water, river" exId, .lost true], [], ?_, rfl, by decide +kernel⟩
  intro e he
  simp only [List.mem_cons, List.not_mem_nil, or_false] at he
  rcases he with rfl | rfl
  · exact readable_ex
  · trivial

end Verif.ConvLog
