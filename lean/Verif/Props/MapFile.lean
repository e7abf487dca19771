import Verif.Lemmas.MapFile

/-! The table of elementary flows of the user: where it is looked for, which of its rows count and which flows are
reported. -/

namespace Verif.MapFile

open Spec

/-- The setter of `elem_flow_mapping` takes the paths whose last part is a name before `.csv` or `.json`, written with
small letters, and nothing else. -/
theorem setter_iff (p : Path) :
    setMapping p = .ok p ↔ ∃ stem, stem ≠ [] ∧ (p.name = stem ++ c!".csv" ∨ p.name = stem ++ c!".json") := by
  have h1 := suffix_eq p.name c!"csv" (by decide) (by decide)
  have h2 := suffix_eq p.name c!"json" (by decide) (by decide)
  unfold setMapping
  constructor
  · intro h
    split at h
    · rename_i hm
      simp only [List.mem_cons, List.not_mem_nil, or_false] at hm
      rcases hm with hm | hm
      · obtain ⟨s, hs, e⟩ := h1.mp hm
        exact ⟨s, hs, .inl e⟩
      · obtain ⟨s, hs, e⟩ := h2.mp hm
        exact ⟨s, hs, .inr e⟩
    · exact absurd h (by simp)
  · rintro ⟨s, hs, e | e⟩
    · rw [if_pos]
      simp only [List.mem_cons, List.not_mem_nil, or_false]
      exact .inl (h1.mpr ⟨s, hs, e⟩)
    · rw [if_pos]
      simp only [List.mem_cons, List.not_mem_nil, or_false]
      exact .inr (h2.mpr ⟨s, hs, e⟩)

example : setMapping ⟨false, [c!"tables", c!"my.flows.csv"]⟩ = .ok ⟨false, [c!"tables", c!"my.flows.csv"]⟩ ∧
    setMapping ⟨false, [c!"flows.CSV"]⟩ = .error .osError ∧ setMapping ⟨false, [c!".csv"]⟩ = .error .osError := by
  decide

/-- A `.csv` table is the file that the user means exactly when the path is absolute or the working directory is the
folder `conversions` of the program. -/
theorem csv_found_iff (pkg cwd p q : Path) (hs : ∃ stem, stem ≠ [] ∧ p.name = stem ++ c!".csv")
    (hq : Means cwd p q) (hpkg : pkg.abs = true) (hcwd : cwd.abs = true) :
    opened pkg p = q ↔ p.abs = true ∨ cwd.parts = pkg.parts ++ [c!"conversions"] := by
  have hsuf := (suffix_eq p.name c!"csv" (by decide) (by decide)).mpr hs
  have ho : opened pkg p = Path.join (Path.join pkg ⟨false, [c!"conversions"]⟩) p := by
    unfold opened; rw [if_pos hsuf]
  rw [ho]
  rcases hq with ⟨ha, rfl⟩ | ⟨ha, hqa, hqp⟩
  · simp [Path.join, ha]
  · obtain ⟨qa, qp⟩ := q
    simp only at hqa hqp
    subst hqa hqp
    simp only [Path.join, ha, Bool.false_eq_true, if_false, false_or, Path.mk.injEq, hpkg, hcwd, true_and]
    constructor
    · intro h; exact (List.append_cancel_right h).symm
    · intro h; rw [h]

/-- A `.json` table is the file that the user means exactly when the path is absolute or the working directory is the
folder of the program. -/
theorem json_found_iff (pkg cwd p q : Path) (hs : ∃ stem, stem ≠ [] ∧ p.name = stem ++ c!".json")
    (hq : Means cwd p q) (hpkg : pkg.abs = true) (hcwd : cwd.abs = true) :
    opened pkg p = q ↔ p.abs = true ∨ cwd.parts = pkg.parts := by
  have hsuf : suffix p.name = c!".json" := (suffix_eq p.name c!"json" (by decide) (by decide)).mpr hs
  have ho : opened pkg p = Path.join pkg p := by
    unfold opened; rw [if_neg (by rw [hsuf]; decide)]
  rw [ho]
  rcases hq with ⟨ha, rfl⟩ | ⟨ha, hqa, hqp⟩
  · simp [Path.join, ha]
  · obtain ⟨qa, qp⟩ := q
    simp only at hqa hqp
    subst hqa hqp
    simp only [Path.join, ha, Bool.false_eq_true, if_false, false_or, Path.mk.injEq, hpkg, hcwd, true_and]
    constructor
    · intro h; exact (List.append_cancel_right h).symm
    · intro h; rw [h]

example : Means ⟨true, [c!"home"]⟩ ⟨false, [c!"flows.csv"]⟩ ⟨true, [c!"home", c!"flows.csv"]⟩ :=
  .inr ⟨rfl, rfl, rfl⟩

/-- A table that the setter accepts need not exist: the conversion stops with an `OSError`. -/
theorem missing_table (w : World) (p : Path) (default : Option Path) (hp : setMapping p = .ok p)
    (hw : w.file (opened w.pkg p) = none) : setMappings w (some p) default = .error .osError := by
  have h : suffix p.name ∈ [c!".csv", c!".json"] := by
    unfold setMapping at hp
    split at hp
    · assumption
    · exact absurd hp (by simp)
  simp only [List.mem_cons, List.not_mem_nil, or_false] at h
  have hr : readFile w (opened w.pkg p) = .error .osError := by unfold readFile; rw [hw]
  unfold setMappings
  simp only [Option.or]
  unfold dictFromFile
  rcases h with h | h
  · rw [if_pos h, hr]
  · rw [if_neg (by rw [h]; decide), if_pos h, hr]

/-- A relative path leads to the working directory of nobody: with a file only where the user means it, the setter
accepts the path and the conversion stops. -/
theorem relative_lost (w : World) (cwd p q : Path) (default : Option Path) (hp : setMapping p = .ok p)
    (hq : Means cwd p q) (hpkg : w.pkg.abs = true) (hcwd : cwd.abs = true) (hrel : p.abs = false)
    (h1 : cwd.parts ≠ w.pkg.parts) (h2 : cwd.parts ≠ w.pkg.parts ++ [c!"conversions"])
    (hw : ∀ x, x ≠ q → w.file x = none) : setMappings w (some p) default = .error .osError := by
  refine missing_table w p default hp (hw _ ?_)
  obtain ⟨s, hs, e | e⟩ := (setter_iff p).mp hp
  · intro h
    rcases (csv_found_iff w.pkg cwd p q ⟨s, hs, e⟩ hq hpkg hcwd).mp h with h | h
    · rw [hrel] at h; exact absurd h (by decide)
    · exact h2 h
  · intro h
    rcases (json_found_iff w.pkg cwd p q ⟨s, hs, e⟩ hq hpkg hcwd).mp h with h | h
    · rw [hrel] at h; exact absurd h (by decide)
    · exact h1 h

/-- The hypotheses of `relative_lost` are met by an existing file in the working directory. -/
example : ∃ (w : World) (cwd p q : Path), setMapping p = .ok p ∧ Means cwd p q ∧ w.pkg.abs = true ∧ cwd.abs = true ∧
    p.abs = false ∧ cwd.parts ≠ w.pkg.parts ∧ cwd.parts ≠ w.pkg.parts ++ [c!"conversions"] ∧
    (∀ x, x ≠ q → w.file x = none) ∧ (w.file q).isSome := by
  refine ⟨⟨⟨true, [c!"lib", c!"Lavoisier"]⟩, fun x => if x = ⟨true, [c!"home", c!"flows.csv"]⟩ then some [] else none,
    fun _ => [], fun _ => .ok []⟩, ⟨true, [c!"home"]⟩, ⟨false, [c!"flows.csv"]⟩, ⟨true, [c!"home", c!"flows.csv"]⟩,
    by decide, .inr ⟨rfl, rfl, rfl⟩, rfl, rfl, rfl, by decide, by decide, fun x hx => if_neg hx, by decide⟩

/-- A `.csv` table as a whole: there is an entry for every flow that some record names, the last record that names
the flow gives its cells, and nothing else is in the table. -/
theorem csv_exact (header : List Str) (records : List (List Str)) (id : Str) (i : Nat) (hn : header.Nodup)
    (hi : header[i]? = some id) :
    ∃ t, fromCsv id (header :: records) = .ok t ∧
      (∀ fid, aget (some fid) t = none ↔ ∀ r ∈ records, r[i]? ≠ some fid) ∧
      ∀ fid r, Decides i records fid r → ∃ row, aget (some fid) t = some row ∧
        aget (some id) row = none ∧
        ∀ j col, j ≠ i → header[j]? = some col →
          (∀ s, r[j]? = some s → aget (some col) row = some (.text s)) ∧
          (r[j]? = none → aget (some col) row = some .missing) := by
  have key : ∀ fid r, Decides i records fid r →
      aget (some fid) ((records.filter (· ≠ [])).foldl
        (fun d r => aset r[i]? (adel (some id) (rowDict header r)) d) []) =
          some (adel (some id) (rowDict header r)) := by
    rintro fid r ⟨pre, post, e, hr, hpost⟩
    have hne : r ≠ [] := by rintro rfl; simp at hr
    have hf : records.filter (· ≠ []) = pre.filter (· ≠ []) ++ r :: post.filter (· ≠ []) := by
      rw [e, List.filter_append, List.filter_cons, if_pos (by simpa using hne)]
    rw [hf]
    exact fold_last (fun r : List Str => r[i]?) (fun r => adel (some id) (rowDict header r)) (some fid) _ _ r [] hr
      (fun q hq => hpost q (List.mem_of_mem_filter hq))
  refine ⟨_, foldlM_eq hn hi _ [], ?_, ?_⟩
  · intro fid
    constructor
    · intro h r hr hrf
      obtain ⟨pre, q, post, e, hq, hpost⟩ := last_place (fun r : List Str => r[i]? = some fid) records ⟨r, hr, hrf⟩
      rw [key fid q ⟨pre, post, e, hq, hpost⟩] at h
      exact absurd h (by simp)
    · intro h
      rw [fold_miss (fun r : List Str => r[i]?) (fun r => adel (some id) (rowDict header r)) (some fid)]
      · rfl
      · intro q hq; exact h q (List.mem_of_mem_filter hq)
  · intro fid r hd
    refine ⟨_, key fid r hd, aget_adel_self _ _, ?_⟩
    intro j col hj hcol
    have hne : (some col : Option Str) ≠ some id := by
      intro he
      have he := Option.some.inj he
      subst he
      obtain ⟨h1, e1⟩ := List.getElem?_eq_some_iff.mp hcol
      obtain ⟨h2, e2⟩ := List.getElem?_eq_some_iff.mp hi
      exact hj ((List.getElem_inj (h₀ := h1) (h₁ := h2) hn).mp (e1.trans e2.symm))
    rw [aget_adel _ _ _ hne, rowDict_get hn r hcol]
    unfold cellAt
    refine ⟨fun s hs => by rw [hs], fun hs => by rw [hs]⟩

/-- A table without the column cannot be read, unless it has no rows. A byte order mark before the name of the column
or another separator than the comma leads here. -/
theorem no_column (header : List Str) (records : List (List Str)) (id : Str) (h : id ∉ header)
    (hr : ∃ r ∈ records, r ≠ []) : fromCsv id (header :: records) = .error .keyError := by
  have hunf : fromCsv id (header :: records) =
      ((records.filter (· ≠ [])).map (rowDict header)).foldlM (addRow id) [] := rfl
  rw [hunf]
  have hne : records.filter (· ≠ []) ≠ [] := by
    obtain ⟨r, hm, hr⟩ := hr
    intro he
    have : r ∈ records.filter (· ≠ []) := List.mem_filter.mpr ⟨hm, by simpa using hr⟩
    rw [he] at this
    cases this
  obtain ⟨r, l, e⟩ := List.exists_cons_of_ne_nil hne
  rw [e, List.map_cons, List.foldlM_cons]
  have : addRow id [] (rowDict header r) = .error .keyError := by
    unfold addRow; rw [rowDict_get_none r h]
  rw [this]; rfl

example : fromCsv c!"SourceFlowUUID" [[c!"﻿SourceFlowUUID", c!"MapType"], [c!"a", c!"="]] = .error .keyError := by
  decide

/-- The outcome for a flow that a record decides about, in both directions. -/
theorem decided {K : Type} (flt : Str → Py K) (one : K) {header : List Str} (c : Columns header) (hn : header.Nodup)
    (records : List (List Str)) (fid : Str) (r : List Str) (hd : Decides c.source records fid r)
    (mt target name unit fac : Str) (hs : Says c r mt target name unit fac) :
    ∃ t, fromCsv c!"SourceFlowUUID" (header :: records) = .ok t ∧
      (∀ k, (fac = [] ∨ fac = c!"n/a") ∧ k = one ∨ fac ≠ [] ∧ fac ≠ c!"n/a" ∧ flt fac = .ok k →
        ecsFlow flt one t fid =
          (if mt = c!"NO_MATCH_MAPPING" ∨ mt = c!"NO MATCH" then .ok .noMatch
           else .ok (.converted ⟨.text target, .text name, .text unit, k⟩)) ∧
        ilcdFlow flt one t fid =
          (if strip mt ∈ [c!"NO_MATCH_MAPPING", c!"NO MATCH", c!"NO_FLOW_MATCH_MANUAL", c!"NO_MAPPING"]
           then .ok .noMatch
           else .ok (.converted ⟨.text target, .text name, .text unit, k⟩))) := by
  obtain ⟨t, ht, -, h⟩ := csv_exact header records c!"SourceFlowUUID" c.source hn c.hsource
  obtain ⟨row, hrow, -, hcells⟩ := h fid r hd
  have get : ∀ (j : Nat) (col s : Str), col ≠ c!"SourceFlowUUID" → header[j]? = some col → r[j]? = some s →
      cell row col = .ok (.text s) := by
    intro j col s hne hj hsj
    have hji : j ≠ c.source := by
      rintro rfl
      rw [c.hsource] at hj
      exact hne (Option.some.inj hj).symm
    unfold cell
    rw [(hcells j col hji hj).1 s hsj]
  have h1 := get _ _ _ (by decide) c.hmapType hs.mapType
  have h2 := get _ _ _ (by decide) c.htarget hs.target
  have h3 := get _ _ _ (by decide) c.hname hs.name
  have h4 := get _ _ _ (by decide) c.hunit hs.unit
  have h5 := get _ _ _ (by decide) c.hfactor hs.factor
  refine ⟨t, ht, ?_⟩
  intro k hk
  have hf : factor flt one (.text fac) = .ok k := by
    unfold factor
    rcases hk with ⟨hf, rfl⟩ | ⟨hf1, hf2, hf3⟩
    · rw [if_pos]
      rcases hf with rfl | rfl
      · exact .inl rfl
      · exact .inr rfl
    · rw [if_neg]
      · exact hf3
      · rintro (he | he)
        · exact hf1 (Cell.text.inj he)
        · exact hf2 (Cell.text.inj he)
  have htar : MapFile.target flt one row = .ok (.converted ⟨.text target, .text name, .text unit, k⟩) := by
    unfold MapFile.target
    simp only [h2, h3, h4, h5, bind, Except.bind, hf]
    rfl
  constructor
  · unfold ecsFlow
    rw [hrow]
    simp only [h1, htar]
    by_cases hm : mt = c!"NO_MATCH_MAPPING" ∨ mt = c!"NO MATCH"
    · rw [if_pos hm, if_pos]
      simpa [ecsMarked, ecsMarks] using hm
    · rw [if_neg hm, if_neg]
      simpa [ecsMarked, ecsMarks] using hm
  · unfold ilcdFlow
    rw [hrow]
    simp only [h1, htar, ilcdMarked]
    by_cases hm : strip mt ∈ [c!"NO_MATCH_MAPPING", c!"NO MATCH", c!"NO_FLOW_MATCH_MANUAL", c!"NO_MAPPING"]
    · rw [if_pos hm]
      have : ilcdMarks.contains (strip mt) = true := by simpa [ilcdMarks] using hm
      rw [this]
    · rw [if_neg hm]
      have : ilcdMarks.contains (strip mt) = false := by
        simpa [ilcdMarks] using hm
      rw [this]

/-- The columns of the witnesses. -/
def hdr : List Str :=
  [c!"SourceFlowUUID", c!"MapType", c!"TargetFlowUUID", c!"TargetFlowName", c!"TargetUnit", c!"ConversionFactor"]

/-- Their places. -/
def cols : Columns hdr := ⟨0, 1, 2, 3, 4, 5, rfl, rfl, rfl, rfl, rfl, rfl⟩

example : hdr.Nodup ∧
    Decides cols.source [[c!"f", c!"=", c!"x", c!"X", c!"kg", c!"1"], [c!"f", c!"=", c!"y", c!"Y", c!"kg", c!"2"]] c!"f"
      [c!"f", c!"=", c!"y", c!"Y", c!"kg", c!"2"] ∧
    Says cols [c!"f", c!"=", c!"y", c!"Y", c!"kg", c!"2"] c!"=" c!"y" c!"Y" c!"kg" c!"2" :=
  ⟨by decide, ⟨[[c!"f", c!"=", c!"x", c!"X", c!"kg", c!"1"]], [], rfl, rfl, by simp⟩, ⟨rfl, rfl, rfl, rfl, rfl⟩⟩

/-- In a table that names no flow twice, every record decides about its flow. -/
theorem unique_decides (i : Nat) (records : List (List Str)) (hu : (records.filterMap (·[i]?)).Nodup) (r : List Str)
    (hr : r ∈ records) (fid : Str) (hf : r[i]? = some fid) : Decides i records fid r := by
  obtain ⟨pre, post, e⟩ := List.append_of_mem hr
  refine ⟨pre, post, e, hf, ?_⟩
  intro q hq hqf
  rw [e, List.filterMap_append, List.filterMap_cons_some (f := fun x : List Str => x[i]?) hf] at hu
  have h := (List.nodup_cons.mp (List.nodup_append.mp hu).2.1).1
  exact h (List.mem_filterMap.mpr ⟨q, hq, hqf⟩)

example : (([[c!"f", c!"1"], [c!"g", c!"2"]] : List (List Str)).filterMap (·[0]?)).Nodup := by decide

/-- Of several records for one flow, only the last is used: a flow that is split among several targets is not. -/
theorem earlier_ignored {K : Type} (flt : Str → Py K) (one : K) {header : List Str} (c : Columns header)
    (hn : header.Nodup) (pre post : List (List Str)) (q : List Str) (fid : Str)
    (hq : q[c.source]? = some fid) (hpost : ∀ x ∈ post, x[c.source]? ≠ some fid)
    (mt target name unit fac : Str) (hs : Says c q mt target name unit fac) (hm : mt ≠ c!"NO_MATCH_MAPPING")
    (hm' : mt ≠ c!"NO MATCH") (k : K) (hk : flt fac = .ok k) (hf : fac ≠ []) (hf' : fac ≠ c!"n/a") :
    ∃ t, fromCsv c!"SourceFlowUUID" (header :: (pre ++ q :: post)) = .ok t ∧
      ecsFlow flt one t fid = .ok (.converted ⟨.text target, .text name, .text unit, k⟩) ∧
      ∀ r ∈ pre, r[c.source]? = some fid → ∀ x, r[c.target]? = some x → x ≠ target →
        ∀ y, ecsFlow flt one t fid = .ok (.converted y) → y.id ≠ .text x := by
  have hd : Decides c.source (pre ++ q :: post) fid q := ⟨pre, post, rfl, hq, hpost⟩
  obtain ⟨t, ht, h⟩ := decided flt one c hn _ fid q hd mt target name unit fac hs
  have he := (h k (.inr ⟨hf, hf', hk⟩)).1
  rw [if_neg (not_or.mpr ⟨hm, hm'⟩)] at he
  refine ⟨t, ht, he, ?_⟩
  intro _ _ _ x _ hne y hy
  rw [he] at hy
  have hy := Outcome.converted.inj (Except.ok.inj hy)
  rw [← hy]
  exact fun e => hne (Cell.text.inj e).symm

/-- Two targets for one flow: the share of the first is lost. -/
example : ∃ t, fromCsv c!"SourceFlowUUID" [hdr, [c!"f", c!"=", c!"x", c!"X", c!"kg", c!"0.4"],
    [c!"f", c!"=", c!"y", c!"Y", c!"kg", c!"0.6"]] = .ok t ∧
    ecsFlow (fun s => .ok s) c!"1" t c!"f" = .ok (.converted ⟨.text c!"y", .text c!"Y", .text c!"kg", c!"0.6"⟩) := by
  exact ⟨_, rfl, by decide⟩

/-- A flow that no record names is reported as absent, in both directions. -/
theorem absent_reported {K : Type} (flt : Str → Py K) (one : K) {header : List Str} (c : Columns header)
    (hn : header.Nodup) (records : List (List Str)) (fid : Str) (h : ∀ r ∈ records, r[c.source]? ≠ some fid) :
    ∃ t, fromCsv c!"SourceFlowUUID" (header :: records) = .ok t ∧ ecsFlow flt one t fid = .ok .absent ∧
      ilcdFlow flt one t fid = .ok .absent := by
  obtain ⟨t, ht, h1, -⟩ := csv_exact header records c!"SourceFlowUUID" c.source hn c.hsource
  have := (h1 fid).mpr h
  exact ⟨t, ht, by unfold ecsFlow; rw [this], by unfold ilcdFlow; rw [this]⟩

/-- Marks that only one direction knows: towards ILCD such a flow is converted to the target of the row, which for a
row without a match is no flow. -/
theorem marks_missed {K : Type} (flt : Str → Py K) (one : K) {header : List Str} (c : Columns header)
    (hn : header.Nodup) (records : List (List Str)) (fid : Str) (r : List Str) (hd : Decides c.source records fid r)
    (mt target name unit fac : Str) (hs : Says c r mt target name unit fac) (hfac : fac = [] ∨ fac = c!"n/a")
    (hm : strip mt ∈ [c!"NO_MATCH_MAPPING", c!"NO MATCH", c!"NO_FLOW_MATCH_MANUAL", c!"NO_MAPPING"])
    (hm' : mt ∉ [c!"NO_MATCH_MAPPING", c!"NO MATCH"]) :
    ∃ t, fromCsv c!"SourceFlowUUID" (header :: records) = .ok t ∧ ilcdFlow flt one t fid = .ok .noMatch ∧
      ecsFlow flt one t fid = .ok (.converted ⟨.text target, .text name, .text unit, one⟩) := by
  obtain ⟨t, ht, h⟩ := decided flt one c hn records fid r hd mt target name unit fac hs
  obtain ⟨h1, h2⟩ := h one (.inl ⟨hfac, rfl⟩)
  refine ⟨t, ht, ?_, ?_⟩
  · rw [h2, if_pos hm]
  · rw [h1, if_neg (by simpa using hm')]

example : strip c!"NO_MATCH_MAPPING " ∈ [c!"NO_MATCH_MAPPING", c!"NO MATCH", c!"NO_FLOW_MATCH_MANUAL", c!"NO_MAPPING"] ∧
    c!"NO_MATCH_MAPPING " ∉ [c!"NO_MATCH_MAPPING", c!"NO MATCH"] ∧
    strip c!"NO_MAPPING" ∈ [c!"NO_MATCH_MAPPING", c!"NO MATCH", c!"NO_FLOW_MATCH_MANUAL", c!"NO_MAPPING"] ∧
    c!"NO_MAPPING" ∉ [c!"NO_MATCH_MAPPING", c!"NO MATCH"] := by decide

/-- A record that ends before its `MapType`: towards ILCD the flow counts as a match, from ILCD the conversion stops. -/
theorem short_record {K : Type} (flt : Str → Py K) (one : K) {header : List Str} (c : Columns header)
    (hn : header.Nodup) (records : List (List Str)) (fid : Str) (r : List Str) (hd : Decides c.source records fid r)
    (hshort : r[c.mapType]? = none) :
    ∃ t, fromCsv c!"SourceFlowUUID" (header :: records) = .ok t ∧ ilcdFlow flt one t fid = .error .attributeError ∧
      ecsFlow flt one t fid ≠ .ok .noMatch ∧ ecsFlow flt one t fid ≠ .ok .absent := by
  obtain ⟨t, ht, -, h⟩ := csv_exact header records c!"SourceFlowUUID" c.source hn c.hsource
  obtain ⟨row, hrow, -, hcells⟩ := h fid r hd
  have hji : c.mapType ≠ c.source := by
    intro e
    have := c.hmapType
    rw [e, c.hsource] at this
    exact absurd this (by decide)
  have h1 : cell row c!"MapType" = .ok .missing := by
    unfold cell
    rw [(hcells _ _ hji c.hmapType).2 hshort]
  refine ⟨t, ht, ?_, ?_⟩
  · unfold ilcdFlow; rw [hrow]; simp only [h1, ilcdMarked]
  · unfold ecsFlow
    rw [hrow]
    simp only [h1, ecsMarked, Bool.false_eq_true, if_false]
    unfold MapFile.target
    cases cell row c!"TargetFlowUUID" with
    | error e => constructor <;> (intro h; cases h)
    | ok a =>
      cases cell row c!"TargetFlowName" with
      | error e => constructor <;> (intro h; cases h)
      | ok b =>
        cases cell row c!"TargetUnit" with
        | error e => constructor <;> (intro h; cases h)
        | ok d =>
          cases cell row c!"ConversionFactor" with
          | error e => constructor <;> (intro h; cases h)
          | ok f =>
            simp only [bind, Except.bind, pure, Except.pure]
            cases factor flt one f with
            | error e => constructor <;> (intro h; cases h)
            | ok k => constructor <;> (intro h; cases h)

example : Decides 0 [[c!"f"]] c!"f" [c!"f"] ∧ ([c!"f"] : List Str)[1]? = none :=
  ⟨⟨[], [], rfl, rfl, by simp⟩, rfl⟩

/-- The table of the user is what the conversion reads, if the path is absolute and the file is there. -/
theorem user_table (w : World) (p : Path) (default : Option Path) (text : Str)
    (hs : ∃ stem, stem ≠ [] ∧ p.name = stem ++ c!".csv") (ha : p.abs = true) (hf : w.file p = some text) :
    setMapping p = .ok p ∧
      ∀ t, fromCsv c!"SourceFlowUUID" (w.csv text) = .ok t → setMappings w (some p) default = .ok (some t) := by
  obtain ⟨s, hs', e⟩ := hs
  refine ⟨(setter_iff p).mpr ⟨s, hs', .inl e⟩, ?_⟩
  intro t ht
  have hsuf : suffix p.name = c!".csv" := (suffix_eq p.name c!"csv" (by decide) (by decide)).mpr ⟨s, hs', e⟩
  have ho : opened w.pkg p = p := by
    unfold opened; rw [if_pos hsuf]; simp [Path.join, ha]
  unfold setMappings
  simp only [Option.or]
  unfold dictFromFile
  rw [if_pos hsuf, ho]
  unfold readFile
  simp only [hf, ht]
  rfl

/-- A table without the column of the kinds of matches cannot be used: the first elementary flow it names ends the
conversion with an error, in both directions. -/
theorem no_map_type {K : Type} (flt : Str → Py K) (one : K) {header : List Str} (i : Nat)
    (hi : header[i]? = some c!"SourceFlowUUID") (hn : header.Nodup) (hm : c!"MapType" ∉ header)
    (records : List (List Str)) (fid : Str) (hf : ∃ r ∈ records, r[i]? = some fid) :
    ∃ t, fromCsv c!"SourceFlowUUID" (header :: records) = .ok t ∧ ecsFlow flt one t fid = .error .keyError ∧
      ilcdFlow flt one t fid = .error .keyError := by
  obtain ⟨r, hr, hrf⟩ := hf
  obtain ⟨pre, q, post, e, hq, hpost⟩ := last_place (fun r : List Str => r[i]? = some fid) records ⟨r, hr, hrf⟩
  have hne : q ≠ [] := by rintro rfl; simp at hq
  have hfl : records.filter (· ≠ []) = pre.filter (· ≠ []) ++ q :: post.filter (· ≠ []) := by
    rw [e, List.filter_append, List.filter_cons, if_pos (by simpa using hne)]
  have hg := fold_last (fun r : List Str => r[i]?) (fun r => adel (some c!"SourceFlowUUID") (rowDict header r))
    (some fid) (pre.filter (· ≠ [])) (post.filter (· ≠ [])) q [] hq (fun q hq => hpost q (List.mem_of_mem_filter hq))
  rw [← hfl] at hg
  refine ⟨_, foldlM_eq hn hi _ [], ?_, ?_⟩
  all_goals
    have hc : cell (adel (some c!"SourceFlowUUID") (rowDict header q)) c!"MapType" = .error .keyError := by
      unfold cell
      rw [aget_adel _ _ _ (by decide), rowDict_get_none q hm]
  · unfold ecsFlow; rw [hg]; simp only [hc]
  · unfold ilcdFlow; rw [hg]; simp only [hc]

example : ([c!"SourceFlowUUID", c!"TargetFlowUUID"] : List Str).Nodup ∧
    c!"MapType" ∉ [c!"SourceFlowUUID", c!"TargetFlowUUID"] ∧ ∃ r ∈ [[c!"f", c!"g"]], r[0]? = some c!"f" := by
  refine ⟨by decide, by decide, [c!"f", c!"g"], by simp, rfl⟩

/-- A record that ends before the conversion factor is no match with the factor one: the conversion ends with an
error. -/
theorem no_factor {K : Type} (flt : Str → Py K) (one : K) {header : List Str} (c : Columns header)
    (hn : header.Nodup) (records : List (List Str)) (fid : Str) (r : List Str) (hd : Decides c.source records fid r)
    (mt target name unit : Str) (h1 : r[c.mapType]? = some mt) (h2 : r[c.target]? = some target)
    (h3 : r[c.name]? = some name) (h4 : r[c.unit]? = some unit) (h5 : r[c.factor]? = none)
    (hm : mt ≠ c!"NO_MATCH_MAPPING" ∧ mt ≠ c!"NO MATCH") :
    ∃ t, fromCsv c!"SourceFlowUUID" (header :: records) = .ok t ∧ ecsFlow flt one t fid = .error .typeError := by
  obtain ⟨t, ht, -, h⟩ := csv_exact header records c!"SourceFlowUUID" c.source hn c.hsource
  obtain ⟨row, hrow, -, hcells⟩ := h fid r hd
  have ne : ∀ {j : Nat} {col : Str}, header[j]? = some col → col ≠ c!"SourceFlowUUID" → j ≠ c.source := by
    rintro j col hj hc rfl
    rw [c.hsource] at hj
    exact hc (Option.some.inj hj).symm
  have e1 : cell row c!"MapType" = .ok (.text mt) := by
    unfold cell; rw [(hcells _ _ (ne c.hmapType (by decide)) c.hmapType).1 _ h1]
  have e2 : cell row c!"TargetFlowUUID" = .ok (.text target) := by
    unfold cell; rw [(hcells _ _ (ne c.htarget (by decide)) c.htarget).1 _ h2]
  have e3 : cell row c!"TargetFlowName" = .ok (.text name) := by
    unfold cell; rw [(hcells _ _ (ne c.hname (by decide)) c.hname).1 _ h3]
  have e4 : cell row c!"TargetUnit" = .ok (.text unit) := by
    unfold cell; rw [(hcells _ _ (ne c.hunit (by decide)) c.hunit).1 _ h4]
  have e5 : cell row c!"ConversionFactor" = .ok .missing := by
    unfold cell; rw [(hcells _ _ (ne c.hfactor (by decide)) c.hfactor).2 h5]
  refine ⟨t, ht, ?_⟩
  unfold ecsFlow
  rw [hrow]
  have hmk : ecsMarked (.text mt) = false := by
    simp only [ecsMarked, ecsMarks]
    simp [hm.1, hm.2]
  simp only [e1, hmk, Bool.false_eq_true, if_false]
  unfold MapFile.target
  simp only [e2, e3, e4, e5, bind, Except.bind]
  rfl

example : Decides 0 [[c!"f", c!"=", c!"g", c!"n", c!"kg"]] c!"f" [c!"f", c!"=", c!"g", c!"n", c!"kg"] ∧
    ([c!"f", c!"=", c!"g", c!"n", c!"kg"] : List Str)[5]? = none :=
  ⟨⟨[], [], rfl, rfl, by simp⟩, rfl⟩

end Verif.MapFile
