/-
What a call of `convert` leaves in the output directory, and what one conversion does to the next.
-/
import Verif.Lemmas.Driver

namespace Verif.Driver
open Spec

variable {F V I P M S O : Type} [DecidableEq V]

/-! ### One output per file -/

/-- The output of one file: a new name, and the content made of this file alone. -/
def OutputOf (ops : Ops F V I P M S O) (dir : List (Str × Content O)) (f : F) (p : Str × Content O) : Prop :=
  p.1 ∉ dir.map Prod.fst ∧ ∃ st o, MadeFrom ops f st o ∧ p.2 = alone ops st o ∧
    ∃ h base, ops.fileName h st = .ok base ∧ NamedAfter ops base p.1

theorem oneFile_output {ops : Ops F V I P M S O} {s s' : St V I P M S O} {f : F} {n : Option Str}
    (hc : Clean ops s) (h : oneFile ops true s f = (s', .ok n)) :
    ∃ p, n = some p.1 ∧ s'.dir = s.dir ++ [p] ∧ OutputOf ops s.dir f p ∧ Clean ops s' := by
  obtain ⟨s1, s2, s3, h1, h2, h3, ⟨_, name, h4, rfl⟩ | ⟨hf, _⟩⟩ := oneFile_steps h
  · obtain ⟨hdir, d, m0, hd, _, he, hm, ht⟩ := start_clean hc h1
    obtain ⟨m, m1, x, m2, y, hfill, hfin, rfl⟩ := filled hd he h2 h3
    obtain ⟨o, c, base, ho, hfresh, hs', hcl, _, hn, hi, hec⟩ := endData_ok rfl h4
    refine ⟨(name, c), rfl, ?_, ⟨?_, y, o, ⟨m, m1, x, m2, hfill, hfin, ho⟩, ?_, s1.classHash, base, ?_, hn⟩, hcl⟩
    · rw [hs']; simp [hdir]
    · simpa [hdir] using hfresh
    · cases hk : ops.kind with
      | ilcd =>
        obtain ⟨⟨l, hl, rfl⟩, _⟩ := hi hk
        simp only [ht hk, Option.some.injEq] at hl
        subst hl
        simp [alone, hk, aset]
      | ecs2 =>
        obtain ⟨rfl, _⟩ := hec hk
        simp [alone, hk]
    · cases hk : ops.kind with
      | ilcd => simpa [hm] using (hi hk).2
      | ecs2 => exact (hec hk).2
  · simp at hf

theorem loop_toFile (ops : Ops F V I P M S O) (files : List (F × Bool)) :
    ∀ (s s' : St V I P M S O) (names acc : List Str), Clean ops s →
      loop ops true s files acc = (s', .ok names) →
      ∃ out : List (Str × Content O), names = acc ++ out.map Prod.fst ∧ s'.dir = s.dir ++ out ∧
        List.Forall₂ (fun f p => OutputOf ops s.dir f.1 p) files out ∧
        (out.map Prod.fst).Nodup ∧ Clean ops s' := by
  induction files with
  | nil =>
    intro s s' names acc hc h
    simp only [loop, Prod.mk.injEq, Except.ok.injEq] at h
    obtain ⟨rfl, rfl⟩ := h
    exact ⟨[], by simp, by simp, .nil, by simp, hc⟩
  | cons p fs ih =>
    obtain ⟨f, last⟩ := p
    intro s s' names acc hc h
    simp only [loop, Bool.or_true] at h
    split at h
    · rename_i s1 n h1
      obtain ⟨q, rfl, hdir, hq, hc1⟩ := oneFile_output hc h1
      obtain ⟨out, hn, hd, hall, hnd, hc'⟩ := ih s1 s' names _ hc1 h
      refine ⟨q :: out, ?_, ?_, .cons hq ?_, ?_, hc'⟩
      · simp [hn]
      · simp [hd, hdir]
      · refine List.Forall₂.imp ?_ hall
        rintro a b ⟨hb, hb'⟩
        refine ⟨fun hin => hb ?_, hb'⟩
        rw [hdir, List.map_append]
        exact List.mem_append_left _ hin
      · simp only [List.map_cons, List.nodup_cons]
        refine ⟨?_, hnd⟩
        intro hin
        obtain ⟨b, hb, hbe⟩ := List.mem_map.1 hin
        obtain ⟨a, _, ha⟩ := (List.forall₂_iff_get.1 hall |> fun h => by
          obtain ⟨i, hi, rfl⟩ := List.getElem_of_mem hb
          exact ⟨fs[i]'(by rw [h.1]; exact hi), True.intro, h.2 i (by rw [h.1]; exact hi) hi⟩ :
            ∃ a : F × Bool, True ∧ OutputOf ops s1.dir a.1 b)
        apply ha.1
        rw [hbe, hdir]
        simp
    · simp at h

/-- C25. In the mode `to_file`, a converter that is not in the middle of something and succeeds adds to
the output directory exactly one file per input file, in the order of the input; the returned names are
the names of these files; they are new and pairwise different, so that no file is overwritten and none
of the earlier content of the directory is touched; each is made from its own input file alone; and the
converter is again ready. -/
theorem to_file_outputs {ops : Ops F V I P M S O} {s s' : St V I P M S O} {files : List (F × Bool)}
    {names : List Str} (hc : Clean ops s) (h : convert ops true s files = (s', .ok names)) :
    ∃ out : List (Str × Content O), names = out.map Prod.fst ∧ s'.dir = s.dir ++ out ∧
      List.Forall₂ (fun f p => OutputOf ops s.dir f.1 p) files out ∧ names.Nodup ∧ Clean ops s' := by
  obtain ⟨out, hn, hd, ha, hnd, hc'⟩ := loop_toFile ops files s s' names [] hc h
  simp only [List.nil_append] at hn
  exact ⟨out, hn, hd, ha, hn ▸ hnd, hc'⟩

/-! ### A database -/

/-- The document of a file and the name it gets in the archive. -/
def EntryOf (ops : Ops F V I P M S O) (f : F) (p : Str × O) : Prop :=
  ∃ st, MadeFrom ops f st p.2 ∧ p.1 = ops.uuid st ++ c!".xml"

/-- The state between two files of a database: the processes so far. -/
def Collecting (ops : Ops F V I P M S O) (s : St V I P M S O) (l : List (Str × O)) : Prop :=
  s.data = some ⟨ops.empty, true, some l⟩

theorem oneFile_collect {ops : Ops F V I P M S O} {s s' : St V I P M S O} {f : F} {n : Option Str}
    {l : List (Str × O)} (hk : ops.kind = .ilcd)
    (hc : (Clean ops s ∧ l = []) ∨ Collecting ops s l)
    (h : oneFile ops false s f = (s', .ok n)) :
    n = none ∧ s'.dir = s.dir ∧ ∃ p, EntryOf ops f p ∧ Collecting ops s' (aset p.1 p.2 l) := by
  obtain ⟨s1, s2, s3, h1, h2, h3, ⟨hf, _⟩ | ⟨_, h4, rfl⟩⟩ := oneFile_steps h
  · simp at hf
  · have key : ∃ d, s1.dir = s.dir ∧ s1.data = some d ∧ d.struct = ops.empty ∧ d.temp = some l := by
      rcases hc with ⟨hc, rfl⟩ | hc
      · obtain ⟨hdir, d, m0, hd, _, he, hm, ht⟩ := start_clean hc h1
        exact ⟨d, hdir, hd, he, ht hk⟩
      · obtain ⟨hdir, hd, _⟩ := start_multi hc rfl h1
        exact ⟨_, hdir, hd, rfl, rfl⟩
    obtain ⟨d, hdir, hd, he, ht⟩ := key
    obtain ⟨m, m1, x, m2, y, hfill, hfin, rfl⟩ := filled hd he h2 h3
    obtain ⟨o, l', ho, hl', hdir', hdata⟩ := resetData_ok hk rfl h4
    simp only [ht, Option.some.injEq] at hl'
    subst hl'
    exact ⟨rfl, by rw [hdir', hdir], (ops.uuid y ++ c!".xml", o),
      ⟨y, ⟨m, m1, x, m2, hfill, hfin, ho⟩, rfl⟩, hdata⟩

theorem oneFile_last {ops : Ops F V I P M S O} {s s' : St V I P M S O} {f : F} {n : Option Str}
    {l : List (Str × O)} (hk : ops.kind = .ilcd)
    (hc : (Clean ops s ∧ l = []) ∨ Collecting ops s l)
    (h : oneFile ops true s f = (s', .ok n)) :
    ∃ name p, n = some name ∧ name ∉ s.dir.map Prod.fst ∧ EntryOf ops f p ∧
      s'.dir = s.dir ++ [(name, .archive (aset p.1 p.2 l))] ∧ Clean ops s' ∧
      (Collecting ops s l → ∃ h, NamedAfter ops (c!"ILCD" ++ h) name) := by
  obtain ⟨s1, s2, s3, h1, h2, h3, ⟨_, name, h4, rfl⟩ | ⟨hf, _⟩⟩ := oneFile_steps h
  · have key : ∃ d, s1.dir = s.dir ∧ s1.data = some d ∧ d.struct = ops.empty ∧ d.temp = some l ∧
        (Collecting ops s l → d.multi = true) := by
      by_cases hcol : Collecting ops s l
      · obtain ⟨hdir, hd, _⟩ := start_multi hcol rfl h1
        exact ⟨_, hdir, hd, rfl, rfl, fun _ => rfl⟩
      · rcases hc with ⟨hc, rfl⟩ | hc
        · obtain ⟨hdir, d, m0, hd, _, he, hm, ht⟩ := start_clean hc h1
          exact ⟨d, hdir, hd, he, ht hk, fun h => absurd h hcol⟩
        · exact absurd hc hcol
    obtain ⟨d, hdir, hd, he, ht, hmul⟩ := key
    obtain ⟨m, m1, x, m2, y, hfill, hfin, rfl⟩ := filled hd he h2 h3
    obtain ⟨o, c, base, ho, hfresh, hs', hcl, _, hn, hi, _⟩ := endData_ok rfl h4
    obtain ⟨⟨l', hl', rfl⟩, hb⟩ := hi hk
    simp only [ht, Option.some.injEq] at hl'
    subst hl'
    refine ⟨name, (ops.uuid y ++ c!".xml", o), rfl, by simpa [hdir] using hfresh,
      ⟨y, ⟨m, m1, x, m2, hfill, hfin, ho⟩, rfl⟩, by rw [hs']; simp [hdir], hcl, ?_⟩
    intro hcol
    simp only [hmul hcol, ↓reduceIte] at hb
    exact ⟨_, hb ▸ hn⟩
  · simp at hf

/-- The processes of an archive written one after the other: a later one with the same file name
replaces the earlier one. -/
def written (l : List (Str × O)) (entries : List (Str × O)) : List (Str × O) :=
  entries.foldl (fun a p => aset p.1 p.2 a) l

theorem loop_database {ops : Ops F V I P M S O} (hk : ops.kind = .ilcd) (files : List F) :
    ∀ (s s' : St V I P M S O) (names acc : List Str) (l : List (Str × O)), files ≠ [] →
      ((Clean ops s ∧ l = []) ∨ Collecting ops s l) →
      loop ops false s (yieldFiles files) acc = (s', .ok names) →
      ∃ name entries, names = acc ++ [name] ∧ name ∉ s.dir.map Prod.fst ∧
        List.Forall₂ (EntryOf ops) files entries ∧
        s'.dir = s.dir ++ [(name, .archive (written l entries))] ∧ Clean ops s' ∧
        ((Collecting ops s l ∨ 2 ≤ files.length) → ∃ h, NamedAfter ops (c!"ILCD" ++ h) name) := by
  induction files with
  | nil => intro _ _ _ _ _ h; exact absurd rfl h
  | cons f fs ih =>
    intro s s' names acc l _ hc h
    cases fs with
    | nil =>
      simp only [yieldFiles, loop, Bool.true_or] at h
      split at h
      · rename_i s1 n h1
        obtain ⟨name, p, rfl, hfresh, he, hd, hcl, hn⟩ := oneFile_last hk hc h1
        simp only [Prod.mk.injEq, Except.ok.injEq, Option.toList_some] at h
        obtain ⟨rfl, rfl⟩ := h
        refine ⟨name, [p], rfl, hfresh, .cons he .nil, hd, hcl, ?_⟩
        rintro (h | h)
        · exact hn h
        · simp at h
      · simp at h
    | cons g fs =>
      simp only [yieldFiles, loop, Bool.or_self] at h
      split at h
      · rename_i s1 n h1
        obtain ⟨rfl, hdir, p, hp, hcol⟩ := oneFile_collect hk hc h1
        obtain ⟨name, entries, hn, hfr, he, hd, hcl, hname⟩ :=
          ih s1 s' names (acc ++ (none : Option Str).toList) (aset p.1 p.2 l) (by simp) (.inr hcol) h
        refine ⟨name, p :: entries, by simpa using hn, hdir ▸ hfr, .cons hp he, ?_, hcl,
          fun _ => hname (.inl hcol)⟩
        rw [hd, hdir]
        rfl
      · simp at h

/-- C26, as far as it holds. In the mode `to_database` with ILCD output, a successful conversion of a
non-empty list of files adds exactly one archive, with a new name that starts with "ILCD" if there are
several files, whose processes are those of the input files written one after the other. -/
theorem database_archive_partial {ops : Ops F V I P M S O} {s s' : St V I P M S O} {files : List F}
    {names : List Str} (hk : ops.kind = .ilcd) (hne : files ≠ []) (hc : Clean ops s)
    (h : convert ops false s (yieldFiles files) = (s', .ok names)) :
    ∃ name entries, names = [name] ∧ name ∉ s.dir.map Prod.fst ∧
      List.Forall₂ (EntryOf ops) files entries ∧
      s'.dir = s.dir ++ [(name, .archive (written [] entries))] ∧ Clean ops s' ∧
      (2 ≤ files.length → ∃ h, NamedAfter ops (c!"ILCD" ++ h) name) := by
  obtain ⟨name, entries, h1, h2, h3, h4, h5, h6⟩ :=
    loop_database hk files s s' names [] [] hne (.inl ⟨hc, rfl⟩) h
  exact ⟨name, entries, by simpa using h1, h2, h3, h4, h5, fun h => h6 (.inr h)⟩

theorem written_append {l entries : List (Str × O)} (hd : ((l ++ entries).map Prod.fst).Nodup) :
    written l entries = l ++ entries := by
  induction entries generalizing l with
  | nil => simp [written]
  | cons p es ih =>
    have hp : p.1 ∉ l.map Prod.fst := by
      intro hin
      simp only [List.map_append, List.map_cons] at hd
      exact (List.disjoint_of_nodup_append hd) hin (by simp)
    show written (aset p.1 p.2 l) es = _
    rw [aset_of_notMem _ hp, ih (by simpa using hd)]
    simp

/-- C26. If the identifiers of the data sets differ, the archive has exactly one process per input file,
in their order. -/
theorem database_complete_partial {ops : Ops F V I P M S O} {s s' : St V I P M S O} {files : List F}
    {names : List Str} (hk : ops.kind = .ilcd) (hne : files ≠ []) (hc : Clean ops s)
    (hdist : ∀ entries, List.Forall₂ (EntryOf ops) files entries → (entries.map Prod.fst).Nodup)
    (h : convert ops false s (yieldFiles files) = (s', .ok names)) :
    ∃ name entries, s'.dir = s.dir ++ [(name, .archive entries)] ∧
      List.Forall₂ (EntryOf ops) files entries := by
  obtain ⟨name, entries, _, _, he, hd, _⟩ := database_archive_partial hk hne hc h
  refine ⟨name, entries, ?_, he⟩
  rw [hd, written_append (by simpa using hdist _ he)]
  simp

theorem written_keys (l entries : List (Str × O)) (k : Str) :
    k ∈ (written l entries).map Prod.fst ↔ k ∈ l.map Prod.fst ∨ k ∈ entries.map Prod.fst := by
  induction entries generalizing l with
  | nil => simp [written]
  | cons p es ih =>
    show k ∈ (written (aset p.1 p.2 l) es).map Prod.fst ↔ _
    rw [ih, ← aget_isSome, aget_aset]
    by_cases hk : k = p.1
    · simp [hk]
    · simp only [hk, ↓reduceIte, aget_isSome, List.map_cons, List.mem_cons, false_or]

theorem written_nodup {l entries : List (Str × O)} (h : (l.map Prod.fst).Nodup) :
    ((written l entries).map Prod.fst).Nodup := by
  induction entries generalizing l with
  | nil => exact h
  | cons p es ih => exact ih (aset_nodup h)

theorem written_fewer {entries : List (Str × O)} (h : ¬ (entries.map Prod.fst).Nodup) :
    (written [] entries).length < entries.length := by
  have hnd : ((written [] entries).map Prod.fst).Nodup := written_nodup (by simp)
  have hsub : List.Subperm ((written [] entries).map Prod.fst) (entries.map Prod.fst) := by
    refine hnd.subperm ?_
    intro k hk
    simpa using (written_keys [] entries k).1 hk
  by_contra hlt
  apply h
  have hp := hsub.perm_of_length_le (by simpa using Nat.le_of_not_lt hlt)
  exact hp.nodup_iff.1 hnd

/-- C26. Without the condition: as soon as two of the files give data sets with the same identifier, the
conversion still reports success and the archive has fewer processes than there were files. -/
theorem database_loses {ops : Ops F V I P M S O} {s s' : St V I P M S O} {files : List F}
    {names : List Str} (hk : ops.kind = .ilcd) (hne : files ≠ []) (hc : Clean ops s)
    (hdup : ∀ entries, List.Forall₂ (EntryOf ops) files entries → ¬ (entries.map Prod.fst).Nodup)
    (h : convert ops false s (yieldFiles files) = (s', .ok names)) :
    ∃ name l, s'.dir = s.dir ++ [(name, .archive l)] ∧ l.length < files.length := by
  obtain ⟨name, entries, _, _, he, hd, _⟩ := database_archive_partial hk hne hc h
  exact ⟨name, _, hd, by rw [he.length_eq]; exact written_fewer (hdup _ he)⟩

theorem loop_append (ops : Ops F V I P M S O) (toFile : Bool) (a b : List (F × Bool)) :
    ∀ (s : St V I P M S O) (acc : List Str), loop ops toFile s (a ++ b) acc =
      match loop ops toFile s a acc with
      | (s1, .ok n) => loop ops toFile s1 b n
      | (s1, .error e) => (s1, .error e) := by
  induction a with
  | nil => intro s acc; rfl
  | cons p a ih =>
    obtain ⟨f, last⟩ := p
    intro s acc
    simp only [List.cons_append, loop]
    cases oneFile ops (last || toFile) s f with
    | mk s1 r =>
      cases r with
      | ok n => exact ih _ _
      | error e => rfl

/-- The archive of a group of files: new, and with the processes of these files written one after the
other. -/
def ArchiveOf (ops : Ops F V I P M S O) (dir : List (Str × Content O)) (files : List F)
    (p : Str × Content O) : Prop :=
  p.1 ∉ dir.map Prod.fst ∧ ∃ entries, List.Forall₂ (EntryOf ops) files entries ∧
    p.2 = .archive (written [] entries)

/-- C61. A directory of ILCD archives (`_multiple_file_input`, ILCD1_format.py:43-48) in the mode
`to_database`: each archive that has processes gives exactly one archive, in order, with the processes
of this archive only. -/
theorem zips_outputs {ops : Ops F V I P M S O} (hk : ops.kind = .ilcd) (zips : List (List F)) :
    ∀ (s s' : St V I P M S O) (names acc : List Str), (∀ z ∈ zips, z ≠ []) → Clean ops s →
      loop ops false s (zips.flatMap yieldFiles) acc = (s', .ok names) →
      ∃ out : List (Str × Content O), names = acc ++ out.map Prod.fst ∧ s'.dir = s.dir ++ out ∧
        List.Forall₂ (ArchiveOf ops s.dir) zips out ∧ (out.map Prod.fst).Nodup ∧ Clean ops s' := by
  induction zips with
  | nil =>
    intro s s' names acc _ hc h
    simp only [List.flatMap_nil, loop, Prod.mk.injEq, Except.ok.injEq] at h
    obtain ⟨rfl, rfl⟩ := h
    exact ⟨[], by simp, by simp, .nil, by simp, hc⟩
  | cons z zs ih =>
    intro s s' names acc hne hc h
    rw [List.flatMap_cons, loop_append] at h
    split at h
    · rename_i s1 n h1
      obtain ⟨name, entries, hn, hfr, he, hd, hcl, _⟩ :=
        loop_database hk z s s1 n acc [] (hne z (by simp)) (.inl ⟨hc, rfl⟩) h1
      obtain ⟨out, hn', hd', hall, hnd, hcl'⟩ :=
        ih s1 s' names n (fun y hy => hne y (List.mem_cons_of_mem _ hy)) hcl h
      refine ⟨(name, .archive (written [] entries)) :: out, ?_, ?_,
        .cons ⟨hfr, entries, he, rfl⟩ ?_, ?_, hcl'⟩
      · simp [hn', hn]
      · simp [hd', hd]
      · refine List.Forall₂.imp ?_ hall
        rintro a b ⟨hb, hb'⟩
        refine ⟨fun hin => hb ?_, hb'⟩
        rw [hd, List.map_append]
        exact List.mem_append_left _ hin
      · simp only [List.map_cons, List.nodup_cons]
        refine ⟨?_, hnd⟩
        intro hin
        obtain ⟨b, hb, hbe⟩ := List.mem_map.1 hin
        obtain ⟨i, hi, rfl⟩ := List.getElem_of_mem hb
        obtain ⟨hl, hget⟩ := List.forall₂_iff_get.1 hall
        have hz := (hget i (by rw [hl]; exact hi) hi).1
        apply hz
        simp only [List.get_eq_getElem]
        rw [hbe, hd]
        simp
    · simp at h

/-! ### After a failure -/

/-- All these files are of one known version. -/
def AllOf (ops : Ops F V I P M S O) (v : V) (files : List (F × Bool)) : Prop :=
  ∀ p ∈ files, ∃ x, ops.info p.1 = .ok (some v, x)

theorem start_version {ops : Ops F V I P M S O} {s : St V I P M S O} {f : F} {v : V} {x : List (Str × I)}
    (h : ops.info f = .ok (some v, x)) : (start ops s f).1.version = some v := by
  simp only [start, h]
  split
  · simp
  · split
    · simp
    · split <;> simp

theorem mappingStep_version (s : St V I P M S O) (g : M → S → M × S × Option PyErr) :
    (mappingStep s g).1.version = s.version := by
  simp only [mappingStep]; split <;> rfl

theorem writeProcess_version {ops : Ops F V I P M S O} {s : St V I P M S O} {d : Data S O}
    {r : St V I P M S O × Str} (h : writeProcess ops s d = .ok r) : r.1.version = s.version := by
  simp only [writeProcess] at h
  split at h
  · simp at h
  · split at h
    · split at h
      · simp at h
      · simp only [Except.ok.injEq] at h; subst h; rfl
    · split at h
      · simp at h
      · simp only [Except.ok.injEq] at h; subst h; rfl

theorem endSingle_version {ops : Ops F V I P M S O} {s : St V I P M S O}
    {r : St V I P M S O × Str} (h : endSingle ops s = .ok r) : r.1.version = s.version := by
  simp only [endSingle] at h
  split at h
  · simp at h
  · split at h
    · simp at h
    · rename_i hw
      simp only [Except.ok.injEq] at h; subst h
      have := writeProcess_version hw
      exact this

theorem endData_version (ops : Ops F V I P M S O) (s : St V I P M S O) :
    (endData ops s).1.version = s.version := by
  simp only [endData]
  split
  · rfl
  · split
    · rfl
    · split
      · rfl
      · rename_i h; simpa [writeArchive] using endSingle_version h
  · split
    · rfl
    · rename_i h; simpa using endSingle_version h

theorem resetData_version (ops : Ops F V I P M S O) (s : St V I P M S O) :
    (resetData ops s).1.version = s.version := by
  simp only [resetData]
  split
  · rfl
  · rename_i h; simpa using endSingle_version h

theorem oneFile_version {ops : Ops F V I P M S O} {s : St V I P M S O} {f : F} {v : V}
    {x : List (Str × I)} (ends : Bool) (h : ops.info f = .ok (some v, x)) :
    (oneFile ops ends s f).1.version = some v := by
  have h0 := start_version (s := s) h
  simp only [oneFile]
  split
  · rename_i s1 e h1; rw [h1] at h0; exact h0
  · rename_i s1 h1
    rw [h1] at h0
    have h2 := mappingStep_version s1 (fun m d => ops.fill m d f)
    split
    · rename_i s2 e hs2; rw [hs2] at h2; exact h2.trans h0
    · rename_i s2 hs2
      rw [hs2] at h2
      have h3 := mappingStep_version s2 ops.finish
      split
      · rename_i s3 e hs3; rw [hs3] at h3; exact h3.trans (h2.trans h0)
      · rename_i s3 hs3
        rw [hs3] at h3
        have h3' := h3.trans (h2.trans h0)
        have h4 := endData_version ops s3
        have h5 := resetData_version ops s3
        split
        · split
          · rename_i hs4; rw [hs4] at h4; exact h4.trans h3'
          · rename_i hs4; rw [hs4] at h4; exact h4.trans h3'
        · split
          · rename_i hs4; rw [hs4] at h5; exact h5.trans h3'
          · rename_i hs4; rw [hs4] at h5; exact h5.trans h3'

theorem handleError_state {ops : Ops F V I P M S O} (hi : ops.inputCleanup = none)
    (hd : ∀ m, ops.delete m = none) (s : St V I P M S O) (e : PyErr) :
    (handleError ops s e).1.version = s.version ∧ (handleError ops s e).1.mapping = none ∧
      (handleError ops s e).2 = e := by
  simp only [handleError, hi]
  split
  · rename_i h; exact ⟨rfl, h, rfl⟩
  · simp [hd]

theorem loop_failed {ops : Ops F V I P M S O} {v : V} (hi : ops.inputCleanup = none)
    (hd : ∀ m, ops.delete m = none) {toFile : Bool} (files : List (F × Bool)) :
    ∀ (s s' : St V I P M S O) (acc : List Str) (e : PyErr), AllOf ops v files →
      loop ops toFile s files acc = (s', .error e) → s'.version = some v ∧ s'.mapping = none := by
  induction files with
  | nil => intro s s' acc e _ h; simp [loop] at h
  | cons p fs ih =>
    obtain ⟨f, last⟩ := p
    intro s s' acc e ha h
    obtain ⟨x, hx⟩ := ha (f, last) (by simp)
    have hv := oneFile_version (s := s) (last || toFile) hx
    simp only [loop] at h
    split at h
    · exact ih _ _ _ _ (fun p hp => ha p (List.mem_cons_of_mem _ hp)) h
    · rename_i s1 e' h1
      rw [h1] at hv
      obtain ⟨a, b, _⟩ := handleError_state hi hd s1 e'
      simp only [Prod.mk.injEq] at h
      obtain ⟨rfl, _⟩ := h
      exact ⟨a.trans hv, b⟩

/-- C29 fails. When files of one version are converted and the conversion fails, whatever the reason,
then (if the cleaning up itself succeeds) the same converter fails with `AttributeError` on every later
file of that version, however good the file is, and writes nothing. -/
theorem failure_sticks {ops : Ops F V I P M S O} {v : V} (hi : ops.inputCleanup = none)
    (hd : ∀ m, ops.delete m = none) {toFile toFile' : Bool} {s s' : St V I P M S O}
    {files : List (F × Bool)} {e : PyErr} (ha : AllOf ops v files)
    (h : convert ops toFile s files = (s', .error e))
    (next : List (F × Bool)) (hn : AllOf ops v next) (hne : next ≠ []) :
    (convert ops toFile' s' next).2 = .error .attributeError ∧
      (convert ops toFile' s' next).1.dir = s'.dir := by
  obtain ⟨hv, hm⟩ := loop_failed hi hd files s s' [] e ha h
  match next, hne with
  | (f, last) :: fs, _ =>
    obtain ⟨x, hx⟩ := hn (f, last) (by simp)
    have hst : start ops s' f = (openData ops { s' with version := some v }, some .attributeError) := by
      simp [start, hx, chooseMapping, newMapping, hv, hm]
    have h1 : oneFile ops (last || toFile') s' f =
        (openData ops { s' with version := some v }, .error .attributeError) := by
      simp only [oneFile, hst]
    simp only [convert, loop, h1]
    have hm' : (openData ops { s' with version := some v }).mapping = none := by simpa using hm
    simp only [handleError, hi, openData_mapping, hm]
    simp

/-- The converter as a new one in the same surroundings. -/
def renewed (s : St V I P M S O) : St V I P M S O :=
  fresh s.hash s.settings s.dir s.classHash s.attrs

/-- C29, as far as it holds. A converter whose failed conversion left no half-made data set and which
next gets a file of another version (or one for which the version is not known) does what a new
converter in the same surroundings does, for all the files that follow. -/
theorem recovers_partial {ops : Ops F V I P M S O} {s : St V I P M S O} {f : F} {last : Bool}
    {rest : List (F × Bool)} {v : Option V} {x : List (Str × I)} (toFile : Bool)
    (hdata : s.data = some ⟨ops.empty, false, none⟩) (hm : s.mapping = none)
    (hh : s.classHash = s.hash) (hi : ops.info f = .ok (v, x)) (hv : v ≠ s.version ∨ v = none) :
    convert ops toFile s ((f, last) :: rest) = convert ops toFile (renewed s) ((f, last) :: rest) := by
  have hnew : newMapping s.version v = true := by
    rcases hv with hv | rfl
    · simp [newMapping, Ne.symm hv]
    · cases s.version <;> simp [newMapping]
  have hst : start ops s f = start ops (renewed s) f := by
    have hopen : openData ops { s with version := v } = openData ops { renewed s with version := v } := by
      obtain ⟨data, mapping, version, hash, settings, dir, classHash, attrs⟩ := s
      simp only at hdata hm hh
      subst hdata hm hh
      rfl
    have hnew' : newMapping (renewed s).version v = true := by
      cases v <;> simp [newMapping, renewed, fresh]
    have hset : (renewed s).settings = s.settings := rfl
    simp only [start, hi, chooseMapping, setupMapping, hnew, hnew', hopen, hset]
  have : oneFile ops (last || toFile) s f = oneFile ops (last || toFile) (renewed s) f := by
    simp only [oneFile, hst]
  simp only [convert, loop, this]

/-! ### Settings, and what converters share -/

theorem newMapping_same (v : V) : newMapping (some v) (some v) = false := by simp [newMapping]

/-- The converter with other settings. -/
def withSettings (p : P) (s : St V I P M S O) : St V I P M S O := { s with settings := p }

theorem start_settings {ops : Ops F V I P M S O} {s : St V I P M S O} {f : F} {v : V} {x : List (Str × I)}
    (p : P) (hp : ∀ m a, ops.begin p m a = ops.begin s.settings m a) (hv : s.version = some v)
    (hi : ops.info f = .ok (some v, x)) :
    start ops (withSettings p s) f = (withSettings p (start ops s f).1, (start ops s f).2) := by
  have ho : openData ops { withSettings p s with version := some v } =
      withSettings p (openData ops { s with version := some v }) := by
    simp only [openData, withSettings]; split <;> rfl
  have hv' : (withSettings p s).version = some v := hv
  simp only [start, hi, hv, hv', chooseMapping, newMapping_same, ho, Bool.false_eq_true, if_false]
  show (match (match (openData ops { s with version := some v }).mapping with
    | some m => Except.ok m | none => Except.error PyErr.attributeError : Py M) with
    | .error e => _ | .ok m => _) = _
  cases (openData ops { s with version := some v }).mapping with
  | none => rfl
  | some m =>
    simp only []
    simp only [setupMapping, newMapping_same, Bool.false_eq_true, if_false, startError, hp, withSettings]
    cases (openData ops { s with version := some v }).data with
    | none => rfl
    | some d =>
      simp only []
      cases (if d.multi = true then none else ops.opens f) <;> rfl

theorem mappingStep_settings (p : P) (s : St V I P M S O) (g : M → S → M × S × Option PyErr) :
    mappingStep (withSettings p s) g = (withSettings p (mappingStep s g).1, (mappingStep s g).2) := by
  obtain ⟨data, mapping, version, hash, settings, dir, classHash, attrs⟩ := s
  cases mapping <;> cases data <;> rfl

theorem endSingle_settings (ops : Ops F V I P M S O) (p : P) (s : St V I P M S O) :
    endSingle ops (withSettings p s) =
      (endSingle ops s).map fun r => (withSettings p r.1, r.2) := by
  obtain ⟨data, mapping, version, hash, settings, dir, classHash, attrs⟩ := s
  cases data with
  | none => rfl
  | some d =>
    simp only [endSingle, withSettings, writeProcess]
    cases ops.doc d.struct with
    | error e => rfl
    | ok o =>
      cases ops.kind with
      | ilcd => cases d.temp <;> rfl
      | ecs2 =>
        simp only []
        cases ops.fileName classHash d.struct <;> rfl

theorem resetData_settings (ops : Ops F V I P M S O) (p : P) (s : St V I P M S O) :
    resetData ops (withSettings p s) = (withSettings p (resetData ops s).1, (resetData ops s).2) := by
  simp only [resetData, endSingle_settings]
  cases endSingle ops s <;> rfl

theorem endData_settings (ops : Ops F V I P M S O) (p : P) (s : St V I P M S O) :
    endData ops (withSettings p s) = (withSettings p (endData ops s).1, (endData ops s).2) := by
  have h1 : (withSettings p s).data = s.data := rfl
  have h2 : ∀ d, archiveName ops (withSettings p s) d = archiveName ops s d := fun _ => rfl
  simp only [endData, endSingle_settings, h1, h2]
  cases ops.kind <;> cases s.data with
  | none => rfl
  | some d =>
    simp only []
    first
    | (cases archiveName ops s d with
        | error e => rfl
        | ok n => simp only []; cases endSingle ops s <;> rfl)
    | (cases endSingle ops s <;> rfl)

theorem oneFile_settings {ops : Ops F V I P M S O} {s : St V I P M S O} {f : F} {v : V}
    {x : List (Str × I)} (p : P) (ends : Bool)
    (hp : ∀ m a, ops.begin p m a = ops.begin s.settings m a) (hv : s.version = some v)
    (hi : ops.info f = .ok (some v, x)) :
    oneFile ops ends (withSettings p s) f =
      (withSettings p (oneFile ops ends s f).1, (oneFile ops ends s f).2) := by
  simp only [oneFile, start_settings p hp hv hi]
  cases start ops s f with
  | mk s1 e1 =>
    cases e1 with
    | some e => rfl
    | none =>
      simp only [mappingStep_settings]
      cases mappingStep s1 (fun m d => ops.fill m d f) with
      | mk s2 e2 =>
        cases e2 with
        | some e => rfl
        | none =>
          simp only [mappingStep_settings]
          cases mappingStep s2 ops.finish with
          | mk s3 e3 =>
            cases e3 with
            | some e => rfl
            | none =>
              simp only [endData_settings, resetData_settings]
              cases ends with
              | true =>
                simp only [if_true]
                cases endData ops s3 with
                | mk s4 r => cases r <;> rfl
              | false =>
                simp only [Bool.false_eq_true, if_false]
                cases resetData ops s3 with
                | mk s4 r => cases r <;> rfl

theorem handleError_settings (ops : Ops F V I P M S O) (p : P) (s : St V I P M S O) (e : PyErr) :
    handleError ops (withSettings p s) e = (withSettings p (handleError ops s e).1, (handleError ops s e).2) := by
  obtain ⟨data, mapping, version, hash, settings, dir, classHash, attrs⟩ := s
  simp only [handleError, withSettings]
  cases ops.inputCleanup with
  | some e' => rfl
  | none =>
    cases mapping with
    | none => rfl
    | some m => simp only []; cases ops.delete m <;> rfl

theorem oneFile_keeps {ops : Ops F V I P M S O} {s : St V I P M S O} {f : F} {v : V}
    {x : List (Str × I)} (ends : Bool) (hv : s.version = some v) (hi : ops.info f = .ok (some v, x)) :
    (oneFile ops ends s f).1.settings = s.settings := by
  have h := oneFile_settings s.settings ends (fun _ _ => rfl) hv hi
  have hs : withSettings s.settings s = s := rfl
  rw [hs] at h
  have := congrArg (fun r => r.1.settings) h
  exact this

/-- C58 fails. As long as the files are of the version of the file before, a change of the settings that
the mapping takes only when it is made (the mapping of elementary flows, `convert_additional_fields`)
has no effect at all on what is written or returned. `hp` says that the change concerns only these. -/
theorem settings_ignored {ops : Ops F V I P M S O} {v : V} (p : P) (toFile : Bool)
    (files : List (F × Bool)) (s : St V I P M S O)
    (hp : ∀ m a, ops.begin p m a = ops.begin s.settings m a) (hv : s.version = some v)
    (ha : AllOf ops v files) :
    convert ops toFile (withSettings p s) files =
      (withSettings p (convert ops toFile s files).1, (convert ops toFile s files).2) := by
  suffices hs : ∀ (acc : List Str) (s : St V I P M S O),
      (∀ m a, ops.begin p m a = ops.begin s.settings m a) → s.version = some v → AllOf ops v files →
      loop ops toFile (withSettings p s) files acc =
        (withSettings p (loop ops toFile s files acc).1, (loop ops toFile s files acc).2) from
    hs [] s hp hv ha
  clear hp hv ha s
  induction files with
  | nil => intro acc s _ _ _; rfl
  | cons q fs ih =>
    obtain ⟨f, last⟩ := q
    intro acc s hp hv ha
    obtain ⟨x, hx⟩ := ha (f, last) (by simp)
    have hv' := oneFile_version (s := s) (last || toFile) hx
    have hk := oneFile_keeps (last || toFile) hv hx
    simp only [loop, oneFile_settings p (last || toFile) hp hv hx]
    cases h : oneFile ops (last || toFile) s f with
    | mk s1 r =>
      rw [h] at hv' hk
      cases r with
      | error e => simp only [handleError_settings]
      | ok n =>
        exact ih _ _ (by rw [show s1.settings = s.settings from hk]; exact hp) hv' (fun p hp => ha p (List.mem_cons_of_mem _ hp))

/-! ### What converters share -/

/-- The surroundings of another converter: the directory and the class attributes. -/
def inSurroundings (s t : St V I P M S O) : St V I P M S O :=
  { s with dir := t.dir, classHash := t.classHash, attrs := t.attrs }

/-- C57. The mark that a converter puts into the names of its files (`_hash`) is the one of the
converter that was put to use last: when `b` is a new converter that starts on a file, then the next
file that the older converter `a` writes is named with the mark of `b`, and not with its own. -/
theorem mark_of_other {ops : Ops F V I P M S O} {a b b1 a' : St V I P M S O} {f g : F}
    {n : Option Str} {d : Data S O} (hb : b.data = none) (hstart : start ops b g = (b1, none))
    (ha : a.data = some d) (hc : Clean ops a)
    (h : oneFile ops true (inSurroundings a b1) f = (a', .ok n)) :
    ∃ name st o base, n = some name ∧ MadeFrom ops f st o ∧ ops.fileName b.hash st = .ok base ∧
      NamedAfter ops base name := by
  have hb1 : b1.classHash = b.hash := by
    obtain ⟨v, _, _, _, _, _, _, _, _, _, _, hh, _⟩ := start_ok hstart
    rw [hh]
    simp only [openData, hb]
  obtain ⟨s1, s2, s3, h1, h2, h3, ⟨_, name, h4, rfl⟩ | ⟨hf, _⟩⟩ := oneFile_steps h
  · have hc' : Clean ops (inSurroundings a b1) := hc
    obtain ⟨hdir, d', m0, hd, _, he, hm, ht⟩ := start_clean hc' h1
    obtain ⟨v, _, _, _, _, _, _, _, _, _, _, hh, _⟩ := start_ok h1
    have hop : openData ops { inSurroundings a b1 with version := v } =
        { inSurroundings a b1 with version := v } := openData_some (d := d) ha
    rw [hop] at hh
    obtain ⟨m, m1, x, m2, y, hfill, hfin, rfl⟩ := filled hd he h2 h3
    obtain ⟨o, c, base, ho, hfresh, hs', hcl, _, hn, hi, hec⟩ := endData_ok rfl h4
    have hcls : s1.classHash = b.hash := hh.trans hb1
    refine ⟨name, y, o, base, rfl, ⟨m, m1, x, m2, hfill, hfin, ho⟩, ?_, hn⟩
    cases hk : ops.kind with
    | ilcd => simpa [hm, hcls] using (hi hk).2
    | ecs2 => simpa [hcls] using (hec hk).2
  · simp at hf

/-! ### What one file leaves for the next -/

theorem foldl_aset_absent {k : Str} {x : List (Str × I)} (h : k ∉ x.map Prod.fst) :
    ∀ a : List (Str × I), aget k (x.foldl (fun a p => aset p.1 p.2 a) a) = aget k a := by
  induction x with
  | nil => intro a; rfl
  | cons p x ih =>
    intro a
    simp only [List.map_cons, List.mem_cons, not_or] at h
    simp only [List.foldl_cons]
    rw [ih h.2, aget_aset]
    simp [h.1]

/-- C59 fails. Information read in advance that a file does not give (its default language, its
references to flows) is not absent when it is converted: the mapping is started with what was in force
before, so with that of an earlier file, even of another converter. -/
theorem information_leaks {ops : Ops F V I P M S O} {s s1 : St V I P M S O} {f : F} {v : Option V}
    {x : List (Str × I)} {k : Str} (hi : ops.info f = .ok (v, x)) (hk : k ∉ x.map Prod.fst)
    (h : start ops s f = (s1, none)) :
    ∃ m m' a, ops.begin s.settings m a = (m', none) ∧ s1.mapping = some m' ∧ aget k a = aget k s.attrs := by
  obtain ⟨v', x', m, m', hi', _, hb, _, hm, _, _, _, _⟩ := start_ok h
  rw [hi] at hi'
  simp only [Except.ok.injEq, Prod.mk.injEq] at hi'
  obtain ⟨_, rfl⟩ := hi'
  exact ⟨m, m', _, hb, hm, foldl_aset_absent hk _⟩

/-! ### A small instance -/

/-- A file of the small instance. -/
structure ToyFile where
  version : Option Nat
  id : Str
  bad : Bool
  lang : Option Nat

/-- A small instance: the document is the identifier, the settings and the language in force. -/
def toy (k : Kind) : Ops ToyFile Nat Nat Nat (Nat × Option Nat) (Option (Str × Nat × Option Nat))
    (Str × Nat × Option Nat) where
  kind := k
  info f := .ok (f.version, f.lang.toList.map fun n => (c!"lang", n))
  empty := none
  create _ := .ok (0, none)
  setup p _ := ((p, none), none)
  opens _ := none
  begin _ m a := ((m.1, aget c!"lang" a), none)
  fill m _ f := if f.bad then (m, some (f.id, m), some .valueError) else (m, some (f.id, m), none)
  finish m s := (m, s, none)
  delete _ := none
  deleteAttrs _ := []
  inputCleanup := none
  doc s := match s with | some o => .ok o | none => .error .keyError
  uuid s := match s with | some o => o.1 | none => []
  fileName h s := match s with | some o => .ok (o.1 ++ h) | none => .error .keyError

/-- A new converter of the small instance. -/
def toyNew : St Nat Nat Nat (Nat × Option Nat) (Option (Str × Nat × Option Nat))
    (Str × Nat × Option Nat) := fresh c!"#a" 7 [] [] []

/-- Good files of the small instance. -/
def toyFile (id : Str) : ToyFile := ⟨some 1, id, false, some 5⟩

example : Clean (toy .ilcd) toyNew := by intro d h; simp [toyNew, fresh] at h

/-- Two files to two archives. -/
example : (convert (toy .ilcd) true toyNew [(toyFile c!"x", false), (toyFile c!"x", true)]).2 =
    .ok [c!"x#a.zip", c!"x#a (1).zip"] := by decide

/-- Two files to a database. -/
example : (convert (toy .ilcd) false toyNew (yieldFiles [toyFile c!"x", toyFile c!"y"])).2 =
    .ok [c!"ILCD#a.zip"] := by decide

/-- Two data sets with the same identifier: one of them remains. -/
example : ((convert (toy .ilcd) false toyNew (yieldFiles [toyFile c!"x", toyFile c!"x"])).1.dir.map
    fun p => match p.2 with | .archive l => l.length | .process _ => 0) = [1] := by decide

/-- C29: a bad file spoils the converter: a good file that a new converter converts is refused. -/
theorem failure_sticks_example :
    (convert (toy .ilcd) true toyNew [(toyFile c!"x", true)]).2 = .ok [c!"x#a.zip"] ∧
    (convert (toy .ilcd) true (convert (toy .ilcd) true toyNew
      [({ toyFile c!"y" with bad := true }, true)]).1 [(toyFile c!"x", true)]).2 = .error .attributeError := by
  decide

example : AllOf (toy .ilcd) 1 [(toyFile c!"x", true)] := by
  intro p hp; simp only [List.mem_singleton] at hp; subst hp; exact ⟨_, rfl⟩

/-- C29: the half-made data set of a failed file is used for the next file of another version. -/
example : ((convert (toy .ecs2) true toyNew [({ toyFile c!"y" with bad := true }, true)]).1.data.map
    Data.struct) = some (some (c!"y", 7, some 5)) := by decide

/-- C58: changed settings are used by a new converter and ignored by a used one. -/
example :
    ((convert (toy .ecs2) true (withSettings 8 (convert (toy .ecs2) true toyNew
      [(toyFile c!"y", true)]).1) [(toyFile c!"x", true)]).1.dir.map
        fun p => match p.2 with | .archive _ => 0 | .process o => o.2.1) = [7, 7] ∧
    ((convert (toy .ecs2) true (withSettings 8 toyNew) [(toyFile c!"x", true)]).1.dir.map
        fun p => match p.2 with | .archive _ => 0 | .process o => o.2.1) = [8] := by decide

/-- C59: a file without language after one with language 5. -/
example :
    ((convert (toy .ecs2) true toyNew [(toyFile c!"y", false), ({ toyFile c!"x" with lang := none }, true)]).1.dir.map
        fun p => match p.2 with | .archive _ => none | .process o => o.2.2) = [some 5, some 5] ∧
    ((convert (toy .ecs2) true toyNew [({ toyFile c!"x" with lang := none }, true)]).1.dir.map
        fun p => match p.2 with | .archive _ => none | .process o => o.2.2) = [none] := by decide

end Verif.Driver
