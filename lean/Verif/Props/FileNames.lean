/-
C152: the names of the files do not stop a conversion.
-/
import Verif.Lemmas.FileNames

namespace Verif.FileNames
open Verif.IlcdVars Verif.Output Spec

/-! ### The names -/

/-- The name of an EcoSpold2 file: name, place and years of the data set with the slashes spelled out. -/
theorem ecs_title (hash : Str) (d : EcsSet) (n : Str) :
    ecsFileName hash d = .ok n ↔ ∃ name g gs a b, d.name = some name ∧ d.short = some (g :: gs) ∧ d.first = some a ∧
      d.last = some b ∧ n = spelled c!" per " (title name g (a.take 4) (b.take 4) hash) := by
  unfold ecsFileName
  constructor
  · intro h
    split at h
    · cases h
    · next name hn =>
      split at h
      · cases h
      · cases h
      · next g gs hg =>
        split at h
        · cases h
        · next a ha =>
          split at h
          · cases h
          · next b hb =>
            simp only [Except.ok.injEq] at h
            refine ⟨name, g, gs, a, b, hn, hg, ha, hb, ?_⟩
            rw [← h, spelled_eq]
            simp [title]
  · rintro ⟨name, g, gs, a, b, hn, hg, ha, hb, rfl⟩
    rw [hn, hg, ha, hb]
    simp only [spelled_eq]
    simp [title]

/-- The name of an ILCD archive of one data set; what is missing appears as `None`. -/
theorem ilcd_title (hash : Str) (d : IlcdSet) (n : Str) :
    ilcdFileName hash d = .ok n ↔ ∃ name names, d.base = some (name :: names) ∧
      n = spelled c!" per " (title name (d.place.getD c!"None") (d.first.getD c!"None") (d.last.getD c!"None") hash) := by
  have hs : ∀ o, shown o = o.getD c!"None" := fun o => by cases o <;> rfl
  unfold ilcdFileName
  constructor
  · intro h
    split at h
    · cases h
    · cases h
    · next name names hn =>
      simp only [Except.ok.injEq] at h
      refine ⟨name, names, hn, ?_⟩
      rw [← h, spelled_eq]
      simp [title, hs]
  · rintro ⟨name, names, hn, rfl⟩
    rw [hn]
    simp only [spelled_eq]
    simp [title, hs]

/-- No name made of a data set has a slash, so no file is put elsewhere. -/
theorem no_slash (hash : Str) (d : EcsSet) (d' : IlcdSet) :
    (∀ n, ecsFileName hash d = .ok n → '/' ∉ n) ∧ (∀ n, ilcdFileName hash d' = .ok n → '/' ∉ n) := by
  constructor
  · intro n h
    obtain ⟨_, _, _, _, _, _, _, _, _, rfl⟩ := (ecs_title hash d n).1 h
    exact spelled_noSlash (by decide) _
  · intro n h
    obtain ⟨_, _, _, rfl⟩ := (ilcd_title hash d' n).1 h
    exact spelled_noSlash (by decide) _

/-! ### Logs and lists -/

theorem logName_eq (base : Str) : logName base = spelled c!"_per_" base ++ c!".log" := by rw [logName, spelled_eq]

theorem listName_eq (base : Str) :
    listName (logName base) = spelled c!"_per_" base ++ c!"_not_converted_elementary_flows.log" := by
  rw [logName_eq, listName]
  simp

theorem logName_noSlash (base : Str) : '/' ∉ logName base := by
  rw [logName_eq, List.mem_append, not_or]
  exact ⟨spelled_noSlash (by decide) _, by decide⟩

theorem listName_noSlash (base : Str) : '/' ∉ listName (logName base) := by
  rw [listName_eq, List.mem_append, not_or]
  exact ⟨spelled_noSlash (by decide) _, by decide⟩

theorem logName_bytes (base : Str) : bytes (logName base) = width base + 4 := by
  rw [logName_eq, bytes_append, bytes_spelled (by decide +kernel)]
  rfl

theorem listName_bytes (base : Str) : bytes (listName (logName base)) = width base + 35 := by
  rw [listName_eq, bytes_append, bytes_spelled (by decide +kernel)]
  rfl

theorem mem_open {dir : List Str} {f x : Str} : x ∈ (if f ∈ dir then dir else dir ++ [f]) ↔ x ∈ dir ∨ x = f := by
  split
  · next h =>
    constructor
    · exact Or.inl
    · rintro (h' | rfl)
      · exact h'
      · exact h
  · simp

theorem chosen_congr {dir dir' : List Str} {name ext m : Str} (h : ∀ x : Str, x ++ ext ∈ dir ↔ x ++ ext ∈ dir') :
    Chosen dir name ext m ↔ Chosen dir' name ext m := by
  unfold Chosen
  simp only [h]

theorem last_ne {x y : Str} : x ++ c!".spold" ≠ y ++ c!".log" := by
  intro h
  have := congrArg List.getLast? h
  simp at this

theorem chosen_log {dir : List Str} {base name m : Str} :
    Chosen (if logName base ∈ dir then dir else dir ++ [logName base]) name c!".spold" m ↔
      Chosen dir name c!".spold" m := by
  apply chosen_congr
  intro x
  rw [mem_open]
  constructor
  · rintro (h | h)
    · exact h
    · rw [logName_eq] at h; exact absurd h last_ne
  · exact Or.inl

theorem numbered_noSlash {dir : List Str} {name ext m : Str} (h : Chosen dir name ext m) (hn : '/' ∉ name) : '/' ∉ m := by
  rcases h.2 with rfl | ⟨_, i, _, rfl, _⟩
  · exact hn
  · simp only [List.mem_append, not_or]
    refine ⟨⟨⟨hn, by decide⟩, ?_⟩, by decide⟩
    intro hc
    exact absurd (natStr_digit hc) (by decide)

theorem real_log {dir : List Str} (hd : Real dir) {f : Str} (hf : bytes f ≤ longest) :
    Real (if f ∈ dir then dir else dir ++ [f]) := by
  intro x hx
  rcases mem_open.1 hx with h | rfl
  · exact hd x h
  · exact hf

/-- A data set is saved under the free name if that has at most 255 bytes, otherwise there is an `OSError`. -/
theorem saved_or_not {dir : List Str} (hd : Real dir) {name ext m : Str} (hm : Chosen dir name ext m)
    (hs : '/' ∉ name) (he : '/' ∉ ext) :
    (match freeName dir name ext with
      | .error e => (dir, some e)
      | .ok n => match openFile dir (n ++ ext) with
        | .error e => (dir, some e)
        | .ok dir => (dir, (none : Option PyErr))) =
    if bytes (m ++ ext) ≤ 255 then (dir ++ [m ++ ext], none) else (dir, some .osError) := by
  have hns := numbered_noSlash hm hs
  have hslash : '/' ∉ m ++ ext := by rw [List.mem_append, not_or]; exact ⟨hns, he⟩
  have hnew := hm.1
  obtain rfl := chosen_unique hm
  by_cases h : bytes (checkName dir name ext ++ ext) ≤ longest
  · rw [if_pos (show _ ≤ 255 from h), freeName_ok hd name ext h]
    simp only [openFile_ok h hslash, hnew, ite_false]
  · rw [if_neg (show ¬ _ ≤ 255 from h)]
    rcases freeName_long hd name ext h with e | e
    · rw [e]
    · rw [e]
      simp only
      rw [openFile_long (Nat.lt_of_not_le h)]

/-! ### Conversion to EcoSpold2 -/

/-- The directory with one more file. -/
def with1 (dir : List Str) (f : Str) : List Str := if f ∈ dir then dir else dir ++ [f]

theorem mem_with1 {dir : List Str} {f x : Str} : x ∈ with1 dir f ↔ x ∈ dir ∨ x = f := mem_open

/-- What a conversion to EcoSpold2 leaves in the directory, and how it ends, once the log can be opened. -/
theorem ecs_output_eq (hash : Str) {dir : List Str} (hd : Real dir) {d : EcsSet} {base name g a b m : Str}
    {gs : List Str} (hb : d.base = some base) (h1 : d.name = some name) (h2 : d.short = some (g :: gs))
    (h3 : d.first = some a) (h4 : d.last = some b)
    (hm : Chosen dir (spelled c!" per " (title name g (a.take 4) (b.take 4) hash)) c!".spold" m)
    (hl : width base + 4 ≤ 255) :
    ecsOutput hash dir d =
      if bytes m + 6 ≤ 255 then
        let saved := with1 dir (logName base) ++ [m ++ c!".spold"]
        if d.unconverted = true then
          if width base + 35 ≤ 255 then (with1 saved (listName (logName base)), none) else (saved, some .osError)
        else (saved, none)
      else (with1 dir (logName base), some .osError) := by
  unfold ecsOutput
  rw [hb]
  simp only
  rw [openFile_ok (by rw [logName_bytes, longest]; omega) (logName_noSlash base)]
  simp only
  have hn := (ecs_title hash d _).2 ⟨name, g, gs, a, b, h1, h2, h3, h4, rfl⟩
  rw [hn]
  simp only
  have hd' := real_log hd (f := logName base) (by rw [logName_bytes, longest]; omega)
  have hc := chosen_log (base := base).2 hm
  have hs := no_slash hash d ⟨none, none, none, none⟩ |>.1 _ hn
  have hso := saved_or_not hd' hc hs (by decide)
  have hm6 : bytes (m ++ c!".spold") = bytes m + 6 := by rw [bytes_append]; rfl
  rw [hm6] at hso
  rw [show with1 dir (logName base) = (if logName base ∈ dir then dir else dir ++ [logName base]) from rfl]
  generalize (if logName base ∈ dir then dir else dir ++ [logName base]) = dir1 at *
  cases hf : freeName dir1 (spelled c!" per " (title name g (a.take 4) (b.take 4) hash)) c!".spold" with
  | error e =>
    rw [hf] at hso
    by_cases h6 : bytes m + 6 ≤ 255
    · rw [if_pos h6] at hso; simp at hso
    · rw [if_neg h6] at hso ⊢; exact hso
  | ok n =>
    rw [hf] at hso
    simp only at hso ⊢
    cases ho : openFile dir1 (n ++ c!".spold") with
    | error e =>
      rw [ho] at hso
      by_cases h6 : bytes m + 6 ≤ 255
      · rw [if_pos h6] at hso; simp at hso
      · rw [if_neg h6] at hso ⊢; exact hso
    | ok dir2 =>
      rw [ho] at hso
      by_cases h6 : bytes m + 6 ≤ 255
      · rw [if_pos h6] at hso ⊢
        simp only [Prod.mk.injEq, and_true] at hso ⊢
        subst hso
        cases hu : d.unconverted with
        | false => simp
        | true =>
          simp only [ite_true]
          by_cases h35 : width base + 35 ≤ 255
          · rw [openFile_ok (by rw [listName_bytes, longest]; omega) (listName_noSlash base), if_pos h35]
            rfl
          · rw [openFile_long (by rw [listName_bytes, longest]; omega), if_neg h35]
      · rw [if_neg h6] at hso; simp at hso

/-- A base name that leaves no room for the ending of its log stops the conversion before anything is read. -/
theorem long_name_stops (hash : Str) (dir : List Str) {d : EcsSet} {base : Str} (hb : d.base = some base)
    (h : 255 < width base + 4) : ecsOutput hash dir d = (dir, some .osError) := by
  unfold ecsOutput
  rw [hb]
  simp only
  rw [openFile_long (by rw [logName_bytes, longest]; omega)]

/-- The exact condition for a conversion to EcoSpold2 to end well: the name read in advance leaves room for the
endings of the log and of the list of flows, and the title leaves room for its number and ending. -/
theorem ecs_saved_iff (hash : Str) {dir : List Str} (hd : Real dir) (d : EcsSet) :
    (ecsOutput hash dir d).2 = none ↔ ∃ base name g gs a b m, d.base = some base ∧ d.name = some name ∧
      d.short = some (g :: gs) ∧ d.first = some a ∧ d.last = some b ∧
      Chosen dir (spelled c!" per " (title name g (a.take 4) (b.take 4) hash)) c!".spold" m ∧
      width base + 4 ≤ 255 ∧ bytes m + 6 ≤ 255 ∧ (d.unconverted = true → width base + 35 ≤ 255) := by
  constructor
  · intro h
    cases hb : d.base with
    | none => rw [ecsOutput, hb] at h; simp at h
    | some base =>
      by_cases hl : width base + 4 ≤ 255
      swap
      · rw [long_name_stops hash dir hb (by omega)] at h; simp at h
      cases hn : ecsFileName hash d with
      | error e =>
        rw [ecsOutput, hb] at h
        simp only at h
        rw [openFile_ok (by rw [logName_bytes, longest]; omega) (logName_noSlash base)] at h
        simp only [hn] at h
        cases h
      | ok n =>
        obtain ⟨name, g, gs, a, b, h1, h2, h3, h4, rfl⟩ := (ecs_title hash d n).1 hn
        have hc := chosen_checkName dir (spelled c!" per " (title name g (a.take 4) (b.take 4) hash)) c!".spold"
        rw [ecs_output_eq hash hd hb h1 h2 h3 h4 hc hl] at h
        refine ⟨base, name, g, gs, a, b, _, rfl, h1, h2, h3, h4, hc, hl, ?_⟩
        by_cases h6 : bytes (checkName dir (spelled c!" per " (title name g (a.take 4) (b.take 4) hash)) c!".spold") + 6
          ≤ 255
        · refine ⟨h6, fun hu => ?_⟩
          by_cases h35 : width base + 35 ≤ 255
          · exact h35
          · simp [h6, hu, h35] at h
        · simp [h6] at h
  · rintro ⟨base, name, g, gs, a, b, m, hb, h1, h2, h3, h4, hc, hl, h6, h35⟩
    rw [ecs_output_eq hash hd hb h1 h2 h3 h4 hc hl, if_pos h6]
    cases hu : d.unconverted with
    | false => simp
    | true => simp [h35 hu]

/-- The files of a conversion that ends well: those that were there, the log, the data set under a new name, and
the list of flows if there are any. -/
theorem ecs_files (hash : Str) {dir : List Str} (hd : Real dir) {d : EcsSet} (h : (ecsOutput hash dir d).2 = none) :
    ∃ base m, d.base = some base ∧ m ++ c!".spold" ∉ dir ∧ ∀ f, f ∈ (ecsOutput hash dir d).1 ↔
      f ∈ dir ∨ f = spelled c!"_per_" base ++ c!".log" ∨ f = m ++ c!".spold" ∨
      (d.unconverted = true ∧ f = spelled c!"_per_" base ++ c!"_not_converted_elementary_flows.log") := by
  obtain ⟨base, name, g, gs, a, b, m, hb, h1, h2, h3, h4, hc, hl, h6, h35⟩ := (ecs_saved_iff hash hd d).1 h
  refine ⟨base, m, hb, hc.1, fun f => ?_⟩
  rw [ecs_output_eq hash hd hb h1 h2 h3 h4 hc hl, if_pos h6, ← listName_eq, ← logName_eq]
  cases hu : d.unconverted with
  | false => simp [mem_with1, or_assoc]
  | true => simp [h35 hu, mem_with1, or_assoc]

/-- The list of flows has a longer name than the log: the conversion can fail after the data set has been saved. -/
theorem saved_and_failed (hash : Str) {dir : List Str} (hd : Real dir) {d : EcsSet} {base name g a b m : Str}
    {gs : List Str} (hb : d.base = some base) (h1 : d.name = some name) (h2 : d.short = some (g :: gs))
    (h3 : d.first = some a) (h4 : d.last = some b)
    (hm : Chosen dir (spelled c!" per " (title name g (a.take 4) (b.take 4) hash)) c!".spold" m)
    (hl : width base + 4 ≤ 255) (h6 : bytes m + 6 ≤ 255) (hu : d.unconverted = true) (h35 : 255 < width base + 35) :
    (ecsOutput hash dir d).2 = some .osError ∧ m ++ c!".spold" ∈ (ecsOutput hash dir d).1 := by
  rw [ecs_output_eq hash hd hb h1 h2 h3 h4 hm hl, if_pos h6, if_pos hu, if_neg (by omega)]
  simp

/-! ### Conversion to ILCD -/

theorem ilcd_output_eq {multi : Bool} {hash : Str} {dir : List Str} (hd : Real dir) {d : IlcdSet} {n m : Str}
    (hn : (if multi then .ok (c!"ILCD" ++ hash) else ilcdFileName hash d) = (.ok n : Py Str)) (hs : '/' ∉ n)
    (hm : Chosen dir n c!".zip" m) :
    ilcdOutput multi hash dir d =
      if bytes m + 4 ≤ 255 then (dir ++ [m ++ c!".zip"], none) else (dir, some .osError) := by
  have hm4 : bytes (m ++ c!".zip") = bytes m + 4 := by rw [bytes_append]; rfl
  have := saved_or_not hd hm hs (by decide)
  rw [hm4] at this
  unfold ilcdOutput
  rw [hn]
  exact this

/-- The exact condition for the archive of one data set. -/
theorem ilcd_saved_iff (hash : Str) {dir : List Str} (hd : Real dir) (d : IlcdSet) :
    (ilcdOutput false hash dir d).2 = none ↔ ∃ name names m, d.base = some (name :: names) ∧
      Chosen dir (spelled c!" per "
        (title name (d.place.getD c!"None") (d.first.getD c!"None") (d.last.getD c!"None") hash)) c!".zip" m ∧
      bytes m + 4 ≤ 255 := by
  cases hn : ilcdFileName hash d with
  | error e =>
    rw [ilcdOutput]
    simp only [hn, reduceCtorEq, false_iff, Bool.false_eq_true, ite_false]
    rintro ⟨name, names, _, hb, _⟩
    have := (ilcd_title hash d _).2 ⟨name, names, hb, rfl⟩
    rw [hn] at this
    cases this
  | ok n =>
    obtain ⟨name, names, hb, rfl⟩ := (ilcd_title hash d n).1 hn
    have hc := chosen_checkName dir (spelled c!" per "
      (title name (d.place.getD c!"None") (d.first.getD c!"None") (d.last.getD c!"None") hash)) c!".zip"
    have hs := (no_slash hash ⟨none, none, none, none, none, false⟩ d).2 _ hn
    rw [ilcd_output_eq (multi := false) hd (by simpa using hn) hs hc]
    constructor
    · intro h
      refine ⟨name, names, _, hb, hc, ?_⟩
      by_cases h4 : bytes (checkName dir (spelled c!" per "
        (title name (d.place.getD c!"None") (d.first.getD c!"None") (d.last.getD c!"None") hash)) c!".zip") + 4 ≤ 255
      · exact h4
      · simp [h4] at h
    · rintro ⟨name', names', m, hb', hc', h4⟩
      rw [hb] at hb'
      cases hb'
      rw [chosen_unique hc'] at h4
      simp [h4]

/-- A conversion to ILCD that cannot be saved leaves nothing, one that can leaves one new file. -/
theorem ilcd_files (multi : Bool) (hash : Str) {dir : List Str} (hd : Real dir) (d : IlcdSet) :
    ((ilcdOutput multi hash dir d).2 ≠ none ∧ (ilcdOutput multi hash dir d).1 = dir) ∨
    ((ilcdOutput multi hash dir d).2 = none ∧ ∃ m, m ++ c!".zip" ∉ dir ∧
      (ilcdOutput multi hash dir d).1 = dir ++ [m ++ c!".zip"]) := by
  cases hn : (if multi then .ok (c!"ILCD" ++ hash) else ilcdFileName hash d : Py Str) with
  | error e =>
    left
    rw [ilcdOutput, hn]
    simp
  | ok n =>
    have hc := chosen_checkName dir n c!".zip"
    by_cases hs : '/' ∈ n
    · left
      rw [ilcdOutput, hn]
      simp only
      cases hf : freeName dir n c!".zip" with
      | error e => simp
      | ok k =>
        have hk : '/' ∈ k := by
          have : k = checkName dir n c!".zip" := by
            by_cases h : bytes (checkName dir n c!".zip" ++ c!".zip") ≤ longest
            · rw [freeName_ok hd n c!".zip" h] at hf; simpa using hf.symm
            · rcases freeName_long hd n c!".zip" h with e | e
              · rw [e] at hf; cases hf
              · rw [e] at hf; simpa using hf.symm
          rw [this]
          rcases hc.2 with e | ⟨_, i, _, e, _⟩
          · rw [e]; exact hs
          · rw [e]; simp [hs]
        simp only
        rw [openFile_slash (by simp [hk])]
        simp
    · rw [ilcd_output_eq hd hn hs hc]
      split
      · exact Or.inr ⟨rfl, _, hc.1, rfl⟩
      · left; simp

/-- The archive of several data sets takes the suffix as it is: one with a slash loses the whole conversion. -/
theorem archive_saved_iff (hash : Str) {dir : List Str} (hd : Real dir) (d : IlcdSet) :
    (ilcdOutput true hash dir d).2 = none ↔
      '/' ∉ hash ∧ ∃ m, Chosen dir (c!"ILCD" ++ hash) c!".zip" m ∧ bytes m + 4 ≤ 255 := by
  have hc := chosen_checkName dir (c!"ILCD" ++ hash) c!".zip"
  by_cases hs : '/' ∈ hash
  · simp only [hs, not_true_eq_false, false_and, iff_false]
    rw [ilcdOutput]
    simp only [ite_true]
    cases hf : freeName dir (c!"ILCD" ++ hash) c!".zip" with
    | error e => simp
    | ok k =>
      have hk : '/' ∈ k := by
        have : k = checkName dir (c!"ILCD" ++ hash) c!".zip" := by
          by_cases h : bytes (checkName dir (c!"ILCD" ++ hash) c!".zip" ++ c!".zip") ≤ longest
          · rw [freeName_ok hd _ c!".zip" h] at hf; simpa using hf.symm
          · rcases freeName_long hd _ c!".zip" h with e | e
            · rw [e] at hf; cases hf
            · rw [e] at hf; simpa using hf.symm
        rw [this]
        rcases hc.2 with e | ⟨_, i, _, e, _⟩
        · rw [e]; simp [hs]
        · rw [e]; simp [hs]
      simp only
      rw [openFile_slash (by simp [hk])]
      simp
  · rw [ilcd_output_eq (multi := true) hd rfl (by simpa using hs) hc]
    simp only [hs, not_false_eq_true, true_and]
    constructor
    · intro h
      refine ⟨_, hc, ?_⟩
      by_cases h4 : bytes (checkName dir (c!"ILCD" ++ hash) c!".zip") + 4 ≤ 255
      · exact h4
      · rw [if_neg h4] at h; cases h
    · rintro ⟨m, hm, h4⟩
      rw [chosen_unique hm] at h4
      rw [if_pos h4]

/-! ### Names that can and names that cannot be saved -/

theorem chosen_bytes {dir : List Str} {name ext m : Str} (h : Chosen dir name ext m) : bytes name ≤ bytes m := by
  rcases h.2 with rfl | ⟨_, i, _, rfl, _⟩
  · exact Nat.le_refl _
  · simp only [bytes_append]; omega

theorem title_width (name place first last suffix : Str) :
    width (title name place first last suffix) =
      width name + width place + width first + width last + width suffix + 7 := by
  simp only [title, width_append]
  have : width c!", " = 2 := rfl
  have : width c!" - " = 3 := rfl
  omega

theorem spelled_bytes (s : Str) : bytes (spelled c!" per " s) = width s := bytes_spelled (by decide +kernel) s

/-- A name of 85 characters or more of which each needs three bytes, as in Chinese or Japanese, cannot be saved in
either format, though both formats allow it. -/
theorem wide_names_fail (hash : Str) {dir : List Str} (hd : Real dir) {d : EcsSet} {d' : IlcdSet} {name : Str}
    {names : List Str} (hw : ∀ c ∈ name, 3 ≤ c.utf8Size) (hl : 85 ≤ name.length) (h : d.name = some name)
    (h' : d'.base = some (name :: names)) :
    (ecsOutput hash dir d).2 ≠ none ∧ (ilcdOutput false hash dir d').2 ≠ none := by
  have hk := width_ge (k := 3) (by omega) hw
  constructor
  · rw [Ne, ecs_saved_iff hash hd]
    rintro ⟨base, name', g, gs, a, b, m, _, h1, _, _, _, hc, _, h6, _⟩
    rw [h] at h1
    cases h1
    have := chosen_bytes hc
    rw [spelled_bytes, title_width] at this
    omega
  · rw [Ne, ilcd_saved_iff hash hd]
    rintro ⟨name', names', m, h1, hc, h4⟩
    rw [h'] at h1
    cases h1
    have := chosen_bytes hc
    rw [spelled_bytes, title_width] at this
    omega

/-- Slashes count as five characters: with 51 of them no name can be saved. -/
theorem slashes_fail (hash : Str) {dir : List Str} (hd : Real dir) {d : EcsSet} {name : Str}
    (hl : 51 ≤ name.count '/') (h : d.name = some name) : (ecsOutput hash dir d).2 ≠ none := by
  have hk : ∀ s : Str, 5 * s.count '/' ≤ width s := by
    intro s
    induction s with
    | nil => simp
    | cons c s ih =>
      rw [width, List.count_cons]
      by_cases hc : c = '/'
      · simp [hc]; omega
      · simp [hc]; omega
  rw [Ne, ecs_saved_iff hash hd]
  rintro ⟨base, name', g, gs, a, b, m, _, h1, _, _, _, hc, _, h6, _⟩
  rw [h] at h1
  cases h1
  have := chosen_bytes hc
  have := hk name
  rw [spelled_bytes, title_width] at *
  omega

theorem chosen_bound {dir : List Str} {name ext m : Str} (h : Chosen dir name ext m) (hn : dir.length < 999999999) :
    bytes m ≤ bytes name + 12 := by
  rw [chosen_unique h, checkName]
  split
  · obtain ⟨⟨k, hk, he, _⟩, _⟩ := firstFree_spec dir name ext dir.length 1
    rw [he, numbered]
    have hlen := (natStr_length_le_iff (n := 1 + k) (k := 9) (by omega)).2 (by omega)
    have hdig : ∀ s : Str, (∀ c ∈ s, c.isDigit = true) → bytes s = s.length := by
      intro s
      induction s with
      | nil => intro _; rfl
      | cons c s ih =>
        intro hc
        rw [bytes_cons, ih (fun x hx => hc x (by simp [hx])), List.length_cons]
        have h1 : c.utf8Size = 1 := by
          have := hc c (by simp)
          simp only [Char.isDigit, Bool.and_eq_true, decide_eq_true_eq] at this
          rw [Char.utf8Size_eq_one_iff]
          have h2 := this.2
          exact Nat.le_trans h2 (by decide)
        omega
    have hb := hdig _ (fun c hc => natStr_digit (n := 1 + k) hc)
    have : bytes c!" (" = 2 := rfl
    have : bytes c!")" = 1 := rfl
    simp only [bytes_append]
    omega
  · omega

theorem plain_take {s : Str} (h : Plain s) (n : Nat) : Plain (s.take n) := fun c hc => h c (List.mem_of_mem_take hc)

/-- Data sets with plain names within the limits of EcoSpold2 are saved, whatever is in the directory. -/
theorem plain_saved_partial (hash : Str) {dir : List Str} (hd : Real dir) (hdl : dir.length < 999999999) {d : EcsSet}
    {base name g a b : Str} {gs : List Str} (hb : d.base = some base) (h1 : d.name = some name)
    (h2 : d.short = some (g :: gs)) (h3 : d.first = some a) (h4 : d.last = some b)
    (p0 : Plain base) (p1 : Plain name) (p2 : Plain g) (p3 : Plain a) (p4 : Plain b) (p5 : Plain hash)
    (l0 : base.length ≤ 220) (l1 : name.length ≤ 120) (l2 : g.length ≤ 40) (l5 : hash.length ≤ 60) :
    (ecsOutput hash dir d).2 = none := by
  rw [ecs_saved_iff hash hd]
  refine ⟨base, name, g, gs, a, b, _, hb, h1, h2, h3, h4, chosen_checkName _ _ _, ?_, ?_, fun _ => ?_⟩
  · rw [width_plain p0]; omega
  · have := chosen_bound (chosen_checkName dir (spelled c!" per " (title name g (a.take 4) (b.take 4) hash)) c!".spold") hdl
    rw [spelled_bytes, title_width, width_plain p1, width_plain p2, width_plain p5, width_plain (plain_take p3 4),
      width_plain (plain_take p4 4)] at this
    have := List.length_take_le 4 a
    have := List.length_take_le 4 b
    omega
  · rw [width_plain p0]; omega

theorem open_keeps {dir dir' : List Str} {f x : Str} (h : openFile dir f = .ok dir') (hx : x ∈ dir) : x ∈ dir' := by
  unfold openFile at h
  split at h
  · simp only [Except.ok.injEq] at h
    subst h
    split
    · exact hx
    · exact List.mem_append_left _ hx
  · cases h

/-- Whatever the names are and however a conversion ends, the files that were there before stay in the directory. -/
theorem files_stay (multi : Bool) (hash : Str) (dir : List Str) (d : EcsSet) (d' : IlcdSet) {f : Str} (hf : f ∈ dir) :
    f ∈ (ecsOutput hash dir d).1 ∧ f ∈ (ilcdOutput multi hash dir d').1 := by
  constructor
  · unfold ecsOutput
    split
    · exact hf
    · split
      · exact hf
      · rename_i h1
        have k1 := open_keeps h1 hf
        split
        · exact k1
        · split
          · exact k1
          · split
            · exact k1
            · rename_i h2
              have k2 := open_keeps h2 k1
              split
              · split
                · exact k2
                · rename_i h3
                  exact open_keeps h3 k2
              · exact k2
  · unfold ilcdOutput
    split
    · exact hf
    · split
      · exact hf
      · split
        · exact hf
        · rename_i h
          exact open_keeps h hf

/-- Without a title the conversion ends with an error that says so: a `TypeError` for what is missing, an `IndexError`
for an empty list. -/
theorem no_title (hash : Str) (d : EcsSet) (d' : IlcdSet) (e : PyErr) :
    (ecsFileName hash d = .error e ↔
      (d.name = none ∧ e = .typeError) ∨
      (d.name ≠ none ∧ ((d.short = none ∧ e = .typeError) ∨ (d.short = some [] ∧ e = .indexError) ∨
        (∃ g gs, d.short = some (g :: gs) ∧ (d.first = none ∨ d.last = none) ∧ e = .typeError)))) ∧
    (ilcdFileName hash d' = .error e ↔
      (d'.base = none ∧ e = .typeError) ∨ (d'.base = some [] ∧ e = .indexError)) := by
  constructor
  · unfold ecsFileName
    cases d.name with
    | none => simp [eq_comm]
    | some n =>
      rcases d.short with _ | _ | ⟨g, gs⟩
      · simp [eq_comm]
      · simp [eq_comm]
      · cases d.first <;> cases d.last <;> simp [eq_comm]
  · unfold ilcdFileName
    rcases d'.base with _ | _ | ⟨g, gs⟩ <;> simp [eq_comm]

/-- A steel data set in a directory that has a file of its name. -/
def steel : EcsSet :=
  ⟨some c!"steel/iron", some c!"steel/iron", some [c!"GLO"], some c!"2010-01-01", some c!"2015-12-31", true⟩

example : ecsOutput c!"_x" [c!"steel per iron, GLO, 2010 - 2015_x.spold"] steel =
    ([c!"steel per iron, GLO, 2010 - 2015_x.spold", c!"steel_per_iron.log",
      c!"steel per iron, GLO, 2010 - 2015_x (1).spold", c!"steel_per_iron_not_converted_elementary_flows.log"], none) := by
  decide +kernel

example : c!"a.zip" ∈ (ecsOutput c!"_x" [c!"a.zip"] steel).1 ∧
    c!"a.zip" ∈ (ilcdOutput true c!"_x" [c!"a.zip"] ⟨none, none, none, none⟩).1 :=
  files_stay true _ _ steel _ (f := c!"a.zip") (List.mem_singleton.mpr rfl)

example : ecsFileName [] ⟨none, some c!"steel", none, none, none, false⟩ = .error .typeError :=
  ((no_title [] _ ⟨none, none, none, none⟩ _).1).mpr (.inr ⟨by simp, .inl ⟨rfl, rfl⟩⟩)

/-- The hypotheses are met by data sets: long, wide, with slashes, plain. -/
example : (255 < width (List.replicate 252 'a') + 4) ∧ (∀ c ∈ List.replicate 85 '鋼', 3 ≤ c.utf8Size) ∧
    (51 ≤ (List.replicate 51 '/').count '/') ∧ Plain c!"steel" ∧ Real [c!"a.zip"] := by
  refine ⟨by decide +kernel, by decide +kernel, by decide +kernel, by decide +kernel, by decide +kernel⟩

example : (ecsOutput [] [] ⟨some (List.replicate 230 'a'), some c!"steel", some [c!"GLO"], some c!"2010-01-01",
      some c!"2015-12-31", true⟩).2 = some .osError ∧
    c!"steel, GLO, 2010 - 2015.spold" ∈ (ecsOutput [] [] ⟨some (List.replicate 230 'a'), some c!"steel",
      some [c!"GLO"], some c!"2010-01-01", some c!"2015-12-31", true⟩).1 := by
  decide +kernel

/-- An archive without place and years; one with a slash in the suffix. -/
example : ilcdOutput false [] [] ⟨some [c!"steel"], none, none, none⟩ =
      ([c!"steel, None, None - None.zip"], none) ∧
    ilcdOutput true c!"/2024" [] ⟨none, none, none, none⟩ = ([], some .osError) ∧
    ilcdOutput true c!"_2024" [] ⟨none, none, none, none⟩ = ([c!"ILCD_2024.zip"], none) := by
  decide +kernel

end Verif.FileNames
