import Verif.Spec.Driver
import Verif.Lemmas.Assoc
import Verif.Props.OutputName

namespace Verif.Driver
open Spec

variable {F V I P M S O : Type} [DecidableEq V]

theorem openData_clean {ops : Ops F V I P M S O} {s : St V I P M S O} (h : Clean ops s) :
    ∃ d, (openData ops s).data = some d ∧ d.struct = ops.empty ∧ d.multi = false := by
  simp only [openData]
  cases hd : s.data with
  | some d => exact ⟨d, hd, h d hd⟩
  | none => exact ⟨_, rfl, rfl, rfl⟩

@[simp] theorem openData_dir (ops : Ops F V I P M S O) (s : St V I P M S O) :
    (openData ops s).dir = s.dir := by
  simp only [openData]; split <;> rfl

@[simp] theorem openData_attrs (ops : Ops F V I P M S O) (s : St V I P M S O) :
    (openData ops s).attrs = s.attrs := by
  simp only [openData]; split <;> rfl

@[simp] theorem openData_version (ops : Ops F V I P M S O) (s : St V I P M S O) :
    (openData ops s).version = s.version := by
  simp only [openData]; split <;> rfl

@[simp] theorem openData_mapping (ops : Ops F V I P M S O) (s : St V I P M S O) :
    (openData ops s).mapping = s.mapping := by
  simp only [openData]; split <;> rfl

theorem openData_some {ops : Ops F V I P M S O} {s : St V I P M S O} {d : Data S O}
    (h : s.data = some d) : openData ops s = s := by
  simp only [openData, h]

theorem startData_clean {ops : Ops F V I P M S O} {d : Data S O} (h1 : d.struct = ops.empty)
    (h2 : d.multi = false) : (startData ops d).struct = ops.empty ∧ (startData ops d).multi = false ∧
      (ops.kind = .ilcd → (startData ops d).temp = some []) := by
  simp only [startData, h2]
  cases hk : ops.kind <;> simp [h1, h2]

/-- What a successful start leaves. -/
theorem start_ok {ops : Ops F V I P M S O} {s s1 : St V I P M S O} {f : F}
    (h : start ops s f = (s1, none)) :
    ∃ v fields m m', ops.info f = .ok (v, fields) ∧
      (∃ m0, chooseMapping ops s.version v (openData ops { s with version := v }) = .ok m0 ∧
        setupMapping ops s.version v s.settings m0 = (m, none)) ∧
      ops.begin s.settings m (fields.foldl (fun a p => aset p.1 p.2 a) s.attrs) = (m', none) ∧
      s1.version = v ∧ s1.mapping = some m' ∧ s1.dir = s.dir ∧
      s1.attrs = fields.foldl (fun a p => aset p.1 p.2 a) s.attrs ∧
      s1.classHash = (openData ops { s with version := v }).classHash ∧
      s1.data = (openData ops { s with version := v }).data.map (startData ops) := by
  simp only [start] at h
  split at h
  · simp at h
  · rename_i v fields hi
    split at h
    · simp at h
    · rename_i m hm
      split at h
      · simp at h
      · rename_i hs
        split at h
        · simp at h
        · simp only [Prod.mk.injEq] at h
          obtain ⟨rfl, hb⟩ := h
          refine ⟨v, fields, _, _, hi, ⟨m, hm, Prod.ext rfl hs⟩, Prod.ext rfl ?_, ?_, ?_, ?_, ?_, rfl, rfl⟩
          · simpa using hb
          all_goals simp

theorem start_clean {ops : Ops F V I P M S O} {s s1 : St V I P M S O} {f : F} (hc : Clean ops s)
    (h : start ops s f = (s1, none)) : s1.dir = s.dir ∧
      ∃ d m, s1.data = some d ∧ s1.mapping = some m ∧ d.struct = ops.empty ∧ d.multi = false ∧
      (ops.kind = .ilcd → d.temp = some []) := by
  obtain ⟨v, fields, m, m', _, _, _, _, h2, h3, _, _, h6⟩ := start_ok h
  have hc' : Clean ops { s with version := v } := hc
  obtain ⟨d, hd, hd1, hd2⟩ := openData_clean hc'
  rw [hd] at h6
  obtain ⟨e1, e2, e3⟩ := startData_clean hd1 hd2
  exact ⟨h3, _, m', h6, h2, e1, e2, e3⟩

theorem start_multi {ops : Ops F V I P M S O} {s s1 : St V I P M S O} {f : F} {d : Data S O}
    (hd : s.data = some d) (hm : d.multi = true)
    (h : start ops s f = (s1, none)) : s1.dir = s.dir ∧ s1.data = some d ∧ ∃ m, s1.mapping = some m := by
  obtain ⟨v, fields, m, m', _, _, _, _, h2, h3, _, _, h6⟩ := start_ok h
  have : openData ops { s with version := v } = { s with version := v } := openData_some hd
  rw [this] at h6
  refine ⟨h3, ?_, m', h2⟩
  rw [h6]
  simp [hd, startData, hm]

theorem mappingStep_ok {s s1 : St V I P M S O} {step : M → S → M × S × Option PyErr}
    (h : mappingStep s step = (s1, none)) : ∃ m d m', s.mapping = some m ∧ s.data = some d ∧
      step m d.struct = (m', (s1.data.map Data.struct).getD d.struct, none) ∧
      s1 = { s with mapping := some m', data := some { d with struct := (step m d.struct).2.1 } } := by
  simp only [mappingStep] at h
  split at h
  · rename_i m d hm hd
    simp only [Prod.mk.injEq] at h
    obtain ⟨rfl, h2⟩ := h
    refine ⟨m, d, _, hm, hd, ?_, rfl⟩
    simp only [Option.map_some, Option.getD_some]
    rw [← h2]
  · simp at h

/-- The three common steps of a file, from a data set that is empty. -/
theorem filled {ops : Ops F V I P M S O} {s1 s2 s3 : St V I P M S O} {f : F} {d : Data S O}
    (hd : s1.data = some d) (he : d.struct = ops.empty)
    (h2 : mappingStep s1 (fun m d => ops.fill m d f) = (s2, none))
    (h3 : mappingStep s2 ops.finish = (s3, none)) :
    ∃ m m1 x m2 y, ops.fill m ops.empty f = (m1, x, none) ∧ ops.finish m1 x = (m2, y, none) ∧
      s3 = { s1 with mapping := some m2, data := some { d with struct := y } } := by
  obtain ⟨m, d', m1, hm, hd', hf, hs2⟩ := mappingStep_ok h2
  rw [hd] at hd'
  cases hd'
  obtain ⟨m', d2, m2, hm', hd2, hf2, hs3⟩ := mappingStep_ok h3
  subst hs2
  simp only [Option.some.injEq] at hm' hd2
  subst hm' hd2
  simp only [Option.map_some, Option.getD_some] at hf
  subst hs3
  simp only [Option.map_some, Option.getD_some] at hf2
  rw [he] at hf
  refine ⟨m, _, _, m2, _, hf, ?_, rfl⟩
  simpa [he] using hf2

theorem checkName_after (dir : List Str) (n ext : Str) : ∃ mid, Output.checkName dir n ext = n ++ mid := by
  rcases Output.checkName_minimal dir n ext with ⟨_, h⟩ | ⟨_, i, _, h, _⟩
  · exact ⟨[], by simpa using h⟩
  · exact ⟨_, by rw [h, List.append_assoc, List.append_assoc]⟩

theorem oneFile_steps {ops : Ops F V I P M S O} {ends : Bool} {s s' : St V I P M S O} {f : F}
    {n : Option Str} (h : oneFile ops ends s f = (s', .ok n)) :
    ∃ s1 s2 s3, start ops s f = (s1, none) ∧
      mappingStep s1 (fun m d => ops.fill m d f) = (s2, none) ∧
      mappingStep s2 ops.finish = (s3, none) ∧
      ((ends = true ∧ ∃ name, endData ops s3 = (s', .ok name) ∧ n = some name) ∨
       (ends = false ∧ resetData ops s3 = (s', none) ∧ n = none)) := by
  simp only [oneFile] at h
  split at h
  · simp at h
  · rename_i s1 h1
    split at h
    · simp at h
    · rename_i s2 h2
      split at h
      · simp at h
      · rename_i s3 h3
        refine ⟨s1, s2, s3, h1, h2, h3, ?_⟩
        split at h
        · rename_i he
          split at h
          · rename_i s4 name h4
            simp only [Prod.mk.injEq, Except.ok.injEq] at h
            obtain ⟨rfl, rfl⟩ := h
            exact .inl ⟨he, name, h4, rfl⟩
          · simp at h
        · rename_i he
          split at h
          · rename_i s4 h4
            simp only [Prod.mk.injEq, Except.ok.injEq] at h
            obtain ⟨rfl, rfl⟩ := h
            exact .inr ⟨by simpa using he, h4, rfl⟩
          · simp at h

/-- The end of a conversion: one new file, a clean converter. -/
theorem endData_ok {ops : Ops F V I P M S O} {s s' : St V I P M S O} {d : Data S O} {name : Str}
    (hd : s.data = some d) (h : endData ops s = (s', .ok name)) :
    ∃ o c base, ops.doc d.struct = .ok o ∧ name ∉ s.dir.map Prod.fst ∧ s'.dir = s.dir ++ [(name, c)] ∧
      Clean ops s' ∧ s'.data.isSome ∧ NamedAfter ops base name ∧
      (ops.kind = .ilcd → (∃ l, d.temp = some l ∧ c = .archive (aset (ops.uuid d.struct ++ c!".xml") o l)) ∧
        (if d.multi then base = c!"ILCD" ++ s.classHash else ops.fileName s.classHash d.struct = .ok base)) ∧
      (ops.kind = .ecs2 → c = .process o ∧ ops.fileName s.classHash d.struct = .ok base) := by
  cases hk : ops.kind with
  | ilcd =>
    simp only [endData, hk, hd] at h
    split at h
    · simp at h
    · rename_i base hbase
      simp only [endSingle, hd, writeProcess, hk] at h
      cases ho : ops.doc d.struct with
      | error e => simp [ho] at h
      | ok o =>
        cases ht : d.temp with
        | none => simp [ho, ht] at h
        | some l =>
          simp only [ho, ht, writeArchive, Option.map_some, Option.bind_some, Option.getD_some,
            Prod.mk.injEq, Except.ok.injEq] at h
          obtain ⟨rfl, rfl⟩ := h
          refine ⟨o, .archive (aset (ops.uuid d.struct ++ c!".xml") o l), base, rfl, ?_, ?_, ?_, rfl, ?_, ?_,
            by simp⟩
          · exact Output.checkName_fresh _ _ _
          · exact aset_of_notMem _ (Output.checkName_fresh _ _ _)
          · intro d' hd'
            simp only [Option.some.injEq] at hd'
            subst hd'
            exact ⟨rfl, rfl⟩
          · obtain ⟨mid, hmid⟩ := checkName_after (s.dir.map Prod.fst) base c!".zip"
            exact ⟨mid, by rw [hmid, hk]⟩
          · intro _
            refine ⟨⟨l, rfl, rfl⟩, ?_⟩
            simp only [archiveName] at hbase
            split at hbase
            · rename_i hm
              simp only [Except.ok.injEq] at hbase
              simp only [hm, ↓reduceIte, hbase]
            · rename_i hm
              simp only [hm]
              exact hbase
  | ecs2 =>
    simp only [endData, hk, hd] at h
    simp only [endSingle, hd, writeProcess, hk] at h
    cases ho : ops.doc d.struct with
    | error e => simp [ho] at h
    | ok o =>
      cases hn : ops.fileName s.classHash d.struct with
      | error e => simp [ho, hn] at h
      | ok base =>
        simp only [ho, hn, Option.map_some, Prod.mk.injEq, Except.ok.injEq] at h
        obtain ⟨rfl, rfl⟩ := h
        refine ⟨o, .process o, base, rfl, ?_, ?_, ?_, rfl, ?_, by simp, fun _ => ⟨rfl, rfl⟩⟩
        · exact Output.checkName_fresh _ _ _
        · exact aset_of_notMem _ (Output.checkName_fresh _ _ _)
        · intro d' hd'
          simp only [Option.some.injEq] at hd'
          subst hd'
          exact ⟨rfl, rfl⟩
        · obtain ⟨mid, hmid⟩ := checkName_after (s.dir.map Prod.fst) base c!".spold"
          exact ⟨mid, by rw [hmid, hk]⟩

theorem resetData_ok {ops : Ops F V I P M S O} {s s' : St V I P M S O} {d : Data S O}
    (hk : ops.kind = .ilcd) (hd : s.data = some d) (h : resetData ops s = (s', none)) :
    ∃ o l, ops.doc d.struct = .ok o ∧ d.temp = some l ∧ s'.dir = s.dir ∧
      s'.data = some ⟨ops.empty, true, some (aset (ops.uuid d.struct ++ c!".xml") o l)⟩ := by
  simp only [resetData, endSingle, hd, writeProcess, hk] at h
  cases ho : ops.doc d.struct with
  | error e => simp [ho] at h
  | ok o =>
    cases ht : d.temp with
    | none => simp [ho, ht] at h
    | some l =>
      simp only [ho, ht, Option.map_some, Prod.mk.injEq, and_true] at h
      subst h
      exact ⟨o, l, rfl, rfl, rfl, rfl⟩

end Verif.Driver
