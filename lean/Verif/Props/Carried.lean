/-
The files of an archive of ILCD whose list of elementary flows is changed.
-/
import Verif.Spec.Carried
import Verif.Lemmas.Carried
import Verif.Props.IlcdList

namespace Verif.Carried

open Verif

/-! ### C190 The files that are carried over -/

section
variable {C : Type}

/-- C190. An archive with data sets is converted if and only if it has a folder of sources and one of contacts, and there
are only files in the two; otherwise the conversion stops with an OSError. -/
theorem converts_iff (pkg : Str → Str → C) (inp : In C) (ps : List (Process C)) (hp : ps ≠ []) :
    ((∃ o, archive pkg inp ps = .ok o) ↔ OnlyFiles inp c!"sources" ∧ OnlyFiles inp c!"contacts") ∧
      (archive pkg inp ps = .error .osError ↔ ¬ (OnlyFiles inp c!"sources" ∧ OnlyFiles inp c!"contacts")) := by
  have h1 : (∃ o, archive pkg inp ps = .ok o) ↔ OnlyFiles inp c!"sources" ∧ OnlyFiles inp c!"contacts" := by
    unfold archive
    rw [processes_iff]
    simp [hp]
  refine ⟨h1, ?_⟩
  rw [← h1]
  constructor
  · rintro h ⟨o, h2⟩
    rw [h] at h2
    cases h2
  · intro h
    cases h2 : archive pkg inp ps with
    | ok o => exact absurd ⟨o, h2⟩ h
    | error e => rw [processes_error h2]

/-- C190. Every source and every contact of the archive read is in the archive written with the same content. The other
files of the two folders are those of the package, and a file of the archive read comes before one of the package with the
same name. -/
theorem sources_carried (pkg : Str → Str → C) {inp : In C} (hn : NamesDiffer inp) {ps : List (Process C)} (hp : ps ≠ [])
    (hs : SavesFlows ps) {o : Out C} (h : archive pkg inp ps = .ok o) {d : Str} (hd : d = c!"sources" ∨ d = c!"contacts")
    (name : Str) : o.content d name = (inp.content d name).or (packaged pkg d name) := by
  rw [processes_carried hn hs h hp hd, start_packaged]
  rcases hd with rfl | rfl <;> decide

/-- C190. No document of the archive read is in the archive written: the folder of documents holds the two of the package,
whatever the sources refer to. -/
theorem documents_lost (pkg : Str → Str → C) {inp : In C} (hn : NamesDiffer inp) {ps : List (Process C)}
    (hs : SavesFlows ps) {o : Out C} (h : archive pkg inp ps = .ok o) (name : Str) :
    o.content c!"external_docs" name = packaged pkg c!"external_docs" name := by
  rw [processes_other hn hs h (by decide), start_packaged]
  decide

/-- C190. The archive written has a flow, a flow property or a unit group if and only if it was saved for an exchange; those
of the archive read are not carried over. -/
theorem flows_saved_only (pkg : Str → Str → C) {inp : In C} (hn : NamesDiffer inp) {ps : List (Process C)} {o : Out C}
    (h : archive pkg inp ps = .ok o) {d : Str} (hd : d ∈ flowFolders) (name : Str) :
    (o.content d name).isSome ↔ ∃ p ∈ ps, ∃ c, ((d, name), c) ∈ p.saved := by
  refine (processes_saved hn h hd).trans ?_
  have hne : d ≠ [] := (by decide : ∀ d ∈ flowFolders, d ≠ []) d hd
  have hpk : packageNames d = [] := (by decide : ∀ d ∈ flowFolders, packageNames d = []) d hd
  rw [start_packaged pkg hne, packaged, hpk]
  simp

/-- C190. How often the sources and contacts are copied makes no difference: with more data sets in the archive read the two
folders of the archive written are the same. -/
theorem same_for_more (pkg : Str → Str → C) {inp : In C} (hn : NamesDiffer inp) {ps ps' : List (Process C)} (hp : ps ≠ [])
    (hp' : ps' ≠ []) (hs : SavesFlows ps) (hs' : SavesFlows ps') {o o' : Out C} (h : archive pkg inp ps = .ok o)
    (h' : archive pkg inp ps' = .ok o') {d : Str} (hd : d = c!"sources" ∨ d = c!"contacts") (name : Str) :
    o.content d name = o'.content d name := by
  rw [sources_carried pkg hn hp hs h hd, sources_carried pkg hn hp' hs' h' hd]

/-- C190. An archive without a folder of sources is refused, however complete it is otherwise. -/
theorem no_sources_stops (pkg : Str → Str → C) {inp : In C} (h : inp c!"sources" = none) {ps : List (Process C)}
    (hp : ps ≠ []) : archive pkg inp ps = .error .osError :=
  ((converts_iff pkg inp ps hp).2).mpr (fun ⟨⟨l, h1, _⟩, _⟩ => by rw [h] at h1; cases h1)

end

/-! ### The folders of the files saved for exchanges -/

section
variable {K : Type} [Field K]

/-- C190. The files saved for an exchange are flows, flow properties and unit groups. -/
theorem saved_folders {env : IlcdList.Env K} {s s' : IlcdList.St K} {x y : IlcdList.Exch K} {r : Option IlcdList.Report}
    (h : IlcdList.convert env s x = .ok (y, s', r)) :
    ∃ l, s'.saved = s.saved ++ l ∧ ∀ f ∈ l, f.1 ∈ flowFolders := by
  obtain ⟨u, a, unit, main, hR, h1 | h1 | ⟨n, hn, h1⟩⟩ := IlcdList.cases_of h
  · obtain ⟨-, -, -, -, p, -, h2⟩ := IlcdList.no_match_kept h1 h
    exact ⟨_, h2, by simp [flowFolders]⟩
  · obtain ⟨-, -, -, -, -, info, p, -, -, h2⟩ := IlcdList.unmapped_silent hR h1 h
    exact ⟨_, h2, by simp [flowFolders]⟩
  · rw [IlcdList.convert_mapped hR hn] at h
    obtain ⟨t, cf, info, -, -, -, h4⟩ := IlcdList.matched_ok h
    unfold IlcdList.byUnit at h4
    split at h4
    · obtain ⟨⟨y', s''⟩, h7, h8⟩ := (IlcdList.bind_ok_iff _ _ _).1 h4
      cases h8
      obtain ⟨v, -, -, h9, -⟩ := IlcdList.kept_ok h7
      exact ⟨_, h9, by simp [flowFolders]⟩
    · split at h4
      · obtain ⟨⟨y', s''⟩, h7, h8⟩ := (IlcdList.bind_ok_iff _ _ _).1 h4
        cases h8
        exact ⟨_, (IlcdList.scaled_ok h7).2.2.2.2.2.1, by simp [flowFolders]⟩
      · split at h4
        · obtain ⟨⟨y', s''⟩, h7, h8⟩ := (IlcdList.bind_ok_iff _ _ _).1 h4
          cases h8
          exact ⟨_, (IlcdList.scaled_ok h7).2.2.2.2.2.1, by simp [flowFolders]⟩
        · obtain ⟨p, -, h8⟩ := (IlcdList.bind_ok_iff _ _ _).1 h4
          cases h8
          exact ⟨_, List.append_assoc .., by simp [flowFolders]⟩

/-- C190. The same for all exchanges of a data set: what is asked of the data sets in the theorems above holds. -/
theorem all_saved_folders {env : IlcdList.Env K} {xs : List (IlcdList.Exch K)} {s s' : IlcdList.St K}
    {ys : List (IlcdList.Exch K × Option IlcdList.Report)} (h : IlcdList.convertAll env s xs = .ok (ys, s')) :
    ∃ l, s'.saved = s.saved ++ l ∧ ∀ f ∈ l, f.1 ∈ flowFolders := by
  induction xs generalizing s ys with
  | nil => cases h; exact ⟨[], by simp, by simp⟩
  | cons x xs ih =>
    obtain ⟨⟨y, s1, r⟩, h1, h2⟩ := (IlcdList.bind_ok_iff _ _ _).1 h
    obtain ⟨⟨ys', s2⟩, h3, h4⟩ := (IlcdList.bind_ok_iff _ _ _).1 h2
    cases h4
    obtain ⟨l1, e1, f1⟩ := saved_folders h1
    obtain ⟨l2, e2, f2⟩ := ih h3
    refine ⟨l1 ++ l2, by rw [e2, e1, List.append_assoc], ?_⟩
    intro f hf
    rcases List.mem_append.1 hf with hf | hf
    · exact f1 f hf
    · exact f2 f hf

/-- C190. So an archive all of whose data sets are converted keeps its sources and contacts and loses its documents: each
data set is given by the files saved for its exchanges and the contents they have. -/
theorem converted_archive {C : Type} (pkg : Str → Str → C) {inp : In C} (hn : NamesDiffer inp) {ps : List (Process C)}
    (hp : ps ≠ [])
    (hc : ∀ p ∈ ps, ∃ (env : IlcdList.Env K) (s s' : IlcdList.St K) (xs : List (IlcdList.Exch K))
      (ys : List (IlcdList.Exch K × Option IlcdList.Report)),
      IlcdList.convertAll env s xs = .ok (ys, s') ∧ s'.saved = s.saved ++ p.saved.map Prod.fst)
    {o : Out C} (h : archive pkg inp ps = .ok o) (name : Str) :
    o.content c!"sources" name = (inp.content c!"sources" name).or (packaged pkg c!"sources" name) ∧
      o.content c!"contacts" name = (inp.content c!"contacts" name).or (packaged pkg c!"contacts" name) ∧
      o.content c!"external_docs" name = packaged pkg c!"external_docs" name := by
  have hs : SavesFlows ps := by
    intro p hp f hf
    obtain ⟨env, s, s', xs, ys, h1, h2⟩ := hc p hp
    obtain ⟨l, e, hl⟩ := all_saved_folders h1
    rw [h2] at e
    have e := List.append_cancel_left e
    exact hl f.1 (e ▸ List.mem_map_of_mem hf)
  exact ⟨sources_carried pkg hn hp hs h (.inl rfl) name, sources_carried pkg hn hp hs h (.inr rfl) name,
    documents_lost pkg hn hs h name⟩

end

/-! ### The hypotheses are met -/

/-- An archive with a source, a contact, a document and a flow; the source has the name of one of the package. -/
def sampleIn : In Nat := fun d =>
  if d = c!"sources" then some (.dir [(c!"a97a0155-0234-4b87-b4ce-a45da52f2a40.xml", some 1), (c!"s.xml", some 2)])
  else if d = c!"contacts" then some (.dir [(c!"c.xml", some 3)])
  else if d = c!"external_docs" then some (.dir [(c!"report.pdf", some 4)])
  else if d = c!"flows" then some (.dir [(c!"f.xml", some 5), (c!"g.xml", some 6)])
  else none

def sampleProcess : Process Nat := ⟨[((c!"flows", c!"f.xml"), 5)], c!"p", 7⟩

theorem sample_names : NamesDiffer sampleIn := by
  intro d l h
  unfold sampleIn at h
  split at h
  · cases h; decide
  · split at h
    · cases h; decide
    · split at h
      · cases h; decide
      · split at h
        · cases h; decide
        · cases h

theorem sample_saves : SavesFlows [sampleProcess] := by
  intro p hp f hf
  simp only [List.mem_singleton] at hp
  subst hp
  simp only [sampleProcess, List.mem_singleton] at hf
  subst hf
  decide

example : (∃ o, archive (fun _ _ => 0) sampleIn [sampleProcess] = .ok o) :=
  ((converts_iff _ _ _ (by simp)).1).mpr
    ⟨⟨_, rfl, by decide⟩, ⟨_, rfl, by decide⟩⟩

example (o : Out Nat) (h : archive (fun _ _ => 0) sampleIn [sampleProcess] = .ok o) :
    o.content c!"sources" c!"a97a0155-0234-4b87-b4ce-a45da52f2a40.xml" = some 1 ∧
    o.content c!"sources" c!"s.xml" = some 2 ∧
    o.content c!"sources" c!"cada7914-53c3-47ec-ac27-659b21240a99.xml" = some 0 ∧
    o.content c!"external_docs" c!"report.pdf" = none ∧
    (o.content c!"flows" c!"f.xml").isSome ∧ ¬ (o.content c!"flows" c!"g.xml").isSome := by
  have hs := fun name => sources_carried _ sample_names (by simp) sample_saves h (d := c!"sources") (.inl rfl) name
  have hf := fun name => flows_saved_only _ sample_names h (d := c!"flows") (by decide) name
  refine ⟨by rw [hs]; decide, by rw [hs]; decide, by rw [hs]; decide, ?_, (hf _).mpr ⟨_, List.mem_singleton.mpr rfl, 5, by simp [sampleProcess]⟩, ?_⟩
  · rw [documents_lost _ sample_names sample_saves h]; decide
  · rw [hf]; simp [sampleProcess]

example : archive (fun _ _ => (0 : Nat)) (fun _ => none) [sampleProcess] = .error .osError :=
  no_sources_stops _ rfl (by simp)

end Verif.Carried
