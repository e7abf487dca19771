import Verif.Spec.Carried
import Verif.Lemmas.Assoc

namespace Verif.Carried

open Verif

variable {C : Type}

theorem content_copyTo (d name d' name' : Str) (c : C) (o : Out C) :
    (copyTo d name c o).content d' name' = if d' = d ∧ name' = name then some c else o.content d' name' := by
  unfold copyTo Out.content
  rw [aget_aset]
  by_cases h : d' = d
  · subst h
    simp only [if_true, Option.bind_some, true_and]
    rw [aget_aset]
    by_cases h2 : name' = name
    · simp [h2]
    · simp only [h2, if_false]
      cases aget d' o <;> simp [aget]
  · simp [h]

theorem aget_append {α : Type} (k : Str) (a b : List (Str × α)) :
    aget k (a ++ b) = (aget k a).or (aget k b) := by
  induction a with
  | nil => simp [aget]
  | cons p a ih =>
    obtain ⟨k', v⟩ := p
    simp only [List.cons_append, aget]
    split
    · simp
    · exact ih

theorem content_mkdir (d d' name' : Str) (o : Out C) : (mkdir d o).content d' name' = o.content d' name' := by
  unfold mkdir Out.content
  split
  · rfl
  · rw [aget_append]
    cases h : aget d' o with
    | some l => simp
    | none =>
      simp only [Option.none_or, aget]
      split <;> simp [aget]

theorem content_save (o : Out C) (f : (Str × Str) × C) (d name : Str) :
    (save o f).content d name = if d = f.1.1 ∧ name = f.1.2 then some f.2 else o.content d name := by
  unfold save
  rw [content_copyTo, content_mkdir]

/-- Files saved in other folders do not touch a folder. -/
theorem content_saves_other {l : List ((Str × Str) × C)} {d : Str} (h : ∀ f ∈ l, f.1.1 ≠ d) (o : Out C) (name : Str) :
    (l.foldl save o).content d name = o.content d name := by
  induction l generalizing o with
  | nil => rfl
  | cons f l ih =>
    rw [List.foldl_cons, ih (fun g hg => h g (List.mem_cons_of_mem _ hg)), content_save, if_neg]
    intro ⟨e, _⟩
    exact h f (List.mem_cons_self ..) e.symm

/-- What is in a folder after saving was there before or is one of the files saved. -/
theorem content_saves {l : List ((Str × Str) × C)} {d name : Str} {c : C} {o : Out C}
    (h : (l.foldl save o).content d name = some c) : o.content d name = some c ∨ ((d, name), c) ∈ l := by
  induction l generalizing o with
  | nil => exact .inl h
  | cons f l ih =>
    rw [List.foldl_cons] at h
    rcases ih h with h | h
    · rw [content_save] at h
      split at h
      · rename_i e
        have h : f.2 = c := Option.some.inj h
        have : f = ((d, name), c) := by rw [← h, e.1, e.2]
        exact .inr (this ▸ List.mem_cons_self ..)
      · exact .inl h
    · exact .inr (List.mem_cons_of_mem _ h)

/-- A file saved is there afterwards. -/
theorem content_saves_some {l : List ((Str × Str) × C)} {d name : Str} {o : Out C}
    (h : (∃ c, ((d, name), c) ∈ l) ∨ (o.content d name).isSome) : ((l.foldl save o).content d name).isSome := by
  induction l generalizing o with
  | nil => simpa using h
  | cons f l ih =>
    rw [List.foldl_cons]
    apply ih
    rcases h with ⟨c, h⟩ | h
    · rcases List.mem_cons.1 h with h | h
      · right
        rw [content_save, ← h, if_pos ⟨rfl, rfl⟩]
        rfl
      · exact .inl ⟨c, h⟩
    · right
      rw [content_save]
      split
      · rfl
      · exact h

theorem carryFolder_iff (d : Str) (l : List (Str × Option C)) (o : Out C) :
    (∃ o', carryFolder d l o = .ok o') ↔ ∀ e ∈ l, e.2 ≠ none := by
  induction l generalizing o with
  | nil => simp [carryFolder]
  | cons f l ih =>
    obtain ⟨n, _ | c⟩ := f
    · simp [carryFolder]
    · simp [carryFolder, ih]

theorem carryFolder_error {d : Str} {l : List (Str × Option C)} {o : Out C} {e : PyErr}
    (h : carryFolder d l o = .error e) : e = .osError := by
  induction l generalizing o with
  | nil => cases h
  | cons f l ih =>
    obtain ⟨n, _ | c⟩ := f
    · cases h; rfl
    · exact ih h

theorem carryFolder_content {d : Str} {l : List (Str × Option C)} {o o' : Out C} (hl : (l.map Prod.fst).Nodup)
    (h : carryFolder d l o = .ok o') (d' name : Str) :
    o'.content d' name = if d' = d then ((aget name l).join).or (o.content d' name) else o.content d' name := by
  induction l generalizing o with
  | nil => cases h; simp [aget]
  | cons f l ih =>
    obtain ⟨n, _ | c⟩ := f
    · cases h
    · simp only [List.map_cons, List.nodup_cons] at hl
      rw [ih hl.2 h, content_copyTo]
      by_cases hd : d' = d
      · subst hd
        simp only [if_true, true_and, aget]
        by_cases hn : name = n
        · subst hn
          rw [(aget_none name l).2 hl.1]
          simp
        · rw [if_neg hn, if_neg (fun e => hn e.symm)]
      · simp [hd]

theorem carry_iff (inp : In C) (ds : List Str) (o : Out C) :
    (∃ o', carry inp ds o = .ok o') ↔ ∀ d ∈ ds, OnlyFiles inp d := by
  induction ds generalizing o with
  | nil => simp [carry]
  | cons d ds ih =>
    simp only [carry, List.forall_mem_cons]
    cases h : inp d with
    | none => simp [OnlyFiles, h]
    | some n =>
      cases n with
      | file c => simp [OnlyFiles, h]
      | dir l =>
        have hd : OnlyFiles inp d ↔ ∀ e ∈ l, e.2 ≠ none := by
          constructor
          · rintro ⟨l', h', h2⟩
            rw [h] at h'
            cases h'
            exact h2
          · intro h2
            exact ⟨l, h, h2⟩
        rw [hd, ← carryFolder_iff d l o]
        cases h1 : carryFolder d l o with
        | error e => simp [h1]
        | ok o1 => simp [h1, ih]

theorem carry_error {inp : In C} {ds : List Str} {o : Out C} {e : PyErr} (h : carry inp ds o = .error e) :
    e = .osError := by
  induction ds generalizing o with
  | nil => cases h
  | cons d ds ih =>
    simp only [carry] at h
    split at h
    · split at h
      · rename_i h1
        cases h
        exact carryFolder_error h1
      · exact ih h
    · cases h; rfl

theorem carry_content {inp : In C} (hn : NamesDiffer inp) {ds : List Str} (hds : ds.Nodup) {o o' : Out C}
    (h : carry inp ds o = .ok o') (d name : Str) :
    o'.content d name = if d ∈ ds then (inp.content d name).or (o.content d name) else o.content d name := by
  induction ds generalizing o with
  | nil => cases h; simp
  | cons a ds ih =>
    simp only [List.nodup_cons] at hds
    simp only [carry] at h
    split at h
    · rename_i l hl
      split at h
      · cases h
      · rename_i o1 h1
        rw [ih hds.2 h, carryFolder_content (hn _ _ hl) h1]
        by_cases hd : d = a
        · subst hd
          simp [hds.1, In.content, hl]
        · simp [hd]
    · cases h

theorem fileInfo_content {inp : In C} (hn : NamesDiffer inp) {o o' : Out C} (h : fileInfo inp o = .ok o') (d name : Str) :
    o'.content d name = if d = c!"sources" ∨ d = c!"contacts" then (inp.content d name).or (o.content d name)
      else o.content d name := by
  rw [carry_content hn (by decide) h]
  simp only [List.mem_cons, List.not_mem_nil, or_false]

theorem fileInfo_iff (inp : In C) (o : Out C) :
    (∃ o', fileInfo inp o = .ok o') ↔ OnlyFiles inp c!"sources" ∧ OnlyFiles inp c!"contacts" := by
  rw [fileInfo, carry_iff]
  simp

theorem process_ok {inp : In C} {p : Process C} {o o' : Out C} (h : process inp p o = .ok o') :
    ∃ o1, fileInfo inp o = .ok o1 ∧
      o' = copyTo c!"processes" (p.name ++ c!".xml") p.content (p.saved.foldl save o1) := by
  unfold process at h
  split at h
  · cases h
  · rename_i o1 h1
    cases h
    exact ⟨o1, h1, rfl⟩

theorem process_iff (inp : In C) (p : Process C) (o : Out C) :
    (∃ o', process inp p o = .ok o') ↔ OnlyFiles inp c!"sources" ∧ OnlyFiles inp c!"contacts" := by
  rw [← fileInfo_iff inp o]
  unfold process
  cases fileInfo inp o <;> simp

theorem processes_iff (inp : In C) (ps : List (Process C)) (o : Out C) :
    (∃ o', processes inp ps o = .ok o') ↔ ps = [] ∨ (OnlyFiles inp c!"sources" ∧ OnlyFiles inp c!"contacts") := by
  induction ps generalizing o with
  | nil => simp [processes]
  | cons p ps ih =>
    have h1 := process_iff inp p o
    simp only [processes]
    cases h : process inp p o with
    | error e =>
      rw [h] at h1
      have h1 : ¬ (OnlyFiles inp c!"sources" ∧ OnlyFiles inp c!"contacts") := by
        rw [← h1]
        rintro ⟨_, h⟩
        cases h
      simp [h1]
    | ok o1 =>
      have h1 : OnlyFiles inp c!"sources" ∧ OnlyFiles inp c!"contacts" := h1.1 ⟨o1, h⟩
      simp [ih, h1]

theorem processes_error {inp : In C} {ps : List (Process C)} {o : Out C} {e : PyErr}
    (h : processes inp ps o = .error e) : e = .osError := by
  induction ps generalizing o with
  | nil => cases h
  | cons p ps ih =>
    simp only [processes] at h
    split at h
    · rename_i h1
      cases h
      unfold process at h1
      split at h1
      · rename_i h2
        cases h1
        exact carry_error h2
      · cases h1
    · exact ih h

/-- The folders of sources and contacts after the data sets. -/
theorem processes_carried {inp : In C} (hn : NamesDiffer inp) {ps : List (Process C)} (hs : SavesFlows ps) {o o' : Out C}
    (h : processes inp ps o = .ok o') (hp : ps ≠ []) {d : Str} (hd : d = c!"sources" ∨ d = c!"contacts") (name : Str) :
    o'.content d name = (inp.content d name).or (o.content d name) := by
  induction ps generalizing o with
  | nil => exact absurd rfl hp
  | cons p ps ih =>
    simp only [processes] at h
    split at h
    · cases h
    · rename_i o1 h1
      obtain ⟨o2, h2, rfl⟩ := process_ok h1
      have hc : (copyTo c!"processes" (p.name ++ c!".xml") p.content (p.saved.foldl save o2)).content d name =
          (inp.content d name).or (o.content d name) := by
        rw [content_copyTo, if_neg, content_saves_other, fileInfo_content hn h2, if_pos hd]
        · intro f hf e
          have := hs p (List.mem_cons_self ..) f hf
          rw [e] at this
          rcases hd with rfl | rfl <;> revert this <;> decide
        · rintro ⟨e, -⟩
          rcases hd with rfl | rfl <;> revert e <;> decide
      by_cases hps : ps = []
      · subst hps
        cases h
        exact hc
      · rw [ih (fun q hq => hs q (List.mem_cons_of_mem _ hq)) h hps, hc]
        cases inp.content d name <;> simp

/-- A folder no file is saved in. -/
theorem processes_other {inp : In C} (hn : NamesDiffer inp) {ps : List (Process C)} (hs : SavesFlows ps) {o o' : Out C}
    (h : processes inp ps o = .ok o') {d : Str} (hd : d ≠ c!"sources" ∧ d ≠ c!"contacts" ∧ d ≠ c!"processes" ∧ d ∉ flowFolders)
    (name : Str) : o'.content d name = o.content d name := by
  induction ps generalizing o with
  | nil => cases h; rfl
  | cons p ps ih =>
    simp only [processes] at h
    split at h
    · cases h
    · rename_i o1 h1
      obtain ⟨o2, h2, rfl⟩ := process_ok h1
      rw [ih (fun q hq => hs q (List.mem_cons_of_mem _ hq)) h, content_copyTo, if_neg (fun e => hd.2.2.1 e.1),
        content_saves_other, fileInfo_content hn h2, if_neg]
      · rintro (e | e)
        · exact hd.1 e
        · exact hd.2.1 e
      · intro f hf e
        exact hd.2.2.2 (e ▸ hs p (List.mem_cons_self ..) f hf)

/-- A folder of flows holds what was in it and what was saved in it. -/
theorem processes_saved {inp : In C} (hn : NamesDiffer inp) {ps : List (Process C)} {o o' : Out C}
    (h : processes inp ps o = .ok o') {d : Str} (hd : d ∈ flowFolders) {name : Str} :
    (o'.content d name).isSome ↔ (o.content d name).isSome ∨ ∃ p ∈ ps, ∃ c, ((d, name), c) ∈ p.saved := by
  have hd' : d ≠ c!"sources" ∧ d ≠ c!"contacts" ∧ d ≠ c!"processes" :=
    (by decide : ∀ d ∈ flowFolders, d ≠ c!"sources" ∧ d ≠ c!"contacts" ∧ d ≠ c!"processes") d hd
  induction ps generalizing o with
  | nil => cases h; simp
  | cons p ps ih =>
    simp only [processes] at h
    split at h
    · cases h
    · rename_i o1 h1
      obtain ⟨o2, h2, rfl⟩ := process_ok h1
      have h3 : o2.content d name = o.content d name := by
        rw [fileInfo_content hn h2, if_neg]
        rintro (e | e)
        · exact hd'.1 e
        · exact hd'.2.1 e
      refine (ih h).trans ?_
      rw [content_copyTo, if_neg (fun e => hd'.2.2 e.1)]
      constructor
      · rintro (h4 | ⟨q, hq, c, h4⟩)
        · obtain ⟨c, h4⟩ := Option.isSome_iff_exists.1 h4
          rcases content_saves h4 with h4 | h4
          · rw [← h3, h4]; exact .inl rfl
          · exact .inr ⟨p, List.mem_cons_self .., c, h4⟩
        · exact .inr ⟨q, List.mem_cons_of_mem _ hq, c, h4⟩
      · rintro (h4 | ⟨q, hq, c, h4⟩)
        · exact .inl (content_saves_some (.inr (h3 ▸ h4)))
        · rcases List.mem_cons.1 hq with rfl | hq
          · exact .inl (content_saves_some (.inl ⟨c, h4⟩))
          · exact .inr ⟨q, hq, c, h4⟩

theorem content_copies (pkg : Str → Str → C) (l : List (Str × Str)) (o : Out C) (d name : Str) :
    (l.foldl (fun o f => copyTo f.1 f.2 (pkg f.1 f.2) o) o).content d name =
      if (d, name) ∈ l then some (pkg d name) else o.content d name := by
  induction l generalizing o with
  | nil => simp
  | cons f l ih =>
    rw [List.foldl_cons, ih, content_copyTo]
    obtain ⟨a, b⟩ := f
    by_cases h1 : (d, name) ∈ l
    · simp [h1]
    · by_cases h2 : d = a ∧ name = b
      · obtain ⟨rfl, rfl⟩ := h2
        simp
      · have : ¬ ((d, name) = (a, b)) := by
          intro e
          cases e
          exact h2 ⟨rfl, rfl⟩
        simp only [List.mem_cons, h1, this, or_self, if_false, h2]

theorem content_mkdirs (l : List Str) (o : Out C) (d name : Str) :
    (l.foldl (fun o d => mkdir d o) o).content d name = o.content d name := by
  induction l generalizing o with
  | nil => rfl
  | cons f l ih => rw [List.foldl_cons, ih, content_mkdir]

theorem start_content (pkg : Str → Str → C) (d name : Str) :
    (start pkg).content d name = if (d, name) ∈ additional then some (pkg d name) else none := by
  unfold start
  rw [content_copies, content_mkdirs]
  rfl

/-- The folders outside the root begin with the files of the package. -/
theorem start_packaged (pkg : Str → Str → C) {d : Str} (hd : d ≠ []) (name : Str) :
    (start pkg).content d name = packaged pkg d name := by
  rw [start_content]
  unfold packaged
  have : (d, name) ∈ additional ↔ name ∈ packageNames d := by
    by_cases h1 : d = c!"sources"
    · subst h1; simp [additional, packageNames]
    · by_cases h2 : d = c!"contacts"
      · subst h2; simp [additional, packageNames]
      · by_cases h3 : d = c!"external_docs"
        · subst h3; simp [additional, packageNames]
        · simp [additional, packageNames, h1, h2, h3, hd]
  simp only [this]

end Verif.Carried
