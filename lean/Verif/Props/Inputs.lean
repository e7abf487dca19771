/-
Which data sets of an archive and which files of a directory are converted.
-/
import Verif.Lemmas.Inputs

namespace Verif.Inputs

open Spec

/-- The entries delivered. -/
abbrev entries (d : Delivered) : List Str := d.map fun x => x.1.2

theorem entries_yield (n : Str) (l : List Str) :
    entries (Driver.yieldFiles (l.map fun x => (n, x))) = l := by
  have := yieldFiles_fst (l.map fun x => (n, x))
  unfold entries
  rw [show (fun x : (Str × Str) × Bool => x.1.2) = Prod.snd ∘ Prod.fst from rfl, ← List.map_map, this,
    List.map_map]
  exact List.map_id l

/-- **C123**: what is delivered from an archive is a process of the archive, and no entry twice. -/
theorem delivered_process {a : Str × Option (List Str)} {d : Delivered} (h : ofArchive a = .ok d) :
    (entries d).Nodup ∧ ∀ x ∈ entries d, x ∈ a.2.getD [] ∧ IsProcess x := by
  unfold ofArchive at h
  cases he : extract a.2 with
  | error e => rw [he] at h; cases h
  | ok root =>
    rw [he] at h
    simp only [Except.ok.injEq] at h
    rw [← h, entries_yield]
    refine ⟨(nodup_distinct _).filter _, fun x hx => ?_⟩
    obtain ⟨h1, f, h2, h3⟩ := mem_processes.mp hx
    obtain ⟨r, hr, e⟩ := isFolder_folder root
    exact ⟨h1, r, hr, f, by rw [h2, e], h3⟩

/-- **C123**: all processes of an archive are delivered exactly if all are in the one folder `processes`
that is read off the first entry below such a folder. -/
theorem all_delivered_iff {n : Str} {names : List Str} {d : Delivered} (h : ofArchive (n, some names) = .ok d) :
    (∀ x ∈ names, IsProcess x → x ∈ entries d) ↔
      ∃ first ∈ names, names.find? pointsTo = some first ∧
        ∀ x ∈ names, ∀ r, ProcessAt r x → r ++ c!"processes/" = folder (before c!"processes/" first) := by
  unfold ofArchive extract at h
  cases hf : names.find? pointsTo with
  | none => simp [hf] at h
  | some first =>
    simp only [hf, Except.ok.injEq, Option.getD_some] at h
    rw [← h, entries_yield]
    constructor
    · intro hall
      refine ⟨first, List.mem_of_find?_eq_some hf, rfl, fun x hx r hr => ?_⟩
      obtain ⟨-, f, h2, h3⟩ := mem_processes.mp (hall x hx ⟨r, hr⟩)
      obtain ⟨s, hs, e⟩ := isFolder_folder (before c!"processes/" first)
      rw [e] at h2 ⊢
      rw [processAt_unique hr ⟨hs, f, h2, h3⟩]
    · rintro ⟨g, -, hg, hall⟩ x hx ⟨r, hr⟩
      cases hg
      have e := hall x hx r hr
      obtain ⟨hr1, f, hx1, hf1⟩ := hr
      exact mem_processes.mpr ⟨hx, f, by rw [← e]; exact hx1, hf1⟩

/-- **C123**, the common archive: it has one folder `processes`, which is in the folder `r`, and the text
`processes/` is not part of `r`. Then the processes of the archive are delivered, each once, and nothing
else; only the last has the mark of the last one. -/
theorem one_folder_partial {n r : Str} {names : List Str} (hr : IsFolder r)
    (hn : ¬ Occurs c!"processes/" r)
    (hone : ∀ x ∈ names, ∀ s y, IsFolder s → x = s ++ c!"processes/" ++ y → s = r)
    (hex : ∃ x ∈ names, IsProcess x) :
    ∃ l x, ofArchive (n, some names) = .ok (l.map (fun y => ((n, y), false)) ++ [((n, x), true)]) ∧
      (l ++ [x]).Nodup ∧ ∀ y, y ∈ l ++ [x] ↔ y ∈ names ∧ IsProcess y := by
  obtain ⟨p, hp, hpp⟩ := hex
  cases hf : names.find? pointsTo with
  | none => exact absurd (isProcess_points hpp) (List.find?_eq_none.mp hf p hp)
  | some first =>
    obtain ⟨s, z, hs, hz⟩ := (pointsTo_iff.mp (List.find?_some hf)).1
    have e := hone first (List.mem_of_find?_eq_some hf) s z hs hz
    subst e
    have hroot : extract (some names) = .ok s := by
      simp only [extract, hf]
      rw [hz, before_folder hr hn]
    have hmem : ∀ y, y ∈ processes s names ↔ y ∈ names ∧ IsProcess y := by
      intro y
      rw [mem_processes, folder_of_isFolder hr]
      constructor
      · rintro ⟨h1, f, h2, h3⟩
        exact ⟨h1, s, hr, f, h2, h3⟩
      · rintro ⟨h1, t, ht, f, h2, h3⟩
        have := hone y h1 t (f ++ c!".xml") ht (by rw [h2]; simp)
        subst this
        exact ⟨h1, f, h2, h3⟩
    have hnd : (processes s names).Nodup := (nodup_distinct _).filter _
    rcases List.eq_nil_or_concat (processes s names) with h0 | ⟨l, x, h0⟩
    · have := (hmem p).mpr ⟨hp, hpp⟩
      rw [h0] at this
      cases this
    · rw [List.concat_eq_append] at h0
      refine ⟨l, x, ?_, h0 ▸ hnd, fun y => h0 ▸ hmem y⟩
      simp only [ofArchive, hroot, Option.getD_some, h0, List.map_append, List.map_cons, List.map_nil]
      rw [yieldFiles_marks]
      simp

example : ∃ l x, ofArchive (c!"a.zip", some [c!"root/sources/s.xml", c!"root/processes/p.xml", c!"root/processes/q.xml"])
      = .ok (l.map (fun y => ((c!"a.zip", y), false)) ++ [((c!"a.zip", x), true)]) ∧
    (l ++ [x]).Nodup ∧ ∀ y, y ∈ l ++ [x] ↔
      y ∈ [c!"root/sources/s.xml", c!"root/processes/p.xml", c!"root/processes/q.xml"] ∧ IsProcess y :=
  ⟨[c!"root/processes/p.xml"], c!"root/processes/q.xml", by decide +kernel, by decide +kernel, by
    intro y
    have h1 : IsProcess c!"root/processes/p.xml" := ⟨c!"root/", .inr ⟨c!"root", rfl⟩, c!"p", rfl, by decide⟩
    have h2 : IsProcess c!"root/processes/q.xml" := ⟨c!"root/", .inr ⟨c!"root", rfl⟩, c!"q", rfl, by decide⟩
    constructor
    · intro h
      rcases List.mem_cons.mp h with e | h
      · subst e; exact ⟨by simp, h1⟩
      · rw [List.mem_singleton.mp h]; exact ⟨by simp, h2⟩
    · rintro ⟨h, hp⟩
      rcases List.mem_cons.mp h with e | h
      · subst e
        have := isProcess_points hp
        revert this
        decide
      · exact h⟩

/-- **C123** is false of the code: a process in a folder `processes` other than the one of the first entry
is passed over, without an error. -/
theorem other_folder_lost {n : Str} {names : List Str} {first r x : Str}
    (hf : names.find? pointsTo = some first) (hx : ProcessAt r x)
    (hne : r ++ c!"processes/" ≠ folder (before c!"processes/" first)) :
    ∃ d, ofArchive (n, some names) = .ok d ∧ x ∉ entries d := by
  refine ⟨_, by simp only [ofArchive, extract, hf]; rfl, ?_⟩
  rw [entries_yield]
  intro h
  obtain ⟨-, f, h2, h3⟩ := mem_processes.mp h
  obtain ⟨s, hs, e⟩ := isFolder_folder (before c!"processes/" first)
  rw [e] at h2 hne
  exact hne (by rw [processAt_unique hx ⟨hs, f, h2, h3⟩])

example : (deliver false [(c!"a.zip", some [c!"one/processes/p.xml", c!"two/processes/q.xml"])]).1 =
    [((c!"a.zip", c!"one/processes/p.xml"), true)] := by decide +kernel

/-- **C123** is false of the code: of an archive whose root folder has a name that ends with `processes`
nothing is converted, without an error. -/
theorem root_name_lost {n q : Str} {names : List Str} (hq : '/' ∉ q)
    (hall : ∀ x ∈ names, ∃ y, x = q ++ c!"processes/" ++ y) (hex : ∃ x ∈ names, ProcessAt (q ++ c!"processes/") x) :
    ∃ d, deliver false [(n, some names)] = (d, none) ∧
      (q ≠ [] → d = []) ∧ ∀ x ∈ names, ProcessAt (q ++ c!"processes/") x → x ∉ entries d := by
  obtain ⟨p, hp, hpp⟩ := hex
  cases hf : names.find? pointsTo with
  | none => exact absurd (isProcess_points ⟨_, hpp⟩) (List.find?_eq_none.mp hf p hp)
  | some first =>
    obtain ⟨y, hy⟩ := hall first (List.mem_of_find?_eq_some hf)
    have hb : before c!"processes/" first = q := by
      rw [hy]
      refine before_append ?_ (by simp)
      rintro a b e hb ⟨t, ht⟩
      have hbs : '/' ∉ b := fun h => hq (by rw [e]; simp [h])
      -- the text in front of the first slash is longer on the left
      have h1 : (b ++ c!"processes") ++ '/' :: y = c!"processes" ++ '/' :: t := by simpa using ht
      have h2 : ∀ (u v w z : Str), '/' ∉ u → '/' ∉ w → u ++ '/' :: v = w ++ '/' :: z → u = w := by
        intro u
        induction u with
        | nil =>
          intro v w z _ hw he
          cases w with
          | nil => rfl
          | cons c w =>
            simp only [List.nil_append, List.cons_append, List.cons.injEq] at he
            exact absurd (by rw [he.1]; simp) hw
        | cons c u ih =>
          intro v w z hu hw he
          cases w with
          | nil =>
            simp only [List.nil_append, List.cons_append, List.cons.injEq] at he
            exact absurd (by rw [he.1]; simp) hu
          | cons c' w =>
            simp only [List.cons_append, List.cons.injEq] at he
            rw [he.1, ih v w z (fun h => hu (by simp [h])) (fun h => hw (by simp [h])) he.2]
      have h3 := h2 _ _ _ _ (by simp [hbs]) (by decide) h1
      have h4 := congrArg List.length h3
      simp only [List.length_append] at h4
      exact hb (List.length_eq_zero_iff.mp (by omega))
    have hout : ∃ d, ofArchive (n, some names) = .ok d ∧ entries d = processes q names := by
      refine ⟨_, by simp only [ofArchive, extract, hf, hb, Option.getD_some]; rfl, entries_yield _ _⟩
    obtain ⟨d, hd, he⟩ := hout
    have hemp : q ≠ [] → d = [] := by
      intro hne
      have h0 : processes q names = [] := by
        rw [List.eq_nil_iff_forall_not_mem]
        intro x hx
        obtain ⟨h1, f, h2, -⟩ := mem_processes.mp hx
        obtain ⟨w, hw⟩ := hall x h1
        have h5 : folder q = q ++ c!"/processes/" := by
          unfold folder
          rw [if_neg]
          rintro (h | h)
          · exact hne h
          · obtain ⟨r, hr⟩ := endsWith_iff.mp h
            exact hq (by rw [hr]; simp)
        rw [h5, hw, List.append_assoc, List.append_assoc, List.append_assoc] at h2
        have := List.append_cancel_left h2
        simp at this
      rw [h0] at he
      exact List.map_eq_nil_iff.mp he
    refine ⟨d, ?_, hemp, fun x hx hxp hin => ?_⟩
    · simp [deliver, hd]
    · rw [he] at hin
      obtain ⟨-, f, h2, h3⟩ := mem_processes.mp hin
      obtain ⟨s, hs, e⟩ := isFolder_folder q
      have h6 := processAt_unique hxp ⟨hs, f, by rw [h2, e], h3⟩
      rw [← h6] at e
      have h7 := congrArg List.length e
      unfold folder at h7
      split at h7 <;> simp at h7

example : deliver false [(c!"a.zip", some [c!"unit_processes/processes/p.xml", c!"unit_processes/flows/f.xml"])] =
    ([], none) := by decide +kernel

/-- **C124**: the archives of a directory follow each other, each with its own last process. -/
theorem deliver_all {opened : Bool} {l : List (Str × Option (List Str))} {ds : List Delivered}
    (h : List.Forall₂ (fun a d => ofArchive a = .ok d) l ds) : deliver opened l = (ds.flatten, none) := by
  induction h generalizing opened with
  | nil => rfl
  | cons h1 _ ih => simp [deliver, h1, ih]

/-- **C124**: an archive without a folder of processes ends the conversion: those before it are converted,
those behind it are not. The error that is reported is its own only if it is not the first archive. -/
theorem deliver_stops {opened : Bool} {l rest : List (Str × Option (List Str))} {ds : List Delivered}
    {a : Str × Option (List Str)} {e : PyErr} (h : List.Forall₂ (fun a d => ofArchive a = .ok d) l ds)
    (ha : ofArchive a = .error e) :
    deliver opened (l ++ a :: rest) =
      (ds.flatten, some (if opened = true ∨ l ≠ [] then e else .attributeError)) := by
  induction h generalizing opened with
  | nil => cases opened <;> simp [deliver, ha]
  | cons h1 h2 ih => simp [deliver, h1, ih]

/-- Which archives cannot be converted. -/
theorem not_delivered_iff {a : Str × Option (List Str)} :
    (∃ e, ofArchive a = .error e) ↔
      a.2 = none ∨ ∃ names, a.2 = some names ∧ ∀ x ∈ names, ¬ (Below x ∧ ∃ y, x = y ++ c!".xml") := by
  obtain ⟨n, c⟩ := a
  cases c with
  | none => simp [ofArchive, extract]
  | some names =>
    simp only [ofArchive, extract, reduceCtorEq, Option.some.injEq, false_or]
    cases hf : names.find? pointsTo with
    | none =>
      simp only [Except.error.injEq, exists_eq', true_iff]
      exact ⟨names, rfl, fun x hx h => List.find?_eq_none.mp hf x hx (pointsTo_iff.mpr h)⟩
    | some first =>
      simp only [reduceCtorEq, exists_false, false_iff]
      rintro ⟨_, rfl, h⟩
      exact h first (List.mem_of_find?_eq_some hf) (pointsTo_iff.mp (List.find?_some hf))

/-- **C124** is false of the code: a file with the extension `.xml` is accepted as input, and its
conversion fails with an error about an attribute. -/
theorem xml_accepted {n q : Str} (h : n = q ++ c!".xml") :
    verify ilcdExtensions n = .ok n ∧ ilcdFile (n, none) = ([], some .attributeError) := by
  have hv : verify ilcdExtensions n = .ok n := by
    unfold verify
    rw [if_pos]
    simp only [ilcdExtensions, List.any_cons, List.any_nil, Bool.or_eq_true]
    exact .inr (.inr (.inl (endsWith_iff.mpr ⟨q, h⟩)))
  exact ⟨hv, by simp [ilcdFile, hv, deliver, ofArchive, extract]⟩

theorem mem_filesOf {ext dir : List Str} {x : Str} :
    x ∈ filesOf ext dir ↔ x ∈ dir ∧ ∃ e ∈ ext, ∃ q, x = q ++ e := by
  unfold filesOf
  simp only [List.mem_flatten, List.mem_map, exists_exists_and_eq_and, List.mem_filter, endsWith_iff]
  constructor
  · rintro ⟨e, h1, h2, h3⟩; exact ⟨h2, e, h1, h3⟩
  · rintro ⟨h2, e, h1, h3⟩; exact ⟨e, h1, h2, h3⟩

theorem nodup_filesOf_two {e f : Str} {dir : List Str} (hd : dir.Nodup)
    (hne : ∀ x : Str, ¬ (endsWith e x = true ∧ endsWith f x = true)) : (filesOf [e, f] dir).Nodup := by
  simp only [filesOf, List.map_cons, List.map_nil, List.flatten_cons, List.flatten_nil, List.append_nil]
  refine List.nodup_append.mpr ⟨hd.filter _, hd.filter _, ?_⟩
  intro a ha b hb hab
  subst hab
  exact hne a ⟨(List.mem_filter.mp ha).2, (List.mem_filter.mp hb).2⟩

theorem last_of_endsWith {e x : Str} {c : Char} (h : endsWith (e ++ [c]) x = true) : x.getLast? = some c := by
  obtain ⟨r, rfl⟩ := endsWith_iff.mp h
  rw [← List.append_assoc, List.getLast?_concat]

theorem verify_iff {ext : List Str} {x : Str} :
    verify ext x = .ok x ↔ ∃ e ∈ ext, ∃ q, x = q ++ e := by
  unfold verify
  have h : ext.any (fun e => endsWith e x) = true ↔ ∃ e ∈ ext, ∃ q, x = q ++ e := by
    simp only [List.any_eq_true, endsWith_iff]
  rw [← h]
  split
  · next h1 => simp [h1]
  · next h1 => simp [h1]

/-- **C125**: of a directory exactly those files are converted that are accepted when they are given
alone, each once and the last of them, and no other, with the mark of the last one. -/
theorem ecs_directory {dir : List Str} (hd : dir.Nodup) :
    ((ecsDirectory dir).map Prod.fst).Nodup ∧
    (∀ x, x ∈ (ecsDirectory dir).map Prod.fst ↔ x ∈ dir ∧ ecsFile x = .ok [(x, true)]) ∧
    (ecsDirectory dir = [] ∨ ∃ (l : List Str) (x : Str), ecsDirectory dir = l.map (fun y => (y, false)) ++ [(x, true)]) := by
  refine ⟨?_, fun x => ?_, ?_⟩
  · rw [ecsDirectory, yieldFiles_fst]
    refine nodup_filesOf_two hd fun x h => ?_
    have h1 := last_of_endsWith (e := c!".spol") (c := 'd') h.1
    have h2 := last_of_endsWith (e := c!".SPOL") (c := 'D') h.2
    rw [h1] at h2
    revert h2
    decide
  · rw [ecsDirectory, yieldFiles_fst, mem_filesOf, ← verify_iff]
    refine and_congr_right fun _ => ?_
    unfold ecsFile
    constructor
    · intro h; rw [h]
    · intro h
      cases hv : verify ecsExtensions x with
      | error e => rw [hv] at h; cases h
      | ok y =>
        have hxy : y = x := by
          unfold verify at hv
          split at hv
          · exact (Except.ok.inj hv).symm
          · cases hv
        rw [hxy]
  · rcases List.eq_nil_or_concat (filesOf ecsExtensions dir) with h | ⟨l, x, h⟩
    · left; rw [ecsDirectory, h]; rfl
    · right; exact ⟨l, x, by rw [ecsDirectory, h, List.concat_eq_append, yieldFiles_marks]⟩

example : ecsDirectory [c!"a.spold", c!"b.txt", c!"C.SPOLD", c!"d.Spold"] =
    [(c!"a.spold", false), (c!"C.SPOLD", true)] := by decide +kernel

/-- **C125**, archives: those files of a directory are opened that are accepted when they are given alone,
except those with the extension `.xml`, each once. -/
theorem ilcd_directory {dir : List Str} (hd : dir.Nodup) :
    (filesOf (ilcdExtensions.take 2) dir).Nodup ∧
    ∀ x, x ∈ filesOf (ilcdExtensions.take 2) dir ↔
      x ∈ dir ∧ verify ilcdExtensions x = .ok x ∧ ¬ ∃ q, x = q ++ c!".xml" := by
  refine ⟨?_, fun x => ?_⟩
  · refine nodup_filesOf_two hd fun x h => ?_
    have h1 := last_of_endsWith (e := c!".zi") (c := 'p') h.1
    have h2 := last_of_endsWith (e := c!".ZI") (c := 'P') h.2
    rw [h1] at h2
    revert h2
    decide
  · rw [mem_filesOf, verify_iff]
    refine and_congr_right fun _ => ?_
    simp only [ilcdExtensions, List.take_succ_cons, List.take_zero, List.mem_cons, List.not_mem_nil, or_false,
      exists_eq_or_imp, exists_eq_left]
    have hx : ∀ {q : Str}, x = q ++ c!".xml" → x.getLast? = some 'l' := fun h =>
      last_of_endsWith (e := c!".xm") (endsWith_iff.mpr ⟨_, h⟩)
    constructor
    · rintro (h | h)
      · refine ⟨.inl h, ?_⟩
        rintro ⟨q, hq⟩
        obtain ⟨p, hp⟩ := h
        have h2 := last_of_endsWith (e := c!".zi") (c := 'p') (endsWith_iff.mpr ⟨_, hp⟩)
        rw [hx hq] at h2
        revert h2; decide
      · refine ⟨.inr (.inl h), ?_⟩
        rintro ⟨q, hq⟩
        obtain ⟨p, hp⟩ := h
        have h2 := last_of_endsWith (e := c!".ZI") (c := 'P') (endsWith_iff.mpr ⟨_, hp⟩)
        rw [hx hq] at h2
        revert h2; decide
    · rintro ⟨h | h | h, hn⟩
      · exact .inl h
      · exact .inr h
      · exact absurd h hn

/-- A directory whose archives all have processes is converted as a whole. -/
theorem ilcd_directory_all {content : Str → Option (List Str)} {dir : List Str}
    (h : ∀ x ∈ dir, (∃ q, x = q ++ c!".zip" ∨ x = q ++ c!".ZIP") → ∃ names, content x = some names ∧
      ∃ p ∈ names, IsProcess p) :
    ∃ d, ilcdDirectory content dir = (d, none) := by
  unfold ilcdDirectory
  suffices hs : ∀ (o : Bool) (l : List Str), (∀ x ∈ l, ∃ names, content x = some names ∧ ∃ p ∈ names, IsProcess p) →
      ∃ d, deliver o (l.map fun n => (n, content n)) = (d, none) by
    refine hs _ _ fun x hx => ?_
    obtain ⟨h1, e, he, q, hq⟩ := mem_filesOf.mp hx
    refine h x h1 ⟨q, ?_⟩
    simp only [ilcdExtensions, List.take_succ_cons, List.take_zero, List.mem_cons, List.not_mem_nil, or_false] at he
    rcases he with rfl | rfl
    · exact .inl hq
    · exact .inr hq
  intro o l
  induction l generalizing o with
  | nil => intro _; exact ⟨[], rfl⟩
  | cons x l ih =>
    intro hl
    obtain ⟨d, hd⟩ := ih true fun y hy => hl y (List.mem_cons_of_mem _ hy)
    obtain ⟨names, hc, p, hp, hpp⟩ := hl x List.mem_cons_self
    have : ∃ d', ofArchive (x, content x) = .ok d' := by
      cases ho : ofArchive (x, content x) with
      | ok d' => exact ⟨d', rfl⟩
      | error e =>
        exfalso
        rcases not_delivered_iff.mp ⟨e, ho⟩ with h1 | ⟨ns, h1, h2⟩
        · simp only [hc] at h1
          cases h1
        · simp only [hc, Option.some.injEq] at h1
          subst h1
          exact h2 p hp (pointsTo_iff.mp (isProcess_points hpp))
    obtain ⟨d', hd'⟩ := this
    exact ⟨d' ++ d, by simp [deliver, hd', hd]⟩

example : ilcdDirectory (fun n => if n = c!"a.zip" then some [c!"processes/p.xml"] else some [c!"x/processes/q.xml"])
    [c!"b.ZIP", c!"a.zip", c!"c.xml"] =
    ([((c!"a.zip", c!"processes/p.xml"), true), ((c!"b.ZIP", c!"x/processes/q.xml"), true)], none) := by
  decide +kernel

/-- An archive without processes in the second place: the first is converted, the third is not. -/
example : deliver false [(c!"a.zip", some [c!"processes/p.xml"]), (c!"b.zip", some [c!"flows/f.xml"]),
    (c!"c.zip", some [c!"processes/q.xml"])] =
    ([((c!"a.zip", c!"processes/p.xml"), true)], some .nameError) := by decide +kernel

end Verif.Inputs
