/-
Theorems about references to sources and contacts.
-/
import Verif.Model.Refs
import Verif.Spec.Refs
import Verif.Lemmas.IlcdVars
import Verif.Props.Citations
import Mathlib.Tactic.ByContra

namespace Verif.Refs
open Spec

theorem bind_ok' {α β : Type} (a : α) (f : α → Py β) : ((Except.ok a : Py α) >>= f) = f a := rfl

/-! ## The file of a reference -/

theorem takeWhile_part (l : Str) : '/' ∉ l.takeWhile (· ≠ '/') ∧
    (l.reverse = (l.takeWhile (· ≠ '/')).reverse ∨ ∃ a, l.reverse = a ++ '/' :: (l.takeWhile (· ≠ '/')).reverse) := by
  induction l with
  | nil => simp
  | cons c l ih =>
    by_cases hc : c = '/'
    · subst hc
      exact ⟨by simp, .inr ⟨l.reverse, by simp⟩⟩
    · have hw : (c :: l).takeWhile (· ≠ '/') = c :: l.takeWhile (· ≠ '/') := by simp [hc]
      rw [hw]
      refine ⟨by simp only [List.mem_cons, not_or]; exact ⟨fun h => hc h.symm, ih.1⟩, ?_⟩
      rcases ih.2 with h | ⟨a, h⟩
      · left; simp [h]
      · right; exact ⟨a, by simp [h]⟩

/-- The part after the last stroke is that. -/
theorem lastSegment_spec (uri : Str) : LastPart uri (lastSegment uri) := by
  obtain ⟨h1, h2⟩ := takeWhile_part uri.reverse
  rw [List.reverse_reverse] at h2
  exact ⟨by simpa [lastSegment] using h1, h2⟩

theorem lastPart_unique (uri s t : Str) (hs : LastPart uri s) (ht : LastPart uri t) : s = t := by
  obtain ⟨h1, h2⟩ := hs
  obtain ⟨h3, h4⟩ := ht
  have key : ∀ (a b s t : Str), '/' ∉ s → '/' ∉ t → a ++ '/' :: s = b ++ '/' :: t → s = t := by
    intro a
    induction a with
    | nil =>
      intro b s t hs ht h
      cases b with
      | nil => simpa using h
      | cons c b =>
        simp only [List.nil_append, List.cons_append, List.cons.injEq] at h
        exact absurd (by rw [h.2]; simp) hs
    | cons c a ih =>
      intro b s t hs ht h
      cases b with
      | nil =>
        simp only [List.nil_append, List.cons_append, List.cons.injEq] at h
        exact absurd (by rw [← h.2]; simp) ht
      | cons c' b =>
        simp only [List.cons_append, List.cons.injEq] at h
        exact ih b s t hs ht h.2
  rcases h2 with rfl | ⟨a, rfl⟩
  · rcases h4 with h4 | ⟨b, rfl⟩
    · exact h4
    · exact absurd (by simp) h1
  · rcases h4 with h4 | ⟨b, h4⟩
    · exact absurd (by rw [← h4]; simp) h3
    · exact key _ _ _ _ h1 h3 h4

theorem contains_iff (n x : Str) : isInfix x n = true ↔ Contains n x := by
  rw [IlcdVars.isInfix_iff]
  exact Iff.rfl

theorem find_first (x : Str) (n : Str) : ∀ l : List (Str × Bool),
    (l.map (·.1)).find? (fun n => isInfix x n) = some n ↔ FirstWith x l n
  | [] => by simp [FirstWith]
  | e :: l => by
    simp only [List.map_cons, List.find?_cons]
    by_cases h : isInfix x e.1 = true
    · rw [h]
      simp only [Option.some.injEq]
      constructor
      · rintro rfl
        exact ⟨[], e.2, l, rfl, (contains_iff _ _).1 h, by simp⟩
      · rintro ⟨a, k, b, h1, h2, h3⟩
        cases a with
        | nil =>
          simp only [List.nil_append, List.cons.injEq] at h1
          rw [h1.1]
        | cons e' a =>
          simp only [List.cons_append, List.cons.injEq] at h1
          obtain ⟨rfl, -⟩ := h1
          exact absurd ((contains_iff _ _).1 h) (h3 _ List.mem_cons_self)
    · have hc : ¬ Contains e.1 x := fun hc => h ((contains_iff _ _).2 hc)
      rw [Bool.not_eq_true] at h
      rw [h]
      simp only
      rw [find_first x n l]
      constructor
      · rintro ⟨a, k, b, h1, h2, h3⟩
        refine ⟨e :: a, k, b, by rw [h1]; rfl, h2, fun e' he' => ?_⟩
        rcases List.mem_cons.1 he' with rfl | he'
        · exact hc
        · exact h3 _ he'
      · rintro ⟨a, k, b, h1, h2, h3⟩
        cases a with
        | nil =>
          simp only [List.nil_append, List.cons.injEq] at h1
          rw [h1.1] at hc
          exact absurd h2 hc
        | cons e' a =>
          simp only [List.cons_append, List.cons.injEq] at h1
          exact ⟨a, k, b, h1.2, h2, fun e he => h3 _ (List.mem_cons_of_mem _ he)⟩

/-- The file that a reference leads to, exactly: the one named by its address; else the one of its version; else the one
without a version; else the first entry of the folder that contains the identifier. -/
theorem found_iff (l : List (Str × Bool)) (x : Ref) (s n : Str) (hs : LastPart x.uri s) :
    getFile (some l) x = some n ↔
      (IsFile l s ∧ n = s) ∨
      (¬ IsFile l s ∧ IsFile l (x.id ++ c!"_" ++ x.version ++ c!".xml") ∧ n = x.id ++ c!"_" ++ x.version ++ c!".xml") ∨
      (¬ IsFile l s ∧ ¬ IsFile l (x.id ++ c!"_" ++ x.version ++ c!".xml") ∧ IsFile l (x.id ++ c!".xml") ∧
        n = x.id ++ c!".xml") ∨
      (¬ IsFile l s ∧ ¬ IsFile l (x.id ++ c!"_" ++ x.version ++ c!".xml") ∧ ¬ IsFile l (x.id ++ c!".xml") ∧
        x.id ≠ [] ∧ FirstWith x.id l n) := by
  obtain rfl := lastPart_unique _ _ _ hs (lastSegment_spec x.uri)
  unfold IsFile getFile options
  simp only [List.find?_cons, List.find?_nil]
  by_cases h1 : (lastSegment x.uri, true) ∈ l
  · simp [h1, eq_comm]
  · by_cases h2 : (x.id ++ c!"_" ++ x.version ++ c!".xml", true) ∈ l
    · simp only [h1, h2, decide_true, decide_false, Option.some.injEq]
      simp [eq_comm]
    · by_cases h3 : (x.id ++ c!".xml", true) ∈ l
      · simp only [h1, h2, h3, decide_true, decide_false, Option.some.injEq]
        simp [eq_comm]
      · simp only [h1, h2, h3, decide_false]
        by_cases h4 : x.id = []
        · simp [h4]
        · simp only [h4, if_false]
          rw [find_first]
          simp [h4]

/-- A reference leads nowhere exactly if the folder is missing, or none of the names is a file and no entry contains the
identifier. -/
theorem none_iff (f : Folder) (x : Ref) (s : Str) (hs : LastPart x.uri s) :
    getFile f x = none ↔ f = none ∨ ∃ l, f = some l ∧ ¬ IsFile l s ∧
      ¬ IsFile l (x.id ++ c!"_" ++ x.version ++ c!".xml") ∧ ¬ IsFile l (x.id ++ c!".xml") ∧
      (x.id = [] ∨ ∀ e ∈ l, ¬ Contains e.1 x.id) := by
  cases f with
  | none => simp [getFile]
  | some l =>
    simp only [reduceCtorEq, Option.some.injEq, exists_eq_left', false_or]
    obtain rfl := lastPart_unique _ _ _ hs (lastSegment_spec x.uri)
    unfold IsFile getFile options
    simp only [List.find?_cons, List.find?_nil]
    by_cases h1 : (lastSegment x.uri, true) ∈ l
    · simp [h1]
    · by_cases h2 : (x.id ++ c!"_" ++ x.version ++ c!".xml", true) ∈ l
      · simp only [h1, h2, decide_true, decide_false]
        simp
      · by_cases h3 : (x.id ++ c!".xml", true) ∈ l
        · simp only [h1, h2, h3, decide_true, decide_false]
          simp
        · simp only [h1, h2, h3, decide_false, not_false_eq_true, true_and]
          by_cases h4 : x.id = []
          · simp [h4]
          · simp only [h4, if_false, false_or, List.find?_eq_none]
            simp only [contains_iff, List.mem_map, forall_exists_index, and_imp, forall_apply_eq_imp_iff₂]

/-- A file of another version is taken without notice. -/
theorem other_version (x : Ref) (v s : Str) (hs : LastPart x.uri s) (hid : x.id ≠ []) (hv : v ≠ x.version)
    (hn : s ≠ x.id ++ c!"_" ++ v ++ c!".xml") :
    getFile (some [(x.id ++ c!"_" ++ v ++ c!".xml", true)]) x = some (x.id ++ c!"_" ++ v ++ c!".xml") := by
  rw [found_iff _ x s _ hs]
  right; right; right
  refine ⟨fun h => hn (by simpa [IsFile] using h), ?_, ?_, hid, [], true, [], rfl, ⟨[], c!"_" ++ v ++ c!".xml", by simp⟩, by simp⟩
  · simp only [IsFile, List.mem_singleton, Prod.mk.injEq, and_true]
    intro h
    simp only [List.append_assoc, List.append_cancel_left_eq, List.append_cancel_right_eq] at h
    exact hv h.symm
  · simp only [IsFile, List.mem_singleton, Prod.mk.injEq, and_true]
    intro h
    have := congrArg List.length h
    simp at this

/-- Which file is taken depends on the order in which the system lists the folder, and it may be one of another data set
or a folder. -/
theorem order_matters : let x : Ref := ⟨[], c!"ab12", c!"03.00", .absent⟩
    getFile (some [(c!"ab12_01.00.xml", true), (c!"ab12_02.00.xml", true)]) x = some c!"ab12_01.00.xml" ∧
    getFile (some [(c!"ab12_02.00.xml", true), (c!"ab12_01.00.xml", true)]) x = some c!"ab12_02.00.xml" ∧
    getFile (some [(c!"old_ab12", false), (c!"ab12_02.00.xml", true)]) x = some c!"old_ab12" := by
  decide +kernel

/-! ### What the program writes itself -/

theorem lastPart_of (a s : Str) (h : '/' ∉ s) : LastPart (a ++ '/' :: s) s := ⟨h, .inr ⟨a, rfl⟩⟩

/-- The files written for sources and contacts are found again, in whatever order the folder lists them. -/
theorem own_files_found (ids : List Str) (hl : ∀ u ∈ ids, u.length = 36 ∧ '/' ∉ u) (l : List (Str × Bool))
    (hd : ∀ e, e ∈ l ↔ ∃ u ∈ ids, e = (fileName u, true)) (u : Str) (hu : u ∈ ids) (folder name : Str) :
    getFile (some l) (written folder u name) = some (fileName u) := by
  have h36 := (hl u hu).1
  rw [found_iff _ _ u _ (by simpa [written] using lastPart_of (c!"../" ++ folder) u (hl u hu).2)]
  right; right; left
  have hin : ∀ n : Str, IsFile l n → n.length = 40 := by
    intro n hn
    obtain ⟨v, hv, he⟩ := (hd _).1 hn
    simp only [Prod.mk.injEq, and_true] at he
    subst he
    simp [fileName, (hl v hv).1]
  refine ⟨fun h => ?_, fun h => ?_, (hd _).2 ⟨u, hu, rfl⟩, rfl⟩
  · have := hin _ h; omega
  · have := hin _ h
    simp [written, h36] at this

/-- The same for flows, whose files have the version in their names. -/
theorem own_flows_found (ids : List (Str × Str)) (hl : ∀ u ∈ ids, '/' ∉ u.1 ∧ '/' ∉ u.2)
    (hv : ∀ u ∈ ids, u.1.length = 36 ∧ u.2.length = 9) (l : List (Str × Bool))
    (hd : ∀ e, e ∈ l ↔ ∃ u ∈ ids, e = (flowFile u.1 u.2, true)) (u : Str × Str) (hu : u ∈ ids) (name : Str) :
    getFile (some l) (writtenFlow u.1 u.2 name) = some (flowFile u.1 u.2) := by
  have hs : LastPart (writtenFlow u.1 u.2 name).uri (u.1 ++ c!"_" ++ u.2) := by
    have := lastPart_of c!"../flows" (u.1 ++ c!"_" ++ u.2) (by simp [hl u hu])
    simpa [writtenFlow] using this
  rw [found_iff _ _ _ _ hs]
  right; left
  refine ⟨fun h => ?_, (hd _).2 ⟨u, hu, rfl⟩, rfl⟩
  obtain ⟨w, hw, he⟩ := (hd _).1 h
  have := congrArg (fun e => e.1.length) he
  simp [flowFile, hv u hu, hv w hw] at this

/-! ## Sources -/

/-- The texts by which images and icons are known. -/
theorem slot_image (t : Str) (b : Bool) (h : ImageName t) : slot t b = .imageUrl := by
  obtain ⟨u, rfl⟩ := h
  unfold slot
  rw [if_pos]
  simp [startsWith]

theorem slot_icon (t : Str) (b : Bool) (h : IconName t) : slot t b = .datasetIcon := by
  rw [IconName] at h
  subst h
  rfl

theorem slot_other (t : Str) (b : Bool) (h : ¬ ImageName t) (h' : ¬ IconName t) :
    slot t b = if b then .imageUrl else .regular := by
  unfold slot
  rw [if_neg, if_neg (by simpa [IconName] using h')]
  intro hp
  unfold startsWith at hp
  rw [List.isPrefixOf_iff_prefix] at hp
  obtain ⟨u, hu⟩ := hp
  exact h ⟨u, hu.symm⟩

theorem sourceShort_text (x : Ref) (t : Str) (h : textOf x t) : sourceShort x.short = .ok t := by
  rcases h with ⟨h, rfl⟩ | h <;> rw [h] <;> rfl

/-- A short description without a language, or in several, stops the conversion wherever the source is referenced,
whether or not there is a file. -/
theorem short_stops (env : Env) (p : Place) (x : Ref) (s : Sources)
    (h : (∃ t, x.short = .plain t) ∨ ∃ l, x.short = .many l) : source env p x s = .error .typeError := by
  rcases h with ⟨t, h⟩ | ⟨t, h⟩ <;> · unfold source; rw [h]; rfl

/-- The references to external documents of an ILCD data set stop the conversion, except those named like an image or
an icon by this program. -/
theorem documentation_stops (env : Env) (x : Ref) (s : Sources) (t : Str) (ht : textOf x t)
    (h : ¬ ImageName t) (h' : ¬ IconName t) : source env .documentation x s = .error .keyError := by
  unfold source
  rw [sourceShort_text x t ht]
  have : slot t (decide (Place.documentation = .picture)) = .regular := by rw [slot_other t _ h h']; rfl
  simp only [bind_ok', this]
  rfl

/-- Where a citation is expected an image or an icon stops the conversion. -/
theorem citation_stops (env : Env) (p : Place) (hp : p = .exchange ∨ p = .publication) (x : Ref) (s : Sources) (t : Str)
    (ht : textOf x t) (h : ImageName t ∨ IconName t) : source env p x s = .error .keyError := by
  unfold source
  rw [sourceShort_text x t ht]
  rcases h with h | h
  · rcases hp with rfl | rfl <;> simp only [bind_ok', slot_image t _ h] <;> rfl
  · rcases hp with rfl | rfl <;> simp only [bind_ok', slot_icon t _ h] <;> rfl

/-- Among the pictures of the technology an icon stops the conversion. -/
theorem picture_stops (env : Env) (x : Ref) (s : Sources) (t : Str) (ht : textOf x t) (h : IconName t) :
    source env .picture x s = .error .keyError := by
  unfold source
  rw [sourceShort_text x t ht]
  simp only [bind_ok', slot_icon t _ h]
  rfl

/-- A picture of the technology, whatever its name, and an external document named as an image give the addresses of
their file as images. -/
theorem image_taken (env : Env) (p : Place) (x : Ref) (s : Sources) (t n : Str) (l : List (Str × Bool))
    (ht : textOf x t) (hp : (p = .picture ∧ ¬ IconName t) ∨ (p = .documentation ∧ ImageName t))
    (hid : x.id ≠ []) (hl : env.sources = some l) (hn : getFile env.sources x = some n) (hf : IsFile l n) :
    source env p x s = .ok { s with images := s.images ++ (env.sourceFile n).digital } := by
  have hk : slot t (decide (p = .picture)) = .imageUrl := by
    rcases hp with ⟨rfl, h⟩ | ⟨rfl, h⟩
    · by_cases hi : ImageName t
      · exact slot_image _ _ hi
      · rw [slot_other _ _ hi h]; rfl
    · exact slot_image _ _ h
  have hs : Slot.imageUrl ∈ p.slots := by rcases hp with ⟨rfl, -⟩ | ⟨rfl, -⟩ <;> simp [Place.slots]
  unfold source
  rw [sourceShort_text x t ht, hn, hl]
  simp only [bind_ok', hk]
  unfold IsFile at hf
  rw [if_neg (by simpa using hs)]
  simp only [if_neg hid, openFile, if_pos hf, bind_ok']

/-- An external document named as an icon gives the address of its file as the icon. -/
theorem icon_taken (env : Env) (x : Ref) (s : Sources) (n : Str) (l : List (Str × Bool))
    (ht : textOf x c!"Dataset Icon") (hid : x.id ≠ []) (hl : env.sources = some l)
    (hn : getFile env.sources x = some n) (hf : IsFile l n) :
    source env .documentation x s = .ok { s with icons := s.icons ++ (env.sourceFile n).digital } := by
  unfold source
  rw [sourceShort_text x _ ht, hn, hl]
  have hk : slot c!"Dataset Icon" (decide (Place.documentation = .picture)) = .datasetIcon := by decide
  simp only [bind_ok', hk]
  unfold IsFile at hf
  rw [if_neg (by simp [Place.slots])]
  simp only [if_neg hid, openFile, if_pos hf, bind_ok']

/-- A reference that has no identifier or whose file is not found is passed over. -/
theorem dropped (env : Env) (p : Place) (x : Ref) (s : Sources) (t : Str) (ht : textOf x t)
    (hk : slot t (decide (p = .picture)) ∈ p.slots) (h : Dropped env x) : source env p x s = .ok s := by
  unfold source
  rw [sourceShort_text x t ht]
  simp only [bind_ok']
  rw [if_neg (by simpa using hk)]
  rcases h with h | h
  · cases getFile env.sources x with
    | none => rfl
    | some n => simp [h]
  · rw [h]

/-! ### Own output -/

theorem shortRef_not_image (a y q : Option Str) (h : ∀ t, a = some t → ¬ ImageName t) :
    ¬ ImageName (Citations.shortRef a y q) := by
  have key : ∀ t z : Str, ¬ ImageName t → ¬ ImageName (t ++ ',' :: z) := by
    rintro t z ht ⟨u, hu⟩
    have h1 : c!"Image URL from " <+: t ++ ',' :: z := ⟨u, hu.symm⟩
    have h2 : t ++ [','] <+: t ++ ',' :: z := ⟨z, by simp⟩
    rcases List.prefix_or_prefix_of_prefix h1 h2 with h3 | h3
    · rcases List.prefix_concat_iff.1 (by simpa using h3) with h4 | ⟨v, h4⟩
      · have : ',' ∈ c!"Image URL from " := by rw [h4]; simp
        revert this; decide
      · exact ht ⟨v, h4.symm⟩
    · have : ',' ∈ c!"Image URL from " := h3.subset (by simp)
      revert this; decide
  cases a with
  | none =>
    rintro ⟨u, hu⟩
    exact absurd (congrArg (·.head?) hu) (by simp [Citations.shortRef])
  | some t =>
    have ht := h t rfl
    cases y with
    | none => exact ht
    | some y =>
      cases q with
      | none => simpa [Citations.shortRef] using key t _ ht
      | some q => simpa [Citations.shortRef] using key t _ ht

theorem shortRef_not_icon (a y q : Option Str) (h : a ≠ some c!"Dataset Icon") :
    ¬ IconName (Citations.shortRef a y q) := by
  have key : ∀ t z : Str, t ++ ',' :: z ≠ c!"Dataset Icon" := by
    intro t z he
    have : ',' ∈ c!"Dataset Icon" := by rw [← he]; simp
    revert this; decide
  cases a with
  | none => intro he; exact absurd (congrArg (·.head?) he) (by simp [Citations.shortRef])
  | some t =>
    cases y with
    | none => intro he; exact h (congrArg some he)
    | some y =>
      cases q with
      | none => intro he; exact key t (c!" (" ++ y ++ c!")") (by simpa [IconName, Citations.shortRef] using he)
      | some q =>
        intro he; exact key t (c!" (" ++ y ++ c!") p. " ++ q) (by simpa [IconName, Citations.shortRef] using he)

/-- The name under which a source is written is made of its author, its year and its pages. A source of a property or a
parameter is written among the external documents; the data set cannot be converted back, unless the author is
called like an image or an icon. -/
theorem own_documents_stop (env : Env) (uuid : Str) (a y q : Option Str) (s : Sources)
    (h : ∀ t, a = some t → ¬ ImageName t) (h' : a ≠ some c!"Dataset Icon") :
    source env .documentation (written c!"sources" uuid (Citations.shortRef a y q)) s = .error .keyError :=
  documentation_stops env _ s _ (.inr rfl) (shortRef_not_image a y q h) (shortRef_not_icon a y q h')

example : (∀ t, some c!"Smith" = some t → ¬ ImageName t) ∧ some c!"Smith" ≠ some c!"Dataset Icon" := by
  refine ⟨?_, by decide⟩
  rintro t ht ⟨u, hu⟩
  cases ht
  exact absurd (congrArg (·.head?) hu) (by simp)

/-! ### Several sources -/

/-- The entry of the master data made from a reading. -/
def entryOf (r : Reading) : SourceEntry := ⟨r.id, r.cited.author, r.cited.year.getD c!"0000", r.title⟩

theorem citation_slot (p : Place) (hp : p = .exchange ∨ p = .publication) (x : Ref) (h : Plain x) :
    ∃ t, textOf x t ∧ slot t (decide (p = .picture)) = .regular ∧ Slot.regular ∈ p.slots := by
  have hb : decide (p = .picture) = false := by rcases hp with rfl | rfl <;> rfl
  have hs : Slot.regular ∈ p.slots := by rcases hp with rfl | rfl <;> simp [Place.slots]
  rw [hb]
  rcases h with h | ⟨t, h, h1, h2⟩
  · exact ⟨[], .inl ⟨h, rfl⟩, rfl, hs⟩
  · exact ⟨t, .inr h, by rw [slot_other t _ h1 h2]; rfl, hs⟩

/-- The state after a reading. -/
def after (p : Place) (r : Reading) (s : Sources) : Sources :=
  { s with
    fields := ⟨some r.id, some (addText p s.fields.author r.cited.author),
      match r.cited.year with
      | some y => some (addText p s.fields.year y)
      | none => s.fields.year,
      match r.cited.page with
      | some q => some q
      | none => s.fields.page⟩
    master := if r.id ∈ s.master.map (·.id) then s.master else s.master ++ [entryOf r] }

theorem source_reads (env : Env) (p : Place) (hp : p = .exchange ∨ p = .publication) (x : Ref) (s : Sources)
    (h : Plain x) (r : Reading) (hr : Reads env x r) :
    source env p x s = if r.cited.page.isSome && s.fields.page.isSome then .error .valueError else .ok (after p r s) := by
  obtain ⟨t, ht, hk, hs⟩ := citation_slot p hp x h
  obtain ⟨hid, l, n, name, hl, hn, hf, hname, hconv, hcite, htitle⟩ := hr
  unfold source
  rw [sourceShort_text x t ht, hn]
  simp only [bind_ok', hk]
  rw [if_neg (by simpa using hs)]
  unfold IsFile at hf
  simp only [if_neg hid, openFile, hl, if_pos hf, bind_ok']
  unfold cited
  simp only [hname, hconv, hcite, bind_ok']
  cases hpg : r.cited.page with
  | none => cases hy : r.cited.year <;> simp [after, hpg, entryOf, htitle, hy]
  | some q =>
    cases hold : s.fields.page with
    | none => cases hy : r.cited.year <;> simp [after, hpg, entryOf, htitle, hy]
    | some q' => simp

/-- A cited source whose file says no name stops the conversion. -/
theorem source_name_stops (env : Env) (p : Place) (hp : p = .exchange ∨ p = .publication) (x : Ref) (s : Sources)
    (h : Plain x) (l : List (Str × Bool)) (n u : Str) (hid : x.id ≠ []) (hl : env.sources = some l)
    (hn : getFile env.sources x = some n) (hf : IsFile l n) (hconv : env.conv x.id = .ok u)
    (hname : (env.sourceFile n).name = none) : source env p x s = .error .keyError := by
  obtain ⟨t, ht, hk, hs⟩ := citation_slot p hp x h
  unfold source
  rw [sourceShort_text x t ht, hn]
  simp only [bind_ok', hk]
  rw [if_neg (by simpa using hs)]
  unfold IsFile at hf
  simp only [if_neg hid, openFile, hl, if_pos hf, bind_ok']
  unfold cited
  simp only [hname, hconv, bind_ok']

theorem source_dropped (env : Env) (p : Place) (hp : p = .exchange ∨ p = .publication) (x : Ref) (s : Sources)
    (h : Plain x) (hd : Dropped env x) : source env p x s = .ok s := by
  obtain ⟨t, ht, hk, hs⟩ := citation_slot p hp x h
  exact dropped env p x s t ht (by rw [hk]; exact hs) hd

/-- The pages of the readings. -/
def pagesOf (rs : List Reading) : List Str := rs.filterMap (·.cited.page)

theorem sources_pages (env : Env) (p : Place) (hp : p = .exchange ∨ p = .publication) :
    ∀ (l : List Ref) (rs : List Reading) (s : Sources), ReadAll env l rs →
      sources env p l s = if (pagesOf rs).length + s.fields.page.toList.length ≤ 1 ∨ pagesOf rs = [] then
        .ok (rs.foldl (fun s r => after p r s) s) else .error .valueError
  | [], rs, s, h => by
    have : rs = [] := h
    subst this
    simp [sources, pagesOf]
  | x :: l, rs, s, h => by
    obtain ⟨hx, h⟩ := h
    unfold sources
    rcases h with ⟨hd, h⟩ | ⟨r, rs', rfl, -, hr, h⟩
    · rw [source_dropped env p hp x s hx hd, bind_ok']
      exact sources_pages env p hp l rs s h
    · rw [source_reads env p hp x s hx r hr]
      cases hpg : r.cited.page with
      | none =>
        simp only [Option.isSome_none, Bool.false_and, Bool.false_eq_true, if_false, bind_ok']
        rw [sources_pages env p hp l rs' _ h]
        have h1 : pagesOf (r :: rs') = pagesOf rs' := by simp [pagesOf, hpg]
        have h2 : (after p r s).fields.page = s.fields.page := by simp [after, hpg]
        rw [h1, h2]
        rfl
      | some q =>
        have h1 : pagesOf (r :: rs') = q :: pagesOf rs' := by simp [pagesOf, hpg]
        have h2 : (after p r s).fields.page = some q := by simp [after, hpg]
        cases hold : s.fields.page with
        | none =>
          simp only [Option.isSome_none, Bool.and_false, Bool.false_eq_true, if_false, bind_ok']
          rw [sources_pages env p hp l rs' _ h, h1, h2]
          by_cases hz : pagesOf rs' = []
          · simp [hz]
          · have : 0 < (pagesOf rs').length := List.length_pos_iff.2 hz
            rw [if_neg (by simp [hz]), if_neg (by simp [hz])]
        | some q' =>
          simp only [Option.isSome_some, Bool.and_self, if_true]
          rw [if_neg (by simp [h1])]
          rfl

/-- Two sources with pages on one exchange stop the conversion. -/
theorem two_pages_stop (env : Env) (p : Place) (hp : p = .exchange ∨ p = .publication) (l : List Ref)
    (rs : List Reading) (s : Sources) (hs : s.fields.page = none) (h : ReadAll env l rs) :
    sources env p l s = .error .valueError ↔ 1 < (rs.filterMap (·.cited.page)).length := by
  rw [sources_pages env p hp l rs s h, hs]
  unfold pagesOf
  by_cases hl : (rs.filterMap (·.cited.page)).length ≤ 1
  · rw [if_pos (by left; simpa using hl)]
    simp only [reduceCtorEq, false_iff]
    omega
  · rw [if_neg]
    · simp only [true_iff]; omega
    · rintro (h | h)
      · simp at h; omega
      · rw [h] at hl; simp at hl

theorem fold_exchange (rs : List Reading) : ∀ s : Sources,
    (rs.foldl (fun s r => after .exchange r s) s).fields =
      ⟨lastOf (rs.map fun r => some r.id) s.fields.id, lastOf (rs.map fun r => some r.cited.author) s.fields.author,
       lastOf (rs.map (·.cited.year)) s.fields.year, lastOf (rs.map (·.cited.page)) s.fields.page⟩ := by
  induction rs with
  | nil => intro s; rfl
  | cons r rs ih =>
    intro s
    rw [List.foldl_cons, ih]
    simp only [List.map_cons, lastOf, after, addText, Fields.mk.injEq, true_and]
    constructor
    · cases r.cited.year <;> rfl
    · cases r.cited.page <;> rfl

/-- An exchange with several sources: the identifier and the author are those of the last one; the year is the last one
that is known, and the pages are the only ones. -/
theorem exchange_sources (env : Env) (l : List Ref) (rs : List Reading) (s : Sources)
    (hs : s.fields = Fields.none) (h : ReadAll env l rs) (hp : (rs.filterMap (·.cited.page)).length ≤ 1) :
    ∃ s', sources env .exchange l s = .ok s' ∧ s'.fields =
      ⟨lastOf (rs.map fun r => some r.id) none, lastOf (rs.map fun r => some r.cited.author) none,
       lastOf (rs.map (·.cited.year)) none, lastOf (rs.map (·.cited.page)) none⟩ := by
  refine ⟨rs.foldl (fun s r => after .exchange r s) s, ?_, ?_⟩
  · rw [sources_pages env .exchange (.inl rfl) l rs s h, if_pos]
    left
    rw [hs]
    simpa [Fields.none, pagesOf] using hp
  · rw [fold_exchange, hs]
    rfl

/-- The texts that are joined. -/
def joinedWith (old : Option Str) : List Str → Option Str
  | [] => old
  | t :: l => joinedWith (some (addText .publication old t)) l

theorem joinedWith_some (o : Str) (l : List Str) : joinedWith (some o) l = some (join c!"; " (o :: l)) := by
  induction l generalizing o with
  | nil => simp [joinedWith, join]
  | cons t l ih =>
    rw [joinedWith, ih]
    congr 1
    cases l <;> simp [addText, join]

theorem joinedWith_none (t : Str) (l : List Str) : joinedWith none (t :: l) = some (join c!"; " (t :: l)) := by
  rw [joinedWith, joinedWith_some]
  rfl

theorem fold_publication (rs : List Reading) : ∀ s : Sources,
    (rs.foldl (fun s r => after .publication r s) s).fields =
      ⟨lastOf (rs.map fun r => some r.id) s.fields.id, joinedWith s.fields.author (rs.map (·.cited.author)),
       joinedWith s.fields.year (rs.filterMap (·.cited.year)), lastOf (rs.map (·.cited.page)) s.fields.page⟩ := by
  induction rs with
  | nil => intro s; rfl
  | cons r rs ih =>
    intro s
    rw [List.foldl_cons, ih]
    simp only [List.map_cons, lastOf, after, Fields.mk.injEq, true_and, joinedWith]
    constructor
    · cases hy : r.cited.year <;> simp [hy, joinedWith]
    · cases r.cited.page <;> rfl

/-- Several sources of the publication: their authors are joined, and their years. -/
theorem publication_sources (env : Env) (l : List Ref) (rs : List Reading) (s : Sources) (hne : rs ≠ [])
    (hs : s.fields = Fields.none) (h : ReadAll env l rs) (hp : (rs.filterMap (·.cited.page)).length ≤ 1) :
    ∃ s', sources env .publication l s = .ok s' ∧ s'.fields =
      ⟨lastOf (rs.map fun r => some r.id) none, some (join c!"; " (rs.map (·.cited.author))),
       if rs.filterMap (·.cited.year) = [] then none else some (join c!"; " (rs.filterMap (·.cited.year))),
       lastOf (rs.map (·.cited.page)) none⟩ := by
  refine ⟨rs.foldl (fun s r => after .publication r s) s, ?_, ?_⟩
  · rw [sources_pages env .publication (.inr rfl) l rs s h, if_pos]
    left
    rw [hs]
    simpa [Fields.none, pagesOf] using hp
  · rw [fold_publication, hs]
    cases rs with
    | nil => exact absurd rfl hne
    | cons r rs =>
      simp only [Fields.none, Fields.mk.injEq, true_and, and_true]
      constructor
      · rw [List.map_cons, joinedWith_none]
      · cases hy : (r :: rs).filterMap (·.cited.year) with
        | nil => rfl
        | cons y l => rw [joinedWith_none, if_neg (by simp)]

/-! ### The entries of the master data -/

theorem make_fold {C : Type} (l : List (Str × C)) : ∀ files : List (Str × C), (files.map (·.1)).Nodup →
    ((makeAll files l).map (·.1)).Nodup ∧ (∀ u, u ∈ (makeAll files l).map (·.1) ↔ u ∈ files.map (·.1) ∨ u ∈ l.map (·.1)) ∧
    (∀ u c, (u, c) ∈ makeAll files l ↔ (u, c) ∈ files ∨ (u ∉ files.map (·.1) ∧ FirstFor u c l)) := by
  induction l with
  | nil =>
    intro files hn
    refine ⟨hn, fun u => by simp [makeAll], fun u c => ?_⟩
    simp [makeAll, FirstFor]
  | cons w l ih =>
    intro files hn
    obtain ⟨wu, wc⟩ := w
    have hunf : makeAll files ((wu, wc) :: l) = makeAll (make files (wu, wc)) l := rfl
    have hff : ∀ u c, FirstFor u c ((wu, wc) :: l) ↔ (u = wu ∧ c = wc) ∨ (wu ≠ u ∧ FirstFor u c l) := by
      intro u c
      constructor
      · rintro ⟨a, b, h1, h2⟩
        cases a with
        | nil =>
          simp only [List.nil_append, List.cons.injEq, Prod.mk.injEq] at h1
          exact .inl ⟨h1.1.1.symm, h1.1.2.symm⟩
        | cons e a =>
          simp only [List.cons_append, List.cons.injEq] at h1
          obtain ⟨rfl, h1⟩ := h1
          exact .inr ⟨h2 _ List.mem_cons_self, a, b, h1, fun e he => h2 e (List.mem_cons_of_mem _ he)⟩
      · rintro (⟨rfl, rfl⟩ | ⟨h, a, b, h1, h2⟩)
        · exact ⟨[], l, rfl, by simp⟩
        · refine ⟨(wu, wc) :: a, b, by rw [h1]; rfl, fun e he => ?_⟩
          rcases List.mem_cons.1 he with rfl | he
          · exact h
          · exact h2 _ he
    rw [hunf]
    by_cases hw : wu ∈ files.map (·.1)
    · have hm : make files (wu, wc) = files := by unfold make; rw [if_pos hw]
      rw [hm]
      obtain ⟨h1, h2, h3⟩ := ih files hn
      refine ⟨h1, fun u => ?_, fun u c => ?_⟩
      · rw [h2 u]
        simp only [List.map_cons, List.mem_cons]
        constructor
        · rintro (h | h)
          · exact .inl h
          · exact .inr (.inr h)
        · rintro (h | rfl | h)
          · exact .inl h
          · exact .inl hw
          · exact .inr h
      · rw [h3 u c, hff]
        constructor
        · rintro (h | ⟨h, h'⟩)
          · exact .inl h
          · exact .inr ⟨h, .inr ⟨fun e => h (e ▸ hw), h'⟩⟩
        · rintro (h | ⟨h, ⟨rfl, rfl⟩ | ⟨-, h'⟩⟩)
          · exact .inl h
          · exact absurd hw h
          · exact .inr ⟨h, h'⟩
    · have hm : make files (wu, wc) = files ++ [(wu, wc)] := by unfold make; rw [if_neg hw]
      rw [hm]
      obtain ⟨h1, h2, h3⟩ := ih (files ++ [(wu, wc)]) (by
        rw [List.map_append, List.nodup_append]
        refine ⟨hn, by simp, ?_⟩
        rintro a ha b hb rfl
        simp only [List.map_cons, List.map_nil, List.mem_singleton] at hb
        exact hw (hb ▸ ha))
      refine ⟨h1, fun u => ?_, fun u c => ?_⟩
      · rw [h2 u]
        simp only [List.map_append, List.map_cons, List.map_nil, List.mem_append, List.mem_cons, List.not_mem_nil, or_false]
        exact or_assoc
      · rw [h3 u c, hff]
        simp only [List.map_append, List.map_cons, List.map_nil, List.mem_append, List.mem_cons, List.not_mem_nil,
          or_false, Prod.mk.injEq, not_or]
        constructor
        · rintro ((h | ⟨rfl, rfl⟩) | ⟨⟨h, h'⟩, h2⟩)
          · exact .inl h
          · exact .inr ⟨hw, .inl ⟨rfl, rfl⟩⟩
          · exact .inr ⟨h, .inr ⟨fun e => h' e.symm, h2⟩⟩
        · rintro (h | ⟨h, ⟨rfl, rfl⟩ | ⟨h', h2⟩⟩)
          · exact .inl (.inl h)
          · exact .inl (.inr ⟨rfl, rfl⟩)
          · exact .inr ⟨⟨h, fun e => h' e.symm⟩, h2⟩

theorem fold_master (p : Place) (rs : List Reading) : ∀ s : Sources,
    ((rs.foldl (fun s r => after p r s) s).master.map fun e => (e.id, e)) =
      makeAll (s.master.map fun e => (e.id, e)) (rs.map fun r => (r.id, entryOf r)) := by
  induction rs with
  | nil => intro s; rfl
  | cons r rs ih =>
    intro s
    rw [List.foldl_cons, ih]
    show makeAll _ _ = makeAll (make _ _) _
    congr 1
    unfold make after
    simp only [List.map_map, Function.comp_def]
    by_cases h : r.id ∈ s.master.map (·.id)
    · rw [if_pos h, if_pos h]
    · rw [if_neg h, if_neg h]
      simp [entryOf]

/-- Every source that is cited has one entry in the master data, and what it says is what was read the first time: a
later reading of the same source does not change it. -/
theorem master_sources (env : Env) (p : Place) (hp : p = .exchange ∨ p = .publication) (l : List Ref)
    (rs : List Reading) (s s' : Sources) (hs : (s.master.map (·.id)).Nodup) (h : ReadAll env l rs)
    (hok : sources env p l s = .ok s') :
    (s'.master.map (·.id)).Nodup ∧
    (∀ u, u ∈ s'.master.map (·.id) ↔ u ∈ s.master.map (·.id) ∨ u ∈ rs.map (·.id)) ∧
    (∀ e, e ∈ s'.master ↔ e ∈ s.master ∨ (e.id ∉ s.master.map (·.id) ∧
      ∃ a r b, rs = a ++ r :: b ∧ r.id = e.id ∧ (∀ q ∈ a, q.id ≠ e.id) ∧
        e.author = r.cited.author ∧ e.year = r.cited.year.getD c!"0000" ∧ e.title = r.title)) := by
  rw [sources_pages env p hp l rs s h] at hok
  have hs' : s' = rs.foldl (fun s r => after p r s) s := by
    split at hok
    · exact (Except.ok.inj hok).symm
    · cases hok
  have hkey : ∀ m : List SourceEntry, (m.map fun e => (e.id, e)).map (·.1) = m.map (·.id) := by
    intro m; simp [Function.comp_def]
  have hm := fold_master p rs s
  rw [← hs'] at hm
  obtain ⟨h1, h2, h3⟩ := make_fold (rs.map fun r => (r.id, entryOf r)) (s.master.map fun e => (e.id, e))
    (by rw [hkey]; exact hs)
  rw [← hm] at h1 h2 h3
  rw [hkey] at h1
  refine ⟨h1, fun u => ?_, fun e => ?_⟩
  · have := h2 u
    rw [hkey, hkey] at this
    simpa [Function.comp_def] using this
  · have hmem : ∀ m : List SourceEntry, (e.id, e) ∈ (m.map fun e => (e.id, e)) ↔ e ∈ m := by
      intro m
      simp only [List.mem_map, Prod.mk.injEq]
      constructor
      · rintro ⟨a, ha, -, rfl⟩; exact ha
      · intro ha; exact ⟨e, ha, rfl, rfl⟩
    have := h3 e.id e
    rw [hmem, hmem, hkey] at this
    rw [this]
    apply or_congr Iff.rfl
    apply and_congr Iff.rfl
    constructor
    · rintro ⟨a, b, hab, hf⟩
      obtain ⟨a', b', rfl, ha, hb⟩ := List.map_eq_append_iff.1 hab
      obtain ⟨r, b'', rfl, hr, hb⟩ := List.map_eq_cons_iff.1 hb
      simp only [Prod.mk.injEq] at hr
      refine ⟨a', r, b'', rfl, hr.1, fun q hq => ?_, ?_⟩
      · exact hf (q.id, entryOf q) (by rw [← ha]; exact List.mem_map_of_mem hq)
      · rw [← hr.2]; exact ⟨rfl, rfl, rfl⟩
    · rintro ⟨a, r, b, rfl, hr, hf, h4, h5, h6⟩
      refine ⟨a.map fun r => (r.id, entryOf r), b.map fun r => (r.id, entryOf r), ?_, ?_⟩
      · rw [List.map_append, List.map_cons]
        congr 2
        simp only [Prod.mk.injEq, hr, true_and]
        cases e
        simp only at hr h4 h5 h6
        simp [entryOf, hr, h4, h5, h6]
      · intro q hq
        obtain ⟨q', hq', rfl⟩ := List.mem_map.1 hq
        exact hf q' hq'

/-- An exchange may end with the author of one source and the year of another: the year is kept when the last source has
none. -/
theorem exchange_mixed : ∃ (env : Env) (l : List Ref) (s' : Sources),
    sources env .exchange l ⟨Fields.none, [], [], []⟩ = .ok s' ∧
    s'.fields = ⟨some c!"b2", some c!"Jones", some c!"2010", none⟩ ∧
    s'.master = [⟨c!"a1", c!"Smith", c!"2010", c!"Smith, (2010)"⟩, ⟨c!"b2", c!"Jones", c!"0000", c!"Jones"⟩] := by
  refine ⟨⟨some [(c!"a1.xml", true), (c!"b2.xml", true)], none,
    fun n => if n = c!"a1.xml" then ⟨some c!"Smith, (2010)", none, []⟩ else ⟨some c!"Jones", none, []⟩,
    fun _ => ⟨none, none⟩, .ok, Char.isDigit⟩,
    [written c!"sources" c!"a1" c!"Smith, (2010)", written c!"sources" c!"b2" c!"Jones"], _, rfl, ?_, ?_⟩ <;>
  decide +kernel

/-! ## Contacts -/

theorem contactShort_text (x : Ref) (t : Str) (h : textOf x t) : contactShort x.short = .ok t := by
  rcases h with ⟨h, rfl⟩ | h <;> rw [h] <;> rfl

/-- A short description without a language, or in several, stops the conversion at the first contact. -/
theorem contact_short_stops (env : Env) (r : Role) (x : Ref) (st : Holder × List ContactEntry) (u : Str)
    (hid : x.id ≠ []) (hc : env.conv x.id = .ok u)
    (h : (∃ t, x.short = .plain t) ∨ ∃ l, x.short = .many l) : contact env r x st = .error .attributeError := by
  rcases h with ⟨t, h⟩ | ⟨t, h⟩ <;> · unfold contact contactInit; rw [if_neg hid, hc, h]; rfl

/-- A contact file without a name stops the conversion. -/
theorem contact_name_stops (env : Env) (r : Role) (x : Ref) (st : Holder × List ContactEntry) (u t n : Str)
    (l : List (Str × Bool)) (hid : x.id ≠ []) (hc : env.conv x.id = .ok u) (ht : textOf x t)
    (hl : env.contacts = some l) (hn : getFile env.contacts x = some n) (hf : IsFile l n)
    (hname : (env.contactFile n).name = none) : contact env r x st = .error .keyError := by
  unfold contact contactInit
  rw [if_neg hid, hc, contactShort_text x t ht, hn]
  unfold IsFile at hf
  simp only [bind_ok', if_neg hid, openFile, hl, if_pos hf, hname]

theorem contact_step (env : Env) (r : Role) (x : Ref) (m : List ContactEntry) (h : Holder) (c : Option CReading)
    (hc : CStep env r x h c) :
    contact env r x (⟨none, none, none⟩, m) = .ok (h, match c with
      | none => m
      | some c => if c.id ∈ m.map (·.id) then m else m ++ [c.entry]) := by
  rcases hc with ⟨hid, rfl, rfl⟩ | ⟨hid, u, t, hconv, ht, hg, rfl, rfl⟩ |
    ⟨hid, u, t, l, n, name, hconv, ht, hl, hn, hf, hname, rfl, rfl⟩
  · unfold contact contactInit
    simp only [if_pos hid, bind_ok']
    split <;> rfl
  · unfold contact contactInit
    simp only [if_neg hid, hconv, contactShort_text x t ht, hg, bind_ok']
    cases r <;> rfl
  · unfold contact contactInit
    unfold IsFile at hf
    have hct := contactShort_text x t ht
    rw [hl] at hn
    simp only [hl, hct, hn, hconv, bind_ok', if_neg hid, openFile, if_pos hf, hname]
    cases r <;> rfl

theorem contacts_all (env : Env) : ∀ (l : List (Role × Ref)) (hs : List (Role × Holder)) (cs : List CReading)
    (m : List ContactEntry), CAll env l hs cs →
    ∃ m', contacts env l m = .ok (hs, m') ∧
      (m'.map fun e => (e.id, e)) = makeAll (m.map fun e => (e.id, e)) (cs.map fun c => (c.id, c.entry))
  | [], hs, cs, m, h => by
    obtain ⟨rfl, rfl⟩ := h
    exact ⟨m, rfl, rfl⟩
  | (r, x) :: l, hs, cs, m, h => by
    obtain ⟨hd, hs', c, cs', rfl, rfl, hstep, hrest⟩ := h
    obtain ⟨m', h1, h2⟩ := contacts_all env l hs' cs' (match c with
      | none => m
      | some c => if c.id ∈ m.map (·.id) then m else m ++ [c.entry]) hrest
    refine ⟨m', ?_, ?_⟩
    · unfold contacts
      rw [contact_step env r x m hd c hstep, bind_ok']
      simp only
      rw [h1]
      rfl
    · rw [h2]
      cases c with
      | none => rfl
      | some c =>
        show _ = makeAll (make _ _) _
        congr 1
        unfold make
        simp only [List.map_map, Function.comp_def]
        by_cases hm : c.id ∈ m.map (·.id)
        · rw [if_pos hm, if_pos hm]
        · rw [if_neg hm, if_neg hm]
          simp [CReading.entry]

/-- What the contacts of a data set give: where they are referenced, the identifiers and names; in the master data one
entry for each identifier, made from the first reference with this identifier whose file is found. -/
theorem contacts_exact (env : Env) (l : List (Role × Ref)) (hs : List (Role × Holder)) (cs : List CReading)
    (m : List ContactEntry) (hm : (m.map (·.id)).Nodup) (h : CAll env l hs cs) :
    ∃ m', contacts env l m = .ok (hs, m') ∧ (m'.map (·.id)).Nodup ∧
      (∀ u, u ∈ m'.map (·.id) ↔ u ∈ m.map (·.id) ∨ u ∈ cs.map (·.id)) ∧
      (∀ e, e ∈ m' ↔ e ∈ m ∨ (e.id ∉ m.map (·.id) ∧
        ∃ a c b, cs = a ++ c :: b ∧ (∀ q ∈ a, q.id ≠ e.id) ∧ e = c.entry)) := by
  obtain ⟨m', h1, h2⟩ := contacts_all env l hs cs m h
  have hkey : ∀ m : List ContactEntry, (m.map fun e => (e.id, e)).map (·.1) = m.map (·.id) := by
    intro m; simp [Function.comp_def]
  obtain ⟨h3, h4, h5⟩ := make_fold (cs.map fun c => (c.id, c.entry)) (m.map fun e => (e.id, e)) (by rw [hkey]; exact hm)
  rw [← h2] at h3 h4 h5
  rw [hkey] at h3
  refine ⟨m', h1, h3, fun u => ?_, fun e => ?_⟩
  · have := h4 u
    rw [hkey, hkey] at this
    simpa [Function.comp_def] using this
  · have hmem : ∀ m : List ContactEntry, (e.id, e) ∈ (m.map fun e => (e.id, e)) ↔ e ∈ m := by
      intro m
      simp only [List.mem_map, Prod.mk.injEq]
      constructor
      · rintro ⟨a, ha, -, rfl⟩; exact ha
      · intro ha; exact ⟨e, ha, rfl, rfl⟩
    have := h5 e.id e
    rw [hmem, hmem, hkey] at this
    rw [this]
    apply or_congr Iff.rfl
    apply and_congr Iff.rfl
    constructor
    · rintro ⟨a, b, hab, hf⟩
      obtain ⟨a', b', rfl, ha, hb⟩ := List.map_eq_append_iff.1 hab
      obtain ⟨c, b'', rfl, hc, hb⟩ := List.map_eq_cons_iff.1 hb
      simp only [Prod.mk.injEq] at hc
      refine ⟨a', c, b'', rfl, fun q hq => ?_, hc.2.symm⟩
      exact hf (q.id, q.entry) (by rw [← ha]; exact List.mem_map_of_mem hq)
    · rintro ⟨a, c, b, rfl, hf, rfl⟩
      refine ⟨a.map fun c => (c.id, c.entry), b.map fun c => (c.id, c.entry), ?_, ?_⟩
      · rw [List.map_append, List.map_cons]
        rfl
      · intro q hq
        obtain ⟨q', hq', rfl⟩ := List.mem_map.1 hq
        exact hf q' hq'

/-- A person has an entry among the persons exactly if the first reference with this identifier whose file is found is to
a person: one that is met as a company first has none, and the other way round. -/
theorem kind_of_first (env : Env) (l : List (Role × Ref)) (hs : List (Role × Holder)) (cs : List CReading)
    (h : CAll env l hs cs) (u : Str) (k : Bool) :
    ∃ m', contacts env l [] = .ok (hs, m') ∧
      ((∃ e ∈ m', e.id = u ∧ e.company = k) ↔
        ∃ a c b, cs = a ++ c :: b ∧ c.id = u ∧ (∀ q ∈ a, q.id ≠ u) ∧ (c.role = .company ↔ k = true)) := by
  obtain ⟨m', h1, -, -, h4⟩ := contacts_exact env l hs cs [] (by simp) h
  refine ⟨m', h1, ?_⟩
  constructor
  · rintro ⟨e, he, rfl, rfl⟩
    rcases (h4 e).1 he with h | ⟨-, a, c, b, rfl, hf, rfl⟩
    · simp at h
    · exact ⟨a, c, b, rfl, rfl, hf, by simp [CReading.entry]⟩
  · rintro ⟨a, c, b, rfl, rfl, hf, hk⟩
    refine ⟨c.entry, (h4 _).2 (.inr ⟨by simp, a, c, b, rfl, hf, rfl⟩), rfl, ?_⟩
    cases k <;> cases hr : c.role <;> simp_all [CReading.entry]

/-- A contact without a file is named where it is referenced, but there is no entry to which the identifier leads. -/
theorem missing_contact_dangles (env : Env) (r : Role) (x : Ref) (u t : Str) (hid : x.id ≠ [])
    (hc : env.conv x.id = .ok u) (ht : textOf x t) (hg : getFile env.contacts x = none) :
    ∃ h, contacts env [(r, x)] [] = .ok ([(r, h)], []) ∧ h.id = some u ∧ h.name = some t := by
  obtain ⟨m', h1, -, h3, -⟩ := contacts_exact env [(r, x)]
    [(r, ⟨some u, some t, if r = .company then none else some []⟩)] [] [] (by simp)
    ⟨_, [], none, [], rfl, rfl, .inr (.inl ⟨hid, u, t, hc, ht, hg, rfl, rfl⟩), rfl, rfl⟩
  have hm : m' = [] := by
    have : ∀ u, u ∉ m'.map (·.id) := fun u hu => by simpa using (h3 u).1 hu
    cases m' with
    | nil => rfl
    | cons e m' => exact absurd (by simp) (this e.id)
  exact ⟨_, by rw [h1, hm], rfl, rfl⟩

/-! ## There and back -/

/-- Every identifier has one file, and it holds what was written for the first reference. -/
theorem files_of_first {C : Type} (l : List (Str × C)) : ((makeAll [] l).map (·.1)).Nodup ∧
    (∀ u, u ∈ (makeAll [] l).map (·.1) ↔ u ∈ l.map (·.1)) ∧
    (∀ u c, (u, c) ∈ makeAll [] l ↔ FirstFor u c l) := by
  obtain ⟨h1, h2, h3⟩ := make_fold l [] (by simp)
  exact ⟨h1, fun u => by simpa using h2 u, fun u c => by simpa using h3 u c⟩

/-- A source as cited by an exchange. -/
structure Cite where
  uuid : Str
  author : Str
  year : Str
  pages : Str

def Cite.name (c : Cite) : Str := Citations.shortRef (some c.author) (some c.year) (some c.pages)

/-- The archive holds exactly the files written for the sources that are cited. -/
structure Archive (env : Env) (cs : List Cite) : Prop where
  folder : ∃ l, env.sources = some l ∧ ∀ e, e ∈ l ↔ ∃ u ∈ cs.map (·.uuid), e = (fileName u, true)
  content : ∀ u n, (u, n) ∈ makeAll [] (cs.map fun c => (c.uuid, c.name)) →
    (env.sourceFile (fileName u)).name = some n ∧
      ((env.sourceFile (fileName u)).citation = none ∨ (env.sourceFile (fileName u)).citation = some n)
  conv : ∀ u, env.conv u = .ok u

/-- Exchanges that cite the same source with different pages all come back with the author, the year and the pages of the
first of them, since there is one file for the source and the pages are only in its name. -/
theorem pages_of_first (env : Env) (cs : List Cite) (ha : Archive env cs)
    (hl : ∀ c ∈ cs, c.uuid.length = 36 ∧ '/' ∉ c.uuid) (hd : Citations.Spec.Digits env.digit)
    (hn : env.digit '\n' = false) (a b : List Cite) (f c : Cite) (hab : cs = a ++ f :: b)
    (hf : ∀ q ∈ a, q.uuid ≠ f.uuid) (hc : c.uuid = f.uuid) (hcc : ¬ ImageName c.author)
    (hy : Citations.Spec.Year env.digit f.year) (hfa : '\n' ∉ f.author) (hfp : '\n' ∉ f.pages)
    (hpy : Citations.Spec.NoYear env.digit c!" p. " (' ' :: f.pages)) (s : Sources) (hs : s.fields = Fields.none) :
    ∃ s', source env .exchange (written c!"sources" c.uuid c.name) s = .ok s' ∧
      s'.fields = ⟨some f.uuid, some (lstrip f.author), some f.year, some (strip f.pages)⟩ := by
  obtain ⟨l, hl1, hl2⟩ := ha.folder
  have hfin : f ∈ cs := by rw [hab]; simp
  have hfile : getFile env.sources (written c!"sources" c.uuid c.name) = some (fileName f.uuid) := by
    rw [hl1, hc]
    exact own_files_found (cs.map (·.uuid)) (fun u hu => by
      obtain ⟨c, hc, rfl⟩ := List.mem_map.1 hu
      exact hl c hc) l hl2 f.uuid (List.mem_map_of_mem hfin) _ _
  have hmem : (f.uuid, f.name) ∈ makeAll [] (cs.map fun c => (c.uuid, c.name)) := by
    refine ((files_of_first _).2.2 _ _).2 ⟨a.map fun c => (c.uuid, c.name), b.map fun c => (c.uuid, c.name), ?_, ?_⟩
    · rw [hab, List.map_append, List.map_cons]
    · intro e he
      obtain ⟨q, hq, rfl⟩ := List.mem_map.1 he
      exact hf q hq
  obtain ⟨hname, hcit⟩ := ha.content _ _ hmem
  have hne : f.uuid ≠ [] := by
    intro h
    have := (hl f hfin).1
    rw [h] at this
    simp at this
  have hplain : Plain (written c!"sources" c.uuid c.name) :=
    .inr ⟨c.name, rfl, shortRef_not_image _ _ _ (by rintro t ht; cases ht; exact hcc), fun h => by
      have : ',' ∈ c!"Dataset Icon" := by
        rw [← show c.name = c!"Dataset Icon" from h]
        simp [Cite.name, Citations.shortRef]
      revert this
      decide⟩
  have hreads : Reads env (written c!"sources" c.uuid c.name)
      ⟨f.uuid, ⟨lstrip f.author, some f.year, some (strip f.pages)⟩,
        strip ((env.sourceFile (fileName f.uuid)).citation.getD f.name)⟩ := by
    refine ⟨by rw [show (written c!"sources" c.uuid c.name).id = c.uuid from rfl, hc]; exact hne,
      l, fileName f.uuid, f.name, hl1, hfile, (hl2 _).2 ⟨f.uuid, List.mem_map_of_mem hfin, rfl⟩, hname, ?_, ?_, rfl⟩
    · rw [show (written c!"sources" c.uuid c.name).id = c.uuid from rfl, hc]; exact ha.conv _
    · exact Citations.pages_round_trip env.digit hd f.author f.year f.pages hy hfa hn hfp hpy _ hcit
  refine ⟨_, by rw [source_reads env .exchange (.inl rfl) _ s hplain _ hreads, hs]; rfl, ?_⟩
  simp [after, addText]

/-! ## Cases -/

/-- An identifier of 36 characters. -/
def u1 : Str := c!"a97a0155-0234-4b87-b4ce-a45da52f2a40"
def u2 : Str := c!"b97a0155-0234-4b87-b4ce-a45da52f2a41"

/-- Two exchanges cite one source with different pages, a third another source. -/
def cites : List Cite :=
  [⟨u1, c!"Smith", c!"2010", c!"3-5"⟩, ⟨u2, c!"Jones", c!"1999", c!"7"⟩, ⟨u1, c!"Smith", c!"2010", c!"12"⟩]

def archive : Env :=
  ⟨some [(fileName u2, true), (fileName u1, true)], some [(fileName u1, true)],
   fun n => if n = fileName u1 then ⟨some c!"Smith, (2010) p. 3-5", none, []⟩
     else ⟨some c!"Jones, (1999) p. 7", none, []⟩,
   fun _ => ⟨some c!"Company", some c!"a@b.c"⟩, .ok, Char.isDigit⟩

example : Archive archive cites := by
  refine ⟨⟨_, rfl, fun e => ?_⟩, ?_, fun u => rfl⟩
  · simp only [cites, List.map_cons, List.map_nil, List.mem_cons, List.not_mem_nil, or_false, exists_eq_or_imp,
      exists_eq_left]
    constructor
    · rintro (h | h) <;> simp [h]
    · rintro (h | h | h) <;> simp [h]
  · have hm : makeAll [] (cites.map fun c => (c.uuid, c.name)) =
        [(u1, c!"Smith, (2010) p. 3-5"), (u2, c!"Jones, (1999) p. 7")] := by decide +kernel
    rw [hm]
    intro u n h
    simp only [List.mem_cons, Prod.mk.injEq, List.not_mem_nil, or_false] at h
    rcases h with ⟨rfl, rfl⟩ | ⟨rfl, rfl⟩
    · exact ⟨rfl, .inl rfl⟩
    · exact ⟨rfl, .inl rfl⟩

/-- The third exchange of these comes back with the pages of the first. -/
example : ((source archive .exchange (written c!"sources" u1 c!"Smith, (2010) p. 12")
    ⟨Fields.none, [], [], []⟩).toOption.map (·.fields)) =
      some ⟨some u1, some c!"Smith", some c!"2010", some c!"3-5"⟩ := by
  decide +kernel

example : (∀ c ∈ cites, c.uuid.length = 36 ∧ '/' ∉ c.uuid) ∧ (archive.digit '\n' = false) ∧
    Citations.Spec.Year archive.digit c!"2010" := by
  refine ⟨?_, by decide, by decide, ?_⟩
  · intro c hc
    simp only [cites, List.mem_cons, List.not_mem_nil, or_false] at hc
    rcases hc with rfl | rfl | rfl <;> constructor <;> decide
  · show ∀ c ∈ c!"2010", Char.isDigit c = true
    decide

/-- Two sources of an exchange, one with pages, and a third whose file is missing. -/
example : ∃ rs, ReadAll { archive with sourceFile := fun n => if n = fileName u1 then ⟨some c!"Smith, (2010) p. 3", none, []⟩
      else ⟨some c!"Jones", none, []⟩ }
    [written c!"sources" u1 c!"Smith", written c!"sources" c!"zz" c!"Gone", written c!"sources" u2 c!"Jones"] rs ∧
    (rs.filterMap (·.cited.page)).length ≤ 1 ∧ rs.length = 2 := by
  have hp : ∀ (u t : Str) (c : Char), t.head? = some c → c ≠ 'I' → c ≠ 'D' → Plain (written c!"sources" u t) := by
    intro u t c h1 h2 h3
    refine .inr ⟨t, rfl, ?_, ?_⟩
    · rintro ⟨v, rfl⟩; simp at h1; exact h2 h1.symm
    · intro h; rw [show t = c!"Dataset Icon" from h] at h1; simp at h1; exact h3 h1.symm
  refine ⟨[⟨u1, ⟨c!"Smith", some c!"2010", some c!"3"⟩, c!"Smith, (2010) p. 3"⟩, ⟨u2, ⟨c!"Jones", none, none⟩, c!"Jones"⟩],
    ⟨hp _ _ 'S' rfl (by decide) (by decide), .inr ⟨_, _, rfl, ?_, ?_, ?_⟩⟩, by decide, rfl⟩
  · rintro (h | h) <;> revert h <;> decide +kernel
  · exact ⟨by decide, _, fileName u1, c!"Smith, (2010) p. 3", rfl, by decide +kernel, by simp [IsFile], by decide +kernel, rfl,
      by decide +kernel, by decide +kernel⟩
  refine ⟨hp _ _ 'G' rfl (by decide) (by decide), .inl ⟨.inr (by decide +kernel), ?_⟩⟩
  refine ⟨hp _ _ 'J' rfl (by decide) (by decide), .inr ⟨_, _, rfl, ?_, ?_, rfl⟩⟩
  · rintro (h | h) <;> revert h <;> decide +kernel
  · exact ⟨by decide, _, fileName u2, c!"Jones", rfl, by decide +kernel, by simp [IsFile], by decide +kernel, rfl,
      by decide +kernel, by decide +kernel⟩

/-- A company that is also a person, and a contact without a file. -/
example : ∃ hs cs, CAll archive [(.company, written c!"contacts" u1 c!"Company"), (.person, written c!"contacts" u1 c!"P"),
    (.person, written c!"contacts" u2 c!"Q")] hs cs ∧ cs.length = 2 := by
  refine ⟨_, _, ⟨_, _, some _, _, rfl, rfl, .inr (.inr ⟨by decide, u1, c!"Company", _, fileName u1, c!"Company", rfl,
      .inr rfl, rfl, by decide +kernel, by simp [IsFile], rfl, rfl, rfl⟩), ⟨_, _, some _, _, rfl, rfl,
      .inr (.inr ⟨by decide, u1, c!"P", _, fileName u1, c!"Company", rfl,
      .inr rfl, rfl, by decide +kernel, by simp [IsFile], rfl, rfl, rfl⟩), ⟨_, _, none, _, rfl, rfl,
      .inr (.inl ⟨by decide, u2, c!"Q", rfl, .inr rfl, by decide +kernel, rfl, rfl⟩), rfl, rfl⟩⟩⟩, rfl⟩

/-- The person has no entry. -/
example : ((contacts archive [(.company, written c!"contacts" u1 c!"Company"), (.person, written c!"contacts" u1 c!"P"),
    (.person, written c!"contacts" u2 c!"Q")] []).toOption.map (·.2)) = some [⟨true, u1, c!"Company", []⟩] := by
  decide +kernel

/-- A picture that is found. -/
example : textOf (written c!"sources" u1 c!"Picture") c!"Picture" ∧ ¬ IconName c!"Picture" ∧
    getFile archive.sources (written c!"sources" u1 c!"Picture") = some (fileName u1) := by
  refine ⟨.inr rfl, ?_, by decide +kernel⟩
  unfold IconName
  decide

end Verif.Refs
