/-
What `get_converter` accepts and what the options can hold.
-/
import Verif.Model.Options
import Verif.Lemmas.Assoc
import Mathlib.Tactic.Tauto
import Mathlib.Tactic.NormNum

namespace Verif.Options

/-! ### Options -/

/-- C27, acceptance: a guarded option takes a value exactly when it is equal to a boolean; otherwise
`TypeError`; attributes that are not guarded take everything. -/
theorem setAttr_iff (options : List Str) (attrs : List (Str × Val)) (key : Str) (v : Val) :
    setAttr options attrs key v =
      if guarded options key = true ∧ v ∉ [.bool true, .bool false, .int 1, .int 0, .float 1, .float 0]
      then .error .typeError else .ok (aset key v attrs) := by
  have hv : isFlag v = true ↔ v ∈ [Val.bool true, .bool false, .int 1, .int 0, .float 1, .float 0] := by
    cases v with
    | bool b => cases b <;> simp [isFlag, Val.num]
    | int n =>
      simp only [isFlag, Val.num, Bool.or_eq_true, beq_iff_eq, Option.some.injEq, List.mem_cons,
        reduceCtorEq, Val.int.injEq, List.not_mem_nil, or_false, false_or]
      norm_cast
    | float q => simp [isFlag, Val.num]
    | str s => simp [isFlag, Val.num]
    | other n => simp [isFlag, Val.num]
  simp only [setAttr, Bool.and_eq_true, Bool.not_eq_true', ← hv, Bool.not_eq_true]

/-- C27: a rejected assignment keeps what was there. -/
theorem rejected_keeps {options : List Str} {attrs : List (Str × Val)} {key : Str} {v : Val} {e : PyErr}
    (h : setAttr options attrs key v = .error e) : e = .typeError ∧ assign options attrs (key, v) = attrs := by
  refine ⟨?_, by simp [assign, h]⟩
  simp only [setAttr] at h
  split at h
  · simpa using h.symm
  · simp at h

/-- C27, as far as it holds: whatever a user assigns, in any order, a guarded option always holds one of
the six values that are equal to a boolean. -/
theorem options_hold_flags_partial (options : List Str) (key : Str) (hk : guarded options key = true)
    (hist : List (Str × Val)) :
    ∀ attrs : List (Str × Val), (∀ v, aget key attrs = some v → isFlag v = true) →
      ∀ v, aget key (hist.foldl (assign options) attrs) = some v → isFlag v = true := by
  induction hist with
  | nil => intro attrs h; exact h
  | cons p hist ih =>
    intro attrs h
    refine ih _ ?_
    intro v hv
    simp only [assign, setAttr] at hv
    split at hv
    · rename_i a ha
      split at ha
      · simp at ha
      · rename_i hg
        simp only [Except.ok.injEq] at ha
        subst ha
        rw [aget_aset] at hv
        split at hv
        · rename_i hkp
          subst hkp
          simp only [Option.some.injEq] at hv
          subst hv
          simpa [hk] using hg
        · exact h v hv
    · exact h v hv

/-- C27 fails as stated: an option can hold `1` or `0.0`, which are no booleans. -/
theorem number_accepted (options : List Str) (attrs : List (Str × Val)) (key : Str) :
    setAttr options attrs key (.int 1) = .ok (aset key (.int 1) attrs) ∧
    setAttr options attrs key (.float 0) = .ok (aset key (.float 0) attrs) := by
  constructor <;> simp [setAttr, isFlag, Val.num]

/-- A new converter holds a boolean in each of its options, so the history above starts well. -/
theorem defaults_bool (i o : Str × Str) (key : Str) :
    ∀ v, aget key (makeConv i o).attrs = some v → ∃ b, v = .bool b := by
  have : ∀ (d : List (Str × Bool)) (a : List (Str × Val)),
      (∀ v, aget key a = some v → ∃ b, v = .bool b) →
      ∀ v, aget key (d.foldl (fun a p => aset p.1 (Val.bool p.2) a) a) = some v → ∃ b, v = .bool b := by
    intro d
    induction d with
    | nil => intro a h; exact h
    | cons p d ih =>
      intro a h
      refine ih _ ?_
      intro v hv
      rw [aget_aset] at hv
      split at hv
      · simp only [Option.some.injEq] at hv
        exact ⟨_, hv.symm⟩
      · exact h v hv
  exact this _ [] (by simp [aget])

/-- Every option of a converter is there from the start. -/
theorem options_present (i o : Str × Str) :
    ∀ k ∈ (makeConv i o).options, (aget k (makeConv i o).attrs).isSome = true := by
  intro k hk
  have key : ∀ (d : List (Str × Bool)) (a : List (Str × Val)),
      (k ∈ a.map Prod.fst ∨ k ∈ d.map Prod.fst) →
      (aget k (d.foldl (fun a p => aset p.1 (Val.bool p.2) a) a)).isSome = true := by
    intro d
    induction d with
    | nil => intro a h; rw [List.foldl_nil, aget_isSome]; simpa using h
    | cons p d ih =>
      intro a h
      rw [List.foldl_cons]
      apply ih
      rw [← aget_isSome, aget_aset]
      by_cases hp : k = p.1
      · simp [hp]
      · simp only [hp, ↓reduceIte, aget_isSome]
        simpa [hp] using h
  refine key _ _ (.inr ?_)
  simp only [makeConv] at hk
  simp only [defaults, List.map_cons, List.mem_cons]
  exact .inr (.inr hk)

example : guarded (makeConv (c!"EcoSpold2", c!"ecoinvent3.7") (c!"ILCD1", c!"EF3.0")).options
    c!"convert_properties" = true := by decide

/-! ### get_converter -/

/-- The elementary flow lists of the formats, as documented. -/
def Documented (format ef : Str) : Prop :=
  (format = c!"EcoSpold2" ∧ ef = c!"ecoinvent3.7") ∨ (format = c!"ILCD1" ∧ ef = c!"EF3.0") ∨
    (format = c!"OLCAILCD1" ∧ ef = c!"EF3.0")

/-- The input path is usable: a directory, or a file with an extension of the format. -/
def UsableInput (format : Str) (e : Entry) : Prop :=
  e = .dir ∨ ∃ n, e = .file n ∧ ∃ x ∈ extensions format, ∃ stem, n = stem ++ x

theorem verifyInput_ok (name : Str) (e : Entry) : verifyInput name e = .ok () ↔ UsableInput name e := by
  cases e with
  | missing => simp [verifyInput, UsableInput]
  | dir => simp [verifyInput, UsableInput]
  | special => simp [verifyInput, UsableInput]
  | file n =>
    simp only [verifyInput, UsableInput, reduceCtorEq, Entry.file.injEq, false_or, exists_eq_left']
    constructor
    · intro h
      split at h
      · rename_i hx
        obtain ⟨x, hx, hs⟩ := List.any_eq_true.1 hx
        obtain ⟨stem, hst⟩ := List.isSuffixOf_iff_suffix.1 hs
        exact ⟨x, hx, stem, hst.symm⟩
      · simp at h
    · rintro ⟨x, hx, stem, hst⟩
      rw [if_pos]
      exact List.any_eq_true.2 ⟨x, hx, List.isSuffixOf_iff_suffix.2 ⟨stem, hst.symm⟩⟩

theorem efTypes_str {s : Str} {l : List Str} (h : efTypes (.str s) = .ok l) :
    s ∈ formats ∧ ∀ x, x ∈ l ↔ Documented s x := by
  simp only [efTypes] at h
  split at h
  · rename_i l' hl
    simp only [Except.ok.injEq] at h
    subst h
    have := aget_mem hl
    simp only [List.mem_cons, Prod.mk.injEq, List.not_mem_nil, or_false] at this
    rcases this with ⟨rfl, rfl⟩ | ⟨rfl, rfl⟩ | ⟨rfl, rfl⟩ <;>
      exact ⟨by decide, fun x => by simp [Documented]⟩
  · simp at h

theorem efTypes_formats {s : Str} (h : s ∈ formats) : ∃ l, efTypes (.str s) = .ok l := by
  simp only [formats, List.mem_cons, List.not_mem_nil, or_false] at h
  rcases h with rfl | rfl | rfl
  · exact ⟨[c!"ecoinvent3.7"], by decide⟩
  · exact ⟨[c!"EF3.0"], by decide⟩
  · exact ⟨[c!"EF3.0"], by decide⟩

theorem checkArg_ok {same : Bool} {a : Arg} {valid : List Str} {s : Str} :
    checkArg same a valid = .ok s ↔ a = .str s ∧ (s ∈ valid ∨ same = true) := by
  cases a with
  | other h => simp [checkArg]
  | str t =>
    simp only [checkArg, Arg.str.injEq]
    by_cases ht : t ∈ valid <;> cases same <;> simp [ht]
    all_goals (try (rintro rfl; exact ht))
    all_goals (try (intro h; subst h; exact ht))

/-- C28. `get_converter` returns a converter exactly when the formats are known and all four names are
texts, the elementary flow lists are the documented ones or the two formats are equal, the output path
is a directory and the input path is a directory or a file with an extension of the input format. -/
theorem getConverter_ok_iff (fs : Str → Entry) (i o : Arg × Arg) (path save : Str) :
    (∃ c, getConverter fs i o path save = .ok c) ↔
      ∃ i0 i1 o0 o1, i = (.str i0, .str i1) ∧ o = (.str o0, .str o1) ∧ i0 ∈ formats ∧ o0 ∈ formats ∧
        (i0 = o0 ∨ (Documented i0 i1 ∧ Documented o0 o1)) ∧ fs save = .dir ∧
        UsableInput i0 (fs path) := by
  constructor
  · rintro ⟨c, h⟩
    obtain ⟨ia, ib⟩ := i
    obtain ⟨oa, ob⟩ := o
    simp only [getConverter, bind, Except.bind, throw, throwThe, MonadExceptOf.throw, pure,
      Except.pure] at h
    cases hvi : efTypes ia with
    | error e => simp [hvi] at h
    | ok vi =>
      cases hvo : efTypes oa with
      | error e => simp [hvi, hvo] at h
      | ok vo =>
        cases h0 : checkArg (ia == oa) ia formats with
        | error e => simp [hvi, hvo, h0] at h
        | ok i0 =>
          cases h1 : checkArg (ia == oa) oa formats with
          | error e => simp [hvi, hvo, h0, h1] at h
          | ok o0 =>
            cases h2 : checkArg (ia == oa) ib vi with
            | error e => simp [hvi, hvo, h0, h1, h2] at h
            | ok i1 =>
              cases h3 : checkArg (ia == oa) ob vo with
              | error e => simp [hvi, hvo, h0, h1, h2, h3] at h
              | ok o1 =>
                simp only [hvi, hvo, h0, h1, h2, h3] at h
                obtain ⟨rfl, _⟩ := checkArg_ok.1 h0
                obtain ⟨rfl, _⟩ := checkArg_ok.1 h1
                obtain ⟨rfl, hi1⟩ := checkArg_ok.1 h2
                obtain ⟨rfl, ho1⟩ := checkArg_ok.1 h3
                obtain ⟨hfi, hdi⟩ := efTypes_str hvi
                obtain ⟨hfo, hdo⟩ := efTypes_str hvo
                have hsave : fs save = .dir := by
                  by_contra hs
                  by_cases hm : fs path = .missing <;> simp [hs, hm] at h
                have hin : UsableInput i0 (fs path) := by
                  rw [← verifyInput_ok]
                  by_cases hm : fs path = .missing
                  · simp [hm] at h
                  · cases hv : verifyInput i0 (fs path) with
                    | ok u => rfl
                    | error e => simp [hm, hsave, hv] at h
                refine ⟨i0, i1, o0, o1, rfl, rfl, hfi, hfo, ?_, hsave, hin⟩
                by_cases he : i0 = o0
                · exact .inl he
                · right
                  have hs : (Arg.str i0 == Arg.str o0) = false := by simp [he]
                  simp only [hs, Bool.false_eq_true, or_false] at hi1 ho1
                  exact ⟨(hdi _).1 hi1, (hdo _).1 ho1⟩
  · rintro ⟨i0, i1, o0, o1, rfl, rfl, hfi, hfo, hef, hsave, hin⟩
    obtain ⟨vi, hvi⟩ := efTypes_formats hfi
    obtain ⟨vo, hvo⟩ := efTypes_formats hfo
    have h0 : checkArg (Arg.str i0 == Arg.str o0) (.str i0) formats = .ok i0 :=
      checkArg_ok.2 ⟨rfl, .inl hfi⟩
    have h1 : checkArg (Arg.str i0 == Arg.str o0) (.str o0) formats = .ok o0 :=
      checkArg_ok.2 ⟨rfl, .inl hfo⟩
    have h2 : checkArg (Arg.str i0 == Arg.str o0) (.str i1) vi = .ok i1 := by
      refine checkArg_ok.2 ⟨rfl, ?_⟩
      rcases hef with rfl | ⟨h, _⟩
      · exact .inr (by simp)
      · exact .inl (((efTypes_str hvi).2 _).2 h)
    have h3 : checkArg (Arg.str i0 == Arg.str o0) (.str o1) vo = .ok o1 := by
      refine checkArg_ok.2 ⟨rfl, ?_⟩
      rcases hef with rfl | ⟨_, h⟩
      · exact .inr (by simp)
      · exact .inl (((efTypes_str hvo).2 _).2 h)
    have hm : fs path ≠ .missing := by
      intro hm
      rw [hm] at hin
      rcases hin with h | ⟨n, h, _⟩ <;> simp at h
    refine ⟨makeConv (i0, i1) (o0, o1), ?_⟩
    simp [getConverter, bind, Except.bind, throw, throwThe, MonadExceptOf.throw, pure, Except.pure,
      hvi, hvo, h0, h1, h2, h3, hm, hsave, (verifyInput_ok _ _).2 hin]

/-- C28 fails as stated: with equal formats any elementary flow list is accepted, whatever its name. -/
theorem any_list_accepted (fs : Str → Entry) (f a b path save : Str) (hf : f ∈ formats)
    (hs : fs save = .dir) (hp : fs path = .dir) :
    ∃ c, getConverter fs (.str f, .str a) (.str f, .str b) path save = .ok c :=
  (getConverter_ok_iff fs _ _ path save).2
    ⟨f, a, f, b, rfl, rfl, hf, hf, .inl rfl, hs, .inl hp⟩

/-- C60. There is a mapping for exactly three pairs of formats (with their versions); for the other
six pairs that `get_converter` accepts every conversion of every file fails with `ValueError`. -/
theorem pairs_without_mapping (i o : Str) (hi : i ∈ formats) (ho : o ∈ formats) :
    (∀ v, getMapping (i, o) v = .error .valueError) ↔
      (i, o) ∉ [(c!"EcoSpold2", c!"ILCD1"), (c!"ILCD1", c!"EcoSpold2"), (c!"OLCAILCD1", c!"OLCAILCD1")] := by
  simp only [formats, List.mem_cons, List.not_mem_nil, or_false] at hi ho
  rcases hi with rfl | rfl | rfl <;> rcases ho with rfl | rfl | rfl
  all_goals first
    | (constructor
       · intro _; decide
       · intro _ v; rfl)
    | (constructor
       · intro h; exact absurd (h none) (by decide)
       · intro h; exact absurd h (by decide))

/-- C60: the versions that can be converted. -/
theorem versions_converted (i o : Str) (v : Option (Str × Str)) : getMapping (i, o) v = .ok () ↔
    ((i, o) = (c!"EcoSpold2", c!"ILCD1") ∧ (v = none ∨ v = some (c!"1", c!"0") ∨ v = some (c!"2", c!"0"))) ∨
    ((i, o) = (c!"ILCD1", c!"EcoSpold2") ∧ (v = none ∨ v = some (c!"1", c!"1"))) ∨
    ((i, o) = (c!"OLCAILCD1", c!"OLCAILCD1") ∧ (v = none ∨ v = some (c!"1", c!"1"))) := by
  simp only [getMapping, defaultMappings]
  constructor
  · intro h
    split at h
    · simp at h
    · rename_i l hl
      have hm := aget_mem hl
      split at h
      · rename_i hc
        simp only [List.contains_iff_mem] at hc
        simp only [List.mem_cons, Prod.mk.injEq, List.not_mem_nil, or_false] at hm
        rcases hm with ⟨⟨rfl, rfl⟩, rfl⟩ | ⟨⟨rfl, rfl⟩, rfl⟩ | ⟨⟨rfl, rfl⟩, rfl⟩
        · left; exact ⟨rfl, by simpa using hc⟩
        · right; left; exact ⟨rfl, by simpa using hc⟩
        · right; right; exact ⟨rfl, by simpa using hc⟩
      · simp at h
  · rintro (⟨h, h'⟩ | ⟨h, h'⟩ | ⟨h, h'⟩) <;> (cases h) <;> (try rcases h' with rfl | rfl | rfl) <;>
      (try rcases h' with rfl | rfl) <;> decide

example : ∃ c, getConverter (fun p => if p = c!"out" then .dir else .file c!"a.spold")
    (.str c!"EcoSpold2", .str c!"ecoinvent3.7") (.str c!"ILCD1", .str c!"EF3.0") c!"a" c!"out" = .ok c :=
  (getConverter_ok_iff _ _ _ _ _).2 ⟨c!"EcoSpold2", c!"ecoinvent3.7", c!"ILCD1", c!"EF3.0", rfl, rfl,
    by decide, by decide, .inr ⟨.inl ⟨rfl, rfl⟩, .inr (.inl ⟨rfl, rfl⟩)⟩, by decide,
    .inr ⟨c!"a.spold", rfl, c!".spold", by decide, c!"a", rfl⟩⟩

/-- The pair that `get_converter` documents as possible but for which there is no mapping. -/
example : getMapping (c!"EcoSpold2", c!"OLCAILCD1") (some (c!"2", c!"0")) = .error .valueError := by decide

/-- The values a new converter starts with, for every pair of formats: the messages are off, and an option is there
iff one of the two formats has it. -/
theorem defaults_documented (i o : Str × Str) :
    let a := fun k => aget k (makeConv i o).attrs
    a c!"quiet" = some (.bool true) ∧ a c!"convert_additional_fields" = some (.bool false) ∧
    a c!"ignore_string_length_restrictions" = some (.bool true) ∧
    a c!"sum_same_elementary_amounts" = some (.bool false) ∧
    a c!"convert_properties" = (if i.1 = c!"EcoSpold2" then some (.bool true) else none) ∧
    a c!"convert_system_review" = (if i.1 = c!"EcoSpold2" then some (.bool true) else none) ∧
    a c!"convert_user_data" = (if o.1 = c!"EcoSpold2" then some (.bool true) else none) ∧
    a c!"use_master_data_properties" = (if o.1 = c!"EcoSpold2" then some (.bool true) else none) ∧
    a c!"convert_parameterization" = (if o.1 = c!"EcoSpold2" then none else some (.bool true)) := by
  obtain ⟨i, i'⟩ := i
  obtain ⟨o, o'⟩ := o
  simp only [makeConv, defaults, inputOptions, outputOptions]
  by_cases hi : i = c!"EcoSpold2" <;> by_cases ho : o = c!"EcoSpold2" <;> simp only [hi, ho, if_true, if_false] <;>
    decide

/-- The files a converter takes, by their names. The ending `.spold` may be written in capitals, as may `.zip`, but
not `.xml`. -/
theorem usable_iff (format : Str) (e : Entry) : verifyInput format e = .ok () ↔
    e = .dir ∨ ∃ stem, (format = c!"EcoSpold2" ∧ (e = .file (stem ++ c!".spold") ∨ e = .file (stem ++ c!".SPOLD"))) ∨
      (format ≠ c!"EcoSpold2" ∧ (e = .file (stem ++ c!".zip") ∨ e = .file (stem ++ c!".ZIP") ∨
        e = .file (stem ++ c!".xml"))) := by
  rw [verifyInput_ok]
  unfold UsableInput
  apply or_congr Iff.rfl
  by_cases hf : format = c!"EcoSpold2"
  · have : extensions format = [c!".spold", c!".SPOLD"] := by unfold extensions; rw [if_pos hf]
    rw [this]
    simp only [hf, true_and, ne_eq, not_true_eq_false, false_and, or_false, List.mem_cons, List.not_mem_nil]
    constructor
    · rintro ⟨n, rfl, x, rfl | rfl, stem, rfl⟩
      · exact ⟨stem, .inl rfl⟩
      · exact ⟨stem, .inr rfl⟩
    · rintro ⟨stem, rfl | rfl⟩
      · exact ⟨_, rfl, _, .inl rfl, stem, rfl⟩
      · exact ⟨_, rfl, _, .inr rfl, stem, rfl⟩
  · have : extensions format = [c!".zip", c!".ZIP", c!".xml"] := by unfold extensions; rw [if_neg hf]
    rw [this]
    simp only [hf, false_and, false_or, ne_eq, not_false_eq_true, true_and, List.mem_cons, List.not_mem_nil, or_false]
    constructor
    · rintro ⟨n, rfl, x, rfl | rfl | rfl, stem, rfl⟩
      · exact ⟨stem, .inl rfl⟩
      · exact ⟨stem, .inr (.inl rfl)⟩
      · exact ⟨stem, .inr (.inr rfl)⟩
    · rintro ⟨stem, rfl | rfl | rfl⟩
      · exact ⟨_, rfl, _, .inl rfl, stem, rfl⟩
      · exact ⟨_, rfl, _, .inr (.inl rfl), stem, rfl⟩
      · exact ⟨_, rfl, _, .inr (.inr rfl), stem, rfl⟩

end Verif.Options
