/-
Properties of the validators of single values: C09 (length limits), C10 (enumerations), C11 (latest
date), C12 (numbers), C13 (patterns), C49 (coordinates), C50 (booleans).
-/
import Verif.Lemmas.Validators
import Verif.Lemmas.Numerals
import Mathlib.Tactic.IntervalCases

namespace Verif.Validators

/-! ### C12: numbers -/

/-- What a validator that accepts exactly the integers of `P` does on every value. -/
def AcceptsExactly (validate : PyVal → Py Int) (P : Int → Prop) : Prop :=
  ∀ x : PyVal,
    (∀ i, validate x = .ok i ↔ x.toInt = some i ∧ P i) ∧
    (validate x = .error .typeError ↔ x.toInt = none) ∧
    (validate x = .error .valueError ↔ ∃ i, x.toInt = some i ∧ ¬ P i)

theorem collection_exact {codes : List Int} {neg : Bool} {P : Int → Prop}
    (h : ∀ i, P i ↔ i ∈ codes) (hneg : neg = false → ∀ i ∈ codes, 0 ≤ i) :
    AcceptsExactly (collectionValidate codes neg) P := by
  intro x
  simp only [collectionValidate, intValidate]
  cases hx : x.toInt with
  | none => simp
  | some j =>
    simp only [Option.some.injEq, h]
    by_cases hj : j ∈ codes
    · have : (!neg && decide (j < 0)) = false := by
        cases neg with
        | true => rfl
        | false => simpa using hneg rfl j hj
      simp [this, hj]
    · by_cases hn : (!neg && decide (j < 0)) = true
      · simp [hn, hj]
      · simp [hn, hj]

/-- Every code field accepts exactly its documented codes (as numbers or as their texts); a value
that is not an integer is a TypeError, an integer that is not a code a ValueError. -/
theorem code_fields_exact_partial :
    List.Forall₂ (fun (f : Str × List Int × Bool) (d : Str × (Int → Prop)) =>
      f.1 = d.1 ∧ AcceptsExactly (collectionValidate f.2.1 f.2.2) d.2) codeFields
      Spec.documentedCodes := by
  unfold codeFields Spec.documentedCodes
  repeat' (first | exact List.Forall₂.nil | apply List.Forall₂.cons)
  all_goals
    refine ⟨rfl, collection_exact (fun i => ?_) ?_⟩
    · simp only [mem_intRange, List.mem_cons, List.not_mem_nil, or_false] <;> omega
    · intro _ i
      simp only [mem_intRange, List.mem_cons, List.not_mem_nil, or_false] at *
      first | omega | (intro; simp_all)

example : collectionValidate [4] false (.str c!" 4 ") = .ok 4 ∧
    collectionValidate [4] false (.int 5) = .error .valueError ∧
    collectionValidate [4] false (.str c!"four") = .error .typeError := by decide

theorem limited_exact {func : Nat → Nat → Bool} {limit : Nat} {P : Int → Prop}
    (h : ∀ n : Nat, P n ↔ func (natStr n).length limit = false) (hneg : ∀ i, P i → 0 ≤ i) :
    AcceptsExactly (limitedIntValidate func limit) P := by
  intro x
  simp only [limitedIntValidate, intValidate]
  cases hx : x.toInt with
  | none => simp
  | some j =>
    by_cases hj : j < 0
    · have hP : ¬ P j := fun hp => absurd (hneg j hp) (by omega)
      simp [hj]
      exact hP
    · obtain ⟨n, rfl⟩ := Int.eq_ofNat_of_zero_le (by omega : 0 ≤ j)
      have hn := h n
      have e : intStr (n : Int) = natStr n := rfl
      simp only [e, hj, decide_false, Bool.and_false, Bool.false_eq_true, if_false, Bool.or_false,
        Option.some.injEq]
      cases hf : func (natStr n).length limit with
      | true =>
        have hP : ¬ P n := fun hp => by rw [hn, hf] at hp; cases hp
        simp
        exact hP
      | false =>
        have hP : P n := hn.2 hf
        simp [hP]

/-- `Year` accepts exactly the four digit numbers. -/
theorem year_exact_partial : AcceptsExactly yearValidate (fun i => 1000 ≤ i ∧ i ≤ 9999) := by
  refine limited_exact (fun n => ?_) (fun i h => by omega)
  have h3 := natStr_length_le_iff (n := n) (k := 3) (by decide)
  have h4 := natStr_length_le_iff (n := n) (k := 4) (by decide)
  simp only [bne_eq_false_iff_eq]
  omega

/-- `Int6` accepts exactly 0 to 999999. -/
theorem int6_exact_partial : AcceptsExactly int6Validate (fun i => 0 ≤ i ∧ i ≤ 999999) := by
  refine limited_exact (fun n => ?_) (fun i h => by omega)
  have h6 := natStr_length_le_iff (n := n) (k := 6) (by decide)
  simp only [decide_eq_false_iff_not]
  omega

/-- `Int1` accepts exactly 0 to 9. -/
theorem int1_exact_partial : AcceptsExactly int1Validate (fun i => 0 ≤ i ∧ i ≤ 9) := by
  refine limited_exact (fun n => ?_) (fun i h => by omega)
  have h1 := natStr_length_le_iff (n := n) (k := 1) (by decide)
  have h0 := natStr_length_pos n
  simp only [bne_eq_false_iff_eq]
  omega

/-- The numbers read from values: from truth values, integers, fractions (cut) and numerals, and from nothing else. -/
theorem number_read_iff (x : PyVal) (hx : Numerals.Spec.Proper x) (i : Int) :
    x.toInt = some i ↔ Numerals.Spec.Reads x i := by
  cases x with
  | bool b =>
    cases b
    · constructor
      · rintro ⟨⟩; exact .no
      · rintro ⟨⟩; rfl
    · constructor
      · rintro ⟨⟩; exact .yes
      · rintro ⟨⟩; rfl
  | int j =>
    constructor
    · rintro ⟨⟩; exact .int _
    · rintro ⟨⟩; rfl
  | float n d =>
    rw [← Numerals.tdiv_iff n hx, PyVal.toInt, Option.some.injEq]
  | str s => exact Numerals.parseInt_iff s i
  | _ =>
    constructor
    · intro h; cases h
    · intro h; cases h

example : Numerals.Spec.Reads (.str c!" +1_2\n") 12 :=
  (number_read_iff (.str c!" +1_2\n") trivial 12).1 (by decide)

/-- A number and its text are accepted alike. -/
theorem number_text_same (i : Int) : (PyVal.str (intStr i)).toInt = (PyVal.int i).toInt :=
  parseInt_intStr i

example : yearValidate (.str c!"2023") = .ok 2023 ∧ yearValidate (.int 999) = .error .valueError ∧
    int6Validate (.int 1000000) = .error .valueError ∧ int1Validate (.int 0) = .ok 0 := by decide

/-- What is missing for the full C12: a number that is no integer is not refused, it is cut. -/
theorem fraction_is_cut : collectionValidate (intRange 1 5) false (.float 39 10) = .ok 3 ∧
    yearValidate (.float 20239 10) = .ok 2023 := by decide

/-- A percentage is accepted exactly between 0 and 100, when it is a number. -/
theorem percent_exact_partial (text : Str → Option Flt) (x : PyVal) (f : Flt)
    (hf : floatOf text x = some f) (hnan : f ≠ .nan) :
    (percentValidate (floatOf text) x = .ok f ↔
      ∃ n d, f = .fin n d ∧ 0 ≤ n ∧ n ≤ 100 * d) ∧
    (percentValidate (floatOf text) x = .error .valueError ↔
      ¬ ∃ n d, f = .fin n d ∧ 0 ≤ n ∧ n ≤ 100 * d) := by
  simp only [percentValidate, hf]
  cases f with
  | nan => exact absurd rfl hnan
  | inf => simp [Flt.gt]
  | ninf => simp [Flt.gt, Flt.lt]
  | fin n d =>
    simp only [Flt.gt, Flt.lt, decide_eq_true_eq, Flt.fin.injEq, Int.zero_mul]
    by_cases h1 : n > 100 * d
    · simp only [h1, if_true]
      simp
      omega
    · by_cases h2 : n < 0
      · simp only [h1, h2, if_true, if_false]
        simp
        omega
      · simp only [h1, h2, if_false]
        simp
        omega

example : percentValidate (floatOf fun _ => none) (.int 100) = .ok (.fin 100 1) ∧
    percentValidate (floatOf fun _ => none) (.float 1001 10) = .error .valueError := by decide

/-- "Not a number" is accepted as a percentage, and written. -/
theorem percent_nan_accepted (text : Str → Option Flt) (h : text c!"nan" = some .nan) :
    percentValidate (floatOf text) (.str c!"nan") = .ok .nan := by
  simp [percentValidate, floatOf, h, Flt.gt, Flt.lt]

/-- Truth values are read as the percentages 1 and 0. -/
theorem percent_of_bool (text : Str → Option Flt) (b : Bool) :
    percentValidate (floatOf text) (.bool b) = .ok (.fin (if b then 1 else 0) 1) := by
  cases b <;> rfl

/-- A field that holds a list keeps all values it accepts, in the order in which they were added. -/
theorem list_keeps_all {α β : Type} (validate : β → Py α) (os : List β) :
    (adds (addList validate) none os).getD [] = os.filterMap fun o => (validate o).toOption := by
  have gen : ∀ (os : List β) (x : Option (List α)), (adds (addList validate) x os).getD [] =
      x.getD [] ++ os.filterMap fun o => (validate o).toOption := by
    intro os
    induction os with
    | nil => intro x; simp [adds]
    | cons o os ih =>
      intro x
      have h := ih (caught (addList validate) x o)
      simp only [adds, List.foldl_cons] at h ⊢
      rw [h]
      cases hv : validate o with
      | error e => simp [caught, addList, hv, Except.toOption, List.filterMap_cons]
      | ok v => simp [caught, addList, hv, Except.toOption, List.filterMap_cons]
  simpa using gen os none

example : adds (addList int6Validate) none [.str c!"12", .str c!"1234567", .int 3] = some [12, 3] := by decide

/-! ### C50: booleans -/

/-- The boolean fields accept exactly the texts true, True, 1, false, False, 0 and the numbers and
truth values equal to them; the text written is read back as the same value. -/
theorem bool_exact (s : Str) :
    (boolValidate (.str s) = .ok true ↔ s = c!"true" ∨ s = c!"True" ∨ s = c!"1") ∧
    (boolValidate (.str s) = .ok false ↔ s = c!"false" ∨ s = c!"False" ∨ s = c!"0") ∧
    (boolValidate (.str s) = .error .valueError ↔
      s ∉ [c!"true", c!"True", c!"1", c!"false", c!"False", c!"0"]) := by
  have hne : ∀ (t : Str), ((s == t) = true ↔ s = t) := fun t => by simp
  by_cases h1 : s = c!"true"
  · subst h1; decide
  by_cases h2 : s = c!"True"
  · subst h2; decide
  by_cases h3 : s = c!"1"
  · subst h3; decide
  by_cases h4 : s = c!"false"
  · subst h4; decide
  by_cases h5 : s = c!"False"
  · subst h5; decide
  by_cases h6 : s = c!"0"
  · subst h6; decide
  simp [boolValidate, inBoolValid, h1, h2, h3, h4, h5, h6]

theorem bool_numbers (i : Int) (b : Bool) :
    (boolValidate (.int i) = .ok b ↔ i = if b then 1 else 0) ∧ boolValidate (.bool b) = .ok b := by
  constructor
  · by_cases h1 : i = 1
    · subst h1; cases b <;> decide
    · by_cases h0 : i = 0
      · subst h0; cases b <;> decide
      · cases b <;> simp [boolValidate, inBoolValid, h1, h0]
  · rfl

/-- Numbers with a fraction are accepted when they equal 1 or 0. -/
theorem bool_fractions (n : Int) (d : Nat) (hd : d ≠ 0) :
    (boolValidate (.float n d) = .ok true ↔ n = d) ∧ (boolValidate (.float n d) = .ok false ↔ n = 0) ∧
      (boolValidate (.float n d) = .error .valueError ↔ n ≠ d ∧ n ≠ 0) := by
  by_cases h1 : n = d
  · have h0 : n ≠ 0 := by omega
    simp [boolValidate, inBoolValid, truth, h1, hd]
  · by_cases h0 : n = 0
    · subst h0
      have h2 : ¬ (0 : Int) = (d : Int) := h1
      simp [boolValidate, inBoolValid, truth, h2]
    · simp [boolValidate, inBoolValid, h1, h0]

example : boolValidate (.float 0 1) = .ok false ∧ boolValidate (.float 1 2) = .error .valueError :=
  ⟨((bool_fractions 0 1 (by decide)).2.1).2 rfl, ((bool_fractions 1 2 (by decide)).2.2).2 (by decide)⟩

theorem bool_written_reads_back (x : PyVal) (b : Bool) (h : boolValidate x = .ok b) :
    boolValidate (.str (boolEnd b)) = boolValidate x := by
  rw [h]; cases b <;> decide

example : boolValidate (.str c!"False") = .ok false := by decide

/-- EcoSpold booleans are written as XML Schema has it. -/
theorem bool_written (b : Bool) : boolEnd b = if b = true then c!"true" else c!"false" := by
  cases b <;> rfl

/-! ### C09: length limits -/

/-- The texts among the values added. -/
def texts (os : List PyVal) : List Str := os.filterMap fun
  | .str s => some s
  | _ => none

/-- The bound of the field, as a proposition. -/
def Limit.Within : Limit → Nat → Prop
  | .upper n, k => k ≤ n
  | .range lo hi, k => lo ≤ k ∧ k ≤ hi

theorem Limit.holds_iff (l : Limit) (k : Nat) : l.holds k = true ↔ l.Within k := by
  cases l <;> simp [Limit.holds, Limit.Within]

/-- A limit that is zero is not tested (general_validators.py:157); no field has one. -/
def Limit.Real : Limit → Prop
  | .upper n => n ≠ 0
  | .range _ _ => True

theorem adds_sep (sep : Str) (os : List PyVal) (done : List Str) :
    adds (addSep sep strValidate) (if done = [] then none else some (join sep done)) os =
      if done ++ texts os = [] then none else some (join sep (done ++ texts os)) := by
  induction os generalizing done with
  | nil => simp [adds, texts]
  | cons o os ih =>
    have step : ∀ x, adds (addSep sep strValidate) x (o :: os) =
        adds (addSep sep strValidate) (caught (addSep sep strValidate) x o) os := fun x => rfl
    rw [step, caught]
    cases o with
    | str s =>
      have e : done ++ texts (.str s :: os) = (done ++ [s]) ++ texts os := by simp [texts]
      rw [e, ← ih (done ++ [s])]
      congr 1
      by_cases hd : done = []
      · subst hd; simp [addSep, strValidate, join]
      · simp [hd, addSep, strValidate, join_append_singleton sep done s hd]
    | _ => exact ih done

/-- The text of a limited field is the texts added, joined by its separator. -/
theorem limited_text (sep : Str) (os : List PyVal) (h : texts os ≠ []) :
    adds (addSep sep strValidate) none os = some (join sep (texts os)) := by
  have := adds_sep sep os []
  simpa [h] using this

/-- With limits on, the field is written exactly when its text is within the limit; otherwise the
conversion fails. -/
theorem limit_enforced (sep : Str) (limit : Limit) (hl : limit.Real) (os : List PyVal)
    (h : texts os ≠ []) (r : Py Str)
    (hr : limEnd limit false (adds (addSep sep strValidate) none os) = r) :
    (limit.Within (join sep (texts os)).length ∧ r = .ok (join sep (texts os))) ∨
    (¬ limit.Within (join sep (texts os)).length ∧ r = .error .valueError) := by
  rw [limited_text sep os h] at hr
  subst hr
  by_cases hw : limit.Within (join sep (texts os)).length
  · left
    refine ⟨hw, ?_⟩
    simp [limEnd, (Limit.holds_iff _ _).2 hw]
  · right
    refine ⟨hw, ?_⟩
    have : limit.holds (join sep (texts os)).length = false := by
      rw [← Bool.not_eq_true, Limit.holds_iff]; exact hw
    cases limit with
    | upper n =>
      cases n with
      | zero => exact absurd rfl hl
      | succ n => simp [limEnd, this, Limit.off]
    | range lo hi => simp [limEnd, this, Limit.off]

/-- With `ignore_limits` the text is written whole. -/
theorem limit_ignored (sep : Str) (limit : Limit) (os : List PyVal) (h : texts os ≠ []) :
    limEnd limit true (adds (addSep sep strValidate) none os) = .ok (join sep (texts os)) := by
  rw [limited_text sep os h]; simp [limEnd]

/-- Fields that keep the last value only (`add_func=_add`). -/
theorem adds_last (os : List PyVal) (x : Option Str) :
    adds (addLast strValidate) x os = ((texts os).getLast?).or x := by
  induction os generalizing x with
  | nil => simp [adds, texts]
  | cons o os ih =>
    have step : adds (addLast strValidate) x (o :: os) =
        adds (addLast strValidate) (caught (addLast strValidate) x o) os := rfl
    rw [step, ih, caught]
    cases o with
    | str s =>
      have e : texts (.str s :: os) = s :: texts os := by simp [texts]
      rw [e, List.getLast?_cons]
      simp only [addLast, strValidate]
      cases (texts os).getLast? <;> simp
    | _ => rfl

theorem limit_enforced_last (limit : Limit) (hl : limit.Real) (ignore : Bool) (os : List PyVal)
    (s : Str) (h : (texts os).getLast? = some s) :
    limEnd limit ignore (adds (addLast strValidate) none os) = .ok s ↔
      limit.Within s.length ∨ ignore = true := by
  rw [adds_last, h]
  have : (∃ n, limit = .upper (n + 1)) ∨ ∃ lo hi, limit = .range lo hi := by
    cases limit with
    | upper n => cases n with
      | zero => exact absurd rfl hl
      | succ n => exact .inl ⟨n, rfl⟩
    | range lo hi => exact .inr ⟨lo, hi, rfl⟩
  rw [← Limit.holds_iff]
  rcases this with ⟨n, rfl⟩ | ⟨lo, hi, rfl⟩ <;>
  · simp [limEnd, Limit.off]
    cases hh : Limit.holds _ s.length <;> cases ignore <;> simp

example : limEnd (.upper 7) false (adds (addSep c!"; " strValidate) none
      [.str c!"abc", .int 3, .str c!"de"]) = .ok c!"abc; de" ∧
    limEnd (.upper 6) false (adds (addSep c!"; " strValidate) none
      [.str c!"abc", .int 3, .str c!"de"]) = .error .valueError := by decide

/-! ### C10: enumerations -/

/-- The values a list enumeration takes from one argument, if all are listed. -/
def listedValues (enum : List Str) : PyVal → Option (List Str)
  | .str s => if s ∈ enum then some [s] else none
  | .list l => l.mapM fun
    | .str s => if s ∈ enum then some s else none
    | _ => none
  | _ => none

theorem enumTexts_eq (enum : List Str) (l : List PyVal) :
    (∀ r, enumTexts enum l = .ok r ↔ (l.mapM fun
      | .str s => if s ∈ enum then some s else none
      | _ => none) = some r) ∧
    ((l.mapM fun
      | .str s => if s ∈ enum then some s else none
      | _ => none) = none → enumTexts enum l = .error .valueError) := by
  induction l with
  | nil => simp [enumTexts]
  | cons o l ih =>
    obtain ⟨ih1, ih2⟩ := ih
    cases o with
    | str s =>
      by_cases hs : s ∈ enum
      · simp only [enumTexts, hs, if_true, List.mapM_cons]
        cases hm : (l.mapM fun
            | .str s => if s ∈ enum then some s else none
            | _ => none : Option (List Str)) with
        | none => simp [ih2 hm]
        | some r =>
          rw [(ih1 r).2 hm]; simp
      · simp [enumTexts, hs]
    | _ => simp [enumTexts]

theorem enumValidate_eq (enum : List Str) (o : PyVal) :
    (∀ r, enumValidate enum true o = .ok r ↔ listedValues enum o = some r) ∧
    (listedValues enum o = none → ∃ e, enumValidate enum true o = .error e ∧
      (e = .typeError ∨ e = .valueError)) := by
  cases o with
  | str s => by_cases hs : s ∈ enum <;> simp [enumValidate, listedValues, enumTexts, hs]
  | list l =>
    have := enumTexts_eq enum l
    exact ⟨this.1, fun h => ⟨_, this.2 h, .inr rfl⟩⟩
  | _ => simp [enumValidate, listedValues]

/-- After any history the field holds the listed values of the accepted arguments, in order of first
addition, each once. -/
theorem enum_content (enum : List Str) (os : List PyVal) (h : os ≠ []) :
    addsUnique (enumValidate enum true) none os =
      some (Spec.firstOccurrences (os.filterMap (listedValues enum)).flatten) := by
  have gen : ∀ (os : List PyVal) (x : Option (List Str)) (done : List Str), os ≠ [] →
      x.getD [] = Spec.firstOccurrences done →
      addsUnique (enumValidate enum true) x os =
        some (Spec.firstOccurrences (done ++ (os.filterMap (listedValues enum)).flatten)) := by
    intro os
    induction os with
    | nil => intro _ _ h; exact absurd rfl h
    | cons o os ih =>
      intro x done _ hx
      have step : addsUnique (enumValidate enum true) x (o :: os) =
        addsUnique (enumValidate enum true) (addUnique (enumValidate enum true) x o).1 os := rfl
      rw [step]
      obtain ⟨h1, h2⟩ := enumValidate_eq enum o
      cases ho : listedValues enum o with
      | none =>
        obtain ⟨e, he, _⟩ := h2 ho
        simp only [addUnique, he, List.filterMap_cons, ho]
        cases os with
        | nil => simp [addsUnique, hx]
        | cons o' os => exact ih _ _ (by simp) (by simpa using hx)
      | some r =>
        have he := (h1 r).2 ho
        simp only [addUnique, he, List.filterMap_cons, ho, List.flatten_cons, ← List.append_assoc]
        cases os with
        | nil => simp [addsUnique, hx, addNew_eq]
        | cons o' os => exact ih _ _ (by simp) (by simp [hx, addNew_eq])
  simpa using gen os none [] h (by simp [Spec.firstOccurrences])

/-- Only listed values, each once. -/
theorem enum_only_listed (enum : List Str) (os : List PyVal) (v : List Str)
    (h : addsUnique (enumValidate enum true) none os = some v) :
    v.Nodup ∧ ∀ s ∈ v, s ∈ enum := by
  by_cases hos : os = []
  · subst hos; simp [addsUnique] at h
  rw [enum_content enum os hos] at h
  cases h
  refine ⟨firstOccurrences_nodup _, fun s hs => ?_⟩
  rw [mem_firstOccurrences, List.mem_flatten] at hs
  obtain ⟨l, hl, hs⟩ := hs
  rw [List.mem_filterMap] at hl
  obtain ⟨o, _, ho⟩ := hl
  have hmap : ∀ (l : List PyVal) (r : List Str), (l.mapM fun
      | .str s => if s ∈ enum then some s else none
      | _ => none) = some r → ∀ s ∈ r, s ∈ enum := by
    intro l
    induction l with
    | nil => intro r h; simp at h; subst h; simp
    | cons a l ih =>
      intro r h
      rw [List.mapM_cons] at h
      cases a with
      | str t =>
        by_cases ht : t ∈ enum
        · simp only [ht, if_true, Option.bind_eq_bind, Option.bind_some] at h
          rw [Option.bind_eq_some_iff] at h
          obtain ⟨r', hr', h⟩ := h
          cases h
          intro s hs
          rcases List.mem_cons.1 hs with rfl | hs'
          · exact ht
          · exact ih r' hr' s hs'
        · simp [ht] at h
      | _ => simp at h
  cases o with
  | str t =>
    by_cases ht : t ∈ enum
    · simp [listedValues, ht] at ho; subst ho; simp at hs; exact hs ▸ ht
    · simp [listedValues, ht] at ho
  | list l' => exact hmap l' l ho s hs
  | _ => simp [listedValues] at ho

/-- An argument with an unlisted value is refused, and the values held stay the same. -/
theorem enum_reject (enum : List Str) (x : Option (List Str)) (o : PyVal)
    (h : listedValues enum o = none) :
    ((addUnique (enumValidate enum true) x o).1.getD [] = x.getD []) ∧
    ∃ e, (addUnique (enumValidate enum true) x o).2 = some e ∧ (e = .typeError ∨ e = .valueError) := by
  obtain ⟨e, he, h'⟩ := (enumValidate_eq enum o).2 h
  simp [addUnique, he, h']

/-- The same of a field of several values as it is filled: the values listed of all arguments, texts or lists, each once. -/
theorem enum_list_filled (enum : List Str) (os : List PyVal) (h : os ≠ []) :
    os.foldl (fun x o => (enumListAdd enum x o).1) none =
      some (Spec.firstOccurrences (os.filterMap (listedValues enum)).flatten) :=
  enum_content enum os h

/-- A field of one value takes a text of the list, which replaces the one before it; other texts are refused with a
ValueError, and lists and other values with a TypeError. -/
theorem enum_single (enum : List Str) (x : Option (List Str)) (o : PyVal) :
    (∀ r, enumAdd enum x o = .ok r ↔ ∃ s ∈ enum, o = .str s ∧ r = some [s]) ∧
      (enumAdd enum x o = .error .valueError ↔ ∃ s, s ∉ enum ∧ o = .str s) ∧
      (enumAdd enum x o = .error .typeError ↔ ∀ s, o ≠ .str s) := by
  cases o with
  | str s =>
    by_cases hs : s ∈ enum
    · simp [enumAdd, addLast, enumValidate, enumTexts, hs, eq_comm]
    · simp [enumAdd, addLast, enumValidate, enumTexts, hs]
  | _ => simp [enumAdd, addLast, enumValidate]

example : enumAdd [c!"a", c!"b"] (some [c!"a"]) (.str c!"b") = .ok (some [c!"b"]) ∧
    enumAdd [c!"a", c!"b"] (some [c!"a"]) (.list [.str c!"b"]) = .error .typeError :=
  ⟨((enum_single _ _ _).1 _).2 ⟨_, by simp, rfl, rfl⟩, ((enum_single _ _ _).2.2).2 (by simp)⟩

example : addsUnique (enumValidate [c!"a", c!"b", c!"c"] true) none
    [.str c!"b", .list [.str c!"a", .str c!"b"], .str c!"z", .list [.str c!"c", .str c!"z"]] =
    some [c!"b", c!"a"] := by decide

/-! ### C11: the latest review date -/

/-- The moment of a date, on the time line of UTC. -/
def DateTime.instant (d : DateTime) : Int := d.wall - d.offset.getD 0

/-- The dates among the values added. -/
def dates (parse : PyVal → Py DateTime) (os : List PyVal) : List DateTime :=
  os.filterMap fun o => (parse o).toOption

theorem reviewDate_gen (parse : PyVal → Py DateTime) (os : List PyVal) (x : Option DateTime) :
    (x = none ∧ dates parse os = [] ∧ adds (reviewDateAdd parse) x os = none) ∨
    ∃ d, adds (reviewDateAdd parse) x os = some d ∧ (some d = x ∨ d ∈ dates parse os) ∧
      (∀ e ∈ dates parse os, e.wall ≤ d.wall) ∧ ∀ e, x = some e → e.wall ≤ d.wall := by
  induction os generalizing x with
  | nil =>
    cases x with
    | none => left; simp [dates, adds]
    | some d => right; exact ⟨d, rfl, .inl rfl, by simp [dates], by simp⟩
  | cons o os ih =>
    have step : adds (reviewDateAdd parse) x (o :: os) =
        adds (reviewDateAdd parse) (caught (reviewDateAdd parse) x o) os := rfl
    rw [step, caught]
    cases hp : parse o with
    | error e =>
      have hd : dates parse (o :: os) = dates parse os := by simp [dates, hp, Except.toOption]
      rw [hd]
      simpa [reviewDateAdd, addCompare, hp] using ih x
    | ok v =>
      have hd : dates parse (o :: os) = v :: dates parse os := by simp [dates, hp, Except.toOption]
      rw [hd]
      right
      cases x with
      | none =>
        rcases ih (some v) with ⟨h, _⟩ | ⟨d, h1, h2, h3, h4⟩
        · cases h
        · refine ⟨d, by simpa [reviewDateAdd, addCompare, hp] using h1, .inr ?_, ?_, by simp⟩
          · rcases h2 with h2 | h2
            · cases h2; simp
            · simp [h2]
          · intro e he
            rcases List.mem_cons.1 he with rfl | he'
            · exact h4 _ rfl
            · exact h3 e he'
      | some old =>
        by_cases hgt : v.wall > old.wall
        · rcases ih (some v) with ⟨h, _⟩ | ⟨d, h1, h2, h3, h4⟩
          · cases h
          · refine ⟨d, by simpa [reviewDateAdd, addCompare, hp, hgt] using h1, .inr ?_, ?_, ?_⟩
            · rcases h2 with h2 | h2
              · cases h2; simp
              · simp [h2]
            · intro e he
              rcases List.mem_cons.1 he with rfl | he'
              · exact h4 _ rfl
              · exact h3 e he'
            · intro e he; cases he
              have := h4 _ rfl; omega
        · rcases ih (some old) with ⟨h, _⟩ | ⟨d, h1, h2, h3, h4⟩
          · cases h
          · refine ⟨d, by simpa [reviewDateAdd, addCompare, hp, hgt] using h1, ?_, ?_, ?_⟩
            · rcases h2 with h2 | h2
              · exact .inl h2
              · exact .inr (by simp [h2])
            · intro e he
              have := h4 _ rfl
              rcases List.mem_cons.1 he with rfl | he'
              · omega
              · exact h3 e he'
            · intro e he; exact h4 e he

/-- The date kept is one of the dates added, and no date added has a later clock reading. -/
theorem review_date_latest_clock (parse : PyVal → Py DateTime) (os : List PyVal)
    (h : dates parse os ≠ []) :
    ∃ d, adds (reviewDateAdd parse) none os = some d ∧ d ∈ dates parse os ∧
      ∀ e ∈ dates parse os, e.wall ≤ d.wall := by
  rcases reviewDate_gen parse os none with ⟨_, h', _⟩ | ⟨d, h1, h2, h3, _⟩
  · exact absurd h' h
  · exact ⟨d, h1, by simpa using h2, h3⟩

/-- If all dates are given in one time zone, the latest moment is kept, and any other order of
reading the same dates gives the same result. -/
theorem review_date_latest_partial (parse : PyVal → Py DateTime) (os os' : List PyVal)
    (h : dates parse os ≠ []) (hperm : os.Perm os') (z : Option Int)
    (hz : ∀ d ∈ dates parse os, d.offset = z) :
    ∃ d, adds (reviewDateAdd parse) none os = some d ∧ d ∈ dates parse os ∧
      (∀ e ∈ dates parse os, e.instant ≤ d.instant) ∧
      adds (reviewDateAdd parse) none os' = adds (reviewDateAdd parse) none os := by
  obtain ⟨d, h1, h2, h3⟩ := review_date_latest_clock parse os h
  have hp : (dates parse os).Perm (dates parse os') := hperm.filterMap _
  obtain ⟨d', h1', h2', h3'⟩ := review_date_latest_clock parse os'
    (fun e => h (by rw [e] at hp; exact hp.eq_nil))
  refine ⟨d, h1, h2, fun e he => ?_, ?_⟩
  · have := h3 e he
    simp only [DateTime.instant, hz e he, hz d h2]; omega
  · rw [h1, h1']
    have a := h3 d' (hp.mem_iff.2 h2')
    have b := h3' d (hp.mem_iff.1 h2)
    have c : d.offset = d'.offset := by rw [hz d h2, hz d' (hp.mem_iff.2 h2')]
    have : d.wall = d'.wall := by omega
    cases d; cases d'; simp_all

example : ∃ parse : PyVal → Py DateTime, ∃ os, dates parse os = [⟨3, none⟩, ⟨7, none⟩, ⟨5, none⟩] ∧
    adds (reviewDateAdd parse) none os = some ⟨7, none⟩ := by
  refine ⟨fun | .int i => .ok ⟨i, none⟩ | _ => .error .valueError,
    [.int 3, .none, .int 7, .int 5], ?_, ?_⟩ <;> decide

/-- With different time zones the date kept may be an earlier one (noon at UTC against eleven o'clock
two hours west of it), and may depend on the order. -/
theorem review_date_not_latest : ∃ parse : PyVal → Py DateTime, ∃ os d e,
    adds (reviewDateAdd parse) none os = some d ∧ e ∈ dates parse os ∧ d.instant < e.instant ∧
    adds (reviewDateAdd parse) none os.reverse = some d := by
  refine ⟨fun | .int 0 => .ok ⟨12, some 0⟩ | _ => .ok ⟨11, some (-2)⟩, [.int 0, .int 1],
    ⟨12, some 0⟩, ⟨11, some (-2)⟩, ?_⟩
  decide

theorem review_date_order_dependent : ∃ parse : PyVal → Py DateTime, ∃ os,
    adds (reviewDateAdd parse) none os ≠ adds (reviewDateAdd parse) none os.reverse := by
  refine ⟨fun | .int 0 => .ok ⟨12, some 0⟩ | _ => .ok ⟨12, some (-2)⟩, [.int 0, .int 1], ?_⟩
  decide

/-! ### C13: patterns -/

theorem pattern_accepts_iff (r : Re) (s : Str) :
    patternValidate r (.str s) = .ok s ↔ ∃ x y, s = x ++ y ∧ r.lang x := by
  rw [← Re.isMatch_iff, patternValidate]
  split <;> simp_all

theorem pattern_rejects_iff (r : Re) (s : Str) :
    patternValidate r (.str s) = .error .valueError ↔ ¬ ∃ x y, s = x ++ y ∧ r.lang x := by
  rw [← Re.isMatch_iff, patternValidate]
  split <;> simp_all

theorem uuidRe_lang (s : Str) : uuidRe.lang s ↔ Spec.UuidText s := by
  have h : (fun c => lowerHex c = true) = Spec.isHex := funext fun c => propext (lowerHex_iff c)
  have e : ∀ n s, ((Re.cls lowerHex).times n).lang s ↔ Spec.repeated Spec.isHex n n s := by
    intro n s; rw [← h]; exact Re.times_lang' _ _ _
  exact Re.seq_lang _ _ (.cons (e 8) (.cons (Re.lit_lang _) (.cons (e 4) (.cons (Re.lit_lang _)
    (.cons (e 4) (.cons (Re.lit_lang _) (.cons (e 4) (.cons (Re.lit_lang _) (.cons (e 12) .nil)))))))))
    s

theorem versionRe_lang (u : CharClasses) (s : Str) :
    (versionRe u).lang s ↔ Spec.VersionText (fun c => u.digit c = true) s := by
  refine Re.seq_lang _ _ (.cons (Re.times_lang' _ 2) (.cons (Re.lit_lang _) (.cons
    (Re.times_lang' _ 2) (.cons (Re.opt_lang (Re.seq_lang _ _ (.cons (Re.lit_lang _) (.cons
    (Re.times_lang' _ 3) .nil)))) .nil)))) s

theorem casRe_lang (u : CharClasses) (s : Str) :
    (casRe u).lang s ↔ Spec.CasText (fun c => u.digit c = true) s := by
  have h1 : ∀ s, (Re.cls u.digit).lang s ↔ Spec.repeated (fun c => u.digit c = true) 1 1 s := by
    intro s
    rw [← Re.times_lang']
    simp [Re.times, Re.lang]
  have h16 : ∀ s, (Re.cat (Re.cls u.digit) ((Re.cls u.digit).upTo 5)).lang s ↔
      Spec.repeated (fun c => u.digit c = true) 1 6 s := by
    intro s
    simp only [Re.lang, Re.upTo_lang, Spec.repeated]
    constructor
    · rintro ⟨x, y, rfl, ⟨c, hc, rfl⟩, hl, hy⟩
      simp [hc]; exact ⟨by omega, hy⟩
    · rintro ⟨hl, hl', hs⟩
      cases s with
      | nil => simp at hl
      | cons c s => exact ⟨[c], s, by simp, ⟨c, hs c (by simp), rfl⟩, by simpa using hl',
          fun d hd => hs d (by simp [hd])⟩
  have := Re.seq_lang [Re.cat (Re.cls u.digit) ((Re.cls u.digit).upTo 5), .lit '-',
    (Re.cls u.digit).times 2, .lit '-', .cls u.digit] _ (.cons h16 (.cons (Re.lit_lang '-') (.cons
    (Re.times_lang' u.digit 2) (.cons (Re.lit_lang '-') (.cons h1 .nil))))) s
  rw [Spec.CasText, ← this]
  simp only [casRe, Re.seq, Re.lang]
  constructor
  · rintro ⟨x, _, rfl, hx, y, z, rfl, hy, hz⟩
    exact ⟨x ++ y, z, by simp, ⟨x, y, rfl, hx, hy⟩, hz⟩
  · rintro ⟨_, z, rfl, ⟨x, y, rfl, hx, hy⟩, hz⟩
    exact ⟨x, y ++ z, by simp, hx, y, z, rfl, hy, hz⟩

theorem uuidText_length {s : Str} (h : Spec.UuidText s) : s.length = 36 := by
  simp only [Spec.UuidText, Spec.followed, Spec.single, Spec.repeated] at h
  obtain ⟨a1, b1, rfl, h1, a2, b2, rfl, ⟨_, _, rfl⟩, a3, b3, rfl, h3, a4, b4, rfl, ⟨_, _, rfl⟩, a5, b5,
    rfl, h5, a6, b6, rfl, ⟨_, _, rfl⟩, a7, b7, rfl, h7, a8, b8, rfl, ⟨_, _, rfl⟩, a9, b9, rfl, h9,
    rfl⟩ := h
  simp only [List.length_append, List.length_cons, List.length_nil]
  omega

/-- A UUID field accepts a text exactly when its first 36 characters are a UUID. -/
theorem uuid_accepts_iff_partial (s : Str) :
    (patternValidate uuidRe (.str s) = .ok s ↔ Spec.UuidText (s.take 36)) ∧
    (patternValidate uuidRe (.str s) = .error .valueError ↔ ¬ Spec.UuidText (s.take 36)) := by
  have key : (∃ x y, s = x ++ y ∧ uuidRe.lang x) ↔ Spec.UuidText (s.take 36) := by
    constructor
    · rintro ⟨x, y, rfl, h⟩
      rw [uuidRe_lang] at h
      rw [List.take_append_of_le_length (Nat.le_of_eq (uuidText_length h).symm), List.take_of_length_le
        (uuidText_length h).le]
      exact h
    · intro h
      exact ⟨s.take 36, s.drop 36, (List.take_append_drop 36 s).symm, (uuidRe_lang _).2 h⟩
  exact ⟨(pattern_accepts_iff _ _).trans key, (pattern_rejects_iff _ _).trans (not_congr key)⟩

/-- A version field accepts a text exactly when it begins with `dd.dd`. -/
theorem version_accepts_iff_partial (u : CharClasses) (s : Str) :
    (patternValidate (versionRe u) (.str s) = .ok s ↔
      ∃ x y, s = x ++ y ∧ Spec.VersionText (fun c => u.digit c = true) x) ∧
    (patternValidate (versionRe u) (.str s) = .error .valueError ↔
      ¬ ∃ x y, s = x ++ y ∧ Spec.VersionText (fun c => u.digit c = true) x) := by
  simp only [pattern_accepts_iff, pattern_rejects_iff, versionRe_lang, and_self]

/-- A CAS field accepts a text exactly when it begins with a CAS number. -/
theorem cas_accepts_iff_partial (u : CharClasses) (s : Str) :
    (patternValidate (casRe u) (.str s) = .ok s ↔
      ∃ x y, s = x ++ y ∧ Spec.CasText (fun c => u.digit c = true) x) ∧
    (patternValidate (casRe u) (.str s) = .error .valueError ↔
      ¬ ∃ x y, s = x ++ y ∧ Spec.CasText (fun c => u.digit c = true) x) := by
  simp only [pattern_accepts_iff, pattern_rejects_iff, casRe_lang, and_self]

def asciiDigit (c : Char) : Bool := '0' ≤ c && c ≤ '9'
def ascii : CharClasses := ⟨asciiDigit, fun c => c.isAlphanum || c == '_', pySpace⟩

/-- Every text that starts with a well-formed value is accepted, whatever follows. -/
theorem pattern_trailing_garbage (r : Re) (x y : Str) (h : r.lang x) :
    patternValidate r (.str (x ++ y)) = .ok (x ++ y) :=
  (pattern_accepts_iff r _).2 ⟨x, y, rfl, h⟩

/-- So the full property is false, for the three patterns. -/
theorem pattern_not_exact :
    (∃ s, patternValidate uuidRe (.str s) = .ok s ∧ ¬ Spec.UuidText s) ∧
    (∃ s, patternValidate (versionRe ascii) (.str s) = .ok s ∧
      ¬ Spec.VersionText (fun c => asciiDigit c = true) s) ∧
    (∃ s, patternValidate (casRe ascii) (.str s) = .ok s ∧
      ¬ Spec.CasText (fun c => asciiDigit c = true) s) := by
  refine ⟨⟨c!"01234567-89ab-cdef-0123-456789abcdef<", by decide, fun h => ?_⟩,
    ⟨c!"01.00.00", by decide, fun h => ?_⟩, ⟨c!"123456-78-901234", by decide, fun h => ?_⟩⟩
  · exact absurd (uuidText_length h) (by decide)
  · simp only [Spec.VersionText, Spec.followed, Spec.single, Spec.repeated, Spec.optional] at h
    obtain ⟨a1, b1, e, h1, a2, b2, rfl, ⟨_, _, rfl⟩, a3, b3, rfl, h3, a4, b4, rfl, h4, rfl⟩ := h
    have hl := congrArg List.length e
    simp only [List.length_append, List.length_cons, List.length_nil] at hl
    rcases h4 with ⟨a5, b5, rfl, ⟨_, _, rfl⟩, a6, b6, rfl, h6, rfl⟩ | rfl
    · simp only [List.length_append, List.length_cons, List.length_nil] at hl; omega
    · simp only [List.length_nil] at hl; omega
  · simp only [Spec.CasText, Spec.followed, Spec.single, Spec.repeated] at h
    obtain ⟨a1, b1, e, h1, a2, b2, rfl, ⟨_, _, rfl⟩, a3, b3, rfl, h3, a4, b4, rfl, ⟨_, _, rfl⟩, a5, b5,
      rfl, h5, rfl⟩ := h
    have hl := congrArg List.length e
    simp only [List.length_append, List.length_cons, List.length_nil] at hl
    omega

/-- A variable name is accepted exactly when it begins with a word character; whatever follows
(including spaces) is kept. -/
theorem variable_name_accepts_iff (u : CharClasses) (s : Str) :
    patternValidate (variableNameRe u) (.str s) = .ok s ↔ ∃ c t, s = c :: t ∧ u.word c = true := by
  rw [pattern_accepts_iff]
  simp only [variableNameRe, Re.seq, Re.lang]
  constructor
  · rintro ⟨x, y, rfl, _, _, rfl, ⟨c, hc, rfl⟩, _⟩
    exact ⟨c, _, rfl, hc⟩
  · rintro ⟨c, t, rfl, hc⟩
    exact ⟨[c], t, rfl, [c], [], rfl, ⟨c, hc, rfl⟩, [], [], rfl, by simp, rfl⟩

example : patternValidate (variableNameRe ascii) (.str c!"a b") = .ok c!"a b" := by decide

/-- A variable name of more than forty characters is never written while limits are on. -/
theorem variable_name_limit (ignore : Bool) (s t : Str) (h : variableNameEnd ignore (some s) = .ok t) :
    t = s ∧ (s.length ≤ 40 ∨ ignore = true) := by
  refine ⟨limEnd_ok h, ?_⟩
  simp only [variableNameEnd, limEnd, Limit.off, Limit.holds] at h
  by_cases hc : s.length ≤ 40
  · exact .inl hc
  · cases ignore
    · simp [hc] at h
    · exact .inr rfl

example : variableNameEnd false (some (List.replicate 40 'a')) = .ok (List.replicate 40 'a') ∧
    variableNameEnd false (some (List.replicate 41 'a')) = .error .valueError := by decide

/-! ### C49: coordinates -/

/-- Facts about decimal digits used for the coordinate patterns. -/
theorem digit_facts {c : Char} (h : c.isDigit = true) : asciiDigit c = true ∧ pySpace c = false ∧
    c ≠ '-' ∧ c ≠ '+' ∧ c ≠ '.' ∧ c ≠ ';' := by
  refine ⟨?_, pySpace_digit h, ?_, ?_, ?_, ?_⟩
  · simp only [Char.isDigit, Bool.and_eq_true, decide_eq_true_eq] at h
    simp only [asciiDigit, Bool.and_eq_true, decide_eq_true_eq]
    exact h
  all_goals rintro rfl; simp at h

theorem gis_of_beginning (x t : Str) (h : (gisRe ascii).isMatch x = true) :
    patternValidate (gisRe ascii) (.str (x ++ t)) = .ok (x ++ t) := by
  obtain ⟨a, b, rfl, ha⟩ := (Re.isMatch_iff _ _).1 h
  rw [List.append_assoc]
  exact pattern_trailing_garbage _ _ _ ha

/-- Three digits in a row are not the beginning of a coordinate. -/
theorem gis_three_digits (a b c : Char) (r : Str) (ha : a.isDigit = true) (hb : b.isDigit = true)
    (hc : c.isDigit = true) : (gisRe ascii).isMatch (a :: b :: c :: r) = false := by
  obtain ⟨a1, a2, a3, a4, a5, a6⟩ := digit_facts ha
  obtain ⟨b1, b2, b3, b4, b5, b6⟩ := digit_facts hb
  obtain ⟨c1, c2, c3, c4, c5, c6⟩ := digit_facts hc
  have s0 : pySpace '0' = false := by decide
  have s9 : pySpace '9' = false := by decide
  have d0 : asciiDigit '0' = true := by decide
  have d9 : asciiDigit '9' = true := by decide
  by_cases h1 : ('0' ≤ a ∧ a ≤ '8') <;> by_cases h2 : a = '9' <;> by_cases h3 : b = '0' <;>
  simp [Re.isMatch, gisRe, latitudeRe, fractionRe, Re.seq, Re.rests, Re.opt, Re.lit, starRests, ascii,
    a1, a2, a3, a4, b1, b2, b5, b6, c2, c5, c6, h1, h2, h3, s0, s9, d0, d9]

/-- A latitude of whole degrees, with a valid longitude after it, is accepted exactly up to ninety. -/
theorem latitude_bound (n : Nat) (t : Str) :
    patternValidate (gisRe ascii) (.str (natStr n ++ c!";0" ++ t)) =
      (if n ≤ 90 then .ok (natStr n ++ c!";0" ++ t) else .error .valueError) := by
  by_cases h : n ≤ 90
  · rw [if_pos h]
    refine gis_of_beginning _ _ ?_
    have : ∀ n : Fin 91, (gisRe ascii).isMatch (natStr n ++ c!";0") = true := by decide +kernel
    exact this ⟨n, by omega⟩
  · rw [if_neg h]
    by_cases h2 : n < 100
    · have h' : 91 ≤ n := by omega
      interval_cases n <;> rfl
    · obtain ⟨a, b, c, r, e⟩ : ∃ a b c r, natStr n = a :: b :: c :: r := by
        have hl := (natStr_length_le_iff (n := n) (k := 2) (by decide)).not.2 (by omega)
        match hn : natStr n, hl with
        | a :: b :: c :: r, _ => exact ⟨a, b, c, r, rfl⟩
        | [], hl => simp at hl
        | [_], hl => simp at hl
        | [_, _], hl => simp at hl
      have hd : ∀ x ∈ natStr n, x.isDigit = true := fun x hx => natStr_digit hx
      rw [e] at hd ⊢
      simp only [List.cons_append, patternValidate]
      rw [gis_three_digits a b c _ (hd a (by simp)) (hd b (by simp)) (hd c (by simp))]
      rfl

/-- No latitude of ninety degrees south is accepted: the sign is not part of the alternative for
ninety. -/
theorem south_pole_rejected (t : Str) :
    patternValidate (gisRe ascii) (.str (c!"-90" ++ t)) = .error .valueError := rfl

/-- Longitudes are not bounded: after two digits anything is accepted. -/
theorem longitude_unbounded (t : Str) :
    patternValidate (gisRe ascii) (.str (c!"10;99" ++ t)) = .ok (c!"10;99" ++ t) :=
  gis_of_beginning c!"10;99" t (by decide)

example : patternValidate (gisRe ascii) (.str c!"-23.5; 46.25") = .ok c!"-23.5; 46.25" ∧
    patternValidate (gisRe ascii) (.str c!"91;0") = .error .valueError := by decide

/-! The exact condition for coordinates. -/

theorem cls_lang {p : Char → Bool} {q : Char → Prop} (h : ∀ c, p c = true ↔ q c) (s : Str) :
    (Re.cls p).lang s ↔ Spec.single q s := by
  simp [Re.lang, Spec.single, h]

theorem sign_lang (s : Str) : (Re.opt (.cls fun c => c == '-' || c == '+')).lang s ↔ Spec.sign s :=
  Re.opt_lang (cls_lang (by simp)) s

theorem fraction_lang (u : CharClasses) (s : Str) :
    (fractionRe u).lang s ↔ Spec.fraction (fun c => u.digit c = true) s :=
  Re.opt_lang (Re.seq_lang _ _ (.cons (Re.lit_lang _) (.cons (fun _ => Iff.rfl) .nil))) s

theorem eighth_iff (c : Char) : ('0' ≤ c && c ≤ '8') = true ↔ c ∈ c!"012345678" := by
  constructor
  · intro h
    simp only [Bool.and_eq_true, decide_eq_true_eq] at h
    have h1 : 48 ≤ c.toNat := h.1
    have h2 : c.toNat ≤ 56 := h.2
    have : ∀ n : Fin 9, Char.ofNat (48 + n) ∈ c!"012345678" := by decide
    have h3 := this ⟨c.toNat - 48, by omega⟩
    have h4 : 48 + (c.toNat - 48) = c.toNat := by omega
    simp only [h4] at h3
    rwa [Char.ofNat_toNat] at h3
  · intro h
    have : ∀ c ∈ c!"012345678", ('0' ≤ c && c ≤ '8') = true := by decide
    exact this c h

theorem latitude_lang (u : CharClasses) (s : Str) :
    (latitudeRe u).lang s ↔ Spec.LatitudeText (fun c => u.digit c = true) s := by
  have h1 : ∀ s, (Re.seq [.opt (.cls fun c => c == '-' || c == '+'),
      .opt (.cls fun c => '0' ≤ c && c ≤ '8'), .cls u.digit, fractionRe u]).lang s ↔
      Spec.followed [Spec.sign, Spec.optional (Spec.single (· ∈ c!"012345678")), Spec.single (fun c => u.digit c = true),
        Spec.fraction (fun c => u.digit c = true)] s :=
    Re.seq_lang _ _ (.cons sign_lang (.cons (Re.opt_lang (cls_lang eighth_iff)) (.cons (cls_lang fun _ => Iff.rfl)
      (.cons (fraction_lang u) .nil))))
  have h2 : ∀ s, (Re.seq [.lit '9', .lit '0', .opt (.seq [.lit '.', (Re.lit '0').upTo 2])]).lang s ↔
      Spec.followed [Spec.single (· = '9'), Spec.single (· = '0'),
        Spec.optional (Spec.followed [Spec.single (· = '.'), Spec.repeated (· = '0') 0 2])] s := by
    refine Re.seq_lang _ _ (.cons (Re.lit_lang _) (.cons (Re.lit_lang _) (.cons (Re.opt_lang (Re.seq_lang _ _
      (.cons (Re.lit_lang _) (.cons ?_ .nil)))) .nil)))
    intro s
    rw [Re.lit, Re.upTo_lang]
    simp [Spec.repeated]
  unfold latitudeRe Spec.LatitudeText
  rw [Re.lang, h2, ← h1]
  simp only [Re.seq, Re.lang]
  refine or_congr ?_ Iff.rfl
  constructor
  · rintro ⟨x, _, rfl, hx, _, z, rfl, ⟨a, _, rfl, ha, b, _, rfl, hb, rfl⟩, hz⟩
    exact ⟨x, _, rfl, hx, a, b ++ z, by simp, ha, b, z, rfl, hb, hz⟩
  · rintro ⟨x, _, rfl, hx, a, _, rfl, ha, b, z, rfl, hb, hz⟩
    exact ⟨x, _, rfl, hx, a ++ b, z, by simp, ⟨a, b, rfl, ha, b, [], by simp, hb, rfl⟩, hz⟩

/-- A longitude begins with a sign or none and a digit, and these two are a longitude. -/
theorem longitude_begins (u : CharClasses) (hd : ∀ c, '0' ≤ c → c ≤ '9' → u.digit c = true) (s : Str)
    (h : (longitudeRe u).lang s) :
    ∃ x y, s = x ++ y ∧ Spec.followed [Spec.sign, Spec.single fun c => u.digit c = true] x := by
  simp only [longitudeRe, Re.seq, Re.lang, Re.lit] at h
  obtain ⟨g, _, rfl, hg, l, _, rfl, hl, rfl⟩ := h
  have key : ∃ c r, l = c :: r ∧ u.digit c = true := by
    rcases hl with ⟨x, r, rfl, ⟨c, hc, rfl⟩, -⟩ | ⟨x, r, rfl, ⟨c, hc, rfl⟩, -⟩ | ⟨x, r, rfl, ⟨c, hc, rfl⟩, -⟩ |
      ⟨x, r, rfl, ⟨c, hc, rfl⟩, -⟩
    · simp only [beq_iff_eq] at hc
      subst hc
      exact ⟨_, r, rfl, hd '1' (by decide) (by decide)⟩
    · simp only [Bool.and_eq_true, decide_eq_true_eq] at hc
      exact ⟨c, r, rfl, hd c hc.1 hc.2⟩
    · exact ⟨c, r, rfl, hc⟩
    · simp only [beq_iff_eq] at hc
      subst hc
      exact ⟨_, r, rfl, hd '1' (by decide) (by decide)⟩
  obtain ⟨c, r, rfl, hc⟩ := key
  refine ⟨g ++ [c], r, by simp, g, [c], rfl, (sign_lang g).1 (by simpa [Re.opt, Re.lang] using hg), [c], [], rfl, ⟨c, hc, rfl⟩, rfl⟩

theorem longitude_short (u : CharClasses) (g : Str) (c : Char) (hg : Spec.sign g) (hc : u.digit c = true) :
    (longitudeRe u).lang (g ++ [c]) := by
  have hf : (fractionRe u).lang [] := .inr rfl
  refine ⟨g, [c], rfl, (sign_lang g).2 hg, [c], [], rfl, .inr (.inr (.inl ⟨[c], [], rfl, ⟨c, hc, rfl⟩, [], [], rfl, hf, rfl⟩)), rfl⟩

/-- Coordinates are accepted exactly if they begin with a latitude, a semicolon, and a longitude's first digit, with white
space and signs; the rest of the longitude is never looked at. -/
theorem gis_accepts_iff (u : CharClasses) (hd : ∀ c, '0' ≤ c → c ≤ '9' → u.digit c = true) (s : Str) :
    (patternValidate (gisRe u) (.str s) = .ok s ↔
      ∃ x y, s = x ++ y ∧ Spec.GisBeginning (fun c => u.digit c = true) (fun c => u.space c = true) x) ∧
    (patternValidate (gisRe u) (.str s) = .error .valueError ↔
      ¬ ∃ x y, s = x ++ y ∧ Spec.GisBeginning (fun c => u.digit c = true) (fun c => u.space c = true) x) := by
  rw [pattern_accepts_iff, pattern_rejects_iff]
  have key : (∃ x y, s = x ++ y ∧ (gisRe u).lang x) ↔
      ∃ x y, s = x ++ y ∧ Spec.GisBeginning (fun c => u.digit c = true) (fun c => u.space c = true) x := by
    constructor
    · rintro ⟨_, y, rfl, a, _, rfl, ha, b, _, rfl, hb, c, _, rfl, hc, d, _, rfl, hd', e, _, rfl, he, l, w, rfl, hl, -⟩
      obtain ⟨x, r, rfl, hx⟩ := longitude_begins u hd l hl
      refine ⟨a ++ (b ++ (c ++ (d ++ (e ++ x)))), r ++ (w ++ y), by simp, a, _, rfl, ha, b, _, rfl, (latitude_lang u b).1 hb,
        c, _, rfl, hc, d, _, rfl, (Re.lit_lang _ d).1 hd', e, _, rfl, he, hx⟩
    · rintro ⟨_, y, rfl, a, _, rfl, ha, b, _, rfl, hb, c, _, rfl, hc, d, _, rfl, hd', e, _, rfl, he, g, _, rfl, hg,
        t, _, rfl, ⟨n, hn, rfl⟩, rfl⟩
      refine ⟨_, y, rfl, a, _, rfl, ha, b, _, rfl, (latitude_lang u b).2 hb, c, _, rfl, hc, d, _, rfl, (Re.lit_lang _ d).2 hd',
        e, _, rfl, he, g ++ [n], [], by simp, longitude_short u g n hg hn, [], [], rfl, by simp [Re.lang], rfl⟩
  exact ⟨key, not_congr key⟩

/-- The hypothesis is met by the digits of ASCII, and the condition by coordinates with white space. -/
example : patternValidate (gisRe ascii) (.str c!" 7; +4, Java") = .ok c!" 7; +4, Java" :=
  ((gis_accepts_iff ascii (fun c h1 h2 => by simp [ascii, asciiDigit, h1, h2]) _).1).2
    ⟨c!" 7; +4", c!", Java", rfl, c!" ", c!"7; +4", rfl, by simp [Spec.run, ascii]; decide, c!"7", c!"; +4", rfl,
      .inl ⟨[], c!"7", rfl, .inr rfl, [], c!"7", rfl, .inr rfl, c!"7", [], rfl, ⟨'7', by decide, rfl⟩, [], [], rfl, .inr rfl, rfl⟩,
      [], c!"; +4", rfl, by simp [Spec.run], c!";", c!" +4", rfl, ⟨';', rfl, rfl⟩, c!" ", c!"+4", rfl, by simp [Spec.run, ascii]; decide, c!"+", c!"4", rfl,
      .inl ⟨'+', .inr rfl, rfl⟩, c!"4", [], rfl, ⟨'4', by decide, rfl⟩, rfl⟩

end Verif.Validators
