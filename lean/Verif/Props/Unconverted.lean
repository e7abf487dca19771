/-
When the data that have no place in ILCD stop the conversion, and that they are recorded otherwise (C126).
-/
import Verif.Lemmas.Unconverted

namespace Verif.Unconverted

open Spec (Has IsBool LooseBool Bools There Lacks)

theorem loose_iff {v : Str} : v ∈ boolTexts ↔ LooseBool v := by
  unfold boolTexts LooseBool IsBool
  simp only [List.mem_cons, List.not_mem_nil, or_false]
  constructor
  · rintro (h | h | h | h | h | h) <;> simp [h]
  · rintro ((h | h | h | h) | h | h) <;> simp [h]

/-- The condition of `putAll_ok` for texts and truth values. -/
theorem putAll_iff {num : Str → Bool} {c : Cls} {x : Attrs} {l bools : List Str} {r : Rec}
    (ht : ∀ a ∈ l, aget a c = some (if a ∈ bools then .bool else .text)) (hb : ∀ a ∈ bools, a ∈ l) :
    (∃ r', putAll num c x (same l) r = .ok r') ↔ Bools x bools := by
  rw [putAll_ok]
  constructor
  · intro h a ha v hv
    obtain ⟨t, h1, h2⟩ := h (a, a) (List.mem_map.mpr ⟨a, hb a ha, rfl⟩) v hv
    rw [ht a (hb a ha), if_pos ha] at h1
    obtain rfl := Option.some.inj h1
    exact loose_iff.mp h2
  · intro h p hp s hs
    obtain ⟨a, ha, rfl⟩ := List.mem_map.mp hp
    refine ⟨_, ht a ha, ?_⟩
    by_cases hab : a ∈ bools
    · rw [if_pos hab]
      exact loose_iff.mpr (h a hab s hs)
    · rw [if_neg hab]
      trivial

/-- A parameter is recorded unless `isCalculatedAmount` is not a truth value. -/
theorem parameter_ok (num : Str → Bool) (x : Attrs) :
    (∃ r, parameter num x = .ok r) ↔ Bools x [c!"isCalculatedAmount"] :=
  putAll_iff (by decide) (by decide)

/-- The source and the context of a production volume are always recorded. -/
theorem volume_ok (num : Str → Bool) (x : Attrs) : ∃ r, volume num x = .ok r :=
  (putAll_iff (bools := []) (by decide) (by decide)).mpr (by intro a ha; simp at ha)

theorem property_tail (num : Str → Bool) (x : Attrs) (r : Rec) :
    (∃ r', putAll num propertyCls x (same [c!"propertyContextId", c!"isDefiningValue", c!"isCalculatedAmount",
      c!"unitContextId", c!"sourceIdOverwrittenByChild", c!"sourceContextId"]) r = .ok r') ↔
      Bools x [c!"isDefiningValue", c!"isCalculatedAmount"] :=
  putAll_iff (by decide) (by decide)

theorem put_unit (num : Str → Bool) (x : Attrs) (r : Rec) :
    ∃ r', putGiven num propertyCls (c!"unitId", c!"unitId") x r = .ok r' := by
  unfold putGiven
  cases given c!"unitId" x with
  | none => exact ⟨r, rfl⟩
  | some s => exact put_ok.mpr ⟨.text, by decide, trivial⟩

/-- A property is recorded unless a truth value is not one or, if it has no equivalent or no unit, its amount
is not a number. -/
theorem property_ok (num : Str → Bool) (known unitGiven : Bool) (amount : Str) (x : Attrs) :
    (∃ r, property num known unitGiven amount x = .ok r) ↔
      Bools x [c!"isDefiningValue", c!"isCalculatedAmount"] ∧
        ((known = true ∧ unitGiven = true) ∨ num amount = true) := by
  have hput : put num propertyCls c!"amount" (.text amount) [] =
      if num amount then .ok (aset c!"amount" [.text amount] []) else .error .typeError := rfl
  unfold property
  rw [hput]
  cases known <;> cases unitGiven <;> by_cases hn : num amount = true
  all_goals simp only [hn, Bool.and_true, Bool.and_false, Bool.not_true, Bool.not_false, Bool.false_eq_true,
    if_true, if_false, reduceIte, bind, Except.bind, false_and, and_false, or_false, false_or, and_true, true_and,
    or_true, and_self]
  all_goals first
    | exact property_tail num x _
    | (obtain ⟨r', hr⟩ := put_unit num x (aset c!"amount" [.text amount] [])
       rw [hr]
       exact property_tail num x r')
    | simp

theorem read_error (c : Cls) (k : Str) : ∃ e, read c k = .error e := by
  unfold read
  cases aget k c <;> exact ⟨_, rfl⟩

/-- The attributes of every exchange that are recorded. -/
def flowNames : List Str :=
  [c!"unitContextId", c!"isCalculatedAmount", c!"sourceIdOverwrittenByChild",
   c!"specificAllocationPropertyIdOverwrittenByChild"]

theorem lacks_iff {x : Attrs} {a : Str} : given a x = none ↔ Lacks x a := by
  constructor
  · intro h v hv
    rw [given_iff.mpr hv] at h
    simp at h
  · intro h
    cases hg : given a x with
    | none => rfl
    | some v => exact absurd (given_iff.mp hg) (h v)

/-- The steps of the record of an exchange. -/
theorem flow_steps (num : Str → Bool) (id fid : Str) (tags coefficients : List Val) (x : Attrs) (r : Rec) :
    ∃ r0, aget c!"id" r0 = some [.text id] ∧ aget c!"fId" r0 = some [.text fid] ∧
      (aget c!"tag" r0).getD [] = (aget c!"tag" r).getD [] ++ tags ∧
      (∀ j, j ≠ c!"id" → j ≠ c!"fId" → j ≠ c!"tag" → aget j r0 = aget j r) ∧
      ∀ r', flow num id fid tags coefficients x r = .ok r' ↔
        Lacks x c!"specificAllocationPropertyContextId" ∧
          ∃ r1, putAll num flowCls x (same flowNames) r0 = .ok r1 ∧
            putEach num flowCls c!"transferCoefficient" coefficients r1 = .ok r' := by
  have h1 : put num flowCls c!"id" (.text id) r = .ok (aset c!"id" [.text id] r) := rfl
  have h2 : ∀ r, put num flowCls c!"fId" (.text fid) r = .ok (aset c!"fId" [.text fid] r) := fun _ => rfl
  obtain ⟨r0, h3, h4, h5⟩ := putEach_ok (num := num) (c := flowCls) (k := c!"tag") (by decide) tags
    (aset c!"fId" [.text fid] (aset c!"id" [.text id] r))
  refine ⟨r0, ?_, ?_, ?_, ?_, ?_⟩
  · rw [h4 _ (by decide), aget_aset_ne _ _ (by decide), aget_aset_self]
  · rw [h4 _ (by decide), aget_aset_self]
  · rw [h5, aget_aset_ne _ _ (by decide), aget_aset_ne _ _ (by decide)]
  · intro j hj1 hj2 hj3
    rw [h4 j hj3, aget_aset_ne _ _ hj2, aget_aset_ne _ _ hj1]
  · intro r'
    rw [← lacks_iff]
    unfold flow
    simp only [h1, h2, bind, Except.bind, h3]
    rw [show same [c!"unitContextId", c!"isCalculatedAmount", c!"sourceIdOverwrittenByChild",
      c!"specificAllocationPropertyIdOverwrittenByChild"] = same flowNames from rfl]
    cases hp : putAll num flowCls x (same flowNames) r0 with
    | error e => simp
    | ok r1 =>
      cases hg : given c!"specificAllocationPropertyContextId" x with
      | none =>
        simp [pure, Except.pure]
      | some v =>
        obtain ⟨e, he⟩ := read_error flowCls c!"specificAllocationPropertyContextId"
        simp [he]

/-- An exchange is recorded iff its truth values are truth values and it has no context of the allocation
property. -/
theorem flow_ok (num : Str → Bool) (id fid : Str) (tags coefficients : List Val) (x : Attrs) (r : Rec) :
    (∃ r', flow num id fid tags coefficients x r = .ok r') ↔
      Bools x [c!"isCalculatedAmount", c!"sourceIdOverwrittenByChild"] ∧
        Lacks x c!"specificAllocationPropertyContextId" := by
  obtain ⟨r0, -, -, -, -, h⟩ := flow_steps num id fid tags coefficients x r
  have hb : (∃ r1, putAll num flowCls x (same flowNames) r0 = .ok r1) ↔
      Bools x [c!"isCalculatedAmount", c!"sourceIdOverwrittenByChild"] := putAll_iff (by decide) (by decide)
  rw [← hb]
  constructor
  · rintro ⟨r', hr⟩
    obtain ⟨h1, r1, h2, -⟩ := (h r').mp hr
    exact ⟨⟨r1, h2⟩, h1⟩
  · rintro ⟨⟨r1, h2⟩, h1⟩
    obtain ⟨r', h3, -⟩ := putEach_ok (num := num) (c := flowCls) (k := c!"transferCoefficient") (by decide)
      coefficients r1
    exact ⟨r', (h r').mpr ⟨h1, r1, h2, h3⟩⟩

/-- What is recorded of an exchange: its identifiers, its tags, its transfer coefficients and the attributes
that are not empty. -/
theorem flow_recorded {num : Str → Bool} {id fid : Str} {tags coefficients : List Val} {x : Attrs} {r' : Rec}
    (h : flow num id fid tags coefficients x [] = .ok r') :
    aget c!"id" r' = some [.text id] ∧ aget c!"fId" r' = some [.text fid] ∧
      (aget c!"tag" r').getD [] = tags ∧ (aget c!"transferCoefficient" r').getD [] = coefficients ∧
      ∀ a ∈ flowNames, ∀ v, Has x a v → ∃ q, aget a r' = some (q ++ [.text v]) := by
  obtain ⟨r0, h1, h2, h3, h3', h4⟩ := flow_steps num id fid tags coefficients x []
  obtain ⟨-, r1, h5, h6⟩ := (h4 r').mp h
  obtain ⟨r2, h7, h8, h9⟩ := putEach_ok (num := num) (c := flowCls) (k := c!"transferCoefficient") (by decide)
      coefficients r1
  rw [h6] at h7
  obtain rfl := Except.ok.inj h7
  refine ⟨?_, ?_, ?_, ?_, ?_⟩
  · rw [h8 _ (by decide), putAll_other h5 (by decide), h1]
  · rw [h8 _ (by decide), putAll_other h5 (by decide), h2]
  · rw [h8 _ (by decide), putAll_other h5 (by decide), h3]
    rfl
  · rw [h9, putAll_other h5 (by decide), h3' _ (by decide) (by decide) (by decide)]
    rfl
  · intro a ha v hv
    have hne : a ≠ c!"transferCoefficient" :=
      (by decide : ∀ b ∈ flowNames, b ≠ c!"transferCoefficient") a ha
    rw [h8 a hne]
    exact putAll_get h5 (by decide) (List.mem_map.mpr ⟨a, ha, rfl⟩ : (a, a) ∈ same flowNames) hv

/-- The attributes of an intermediate exchange that are recorded. -/
def intermediateNames : List Str :=
  [c!"activityLinkIdOverwrittenByChild", c!"intermediateExchangeContextId", c!"activityLinkContextId"]

/-- Intermediate exchanges (`_partial`: one with the context of the allocation property stops the conversion,
`allocation_context_stops`). -/
theorem intermediate_ok_partial (num : Str → Bool) (id fid : Str) (tags coefficients : List Val) (x : Attrs)
    (r : Rec) :
    (∃ r', intermediate num id fid tags coefficients x r = .ok r') ↔
      Bools x [c!"isCalculatedAmount", c!"sourceIdOverwrittenByChild", c!"activityLinkIdOverwrittenByChild"] ∧
        Lacks x c!"specificAllocationPropertyContextId" := by
  have hb : ∀ r1, (∃ r2, putAll num flowCls x (same intermediateNames) r1 = .ok r2) ↔
      Bools x [c!"activityLinkIdOverwrittenByChild"] := fun r1 => putAll_iff (by decide) (by decide)
  have hsplit : Bools x [c!"isCalculatedAmount", c!"sourceIdOverwrittenByChild", c!"activityLinkIdOverwrittenByChild"] ↔
      Bools x [c!"isCalculatedAmount", c!"sourceIdOverwrittenByChild"] ∧
        Bools x [c!"activityLinkIdOverwrittenByChild"] := by
    unfold Bools
    simp only [List.forall_mem_cons, List.not_mem_nil, false_implies, implies_true, and_true, and_assoc]
  have hf := flow_ok num id fid tags coefficients x r
  unfold intermediate
  simp only [bind, Except.bind]
  cases hr : flow num id fid tags coefficients x r with
  | error e =>
    rw [hr] at hf
    rw [hsplit]
    constructor
    · rintro ⟨_, h⟩
      simp at h
    · rintro ⟨⟨h1, -⟩, h2⟩
      obtain ⟨_, h⟩ := hf.mpr ⟨h1, h2⟩
      simp at h
  | ok r1 =>
    have := hf.mp ⟨r1, hr⟩
    rw [hsplit]
    constructor
    · intro h
      exact ⟨⟨this.1, (hb r1).mp h⟩, this.2⟩
    · rintro ⟨⟨-, h⟩, -⟩
      exact (hb r1).mpr h

/-- Elementary exchanges. -/
theorem elementary_ok_partial (num : Str → Bool) (id fid : Str) (tags coefficients : List Val) (x : Attrs)
    (r : Rec) :
    (∃ r', elementary num id fid tags coefficients x r = .ok r') ↔
      Bools x [c!"isCalculatedAmount", c!"sourceIdOverwrittenByChild"] ∧
        Lacks x c!"specificAllocationPropertyContextId" := by
  have hb : ∀ r1, ∃ r2, putAll num flowCls x (same [c!"elementaryExchangeContextId"]) r1 = .ok r2 := fun r1 =>
    (putAll_iff (bools := []) (by decide) (by decide)).mpr (by intro a ha; simp at ha)
  rw [← flow_ok num id fid tags coefficients x r]
  unfold elementary
  simp only [bind, Except.bind]
  cases hr : flow num id fid tags coefficients x r with
  | error e => simp
  | ok r1 =>
    obtain ⟨r2, h2⟩ := hb r1
    simp [h2]

/-- What is recorded of an intermediate exchange. -/
theorem intermediate_recorded {num : Str → Bool} {id fid : Str} {tags coefficients : List Val} {x : Attrs}
    {r' : Rec} (h : intermediate num id fid tags coefficients x [] = .ok r') :
    aget c!"id" r' = some [.text id] ∧ aget c!"fId" r' = some [.text fid] ∧
      (aget c!"tag" r').getD [] = tags ∧ (aget c!"transferCoefficient" r').getD [] = coefficients ∧
      ∀ a ∈ flowNames ++ intermediateNames, ∀ v, Has x a v → ∃ q, aget a r' = some (q ++ [.text v]) := by
  unfold intermediate at h
  simp only [bind, Except.bind] at h
  cases hr : flow num id fid tags coefficients x [] with
  | error e => simp [hr] at h
  | ok r1 =>
    simp only [hr] at h
    obtain ⟨h1, h2, h3, h4, h5⟩ := flow_recorded hr
    change putAll num flowCls x (same intermediateNames) r1 = .ok r' at h
    refine ⟨?_, ?_, ?_, ?_, ?_⟩
    · rw [putAll_other h (by decide), h1]
    · rw [putAll_other h (by decide), h2]
    · rw [putAll_other h (by decide), h3]
    · rw [putAll_other h (by decide), h4]
    · intro a ha v hv
      rcases List.mem_append.mp ha with ha | ha
      · have hne : a ∉ (same intermediateNames).map Prod.snd :=
          (by decide : ∀ b ∈ flowNames, b ∉ (same intermediateNames).map Prod.snd) a ha
        rw [putAll_other h hne]
        exact h5 a ha v hv
      · exact putAll_get h (by decide) (List.mem_map.mpr ⟨a, ha, rfl⟩ : (a, a) ∈ same intermediateNames) hv

/-- What is recorded of an elementary exchange. -/
theorem elementary_recorded {num : Str → Bool} {id fid : Str} {tags coefficients : List Val} {x : Attrs}
    {r' : Rec} (h : elementary num id fid tags coefficients x [] = .ok r') :
    aget c!"id" r' = some [.text id] ∧ aget c!"fId" r' = some [.text fid] ∧
      (aget c!"tag" r').getD [] = tags ∧ (aget c!"transferCoefficient" r').getD [] = coefficients ∧
      ∀ a ∈ flowNames ++ [c!"elementaryExchangeContextId"], ∀ v, Has x a v →
        ∃ q, aget a r' = some (q ++ [.text v]) := by
  unfold elementary at h
  simp only [bind, Except.bind] at h
  cases hr : flow num id fid tags coefficients x [] with
  | error e => simp [hr] at h
  | ok r1 =>
    simp only [hr] at h
    obtain ⟨h1, h2, h3, h4, h5⟩ := flow_recorded hr
    refine ⟨?_, ?_, ?_, ?_, ?_⟩
    · rw [putAll_other h (by decide), h1]
    · rw [putAll_other h (by decide), h2]
    · rw [putAll_other h (by decide), h3]
    · rw [putAll_other h (by decide), h4]
    · intro a ha v hv
      rcases List.mem_append.mp ha with ha | ha
      · have hne : a ∉ (same [c!"elementaryExchangeContextId"]).map Prod.snd :=
          (by decide : ∀ b ∈ flowNames, b ∉ (same [c!"elementaryExchangeContextId"]).map Prod.snd) a ha
        rw [putAll_other h hne]
        exact h5 a ha v hv
      · exact putAll_get h (by decide)
          (List.mem_map.mpr ⟨a, ha, rfl⟩ : (a, a) ∈ same [c!"elementaryExchangeContextId"]) hv

/-- The error is a `KeyError` if the truth values are in order. -/
theorem allocation_context_error (num : Str → Bool) (id fid : Str) (tags coefficients : List Val) {x : Attrs}
    {r : Rec} {v : Str} (h : Has x c!"specificAllocationPropertyContextId" v)
    (hb : Bools x [c!"isCalculatedAmount", c!"sourceIdOverwrittenByChild"]) :
    flow num id fid tags coefficients x r = .error .keyError := by
  have h1 : put num flowCls c!"id" (.text id) r = .ok (aset c!"id" [.text id] r) := rfl
  have h2 : ∀ r, put num flowCls c!"fId" (.text fid) r = .ok (aset c!"fId" [.text fid] r) := fun _ => rfl
  obtain ⟨r0, h3, -⟩ := putEach_ok (num := num) (c := flowCls) (k := c!"tag") (by decide) tags
    (aset c!"fId" [.text fid] (aset c!"id" [.text id] r))
  obtain ⟨r1, h4⟩ := (putAll_iff (num := num) (c := flowCls) (x := x) (l := flowNames) (r := r0)
    (bools := [c!"isCalculatedAmount", c!"sourceIdOverwrittenByChild"]) (by decide) (by decide)).mpr hb
  have h5 : read flowCls c!"specificAllocationPropertyContextId" = .error .keyError := rfl
  unfold flow
  simp only [h1, h2, bind, Except.bind, h3]
  rw [show same [c!"unitContextId", c!"isCalculatedAmount", c!"sourceIdOverwrittenByChild",
    c!"specificAllocationPropertyIdOverwrittenByChild"] = same flowNames from rfl]
  simp only [h4, given_iff.mpr h, h5]

/-- A context of the allocation property stops the conversion of every exchange. -/
theorem allocation_context_stops (num : Str → Bool) (id fid : Str) (tags coefficients : List Val) {x : Attrs}
    {r : Rec} {v : Str} (h : Has x c!"specificAllocationPropertyContextId" v) :
    (∀ r', intermediate num id fid tags coefficients x r ≠ .ok r') ∧
      ∀ r', elementary num id fid tags coefficients x r ≠ .ok r' := by
  constructor
  · intro r' hr
    exact ((intermediate_ok_partial num id fid tags coefficients x r).mp ⟨r', hr⟩).2 v h
  · intro r' hr
    exact ((elementary_ok_partial num id fid tags coefficients x r).mp ⟨r', hr⟩).2 v h

/-- The context of a classification of a product is recorded. -/
theorem product_classification (num : Str → Bool) (id : Str) (x : Attrs) (r : Rec) :
    ∃ r', classification num flowCls id x r = .ok r' ∧
      ∀ v, Has x c!"classificationContextId" v →
        ∃ q, aget c!"classification" r' = some (q ++ [.dict [(c!"id", id), (c!"context", v)]]) := by
  unfold classification
  cases hg : given c!"classificationContextId" x with
  | none =>
    exact ⟨r, rfl, fun v hv => absurd hv (lacks_iff.mp hg v)⟩
  | some s =>
    refine ⟨_, rfl, fun v hv => ?_⟩
    rw [given_iff.mpr hv] at hg
    obtain rfl := Option.some.inj hg
    exact ⟨_, aget_aset_self _ _ _⟩

/-- The one of a classification of the activity stops the conversion. -/
theorem activity_classification (num : Str → Bool) (id : Str) (x : Attrs) (r : Rec) :
    classification num mainCls id x r = .ok r ∧ Lacks x c!"classificationContextId" ∨
      classification num mainCls id x r = .error .attributeError ∧ ∃ v, Has x c!"classificationContextId" v := by
  unfold classification
  cases hg : given c!"classificationContextId" x with
  | none => exact .inl ⟨rfl, lacks_iff.mp hg⟩
  | some s => exact .inr ⟨rfl, s, given_iff.mp hg⟩

/-- Reviews are recorded. -/
theorem review_ok (num : Str → Bool) (id date version : Str) (r : Rec) :
    ∃ r' q, review num id date version r = .ok r' ∧ aget c!"review" r' =
      some (q ++ [.dict [(c!"@reviewerId", id), (c!"@reviewDate", date), (c!"@version", version)]]) :=
  ⟨_, _, rfl, aget_aset_self _ _ _⟩

/-- The attributes of the data set are recorded, except a statement on the whole period that is not a truth
value. -/
theorem data_set_ok (num : Str → Bool) {k : Str} (hk : k ∈ dataSetFields) (x : Attrs) (r : Rec) :
    (∃ r', dataSetField num k x r = .ok r') ↔
      (k = c!"isDataValidForEntirePeriod" → ∀ v, (x.find? (fun p => p.1 == k)).map Prod.snd = some v → LooseBool v) := by
  have ht : aget k mainCls = some (if k = c!"isDataValidForEntirePeriod" then .bool else .text) := by
    revert k
    decide
  unfold dataSetField
  rw [← aget_find]
  cases hg : aget k x with
  | none => simp
  | some s =>
    simp only
    rw [put_ok, ht]
    by_cases hb : k = c!"isDataValidForEntirePeriod"
    · simp [hb, Fits, loose_iff]
    · simp [hb, Fits]

/-- And then they are there. -/
theorem data_set_recorded {num : Str → Bool} {k : Str} {x : Attrs} {r r' : Rec}
    (h : dataSetField num k x r = .ok r') {v : Str} (hv : (x.find? (fun p => p.1 == k)).map Prod.snd = some v) :
    ∃ q, aget k r' = some (q ++ [.text v]) := by
  unfold dataSetField at h
  rw [aget_find, hv] at h
  exact put_get h

theorem there_iff {x : Attrs} {a : Str} : (∃ v, aget a x = some v) ↔ There x a := by
  rw [There, ← aget_isSome, Option.isSome_iff_exists]

theorem must_ok {x : Attrs} {a : Str} : (∃ v, must a x = .ok v) ↔ There x a := by
  rw [← there_iff]
  unfold must
  cases aget a x <;> simp

/-- The person who entered the data is recorded iff a context comes with an identifier. -/
theorem entry_ok (num : Str → Bool) (x : Attrs) (r : Rec) :
    (∃ r', entry num x r = .ok r') ↔ (∀ v, Has x c!"personContextId" v → There x c!"personId") := by
  unfold entry
  cases hg : given c!"personContextId" x with
  | none =>
    simp only [Except.ok.injEq, exists_eq', true_iff]
    exact fun v hv => absurd hv (lacks_iff.mp hg v)
  | some s =>
    rw [← must_ok]
    cases hm : must c!"personId" x with
    | error e =>
      simp only [bind, Except.bind, reduceCtorEq, exists_false, imp_false, false_iff]
      exact fun h => h s (given_iff.mp hg)
    | ok p =>
      simp only [Except.ok.injEq, exists_eq', implies_true, iff_true]
      exact ⟨_, rfl⟩

/-- And then it is recorded with the person it belongs to. -/
theorem entry_recorded {num : Str → Bool} {x : Attrs} {r r' : Rec} (h : entry num x r = .ok r') {p v : Str}
    (hv : Has x c!"personContextId" v) (hp : (x.find? (fun q => q.1 == c!"personId")).map Prod.snd = some p) :
    ∃ q, aget c!"dataEntryBy_personContextId" r' = some (q ++ [.text (p ++ c!"/" ++ v)]) := by
  unfold entry at h
  rw [given_iff.mpr hv] at h
  rw [← aget_find] at hp
  simp only [must, hp, bind, Except.bind] at h
  exact put_get h

theorem paired_ok (num : Str → Bool) (id a k : Str) (hk : aget k mainCls = some .list) (x : Attrs) (r : Rec) :
    (∃ r', paired num false id a k x r = .ok r') ↔ (∀ v, Has x a v → There x id) := by
  unfold paired
  cases hg : given a x with
  | none =>
    simp only [Except.ok.injEq, exists_eq', true_iff]
    exact fun v hv => absurd hv (lacks_iff.mp hg v)
  | some s =>
    rw [← must_ok]
    simp only [Bool.false_and, Bool.false_eq_true, if_false]
    cases hm : must id x with
    | error e =>
      simp only [bind, Except.bind, reduceCtorEq, exists_false, imp_false, false_iff]
      exact fun h => h s (given_iff.mp hg)
    | ok p =>
      simp only [Except.ok.injEq, exists_eq', implies_true, iff_true]
      exact put_ok.mpr ⟨.list, hk, trivial⟩

theorem paired_guarded (num : Str → Bool) (id a k : Str) (hk : aget k mainCls = some .list) (x : Attrs) (r : Rec) :
    ∃ r', paired num true id a k x r = .ok r' := by
  unfold paired
  cases hg : given a x with
  | none => exact ⟨r, rfl⟩
  | some s =>
    simp only [Bool.true_and]
    cases hi : given id x with
    | none => exact ⟨r, by simp⟩
    | some i =>
      have hh := (given_iff.mp hi).2
      rw [← aget_find] at hh
      simp only [Option.isNone_some, Bool.false_eq_true, if_false, must, hh]
      exact put_ok.mpr ⟨.list, hk, trivial⟩

/-- The generator of the data is recorded iff the contexts come with the identifiers they belong to. -/
theorem generator_ok (num : Str → Bool) (x : Attrs) (r : Rec) :
    (∃ r', generator num x r = .ok r') ↔
      (∀ v, Has x c!"personContextId" v → There x c!"personId") ∧
      (∀ v, Has x c!"publishedSourceContextId" v → There x c!"personId") ∧
      (∀ v, Has x c!"companyContextId" v → There x c!"companyId") := by
  have h1 := paired_ok num c!"personId" c!"personContextId" c!"dataGeneratorAndPublication_personContextId" (by decide) x r
  unfold generator
  simp only [bind, Except.bind]
  rw [← h1]
  cases hp1 : paired num false c!"personId" c!"personContextId" c!"dataGeneratorAndPublication_personContextId" x r with
  | error e => simp
  | ok r1 =>
    obtain ⟨r2, hp2⟩ := paired_guarded num c!"personId" c!"publishedSourceIdOverwrittenByChild"
      c!"publishedSourceIdOverwrittenByChild" (by decide) x r1
    have h3 := paired_ok num c!"personId" c!"publishedSourceContextId" c!"publishedSourceContextId" (by decide) x r2
    simp only [hp2]
    rw [← h3]
    cases hp3 : paired num false c!"personId" c!"publishedSourceContextId" c!"publishedSourceContextId" x r2 with
    | error e => simp
    | ok r3 =>
      obtain ⟨r4, hp4⟩ := paired_guarded num c!"companyId" c!"companyIdOverwrittenByChild"
        c!"companyIdOverwrittenByChild" (by decide) x r3
      have h5 := paired_ok num c!"companyId" c!"companyContextId" c!"companyContextId" (by decide) x r4
      simp only [hp4]
      rw [h5]
      simp

/-- A required context is recorded iff it has names, both release numbers, its identifier and, although the
format makes it optional, its place. -/
theorem required_context_ok (num : Str → Bool) (names : Option Str) (x : Attrs) (r : Rec) :
    (∃ r', requiredContext num names x r = .ok r') ↔
      names ≠ none ∧ There x c!"majorRelease" ∧ There x c!"minorRelease" ∧ There x c!"requiredContextId" ∧
        There x c!"requiredContextFileLocation" := by
  unfold requiredContext
  rw [← must_ok (a := c!"majorRelease"), ← must_ok (a := c!"minorRelease"), ← must_ok (a := c!"requiredContextId"),
    ← there_iff (a := c!"requiredContextFileLocation")]
  cases names with
  | none => simp [bind, Except.bind]
  | some n =>
    cases must c!"majorRelease" x with
    | error e => simp [bind, Except.bind]
    | ok a =>
      cases must c!"minorRelease" x with
      | error e => simp [bind, Except.bind]
      | ok b =>
        cases must c!"requiredContextId" x with
        | error e => simp [bind, Except.bind]
        | ok i =>
          cases aget c!"requiredContextFileLocation" x with
          | none => simp [bind, Except.bind, concat]
          | some l =>
            simp only [bind, Except.bind, concat, ne_eq, reduceCtorEq, not_false_eq_true, Except.ok.injEq,
              exists_eq', Option.some.injEq, and_self, iff_true]
            exact put_ok.mpr ⟨.list, by decide, trivial⟩

/-- And then its names, numbers, identifier and place are recorded in this order; a hyphen stands for a missing
revision. -/
theorem required_context_recorded {num : Str → Bool} {n a b i l : Str} {x : Attrs} {r r' : Rec}
    (h : requiredContext num (some n) x r = .ok r')
    (ha : (x.find? (fun q => q.1 == c!"majorRelease")).map Prod.snd = some a)
    (hb : (x.find? (fun q => q.1 == c!"minorRelease")).map Prod.snd = some b)
    (hi : (x.find? (fun q => q.1 == c!"requiredContextId")).map Prod.snd = some i)
    (hl : (x.find? (fun q => q.1 == c!"requiredContextFileLocation")).map Prod.snd = some l) :
    ∃ q, aget c!"requiredContext" r' = some (q ++ [.text (join c!"|" [n, a, b,
      ((x.find? (fun q => q.1 == c!"majorRevision")).map Prod.snd).getD c!"-",
      ((x.find? (fun q => q.1 == c!"minorRevision")).map Prod.snd).getD c!"-", i, l])]) := by
  unfold requiredContext at h
  rw [← aget_find] at ha hb hi hl
  simp only [must, ha, hb, hi, hl, concat, bind, Except.bind] at h
  obtain ⟨q, hq⟩ := put_get h
  refine ⟨q, hq.trans ?_⟩
  rw [← aget_find, ← aget_find]
  simp [join]

/-- Without its place it stops the conversion with a `TypeError`. -/
theorem no_location_stops (num : Str → Bool) {n a b i : Str} {x : Attrs} (r : Rec)
    (ha : aget c!"majorRelease" x = some a) (hb : aget c!"minorRelease" x = some b)
    (hi : aget c!"requiredContextId" x = some i) (hl : ¬There x c!"requiredContextFileLocation") :
    requiredContext num (some n) x r = .error .typeError := by
  have : aget c!"requiredContextFileLocation" x = none := by
    cases h : aget c!"requiredContextFileLocation" x with
    | none => rfl
    | some v => exact absurd (there_iff.mp ⟨v, h⟩) hl
  simp [requiredContext, must, ha, hb, hi, this, concat, bind, Except.bind]

/- The hypotheses are met by concrete elements. -/

/-- A number. -/
def isNum (s : Str) : Bool := s.all Char.isDigit

example : ∃ r, intermediate isNum c!"1" c!"2" [.text c!"tag"] []
    [(c!"unitContextId", c!"u"), (c!"isCalculatedAmount", c!"true"), (c!"activityLinkContextId", c!"l")] [] = .ok r :=
  (intermediate_ok_partial _ _ _ _ _ _ _).mpr ⟨by
    intro a ha v hv
    obtain ⟨-, h⟩ := hv
    simp only [List.mem_cons, List.not_mem_nil, or_false] at ha
    rcases ha with rfl | rfl | rfl
    · have : v = c!"true" := by simpa [List.find?] using h.symm
      exact .inl (.inl this)
    · simp [List.find?] at h
    · simp [List.find?] at h, by
    rintro v ⟨-, h⟩
    simp [List.find?] at h⟩

example : ∀ r', intermediate isNum c!"1" c!"2" [] []
    [(c!"specificAllocationPropertyContextId", c!"x")] [] ≠ .ok r' :=
  (allocation_context_stops (v := c!"x") isNum c!"1" c!"2" [] [] ⟨by simp, rfl⟩).1

example (r' : Rec) (h : entry isNum [(c!"personId", c!"p"), (c!"personContextId", c!"x")] [] = .ok r') :
    ∃ q, aget c!"dataEntryBy_personContextId" r' = some (q ++ [.text c!"p/x"]) :=
  entry_recorded h ⟨by simp, rfl⟩ rfl

example : ∃ r', entry isNum [(c!"personId", c!"p"), (c!"personContextId", c!"x")] [] = .ok r' := ⟨_, rfl⟩

example : ∃ r' q, requiredContext isNum (some c!"names") [(c!"majorRelease", c!"1"), (c!"minorRelease", c!"0"),
      (c!"requiredContextId", c!"i"), (c!"requiredContextFileLocation", c!"l"), (c!"minorRevision", c!"7")] [] = .ok r' ∧
    aget c!"requiredContext" r' = some (q ++ [.text c!"names|1|0|-|7|i|l"]) :=
  have ⟨q, h⟩ := required_context_recorded (num := isNum) (r := []) (n := c!"names")
    (x := [(c!"majorRelease", c!"1"), (c!"minorRelease", c!"0"), (c!"requiredContextId", c!"i"),
      (c!"requiredContextFileLocation", c!"l"), (c!"minorRevision", c!"7")]) rfl rfl rfl rfl rfl
  ⟨_, q, rfl, h⟩

example : classification isNum mainCls c!"1" [(c!"classificationContextId", c!"x")] [] = .error .attributeError := rfl

example : requiredContext isNum (some c!"names")
    [(c!"majorRelease", c!"1"), (c!"minorRelease", c!"0"), (c!"requiredContextId", c!"i")] [] = .error .typeError :=
  no_location_stops isNum [] rfl rfl rfl (by unfold There; decide)

example : ∀ r', generator isNum [(c!"personId", c!"p"), (c!"companyContextId", c!"c")] [] ≠ .ok r' := by
  intro r' h
  have := ((generator_ok _ _ _).mp ⟨r', h⟩).2.2 c!"c" ⟨by simp, rfl⟩
  revert this
  unfold There
  decide

example : ∃ r', property isNum true true c!"x" [(c!"isDefiningValue", c!"false")] = .ok r' := ⟨_, rfl⟩

example : property isNum false true c!"x" [(c!"isDefiningValue", c!"false")] = .error .typeError := rfl

/-- What is recorded of a parameter. -/
theorem parameter_recorded {num : Str → Bool} {x : Attrs} {r : Rec} (h : parameter num x = .ok r) :
    ∀ a ∈ [c!"isCalculatedAmount", c!"parameterContextId", c!"unitContextId"], ∀ v, Has x a v →
      ∃ q, aget a r = some (q ++ [.text v]) :=
  fun a ha _ hv => putAll_get h (by decide)
    (List.mem_map.mpr ⟨a, ha, rfl⟩ : (a, a) ∈ same [c!"isCalculatedAmount", c!"parameterContextId", c!"unitContextId"]) hv

example : Has [(c!"unitContextId", c!"u")] c!"unitContextId" c!"u" := by unfold Has; decide

/-- What is recorded of a production volume. -/
theorem volume_recorded {num : Str → Bool} {x : Attrs} {r : Rec} (h : volume num x = .ok r) :
    ∀ a ∈ [c!"productionVolumeSourceIdOverwrittenByChild", c!"productionVolumeSourceContextId"], ∀ v, Has x a v →
      ∃ q, aget a r = some (q ++ [.text v]) :=
  fun a ha _ hv => putAll_get h (by decide)
    (List.mem_map.mpr ⟨a, ha, rfl⟩ : (a, a) ∈ same [c!"productionVolumeSourceIdOverwrittenByChild",
      c!"productionVolumeSourceContextId"]) hv

/-- What is recorded of a property besides its amount. -/
theorem property_recorded {num : Str → Bool} {known unitGiven : Bool} {amount : Str} {x : Attrs} {r : Rec}
    (h : property num known unitGiven amount x = .ok r) :
    ∀ a ∈ [c!"propertyContextId", c!"isDefiningValue", c!"isCalculatedAmount", c!"unitContextId",
      c!"sourceIdOverwrittenByChild", c!"sourceContextId"], ∀ v, Has x a v →
      ∃ q, aget a r = some (q ++ [.text v]) := by
  intro a ha v hv
  have key : ∀ r0, putAll num propertyCls x (same [c!"propertyContextId", c!"isDefiningValue",
      c!"isCalculatedAmount", c!"unitContextId", c!"sourceIdOverwrittenByChild", c!"sourceContextId"]) r0 = .ok r →
      ∃ q, aget a r = some (q ++ [.text v]) := fun r0 h0 =>
    putAll_get h0 (by decide) (List.mem_map.mpr ⟨a, ha, rfl⟩ : (a, a) ∈ same [c!"propertyContextId",
      c!"isDefiningValue", c!"isCalculatedAmount", c!"unitContextId", c!"sourceIdOverwrittenByChild",
      c!"sourceContextId"]) hv
  have key' : ∀ r1, (do
      let r ← if !known && unitGiven then putGiven num propertyCls (c!"unitId", c!"unitId") x r1 else .ok r1
      putAll num propertyCls x (same [c!"propertyContextId", c!"isDefiningValue", c!"isCalculatedAmount",
        c!"unitContextId", c!"sourceIdOverwrittenByChild", c!"sourceContextId"]) r) = .ok r →
      ∃ q, aget a r = some (q ++ [.text v]) := by
    intro r1
    by_cases hu : (!known && unitGiven) = true
    · rw [if_pos hu]
      cases putGiven num propertyCls (c!"unitId", c!"unitId") x r1 with
      | error e => intro h; cases h
      | ok r2 => exact key r2
    · rw [if_neg hu]
      exact key r1
  unfold property at h
  by_cases hk : (known && unitGiven) = true
  · rw [if_pos hk] at h
    exact key' [] h
  · rw [if_neg hk] at h
    revert h
    cases put num propertyCls c!"amount" (.text amount) [] with
    | error e => intro h; cases h
    | ok r1 => exact key' r1

end Verif.Unconverted
