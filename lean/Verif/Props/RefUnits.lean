/-
C111 to C114: amounts in the unit of their flow property, the files of flow properties and unit groups, and the dimensions
that are recognised.
-/
import Verif.Model.RefUnits
import Verif.Spec.RefUnits
import Verif.Lemmas.Assoc
import Mathlib.Tactic.FieldSimp
import Mathlib.Tactic.Ring
import Mathlib.Algebra.Field.Rat
import Mathlib.Data.List.Perm.Basic

namespace Verif.RefUnits

open Verif Verif.Units Verif.RefUnits.Spec

/-! ### The tables against the files of the package -/

/-- The unit groups of time and of currency. -/
def timeGroup : Str := c!"af638906-3ec7-4314-8de7-f76039f2dd01"
@[inherit_doc timeGroup] def currencyGroup : Str := c!"da299c4d-1741-4da8-9fbd-5ccfb5e1d688"

/-- A row of the table of flow properties agrees with the files. -/
private def rowAgrees (w : Ilcd) : Bool :=
  match aget w.fp fpFiles with
  | none => false
  | some f => f.version = w.version && f.group = w.group && (aget w.group ugFiles).isSome

private theorem rows_agree : (pintToIlcdFp.all fun p => rowAgrees p.2) = true := by decide +kernel

/-- Every row of `pint_to_ilcd_fp` names a file of the package, in the version and with the unit group of that file. -/
theorem row_file {k : Str} {w : Ilcd} (h : (k, w) ∈ pintToIlcdFp) :
    ∃ f, aget w.fp fpFiles = some f ∧ f.version = w.version ∧ f.group = w.group ∧ (aget w.group ugFiles).isSome := by
  have := List.all_eq_true.1 rows_agree _ h
  unfold rowAgrees at this
  simp only at this
  split at this
  · exact absurd this (by simp)
  · rename_i f hf
    simp only [Bool.and_eq_true, decide_eq_true_eq] at this
    exact ⟨f, hf, this.1.1, this.1.2, this.2⟩

/-- The unit amounts are converted to is the reference unit of its group, in all groups of the package but two. -/
private def unitAgrees (r : Str × (Str × Str × Str)) : Bool :=
  r.2.1 = timeGroup || r.2.1 = currencyGroup || (aget r.2.1 ugFiles).isNone || groupUnit r.2.1 = some r.2.2.1

private theorem units_agree : (pintToIlcdDef.all unitAgrees) = true := by decide +kernel

/-- The group of the dimension is the group of its flow property. -/
private def groupAgrees (r : Str × (Str × Str × Str)) : Bool :=
  (match aget r.1 pintToIlcdFp with | some w => w.group = r.2.1 | none => true) &&
    (r.1 ≠ energyKey || (match aget c!"f09fb2f1-8af1-3630-8463-c7ebc26474bf" pintToIlcdFp with
      | some w => w.group = r.2.1 | none => true))

private theorem groups_agree : (pintToIlcdDef.all groupAgrees) = true := by decide +kernel

private theorem def_group {k g n u : Str} (h : aget k pintToIlcdDef = some (g, n, u)) {e : Option Str} {k' : Str}
    (he : energyProp e k = some k') {w : Ilcd} (hw : aget k' pintToIlcdFp = some w) : w.group = g := by
  have := List.all_eq_true.1 groups_agree _ (aget_mem h)
  unfold groupAgrees at this
  simp only [Bool.and_eq_true] at this
  have key : k' = k ∨ (k = energyKey ∧ k' = c!"f09fb2f1-8af1-3630-8463-c7ebc26474bf") := by
    unfold energyProp at he
    split at he
    · rename_i hk
      split at he
      · left; injection he with he; exact he.symm
      · split at he
        · left; injection he with he; exact he.symm
        · split at he
          · left; injection he with he; exact he.symm
          · split at he
            · right; injection he with he; exact ⟨hk, he.symm⟩
            · cases he
    · left; injection he with he; exact he.symm
  rcases key with rfl | ⟨rfl, rfl⟩
  · have h1 := this.1
    rw [hw] at h1
    simpa using h1
  · have h2 := this.2
    rw [hw] at h2
    simpa using h2

/-! ### C111: amounts are in the unit of their flow property -/

section Amounts

variable {K : Type} [Field K]

/-- The names of the units in `pint_to_ilcd_def` mean the same to pint and in ILCD. -/
structure Agree (p : Pint K) (worth : Str → K) : Prop where
  same : ∀ r ∈ pintToIlcdDef, worth r.2.2.1 = p.size r.2.2.2
  pos : ∀ r ∈ pintToIlcdDef, p.size r.2.2.2 ≠ 0

/-- The quantity after `to_ilcd_unit` is the same quantity, in the unit of the table. -/
theorem converted {p : Pint K} {hash : Str → Str} {f : K} {q : Qty K} {g n u : Str}
    (h : aget (hash (correctDim (p.dim q.u))) pintToIlcdDef = some (g, n, u)) (hu : p.size u ≠ 0) :
    (toIlcdUnit p hash f q).1.u = u ∧ (toIlcdUnit p hash f q).1.m * p.size u = q.m * p.size q.u ∧
      (toIlcdUnit p hash f q).2 * p.size u = f * p.size q.u := by
  unfold toIlcdUnit
  rw [h]
  simp only
  split
  · refine ⟨rfl, ?_, ?_⟩
    · simp only [Pint.to]; field_simp
    · simp only [Pint.to]; field_simp
  · rename_i hq
    have : q.u = u := by simpa using hq
    rw [this]
    exact ⟨rfl, rfl, rfl⟩

/-- A quantity of another dimension is stated in the base units of pint. -/
theorem converted_base {p : Pint K} {hash : Str → Str} {f : K} {q : Qty K}
    (h : aget (hash (correctDim (p.dim q.u))) pintToIlcdDef = none) (hu : p.size (p.base q.u) ≠ 0) :
    (toIlcdUnit p hash f q).1.u = p.base q.u ∧
      (toIlcdUnit p hash f q).1.m * p.size (p.base q.u) = q.m * p.size q.u ∧
      (toIlcdUnit p hash f q).2 * p.size (p.base q.u) = f * p.size q.u := by
  unfold toIlcdUnit
  rw [h]
  refine ⟨rfl, ?_, ?_⟩
  · simp only [Pint.to]; field_simp
  · simp only [Pint.to]; field_simp

private theorem group_unit {r : Str × (Str × Str × Str)} (hr : r ∈ pintToIlcdDef) (ht : r.2.1 ≠ timeGroup)
    (hc : r.2.1 ≠ currencyGroup) (hg : (aget r.2.1 ugFiles).isSome) : groupUnit r.2.1 = some r.2.2.1 := by
  have := List.all_eq_true.1 units_agree _ hr
  unfold unitAgrees at this
  simp only [Bool.or_eq_true, decide_eq_true_eq] at this
  rcases this with ((h | h) | h) | h
  · exact absurd h ht
  · exact absurd h hc
  · rw [Option.isNone_iff_eq_none] at h; rw [h] at hg; simp at hg
  · exact h

private theorem unitOf_row {k : Str} {w : Ilcd} (h : (k, w) ∈ pintToIlcdFp) : unitOf w.fp = groupUnit w.group := by
  obtain ⟨f, hf, -, hg, -⟩ := row_file h
  unfold unitOf
  rw [hf]
  simp [hg]

/-- **C111**, for all dimensions but time and currency, and for exchanges and properties alike: the number written, taken in
the unit that the files of the output give for the flow property, is the amount of the source. -/
theorem amount_kept_partial {p : Pint K} {worth : Str → K} (ha : Agree p worth) {hash : Str → Str} (f : K) {q : Qty K}
    {g n u : Str} (h : aget (hash (correctDim (p.dim q.u))) pintToIlcdDef = some (g, n, u)) (ht : g ≠ timeGroup)
    (hc : g ≠ currencyGroup) {k : Str} {w : Ilcd} (hw : (k, w) ∈ pintToIlcdFp) (hg : w.group = g) :
    Means worth w.fp (toIlcdUnit p hash f q).1.m (q.m * p.size q.u) := by
  have hm := aget_mem h
  obtain ⟨_, hq, _⟩ := converted (f := f) h (ha.pos _ hm)
  obtain ⟨fl, _, _, _, hs⟩ := row_file hw
  refine ⟨n, ?_, ?_⟩
  · rw [unitOf_row hw, hg]
    exact group_unit hm ht hc (by rw [hg] at hs; exact hs)
  · have := ha.same _ hm
    simp only at this
    rw [this, ← hq]

theorem unitProperty_row {hash : Str → Str} {e : Option Str} {d : Str} {s s' : St} {r : Ref}
    (h : unitProperty hash e d s = .ok (r, s')) :
    ∃ k w, energyProp e (hash (correctDim d)) = some k ∧ aget k pintToIlcdFp = some w ∧ refer w s = .ok (r, s') := by
  unfold unitProperty at h
  split at h
  · cases h
  · rename_i w hw
    obtain ⟨k, hk, hkw⟩ := Option.bind_eq_some_iff.1 hw
    split at h
    · rename_i r' hr
      injection h with h
      subst h
      exact ⟨k, w, hk, hkw, hr⟩
    · cases h

theorem refer_ref {w : Ilcd} {s s' : St} {r : Ref} (h : refer w s = .ok (r, s')) :
    r.id = w.fp ∧ r.version = w.version ∧ r.name = w.name ∧ makeDataset w.fp w.group s = .ok s' := by
  unfold refer at h
  simp only [bind, Except.bind] at h
  split at h
  · cases h
  · rename_i s1 h1
    injection h with h
    injection h with h2 h3
    subst h2 h3
    exact ⟨rfl, rfl, rfl, h1⟩

/-- **C111** for an exchange: the flow property is the one `get_unit_property` refers to. -/
theorem exchange_amount_partial {p : Pint K} {worth : Str → K} (ha : Agree p worth) {hash : Str → Str} (f : K) {q : Qty K}
    {g n u : Str} (h : aget (hash (correctDim (p.dim q.u))) pintToIlcdDef = some (g, n, u)) (ht : g ≠ timeGroup)
    (hc : g ≠ currencyGroup) {e : Option Str} {d : Str} (hd : hash (correctDim d) = hash (correctDim (p.dim q.u)))
    {s s' : St} {r : Ref} (hr : unitProperty hash e d s = .ok (r, s')) :
    Means worth r.id (toIlcdUnit p hash f q).1.m (q.m * p.size q.u) := by
  obtain ⟨k, w, hk, hw, href⟩ := unitProperty_row hr
  rw [hd] at hk
  rw [(refer_ref href).1]
  exact amount_kept_partial ha f h ht hc (aget_mem hw) (def_group h hk hw)

/-- The rest of C111 for time: the number is in days and the file of the flow property says years. -/
theorem duration_as_years {p : Pint K} {worth : Str → K} (ha : Agree p worth) {hash : Str → Str} (f : K) {q : Qty K}
    {n u : Str} (h : aget (hash (correctDim (p.dim q.u))) pintToIlcdDef = some (timeGroup, n, u)) {k : Str} {w : Ilcd}
    (hw : (k, w) ∈ pintToIlcdFp) (hg : w.group = timeGroup) (v : K) :
    Means worth w.fp (toIlcdUnit p hash f q).1.m v ↔ v = q.m * p.size q.u * (worth c!"a" / worth c!"d") := by
  have hm := aget_mem h
  have hn : n = c!"d" ∧ u = c!"day" := by
    have : ∀ r ∈ pintToIlcdDef, r.2.1 = timeGroup → r.2.2.1 = c!"d" ∧ r.2.2.2 = c!"day" := by decide +kernel
    exact this _ hm rfl
  obtain ⟨_, hq, _⟩ := converted (f := f) h (ha.pos _ hm)
  have hs := ha.same _ hm
  have hp := ha.pos _ hm
  simp only at hs hp
  have hu : groupUnit timeGroup = some c!"a" := by decide +kernel
  rw [hn.1] at hs
  rw [hn.2] at hs hp hq
  constructor
  · rintro ⟨x, hx, rfl⟩
    rw [unitOf_row hw, hg, hu] at hx
    injection hx with hx
    subst hx
    rw [← hq, hs]
    field_simp
  · rintro rfl
    refine ⟨c!"a", by rw [unitOf_row hw, hg, hu], ?_⟩
    rw [← hq, hs]
    field_simp

/-- So C111 fails for every duration other than nought: what the output says is not what the source says. -/
theorem duration_not_kept {p : Pint K} {worth : Str → K} (ha : Agree p worth) {hash : Str → Str} (f : K) {q : Qty K}
    {n u : Str} (h : aget (hash (correctDim (p.dim q.u))) pintToIlcdDef = some (timeGroup, n, u)) {k : Str} {w : Ilcd}
    (hw : (k, w) ∈ pintToIlcdFp) (hg : w.group = timeGroup) (hq : q.m * p.size q.u ≠ 0) (hy : worth c!"a" ≠ worth c!"d") :
    ¬ Means worth w.fp (toIlcdUnit p hash f q).1.m (q.m * p.size q.u) := by
  rw [duration_as_years ha f h hw hg]
  have hm := aget_mem h
  have hd : worth c!"d" ≠ 0 := by
    have : ∀ r ∈ pintToIlcdDef, r.2.1 = timeGroup → r.2.2.1 = c!"d" := by decide +kernel
    have h1 := this _ hm rfl
    simp only at h1
    have h2 := ha.same _ hm
    simp only at h2
    rw [← h1, h2]
    exact ha.pos _ hm
  intro he
  apply hy
  have h3 : q.m * p.size q.u * 1 = q.m * p.size q.u * (worth c!"a" / worth c!"d") := by rw [mul_one]; exact he
  have h4 := mul_left_cancel₀ hq h3
  field_simp at h4
  exact h4.symm

/-- And for currency: the number is in `EUR2000`, the file says `EUR`; both are the same only to a reader who takes them so. -/
theorem currency_kept_iff {p : Pint K} {worth : Str → K} (ha : Agree p worth) {hash : Str → Str} (f : K) {q : Qty K}
    {n u : Str} (h : aget (hash (correctDim (p.dim q.u))) pintToIlcdDef = some (currencyGroup, n, u)) {k : Str} {w : Ilcd}
    (hw : (k, w) ∈ pintToIlcdFp) (hg : w.group = currencyGroup) (hq : q.m * p.size q.u ≠ 0) :
    Means worth w.fp (toIlcdUnit p hash f q).1.m (q.m * p.size q.u) ↔ worth c!"EUR" = worth c!"EUR2000" := by
  have hm := aget_mem h
  have hn : n = c!"EUR2000" ∧ u = c!"EUR2000" := by
    have : ∀ r ∈ pintToIlcdDef, r.2.1 = currencyGroup → r.2.2.1 = c!"EUR2000" ∧ r.2.2.2 = c!"EUR2000" := by
      decide +kernel
    exact this _ hm rfl
  obtain ⟨_, hc, _⟩ := converted (f := f) h (ha.pos _ hm)
  have hs := ha.same _ hm
  have hp := ha.pos _ hm
  simp only at hs hp
  rw [hn.1] at hs
  rw [hn.2] at hs hp hc
  have hu : groupUnit currencyGroup = some c!"EUR" := by decide +kernel
  have hne : (toIlcdUnit p hash f q).1.m ≠ 0 := by
    intro h0
    rw [h0, zero_mul] at hc
    exact hq hc.symm
  constructor
  · rintro ⟨x, hx, hv⟩
    rw [unitOf_row hw, hg, hu] at hx
    injection hx with hx
    subst hx
    rw [← hc] at hv
    rw [hs]
    exact (mul_left_cancel₀ hne hv).symm
  · intro he
    refine ⟨c!"EUR", by rw [unitOf_row hw, hg, hu], ?_⟩
    rw [he, hs, hc]

end Amounts

/-- The file of the time units: the reference unit is the year, and the day is what the mean values count in. -/
theorem time_units : groupUnit timeGroup = some c!"a" ∧ ∃ f, aget timeGroup ugFiles = some f ∧
    (∃ u ∈ f.units, u.name = c!"a" ∧ u.mean = c!"365.0") ∧ ∃ u ∈ f.units, u.name = c!"d" ∧ u.mean = c!"1.0" := by
  refine ⟨by decide +kernel, ?_⟩
  have h : (match aget timeGroup ugFiles with
      | none => false
      | some f => f.units.any (fun u => u.name = c!"a" && u.mean = c!"365.0") &&
          f.units.any fun u => u.name = c!"d" && u.mean = c!"1.0") = true := by decide +kernel
  cases hf : aget timeGroup ugFiles with
  | none => rw [hf] at h; cases h
  | some f =>
    rw [hf] at h
    simp only [Bool.and_eq_true, List.any_eq_true, decide_eq_true_eq] at h
    exact ⟨f, rfl, h⟩

/-! ### C112: a reference to a flow property leads to its file -/

private theorem copy_fp {id : Str} {s s' : St} (h : copyFile .flowProperty id s = .ok s') :
    s' = { s with outFp := s.outFp ++ [id] } := by
  unfold copyFile at h
  simp only at h
  split at h
  · injection h with h; exact h.symm
  · cases h

private theorem copy_ug {id : Str} {s s' : St} (h : copyFile .unitGroup id s = .ok s') :
    s' = { s with outUg := s.outUg ++ [id] } := by
  unfold copyFile at h
  simp only at h
  split at h
  · injection h with h; exact h.symm
  · cases h

/-- What holds throughout: what is in `all_data` has been copied, with its unit group. -/
private def Inv (s : St) : Prop :=
  ∀ id ∈ s.seenFp, id ∈ s.outFp ∧ ∀ f, aget id fpFiles = some f → f.group ∈ s.outUg

/-- The folders only grow. -/
private def Grows (s s' : St) : Prop := (∀ x ∈ s.outFp, x ∈ s'.outFp) ∧ ∀ x ∈ s.outUg, x ∈ s'.outUg

private theorem Grows.trans {a b c : St} (h : Grows a b) (h' : Grows b c) : Grows a c :=
  ⟨fun x hx => h'.1 x (h.1 x hx), fun x hx => h'.2 x (h.2 x hx)⟩

private theorem make_ok {k : Str} {w : Ilcd} (hw : (k, w) ∈ pintToIlcdFp) (s : St) :
    ∃ s', makeDataset w.fp w.group s = .ok s' := by
  obtain ⟨f, hf, -, -, hg⟩ := row_file hw
  unfold makeDataset
  split
  · exact ⟨s, rfl⟩
  · simp [copyFile, hf, hg, bind, Except.bind]

private theorem make_inv {k : Str} {w : Ilcd} (hw : (k, w) ∈ pintToIlcdFp) {s s' : St} (hi : Inv s)
    (h : makeDataset w.fp w.group s = .ok s') :
    Inv s' ∧ Grows s s' ∧ Leads s'.outFp s'.outUg w.fp w.version := by
  obtain ⟨f, hf, hv, hfg, hg⟩ := row_file hw
  unfold makeDataset at h
  split at h
  · rename_i hseen
    injection h with h
    subst h
    obtain ⟨h1, h2⟩ := hi _ hseen
    exact ⟨hi, ⟨fun _ hx => hx, fun _ hx => hx⟩, h1, f, hf, hv, h2 f hf, by rw [hfg]; exact hg⟩
  · simp only [bind, Except.bind] at h
    split at h
    · cases h
    · rename_i s1 h1
      have e1 := copy_fp h1
      have e2 := copy_ug h
      subst e1
      subst e2
      refine ⟨?_, ⟨fun x hx => by simp [hx], fun x hx => by simp [hx]⟩, by simp, f, hf, hv, by simp [hfg], by
        rw [hfg]; exact hg⟩
      intro id hid
      simp only [List.mem_append, List.mem_singleton] at hid ⊢
      rcases hid with hid | rfl
      · obtain ⟨a, b⟩ := hi id hid
        exact ⟨.inl a, fun f' hf' => .inl (b f' hf')⟩
      · exact ⟨.inr rfl, fun f' hf' => .inr (by rw [hf] at hf'; injection hf' with hf'; rw [← hf', hfg])⟩

private theorem leads_mono {a a' b b' : List Str} {id v : Str} (h : Leads a b id v) (ha : ∀ x ∈ a, x ∈ a')
    (hb : ∀ x ∈ b, x ∈ b') : Leads a' b' id v := by
  obtain ⟨h1, f, h2, h3, h4, h5⟩ := h
  exact ⟨ha _ h1, f, h2, h3, hb _ h4, h5⟩

private theorem refer_inv {k : Str} {w : Ilcd} (hw : (k, w) ∈ pintToIlcdFp) {s s' : St} {r : Ref} (hi : Inv s)
    (h : refer w s = .ok (r, s')) : Inv s' ∧ Grows s s' ∧ (Leads s'.outFp s'.outUg r.id r.version ∧ r.uri = c!"../flowproperties/" ++ r.id) := by
  obtain ⟨h1, h2, -, h3⟩ := refer_ref h
  have h4 : r.uri = c!"../flowproperties/" ++ w.fp := by
    unfold refer at h
    rw [h3] at h
    injection h with h
    injection h with h _
    rw [← h]
    rfl
  rw [h1, h2, h4]
  obtain ⟨a, b, c⟩ := make_inv hw hi h3
  exact ⟨a, b, c, rfl⟩

private theorem answer_inv {hash : Str → Str} {q : Req} {s s' : St} {r : Option Ref} (hi : Inv s)
    (h : answer hash q s = .ok (r, s')) :
    Inv s' ∧ Grows s s' ∧ ∀ x ∈ r.toList, Leads s'.outFp s'.outUg x.id x.version ∧ x.uri = c!"../flowproperties/" ++ x.id := by
  cases q with
  | unit e d =>
    unfold answer at h
    simp only [bind, Except.bind] at h
    split at h
    · cases h
    · rename_i p hp
      obtain ⟨r1, s1⟩ := p
      injection h with h
      injection h with h2 h3
      subst h2 h3
      obtain ⟨k, w, _, hw, href⟩ := unitProperty_row hp
      obtain ⟨a, b, c⟩ := refer_inv (aget_mem hw) hi href
      exact ⟨a, b, by simpa using c⟩
  | property id u =>
    unfold answer propertyRef at h
    simp only at h
    split at h
    · injection h with h
      injection h with h2 h3
      subst h2 h3
      exact ⟨hi, ⟨fun _ hx => hx, fun _ hx => hx⟩, by simp⟩
    · rename_i w hw
      split at h
      · simp only [bind, Except.bind] at h
        split at h
        · cases h
        · rename_i p hp
          obtain ⟨r1, s1⟩ := p
          injection h with h
          injection h with h2 h3
          subst h2 h3
          obtain ⟨a, b, c⟩ := refer_inv (aget_mem hw) hi hp
          exact ⟨a, b, by simpa using c⟩
      · injection h with h
        injection h with h2 h3
        subst h2 h3
        exact ⟨hi, ⟨fun _ hx => hx, fun _ hx => hx⟩, by simp⟩

private theorem run_inv {hash : Str → Str} {l : List Req} {s s' : St} {rs : List Ref} (hi : Inv s)
    (h : run hash l s = .ok (rs, s')) : Grows s s' ∧ ∀ x ∈ rs, Leads s'.outFp s'.outUg x.id x.version ∧ x.uri = c!"../flowproperties/" ++ x.id := by
  induction l generalizing s rs with
  | nil =>
    unfold run at h
    injection h with h
    injection h with h2 h3
    subst h2 h3
    exact ⟨⟨fun _ hx => hx, fun _ hx => hx⟩, by simp⟩
  | cons q l ih =>
    unfold run at h
    simp only [bind, Except.bind] at h
    split at h
    · cases h
    · rename_i p hp
      obtain ⟨r1, s1⟩ := p
      simp only at h
      split at h
      · cases h
      · rename_i p2 hp2
        obtain ⟨r2, s2⟩ := p2
        injection h with h
        injection h with h2 h3
        subst h2 h3
        obtain ⟨i1, g1, l1⟩ := answer_inv hi hp
        obtain ⟨g2, l2⟩ := ih i1 hp2
        refine ⟨g1.trans g2, ?_⟩
        intro x hx
        rcases List.mem_append.1 hx with hx | hx
        · exact ⟨leads_mono (l1 x hx).1 g2.1 g2.2, (l1 x hx).2⟩
        · exact l2 x hx

/-- **C112**: whatever is requested in the course of a conversion and in whatever order, every reference to a flow property
leads to a file of the output in the version it names, with the file of its unit group beside it; it names the file in the
folder of the flow properties. -/
theorem references_lead {hash : Str → Str} {l : List Req} {outFp outUg : List Str} {s' : St} {rs : List Ref}
    (h : run hash l (St.start outFp outUg) = .ok (rs, s')) :
    ∀ x ∈ rs, Leads s'.outFp s'.outUg x.id x.version ∧ x.uri = c!"../flowproperties/" ++ x.id :=
  (run_inv (by intro id hid; simp [St.start] at hid) h).2

/-- Without the reset of `all_data` (1893-1898) this would be lost: what an earlier output got is not copied again. -/
theorem stale_not_copied {w : Ilcd} {s s' : St} {r : Ref} (hs : w.fp ∈ s.seenFp) (ho : w.fp ∉ s.outFp)
    (h : refer w s = .ok (r, s')) : ¬ Leads s'.outFp s'.outUg r.id r.version := by
  obtain ⟨h1, _, _, h3⟩ := refer_ref h
  unfold makeDataset at h3
  rw [if_pos hs] at h3
  injection h3 with h3
  subst h3
  rintro ⟨hf, _⟩
  rw [h1] at hf
  exact ho hf

/-- The name of the flow property of a unit is that of its file, but for transport of persons and for currency. -/
theorem unit_name_partial {k : Str} {w : Ilcd} (hk : k ∈ pintToIlcdDef.map Prod.fst) (hw : aget k pintToIlcdFp = some w)
    (h1 : w.group ≠ c!"5454b231-270e-45e6-89b2-7f4f3e482245") (h2 : w.group ≠ currencyGroup) :
    ∃ f, aget w.fp fpFiles = some f ∧ f.name = w.name := by
  have h : ((pintToIlcdDef.map Prod.fst).all fun k =>
      match aget k pintToIlcdFp with
      | none => true
      | some w => w.group = c!"5454b231-270e-45e6-89b2-7f4f3e482245" || w.group = currencyGroup ||
          (match aget w.fp fpFiles with | none => false | some f => f.name = w.name)) = true := by decide +kernel
  have := List.all_eq_true.1 h _ hk
  rw [hw] at this
  simp only [Bool.or_eq_true, decide_eq_true_eq] at this
  rcases this with (a | a) | a
  · exact absurd a h1
  · exact absurd a h2
  · split at a
    · cases a
    · rename_i f hf; exact ⟨f, hf, by simpa using a⟩

/-- The two names that do not agree: an exchange in person kilometres refers to the file of vehicle transport by the name of
person transport, one in a currency to that of the marginal increase of costs. -/
theorem unit_name_wrong :
    (∀ w, aget c!"e132038d-01c0-35ce-a697-b8892ced1280" pintToIlcdFp = some w → w.name = c!"Person transport" ∧
      (aget w.fp fpFiles).map FpFile.name = some c!"Vehicle transport") ∧
    ∀ w, aget c!"7cd6e908-4c0a-35b9-9530-620e5877f4e5" pintToIlcdFp = some w → w.name = c!"Currency" ∧
      (aget w.fp fpFiles).map FpFile.name = some c!"Marginal increase of costs" := by
  have h : (match aget c!"e132038d-01c0-35ce-a697-b8892ced1280" pintToIlcdFp with
      | none => false
      | some w => w.name = c!"Person transport" &&
          (aget w.fp fpFiles).map FpFile.name = some c!"Vehicle transport") = true ∧
      (match aget c!"7cd6e908-4c0a-35b9-9530-620e5877f4e5" pintToIlcdFp with
      | none => false
      | some w => w.name = c!"Currency" &&
          (aget w.fp fpFiles).map FpFile.name = some c!"Marginal increase of costs") = true := by decide +kernel
  refine ⟨fun w hw => ?_, fun w hw => ?_⟩
  · have := h.1
    rw [hw] at this
    simpa only [Bool.and_eq_true, decide_eq_true_eq] using this
  · have := h.2
    rw [hw] at this
    simpa only [Bool.and_eq_true, decide_eq_true_eq] using this

/-! ### C113: exchanges in any unit that is known -/

/-- `refer` never fails on a row of the table. -/
private theorem refer_ok {k : Str} {w : Ilcd} (hw : (k, w) ∈ pintToIlcdFp) (s : St) : ∃ x, refer w s = .ok x := by
  obtain ⟨s', h⟩ := make_ok hw s
  unfold refer
  rw [h]
  exact ⟨_, rfl⟩

/-- The flow property of an exchange is found exactly if the table has a row for its dimension. -/
theorem unit_ok_iff (hash : Str → Str) (e : Option Str) (d : Str) (s : St) :
    (∃ x, unitProperty hash e d s = .ok x) ↔
      ∃ k, energyProp e (hash (correctDim d)) = some k ∧ k ∈ pintToIlcdFp.map Prod.fst := by
  constructor
  · rintro ⟨⟨r, s'⟩, h⟩
    obtain ⟨k, w, hk, hw, _⟩ := unitProperty_row h
    exact ⟨k, hk, by rw [← aget_isSome, hw]; rfl⟩
  · rintro ⟨k, hk, hm⟩
    rw [← aget_isSome] at hm
    obtain ⟨w, hw⟩ := Option.isSome_iff_exists.1 hm
    obtain ⟨x, hx⟩ := refer_ok (aget_mem hw) s
    refine ⟨x, ?_⟩
    unfold unitProperty
    rw [hk]
    simp only [Option.bind_some, hw, hx]

/-- Anything else is the error that the unit is not in the table. -/
theorem unit_error {hash : Str → Str} {e : Option Str} {d : Str} {s : St} {x : PyErr}
    (h : unitProperty hash e d s = .error x) : x = .valueError := by
  unfold unitProperty at h
  split at h
  · injection h with h; exact h.symm
  · split at h
    · cases h
    · injection h with h; exact h.symm

/-- A property never stops a conversion, whatever its identifier and with or without a unit. -/
theorem property_ok (id : Str) (u : Bool) (s : St) : ∃ x, propertyRef id u s = .ok x := by
  unfold propertyRef
  split
  · exact ⟨_, rfl⟩
  · rename_i w hw
    split
    · obtain ⟨x, hx⟩ := refer_ok (aget_mem hw) s
      simp [hx, bind, Except.bind]
    · exact ⟨_, rfl⟩

/-- So the requests of a conversion are answered exactly if the dimension of every exchange has a row. -/
theorem run_ok_iff (hash : Str → Str) (l : List Req) (s : St) :
    (∃ x, run hash l s = .ok x) ↔
      ∀ e d, Req.unit e d ∈ l → ∃ k, energyProp e (hash (correctDim d)) = some k ∧ k ∈ pintToIlcdFp.map Prod.fst := by
  induction l generalizing s with
  | nil => simp [run]
  | cons q l ih =>
    have step : (∃ x, run hash (q :: l) s = .ok x) ↔ ∃ r s1, answer hash q s = .ok (r, s1) ∧ ∃ x, run hash l s1 = .ok x := by
      have hr : run hash (q :: l) s = (answer hash q s >>= fun a => run hash l a.2 >>= fun b =>
          .ok (a.1.toList ++ b.1, b.2)) := rfl
      rw [hr]
      simp only [bind, Except.bind]
      constructor
      · rintro ⟨x, hx⟩
        split at hx
        · cases hx
        · rename_i p hp
          obtain ⟨r, s1⟩ := p
          refine ⟨r, s1, hp, ?_⟩
          simp only at hx
          split at hx
          · cases hx
          · rename_i y hy; exact ⟨y, hy⟩
      · rintro ⟨r, s1, h1, x, hx⟩
        rw [h1]
        simp only [hx]
        exact ⟨_, rfl⟩
    rw [step]
    cases q with
    | unit e d =>
      have ha : (∃ r s1, answer hash (.unit e d) s = .ok (r, s1)) ↔ ∃ x, unitProperty hash e d s = .ok x := by
        unfold answer
        simp only [bind, Except.bind]
        constructor
        · rintro ⟨r, s1, h⟩
          split at h
          · cases h
          · rename_i p hp; exact ⟨p, hp⟩
        · rintro ⟨⟨r, s1⟩, h⟩
          rw [h]
          exact ⟨some r, s1, rfl⟩
      rw [unit_ok_iff] at ha
      constructor
      · rintro ⟨r, s1, h1, h2⟩ e' d' hm
        rcases List.mem_cons.1 hm with hm | hm
        · injection hm with a b
          subst a b
          exact ha.1 ⟨r, s1, h1⟩
        · exact (ih s1).1 h2 e' d' hm
      · intro h
        obtain ⟨r, s1, h1⟩ := ha.2 (h e d (by simp))
        exact ⟨r, s1, h1, (ih s1).2 fun e' d' hm => h e' d' (by simp [hm])⟩
    | property id u =>
      obtain ⟨⟨r, s1⟩, h1⟩ := property_ok id u s
      constructor
      · rintro ⟨r', s', h1', h2⟩ e' d' hm
        rcases List.mem_cons.1 hm with hm | hm
        · cases hm
        · exact (ih s').1 h2 e' d' hm
      · intro h
        exact ⟨r, s1, h1, (ih s1).2 fun e' d' hm => h e' d' (by simp [hm])⟩

/-- What is used of `uuid_from_string`: it gives the keys of the tables for the eighteen dimensions, and for no other text. -/
structure Hash (hash : Str → Str) : Prop where
  keys : ∀ p ∈ known, hash p.1.text = p.2
  only : ∀ t, hash t ∈ pintToIlcdDef.map Prod.fst ∨ hash t ∈ pintToIlcdFp.map Prod.fst → ∃ p ∈ known, t = p.1.text

/-- The eighteen dimensions are those of the table of units. -/
theorem known_keys : known.map Prod.snd = pintToIlcdDef.map Prod.fst := by decide +kernel

/-- The keys of items times time, of amount of substance and of volume times length. -/
def withoutProperty : List Str :=
  [c!"329b50e2-c594-39e9-953c-04c61d81d61e", c!"ca2f7f9a-ae4e-3c80-9388-b7bc26a8bf4d",
    c!"371b6515-6488-399b-9364-b9125dcf5ef2"]

private theorem text_fixed : (known.all fun p => correctDim p.1.text = p.1.text) = true := by decide +kernel

/-- **C113**, the part that holds and the part that does not: of the eighteen dimensions for which amounts are converted to a
unit of ILCD, fifteen have a flow property; an exchange in one of the other three stops the conversion. -/
theorem known_ok_iff {hash : Str → Str} (hh : Hash hash) {p : Dim × Str} (hp : p ∈ known) (s : St) :
    (∃ x, unitProperty hash none p.1.text s = .ok x) ↔ p.2 ∉ withoutProperty := by
  have h1 : correctDim p.1.text = p.1.text := by simpa using List.all_eq_true.1 text_fixed _ hp
  have h2 : (known.all fun p => decide (p.2 ∈ pintToIlcdFp.map Prod.fst) = !decide (p.2 ∈ withoutProperty)) = true := by
    decide +kernel
  have h3 := List.all_eq_true.1 h2 _ hp
  rw [unit_ok_iff, h1, hh.keys _ hp]
  have h4 : energyProp none p.2 = some p.2 := by unfold energyProp; split <;> rfl
  simp only [h4, Option.some.injEq, exists_eq_left']
  simp only [decide_eq_true_eq] at h3
  by_cases hm : p.2 ∈ withoutProperty <;> simpa [hm] using h3

/-- The witness: an exchange in moles, for which amounts can be converted. -/
theorem moles_stop {hash : Str → Str} (hh : Hash hash) (s : St) :
    (aget (hash (correctDim c!"[substance]")) pintToIlcdDef).isSome ∧
      unitProperty hash none c!"[substance]" s = .error .valueError := by
  have hp : ((⟨[(c!"substance", 1)], []⟩ : Dim), c!"ca2f7f9a-ae4e-3c80-9388-b7bc26a8bf4d") ∈ known := by
    simp [known]
  have ht : (⟨[(c!"substance", 1)], []⟩ : Dim).text = c!"[substance]" := by decide +kernel
  have hc : correctDim c!"[substance]" = c!"[substance]" := by decide +kernel
  have hk := hh.keys _ hp
  have hn := known_ok_iff hh hp s
  rw [ht] at hk hn
  refine ⟨?_, ?_⟩
  · rw [hc, hk]; decide +kernel
  · cases hx : unitProperty hash none c!"[substance]" s with
    | ok x => exact absurd (hn.1 ⟨x, hx⟩) (by decide +kernel)
    | error x => rw [unit_error hx]

/-! ### C114: the order of the factors of a unit -/

/-- The keys of items times time, of items times length and of mass times time. -/
def orderMatters : List Str :=
  [c!"329b50e2-c594-39e9-953c-04c61d81d61e", c!"e132038d-01c0-35ce-a697-b8892ced1280",
    c!"86e381c9-d6d4-3241-b8f6-3d78596aa3cc"]

private theorem perm_two {α : Type} {a b : α} {l : List α} (h : [a, b].Perm l) : l = [a, b] ∨ l = [b, a] := by
  have hl := h.length_eq
  match l, hl with
  | [x, y], _ =>
    have ha := h.mem_iff (a := a)
    simp only [List.mem_cons, List.not_mem_nil, or_false, true_or, true_iff] at ha
    rcases ha with rfl | rfl
    · have := (List.perm_cons _).1 h
      rw [List.singleton_perm_singleton] at this
      subst this; exact .inl rfl
    · have h2 := h.trans (List.Perm.swap _ _ [])
      have := (List.perm_cons _).1 h2
      rw [List.singleton_perm_singleton] at this
      subst this; exact .inr rfl

/-- The orders of a list of at most two factors. -/
private def orders {α : Type} : List α → List (List α)
  | [a, b] => [[a, b], [b, a]]
  | l => [l]

private theorem mem_orders {α : Type} {l m : List α} (hl : l.length ≤ 2) (h : l.Perm m) : m ∈ orders l := by
  match l, hl with
  | [], _ => simp [orders, List.nil_perm.1 h]
  | [a], _ => simp [orders, List.singleton_perm.1 h]
  | [a, b], _ =>
    rcases perm_two h with rfl | rfl <;> simp [orders]

/-- **C114**, for fifteen of the eighteen dimensions: the text that the tables are looked up with does not depend on the order
in which pint names the factors. -/
theorem order_kept_partial {p : Dim × Str} (hp : p ∈ known) (hk : p.2 ∉ orderMatters) {e : Dim} (h : p.1.Same e) :
    correctDim e.text = p.1.text := by
  have h1 : (known.all fun p => decide (p.1.num.length ≤ 2) && decide (p.1.den.length ≤ 2) &&
      (decide (p.2 ∈ orderMatters) || (orders p.1.num).all fun n => (orders p.1.den).all fun d =>
        correctDim (Dim.mk n d).text = p.1.text)) = true := by decide +kernel
  have h2 := List.all_eq_true.1 h1 _ hp
  simp only [Bool.and_eq_true, Bool.or_eq_true, decide_eq_true_eq] at h2
  obtain ⟨⟨l1, l2⟩, h3⟩ := h2
  rcases h3 with h3 | h3
  · exact absurd h3 hk
  · have a := List.all_eq_true.1 h3 _ (mem_orders l1 h.1)
    have b := List.all_eq_true.1 a _ (mem_orders l2 h.2)
    simpa using b

/-- The other three: with the factors the other way round the dimension is none of those in the tables, the amount is
converted to base units and the exchange stops the conversion. -/
theorem order_lost {hash : Str → Str} (hh : Hash hash) {p : Dim × Str} (hp : p ∈ known) (hk : p.2 ∈ orderMatters) :
    ∃ e : Dim, p.1.Same e ∧ aget (hash (correctDim e.text)) pintToIlcdDef = none ∧
      ∀ en s, unitProperty hash en e.text s = .error .valueError := by
  have h1 : (known.all fun p => !decide (p.2 ∈ orderMatters) ||
      (decide (p.1.num.length = 2) && known.all fun q => correctDim (Dim.mk p.1.num.reverse p.1.den).text ≠ q.1.text)) =
      true := by decide +kernel
  have h2 := List.all_eq_true.1 h1 _ hp
  simp only [Bool.or_eq_true, Bool.not_eq_true', decide_eq_false_iff_not, Bool.and_eq_true, decide_eq_true_eq] at h2
  rcases h2 with h2 | ⟨_, h2⟩
  · exact absurd hk h2
  have hno : ∀ q ∈ known, correctDim (Dim.mk p.1.num.reverse p.1.den).text ≠ q.1.text := by
    intro q hq
    simpa using List.all_eq_true.1 h2 _ hq
  have hd : ¬ (hash (correctDim (Dim.mk p.1.num.reverse p.1.den).text) ∈ pintToIlcdDef.map Prod.fst ∨
      hash (correctDim (Dim.mk p.1.num.reverse p.1.den).text) ∈ pintToIlcdFp.map Prod.fst) := by
    intro h
    obtain ⟨q, hq, he⟩ := hh.only _ h
    exact hno q hq he
  refine ⟨⟨p.1.num.reverse, p.1.den⟩, ⟨(List.reverse_perm _).symm, .refl _⟩, ?_, ?_⟩
  · rw [aget_none]; exact fun h => hd (.inl h)
  · intro en s
    cases hx : unitProperty hash en (Dim.mk p.1.num.reverse p.1.den).text s with
    | error x => rw [unit_error hx]
    | ok x =>
      obtain ⟨k, hk1, hk2⟩ := (unit_ok_iff _ _ _ _).1 ⟨x, hx⟩
      exfalso
      have hne : hash (correctDim (Dim.mk p.1.num.reverse p.1.den).text) ≠ energyKey := by
        intro he
        apply hd
        left
        rw [he]
        decide +kernel
      unfold energyProp at hk1
      rw [if_neg hne] at hk1
      injection hk1 with hk1
      rw [← hk1] at hk2
      exact hd (.inr hk2)

/-! ### The hypotheses can be met -/

/-- A hash with the keys of the tables. -/
private def someHash (t : Str) : Str :=
  match known.find? fun p => p.1.text = t with
  | some p => p.2
  | none => c!"other"

private theorem someHash_ok : Hash someHash := by
  refine ⟨?_, ?_⟩
  · have h : (known.all fun p => someHash p.1.text = p.2) = true := by decide +kernel
    intro p hp
    simpa using List.all_eq_true.1 h _ hp
  · intro t ht
    unfold someHash at ht
    split at ht
    · rename_i p hp
      have he := List.find?_some hp
      simp only [decide_eq_true_eq] at he
      exact ⟨p, List.mem_of_find?_eq_some hp, he.symm⟩
    · exact absurd ht (by decide +kernel)

/-- Units of time and mass in pint, sizes in seconds and kilograms. -/
private def somePint : Pint ℚ where
  dim u := if u = c!"hour" ∨ u = c!"day" then c!"[time]" else if u = c!"EUR" then c!"[currency]" else c!"[mass]"
  size u := if u = c!"hour" then 3600 else if u = c!"day" then 86400 else if u = c!"gram" then 1 / 1000
    else if u = c!"EUR2000" then 111 / 100 else 1
  base u := u

private def someWorth (u : Str) : ℚ :=
  if u = c!"d" then 86400 else if u = c!"a" then 31536000 else if u = c!"EUR2000" then 111 / 100 else 1

private theorem somePint_agrees : Agree somePint someWorth := by
  refine ⟨?_, ?_⟩
  · decide +kernel
  · decide +kernel

/-- `amount_kept_partial` for 250 grams. -/
example : Means someWorth c!"93a60a56-a3c8-11da-a746-0800200b9a66" (toIlcdUnit somePint someHash 1 ⟨250, c!"gram"⟩).1.m
    (250 * (1 / 1000)) :=
  amount_kept_partial (k := c!"7844486d-bbaf-3c45-9487-7fe3476c5b6f")
    (w := ⟨c!"93a60a56-a3c8-11da-a746-0800200b9a66", c!"93a60a57-a4c8-11da-a746-0800200c9a66", c!"03.00.003", c!"Mass"⟩)
    (q := ⟨250, c!"gram"⟩) somePint_agrees 1
    (show aget (someHash (correctDim (somePint.dim c!"gram"))) pintToIlcdDef =
      some (c!"93a60a57-a4c8-11da-a746-0800200c9a66", c!"kg", c!"kg") by decide +kernel)
    (by decide +kernel) (by decide +kernel) (aget_mem (by decide +kernel)) rfl

/-- `exchange_amount_partial` for 250 grams. -/
example : ∃ r s', unitProperty someHash none c!"[mass]" (St.start [] []) = .ok (r, s') ∧
    Means someWorth r.id (toIlcdUnit somePint someHash 1 ⟨250, c!"gram"⟩).1.m (250 * (1 / 1000)) := by
  obtain ⟨⟨r, s'⟩, h⟩ := (unit_ok_iff someHash none c!"[mass]" (St.start [] [])).2
    ⟨c!"7844486d-bbaf-3c45-9487-7fe3476c5b6f", by decide +kernel, by decide +kernel⟩
  exact ⟨r, s', h, exchange_amount_partial (q := ⟨250, c!"gram"⟩) somePint_agrees 1
    (show aget (someHash (correctDim (somePint.dim c!"gram"))) pintToIlcdDef =
      some (c!"93a60a57-a4c8-11da-a746-0800200c9a66", c!"kg", c!"kg") by decide +kernel)
    (by decide +kernel) (by decide +kernel) rfl h⟩

/-- `duration_not_kept` for twelve hours: the output says half a year. -/
example : ¬ Means someWorth c!"c0447923-0e60-4b3c-97c2-a86dddd9eea5"
      (toIlcdUnit somePint someHash 1 ⟨12, c!"hour"⟩).1.m (12 * 3600) ∧
    Means someWorth c!"c0447923-0e60-4b3c-97c2-a86dddd9eea5" (toIlcdUnit somePint someHash 1 ⟨12, c!"hour"⟩).1.m
      (31536000 / 2) := by
  have h : aget (someHash (correctDim (somePint.dim c!"hour"))) pintToIlcdDef = some (timeGroup, c!"d", c!"day") := by
    decide +kernel
  have hw : ((c!"5f5fa142-2703-39f2-bf19-ff33f435cc49",
      ⟨c!"c0447923-0e60-4b3c-97c2-a86dddd9eea5", timeGroup, c!"03.00.000", c!"Duration"⟩) : Str × Ilcd) ∈
      pintToIlcdFp := aget_mem (by decide +kernel)
  refine ⟨?_, ?_⟩
  · exact duration_not_kept (q := ⟨12, c!"hour"⟩) somePint_agrees 1 h hw rfl (by decide +kernel) (by decide +kernel)
  · exact (duration_as_years (q := ⟨12, c!"hour"⟩) somePint_agrees 1 h hw rfl _).2 (by decide +kernel)

/-- `currency_kept_iff` for ten euros. -/
example : ¬ Means someWorth c!"67b63204-ef91-44b2-a927-2f4ead1fae17"
      (toIlcdUnit somePint someHash 1 ⟨10, c!"EUR"⟩).1.m (10 * 1) := by
  have h : aget (someHash (correctDim (somePint.dim c!"EUR"))) pintToIlcdDef =
      some (currencyGroup, c!"EUR2000", c!"EUR2000") := by decide +kernel
  have hw : ((c!"7cd6e908-4c0a-35b9-9530-620e5877f4e5",
      ⟨c!"67b63204-ef91-44b2-a927-2f4ead1fae17", currencyGroup, c!"03.00.000", c!"Currency"⟩) : Str × Ilcd) ∈
      pintToIlcdFp := aget_mem (by decide +kernel)
  have := currency_kept_iff (q := ⟨10, c!"EUR"⟩) somePint_agrees 1 h hw rfl (by decide +kernel)
  intro hm
  exact absurd (this.1 hm) (by decide +kernel)

/-- `references_lead` for an exchange in mass, one in items, a property, and mass again. -/
example : ∃ rs s', run someHash [.unit none c!"[mass]", .unit none c!"[item]",
      .property c!"964f8b50-ce16-4364-835a-a3db5fb760b0" true, .unit none c!"[mass]"] (St.start [] []) = .ok (rs, s') ∧
    rs.length = 4 ∧ s'.outFp.length = 3 := by
  have h : (match run someHash [.unit none c!"[mass]", .unit none c!"[item]",
      .property c!"964f8b50-ce16-4364-835a-a3db5fb760b0" true, .unit none c!"[mass]"] (St.start [] []) with
    | .ok (rs, s') => rs.length = 4 && s'.outFp.length = 3
    | .error _ => false) = true := by decide +kernel
  split at h
  · rename_i rs s' hr
    exact ⟨rs, s', hr, by simpa using h⟩
  · cases h

/-- `stale_not_copied`: mass was copied into another output. -/
example : ∃ (w : Ilcd) (s s' : St) (r : Ref), w.fp ∈ s.seenFp ∧ w.fp ∉ s.outFp ∧ refer w s = .ok (r, s') :=
  ⟨⟨c!"93a60a56-a3c8-11da-a746-0800200b9a66", c!"93a60a57-a4c8-11da-a746-0800200c9a66", c!"03.00.003", c!"Mass"⟩,
    ⟨[c!"93a60a56-a3c8-11da-a746-0800200b9a66"], [], [], []⟩, _, _, by decide, by decide, rfl⟩

/-- `order_kept_partial` for mass times length. -/
example : correctDim (Dim.mk [(c!"mass", 1), (c!"length", 1)] []).text =
    (Dim.mk [(c!"length", 1), (c!"mass", 1)] []).text :=
  order_kept_partial (p := (⟨[(c!"length", 1), (c!"mass", 1)], []⟩, c!"9441711e-e3ae-36cd-bfaf-83783500857f"))
    (by simp [known]) (by decide +kernel) ⟨List.Perm.swap _ _ [], .refl _⟩

/-- `order_lost` for mass times time, and `known_ok_iff`. -/
example : ∃ p ∈ known, p.2 ∈ orderMatters ∧ ∃ x, unitProperty someHash none p.1.text (St.start [] []) = .ok x := by
  have hp : ((⟨[(c!"mass", 1), (c!"time", 1)], []⟩ : Dim), c!"86e381c9-d6d4-3241-b8f6-3d78596aa3cc") ∈ known := by
    simp [known]
  exact ⟨_, hp, by decide +kernel, (known_ok_iff someHash_ok hp _).2 (by decide +kernel)⟩

end Verif.RefUnits
