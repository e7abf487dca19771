/-
C174: the uncertainties of the properties of an exchange of EcoSpold2.
-/
import Verif.Lemmas.IlcdPropUnc

namespace Verif.IlcdPropUnc
open Verif.Units MeasureTheory
open IlcdProps (FileProp Env Pr Energy asRead marks)
open Uncertainty (Kind EcsWritten)

/-- **C174**, the values: without the uncertainties the properties are those of Verif.IlcdProps. -/
theorem convert_plain {env : Env ℝ} {unit ref : Str} {file : List UFile} {outs : List Out}
    (h : convert env unit ref file = .ok outs) : ∃ d e,
      IlcdProps.readProps env ref ([], []) (file.map UFile.x) = .ok (d, e) ∧
      IlcdProps.convertProps unit (IlcdProps.convertible d) = .ok (outs.map Out.prop) := by
  unfold convert at h
  obtain ⟨⟨d, e⟩, hd, h⟩ := IlcdFlows.Except.bind_ok' h
  refine ⟨bare d, e, readProps_bare hd, ?_⟩
  rw [convertible_bare]
  exact convertProps_plain h

theorem placed_out {unit : Str} {dry : Option ℝ} {k : Str} {p : UPr} {o : Out} :
    (IlcdProps.placeProp unit dry k p.pr).map (fun q => (⟨q.field, p.unc⟩ : Out)) = .ok o ↔
      (IlcdProps.placeProp unit dry k p.pr).map (·.field) = .ok o.prop ∧ o.unc = p.unc := by
  cases h : IlcdProps.placeProp unit dry k p.pr with
  | error e => simp [Except.map]
  | ok q =>
    obtain ⟨a, b⟩ := o
    simp [Except.map, Out.mk.injEq, eq_comm]

/-- The properties of an exchange, with what is written of their uncertainties. -/
theorem convert_iff {env : Env ℝ} {unit ref : Str} {file : List UFile} {outs : List Out}
    (h : convert env unit ref file = .ok outs) (o : Out) : o ∈ outs ↔
      (∃ n fp a u dry, Spec.Given env file ref n fp a u ∧ ¬ Spec.Computed env file ref unit n ∧
        IlcdProps.Spec.Dry env (file.map UFile.x) ref unit dry ∧ IlcdProps.Spec.Expected unit dry n fp a o.prop ∧
        uncOf u a = .ok o.unc) ∨
      (∃ w, IlcdProps.Spec.Water env (file.map UFile.x) ref unit w ∧ IlcdProps.Spec.Mass w o.prop ∧ o.unc = none) := by
  unfold convert at h
  obtain ⟨⟨d, e⟩, hd, h⟩ := IlcdFlows.Except.bind_ok' h
  obtain ⟨h1, h2, h3⟩ := convertible_get hd
  obtain ⟨hnd, hall⟩ := addMasses_get (unit := unit) hd
  have hdry := dry_spec (unit := unit) hd
  unfold convertProps at h
  simp only at h
  rw [IlcdProps.mem_of_mapM h o]
  generalize (aget c!"dry mass" (addMasses unit (convertible d))).map (·.pr.m) = dry at hdry
  constructor
  · rintro ⟨⟨k, p⟩, hm, ho⟩
    obtain ⟨hf, hu⟩ := placed_out.mp ho
    have hp := aget_eq_of_mem hnd hm
    have hread : aget k (convertible d) = some p → ¬ Spec.Computed env file ref unit k →
        ∃ n fp a u dry, Spec.Given env file ref n fp a u ∧ ¬ Spec.Computed env file ref unit n ∧
        IlcdProps.Spec.Dry env (file.map UFile.x) ref unit dry ∧ IlcdProps.Spec.Expected unit dry n fp a o.prop ∧
        uncOf u a = .ok o.unc := by
      intro hp hk
      obtain ⟨fp, a, u, hg, ⟨x, hx⟩, hru⟩ := h2 _ _ hp
      simp only [hx] at hf
      exact ⟨k, fp, a, u, dry, hg, hk, hdry, (IlcdProps.placeProp_read _).mp hf, by rw [hu]; exact hru⟩
    rcases hall with ⟨w, hw, hg⟩ | ⟨hn, hg⟩
    · rw [hg] at hp
      split_ifs at hp with c1 c2 c3
      · injection hp with hp; subst hp
        refine .inr ⟨w, hw, ?_, hu⟩
        erw [IlcdProps.placeProp_mass (by decide)] at hf
        injection hf with hf; rw [← hf]
        exact .water
      · injection hp with hp; subst hp
        refine .inr ⟨w, hw, ?_, hu⟩
        erw [IlcdProps.placeProp_mass (by decide)] at hf
        injection hf with hf; rw [← hf]
        exact .dry
      · injection hp with hp; subst hp
        refine .inr ⟨w, hw, ?_, hu⟩
        erw [IlcdProps.placeProp_mass (by decide)] at hf
        injection hf with hf; rw [← hf]
        exact .wet
      · refine .inl (hread hp ?_)
        rintro ⟨hk, -⟩
        simp [IlcdProps.Spec.massNames, c1, c2, c3] at hk
    · rw [hg] at hp
      exact .inl (hread hp fun ⟨_, w, hw⟩ => hn w hw)
  · rintro (⟨n, fp, a, u, dry', hgv, hn, hd', he, hu⟩ | ⟨w, hw, hm, hu⟩)
    · cases IlcdProps.dry_unique hdry hd'
      obtain ⟨p, hp, ⟨x, hx⟩, hru⟩ := h3 _ _ _ _ hgv
      refine ⟨(n, p), aget_mem ?_, placed_out.mpr ⟨?_, ?_⟩⟩
      · rcases hall with ⟨w, hw, hg⟩ | ⟨_, hg⟩
        · have hnm : n ∉ IlcdProps.Spec.massNames := fun hm => hn ⟨hm, w, hw⟩
          simp only [IlcdProps.Spec.massNames, List.mem_cons, not_or] at hnm
          rw [hg, if_neg hnm.2.2.1, if_neg hnm.2.1, if_neg hnm.1]
          exact hp
        · rw [hg]; exact hp
      · simp only [hx]
        exact (IlcdProps.placeProp_read _).mpr he
      · rw [hru] at hu; injection hu with hu; exact hu.symm
    · rcases hall with ⟨w', hw', hg⟩ | ⟨hn, hg⟩
      · cases IlcdProps.water_unique hw hw'
        obtain ⟨op, ou⟩ := o
        simp only at hm hu
        subst hu
        cases hm with
        | wet =>
          exact ⟨(c!"wet mass", massProp 1 c!"wet mass" IlcdProps.wetId), aget_mem (by rw [hg, if_neg (by decide), if_neg (by decide), if_pos rfl]),
            placed_out.mpr ⟨IlcdProps.placeProp_mass (by decide), rfl⟩⟩
        | dry =>
          exact ⟨(c!"dry mass", massProp (1 - w) c!"dry mass" IlcdProps.dryId), aget_mem (by rw [hg, if_neg (by decide), if_pos rfl]),
            placed_out.mpr ⟨IlcdProps.placeProp_mass (by decide), rfl⟩⟩
        | water =>
          exact ⟨(c!"water in wet mass", massProp w c!"water in wet mass" IlcdProps.waterId), aget_mem (by rw [hg, if_pos rfl]),
            placed_out.mpr ⟨IlcdProps.placeProp_mass (by decide), rfl⟩⟩
      · exact absurd hw (hn w)

/-! ### The distributions -/

theorem readUnc_law {u : FUnc} {a : ℝ} {w : EcsWritten} (h : readUnc u a 1 = .ok w) :
    Spec.fileLaw a u = some (Spec.ecsLaw w) := by
  obtain ⟨k, s, l, hh⟩ := u
  cases k with
  | lognormal =>
    cases s with
    | none => cases h
    | some s =>
      simp only [readUnc] at h
      split at h
      · cases h
      · rename_i hs
        injection h with h; subst h
        simp only [Spec.fileLaw, Spec.ecsLaw]
        rw [Real.log_sqrt (by linarith [not_le.mp hs])]
  | normal =>
    cases s with
    | none => cases h
    | some s =>
      injection h with h; subst h
      simp only [Spec.fileLaw, Spec.ecsLaw, mul_one]
  | triangular =>
    cases l <;> cases hh <;> cases h
    simp only [Spec.fileLaw, Spec.ecsLaw, mul_one]
  | uniform =>
    cases l <;> cases hh <;> cases h
    simp only [Spec.fileLaw, Spec.ecsLaw, mul_one]

theorem uncOf_some {u : FUnc} {a : ℝ} {r : Option EcsWritten} (h : uncOf (some u) a = .ok r) :
    ∃ w, readUnc u a 1 = .ok w ∧ r = some w := by
  change (readUnc u a 1).map some = .ok r at h
  cases hr : readUnc u a 1 with
  | error e => rw [hr] at h; cases h
  | ok w => rw [hr] at h; injection h with h; exact ⟨w, rfl, h.symm⟩

/-- **C174**, the source: the uncertainty written for a property that is in the file is the distribution that the file
gives for its value, and there is one exactly if the file has one. The masses that follow from the water content have
none. -/
theorem uncertainty_of_file {env : Env ℝ} {unit ref : Str} {file : List UFile} {outs : List Out}
    (h : convert env unit ref file = .ok outs) {o : Out} (ho : o ∈ outs) :
    (∃ n fp a u, Spec.Given env file ref n fp a u ∧ ¬ Spec.Computed env file ref unit n ∧
      o.unc.map Spec.ecsLaw = u.bind (Spec.fileLaw a) ∧ (o.unc = none ↔ u = none)) ∨
    (∃ w, IlcdProps.Spec.Water env (file.map UFile.x) ref unit w ∧ IlcdProps.Spec.Mass w o.prop ∧ o.unc = none) := by
  rcases (convert_iff h o).mp ho with ⟨n, fp, a, u, dry, hg, hc, -, -, hu⟩ | hm
  · refine .inl ⟨n, fp, a, u, hg, hc, ?_⟩
    cases u with
    | none => injection hu with hu; rw [← hu]; exact ⟨rfl, by simp⟩
    | some u =>
      obtain ⟨w, hr, e⟩ := uncOf_some hu
      rw [e]
      exact ⟨(readUnc_law hr).symm, by simp⟩
  · exact .inr hm

theorem law_scale_iff {a : ℝ} {u : FUnc} (hs : Spec.Spread a u) {μ : Measure ℝ} (hm : Spec.fileLaw a u = some μ) {t : ℝ}
    (ht : 0 < t) : μ.map (fun x => t * x) = μ ↔ t = 1 := by
  obtain ⟨k, s, l, hh⟩ := u
  cases k with
  | lognormal =>
    cases s with
    | none => cases hm
    | some s =>
      injection hm with hm; subst hm
      exact Uncertainty.scale_eq_iff (Uncertainty.lognormal_zero _ _) (by simp) ht
  | normal =>
    cases s with
    | none => cases hm
    | some s =>
      injection hm with hm; subst hm
      have hs : 0 < s := hs
      exact Uncertainty.scale_eq_iff (Uncertainty.normal_zero _ (by positivity)) (by simp) ht
  | triangular =>
    cases l <;> cases hh <;> cases hm
    have := Uncertainty.triangular_finite hs.1 hs.2.1 hs.2.2
    exact Uncertainty.scale_eq_iff (Uncertainty.triangular_zero _ _ _) (Uncertainty.triangular_univ hs.2.2) ht
  | uniform =>
    cases l <;> cases hh <;> cases hm
    have := Uncertainty.uniform_prob hs
    exact Uncertainty.scale_eq_iff (Uncertainty.uniform_zero _ _) (by simp) ht

/-- **C174**, the value: a property of the file has the amount of the file in EcoSpold2 with its distribution, or it is a
content divided by the dry mass `d`; then the distribution written is that of the amount written, which is the one of
the file divided by `d`, exactly if `d` is 1. -/
theorem uncertainty_of_value {env : Env ℝ} {unit ref : Str} {file : List UFile} {outs : List Out}
    (h : convert env unit ref file = .ok outs) {o : Out} (ho : o ∈ outs) :
    (∃ w, IlcdProps.Spec.Water env (file.map UFile.x) ref unit w ∧ IlcdProps.Spec.Mass w o.prop ∧ o.unc = none) ∨
    ∃ n fp a u, Spec.Given env file ref n fp a u ∧ ¬ Spec.Computed env file ref unit n ∧
      (((∀ d, ¬ Spec.Divided env file ref unit n fp d) ∧ o.prop.amount = some a ∧
          o.unc.map Spec.ecsLaw = u.bind (Spec.fileLaw a)) ∨
        ∃ d, Spec.Divided env file ref unit n fp d ∧
          (d = 0 → o.prop.amount = some 0) ∧ (d ≠ 0 → o.prop.amount = some (d⁻¹ * a)) ∧
          ∀ v, u = some v → Spec.Spread a v → 0 < d →
            (o.unc.map Spec.ecsLaw = (Spec.fileLaw a v).map (fun μ => μ.map fun x => d⁻¹ * x) ↔ d = 1)) := by
  rcases (convert_iff h o).mp ho with ⟨n, fp, a, u, dry, hg, hc, hd, he, hu⟩ | hm
  swap
  · exact .inl hm
  have hlaw : o.unc.map Spec.ecsLaw = u.bind (Spec.fileLaw a) := by
    cases u with
    | none => injection hu with hu; rw [← hu]; rfl
    | some u =>
      obtain ⟨w, hr, e⟩ := uncOf_some hu
      rw [e]
      exact (readUnc_law hr).symm
  refine .inr ⟨n, fp, a, u, hg, hc, ?_⟩
  generalize hp : o.prop = p at he
  cases he with
  | other hn => exact .inl ⟨fun d hd => hn hd.1, rfl, hlaw⟩
  | mass hn hk hm =>
    refine .inl ⟨fun d hd => ?_, rfl, hlaw⟩
    rw [hd.2.1 hk] at hm; cases hm
  | volume hn hk hm =>
    refine .inl ⟨fun d hd => ?_, rfl, hlaw⟩
    rw [hd.2.2.1 hk] at hm; cases hm
  | @content hn hm hv b hb =>
    cases dry with
    | none =>
      refine .inl ⟨fun d hd' => ?_, ?_, hlaw⟩
      · cases IlcdProps.dry_unique hd hd'.2.2.2
      · simp only [IlcdProps.Spec.PerDry] at hb
        rw [hb]
    | some d =>
      refine .inr ⟨d, ⟨hn, hm, hv, hd⟩, fun h0 => ?_, fun h0 => ?_, ?_⟩
      · rw [hb.2 h0]
      · rw [← hb.1 h0]
        congr 1
        field_simp
      · rintro v rfl hsp h0
        simp only [Option.bind_some] at hlaw
        rw [hlaw]
        cases hf : Spec.fileLaw a v with
        | none =>
          obtain ⟨w, hr, -⟩ := uncOf_some hu
          rw [readUnc_law hr] at hf; cases hf
        | some μ =>
          simp only [Option.map_some, Option.some.injEq]
          rw [eq_comm, law_scale_iff hsp hf (inv_pos.mpr h0), inv_eq_one]

/-! ### When a conversion stops -/

theorem readable_iff (u : FUnc) (a : ℝ) : Spec.Readable u ↔ ∃ w, readUnc u a 1 = .ok w := by
  obtain ⟨k, s, l, hh⟩ := u
  cases k with
  | lognormal =>
    cases s with
    | none => simp [Spec.Readable, readUnc]
    | some s =>
      simp only [Spec.Readable, readUnc]
      split
      · simp only [reduceCtorEq, exists_false, iff_false]; linarith
      · rename_i h; simp [not_le.mp h]
  | normal => cases s <;> simp [Spec.Readable, readUnc]
  | triangular => cases l <;> cases hh <;> simp [Spec.Readable, readUnc]
  | uniform => cases l <;> cases hh <;> simp [Spec.Readable, readUnc]

theorem normalInit_ok_iff {env : Env ℝ} {y : UFile} : (∃ r, normalInit env y = .ok r) ↔
    (∃ r, IlcdProps.normalInit env y.x = .ok r) ∧ (aget y.x.id ilcdToEcsFp ≠ none → ∀ u, y.unc = some u → Spec.Readable u) := by
  constructor
  · rintro ⟨⟨p, e⟩, h⟩
    obtain ⟨h0, h1⟩ := normalInit_ok h
    refine ⟨⟨_, h0⟩, fun hn u hu => ?_⟩
    obtain ⟨n, -, -, ⟨hc, -⟩ | ⟨fp, a, -, -, hq⟩⟩ := IlcdProps.normalInit_ok h0
    · exact absurd hc hn
    · cases p with
      | none => cases hq
      | some p =>
        have := h1 p rfl
        rw [hu] at this
        obtain ⟨w, hw, -⟩ := uncOf_some this
        exact (readable_iff u _).mpr ⟨w, hw⟩
  · rintro ⟨⟨⟨p, e⟩, h0⟩, h1⟩
    unfold normalInit
    rw [h0]
    obtain ⟨n, -, -, ⟨hc, hp⟩ | ⟨fp, a, hfp, -, hp⟩⟩ := IlcdProps.normalInit_ok h0
    · subst hp; exact ⟨_, rfl⟩
    · subst hp
      cases hu : y.unc with
      | none => exact ⟨_, rfl⟩
      | some u =>
        obtain ⟨w, hw⟩ := (readable_iff u a).mp (h1 (by simp [hfp]) u hu)
        refine ⟨(some ⟨asRead y.x n fp a, some w⟩, e), ?_⟩
        change ((Except.map some (readUnc u a 1)).bind fun u => Except.ok _) = _
        rw [hw]
        rfl

theorem readProps_ok_iff {env : Env ℝ} {ref : Str} : ∀ {file : List UFile} {s : List (Str × Option UPr) × List Energy}
    {s' : List (Str × Option (Pr ℝ)) × List Energy},
    (∃ r, readProps env ref s file = .ok r) ↔ (∃ r, IlcdProps.readProps env ref s' (file.map UFile.x) = .ok r) ∧
      ∀ y ∈ file, y.x.internalId ≠ ref → aget y.x.id ilcdToEcsFp ≠ none → ∀ u, y.unc = some u → Spec.Readable u
  | [], s, s' => by simp [readProps, IlcdProps.readProps]
  | y :: l, s, s' => by
    simp only [readProps, List.map_cons, IlcdProps.readProps, List.forall_mem_cons]
    by_cases hr : y.x.internalId = ref
    · rw [if_pos hr, if_pos hr, readProps_ok_iff (s' := s')]
      simp [hr]
    · rw [if_neg hr, if_neg hr]
      cases hn : IlcdProps.shortName y.x with
      | error e => simp [bind, Except.bind]
      | ok n =>
        have key := normalInit_ok_iff (env := env) (y := y)
        cases h0 : IlcdProps.normalInit env y.x with
        | error e =>
          rw [h0] at key
          simp only [reduceCtorEq, exists_false, false_and, iff_false, not_exists] at key
          constructor
          · rintro ⟨r, h⟩
            obtain ⟨n', hn', h⟩ := IlcdFlows.Except.bind_ok' h
            obtain ⟨p, hp, -⟩ := IlcdFlows.Except.bind_ok' h
            exact absurd hp (key p)
          · rintro ⟨⟨r, h⟩, -⟩
            cases h
        | ok r0 =>
          rw [h0] at key
          constructor
          · rintro ⟨r, h⟩
            obtain ⟨n', hn', h⟩ := IlcdFlows.Except.bind_ok' h
            injection hn' with hn'; subst hn'
            obtain ⟨p, hp, h⟩ := IlcdFlows.Except.bind_ok' h
            obtain ⟨hk1, hk2⟩ := key.mp ⟨p, hp⟩
            obtain ⟨h1, h2⟩ := (readProps_ok_iff (s' := (aset n r0.1 s'.1, s'.2 ++ r0.2))).mp ⟨r, h⟩
            exact ⟨h1, fun _ => hk2, h2⟩
          · rintro ⟨h1, h2, h3⟩
            obtain ⟨⟨p, e⟩, hp⟩ := key.mpr ⟨⟨_, rfl⟩, h2 hr⟩
            obtain ⟨r, h⟩ := (readProps_ok_iff (s := (aset n p s.1, s.2 ++ e)) (s' := (aset n r0.1 s'.1, s'.2 ++ r0.2))).mpr ⟨h1, h3⟩
            refine ⟨r, ?_⟩
            rw [hp]
            exact h

theorem mapM_ok_iff {α β : Type} {f : α → Py β} : ∀ {l : List α}, (∃ r, l.mapM f = .ok r) ↔ ∀ a ∈ l, ∃ b, f a = .ok b
  | [] => by simp [pure, Except.pure]
  | a :: l => by
    rw [List.mapM_cons, List.forall_mem_cons, ← mapM_ok_iff]
    constructor
    · rintro ⟨r, h⟩
      obtain ⟨c, hc, h⟩ := IlcdFlows.Except.bind_ok' h
      obtain ⟨r', hr', h⟩ := IlcdFlows.Except.bind_ok' h
      exact ⟨⟨c, hc⟩, ⟨r', hr'⟩⟩
    · rintro ⟨⟨c, hc⟩, ⟨r', hr'⟩⟩
      rw [hc, hr']
      exact ⟨_, rfl⟩

theorem convert_ok_iff {env : Env ℝ} {unit ref : Str} {file : List UFile} :
    (∃ outs, convert env unit ref file = .ok outs) ↔
      (∃ d e, IlcdProps.readProps env ref ([], []) (file.map UFile.x) = .ok (d, e) ∧
        ∃ fs, IlcdProps.convertProps unit (IlcdProps.convertible d) = .ok fs) ∧
      ∀ y ∈ file, y.x.internalId ≠ ref → aget y.x.id ilcdToEcsFp ≠ none → ∀ u, y.unc = some u → Spec.Readable u := by
  constructor
  · rintro ⟨outs, h⟩
    obtain ⟨d, e, h1, h2⟩ := convert_plain h
    refine ⟨⟨d, e, h1, _, h2⟩, ?_⟩
    unfold convert at h
    obtain ⟨r, hr, -⟩ := IlcdFlows.Except.bind_ok' h
    exact ((readProps_ok_iff (s' := ([], []))).mp ⟨r, hr⟩).2
  · rintro ⟨⟨d, e, h1, fs, h2⟩, h3⟩
    obtain ⟨⟨d', e'⟩, hr⟩ := (readProps_ok_iff (s := ([], [])) (s' := ([], []))).mpr ⟨⟨_, h1⟩, h3⟩
    have hb := readProps_bare hr
    simp only [bare, List.map_nil] at hb
    rw [h1] at hb
    injection hb with hb; injection hb with hb _; subst hb
    have : IlcdProps.convertible (bare d') = plain (convertible d') := convertible_bare d'
    unfold bare at this
    rw [this] at h2
    suffices ∃ outs, convertProps unit (convertible d') = .ok outs by
      obtain ⟨outs, ho⟩ := this
      exact ⟨outs, by unfold convert; rw [hr]; exact ho⟩
    unfold convertProps
    refine mapM_ok_iff.mpr fun q hq => ?_
    unfold IlcdProps.convertProps at h2
    rw [addMasses_plain] at h2
    simp only at h2
    have hd : (aget c!"dry mass" (plain (addMasses unit (convertible d')))).map (·.m) =
        (aget c!"dry mass" (addMasses unit (convertible d'))).map (·.pr.m) := by
      have := aget_mapped UPr.pr c!"dry mass" (addMasses unit (convertible d'))
      unfold plain
      rw [this, Option.map_map]
      rfl
    rw [hd] at h2
    obtain ⟨b, hb⟩ := mapM_ok_iff.mp ⟨fs, h2⟩ (q.1, q.2.pr) (List.mem_map_of_mem (f := fun e : Str × UPr => (e.1, e.2.pr)) hq)
    cases hp : IlcdProps.placeProp unit ((aget c!"dry mass" (addMasses unit (convertible d'))).map (·.pr.m)) q.1 q.2.pr with
    | error e =>
      simp only [hp] at hb
      cases hb
    | ok p => exact ⟨_, rfl⟩

/-- **C174**, where a conversion stops: it succeeds exactly if every flow property besides the reference property has one
name and, if EcoSpold2 knows it, a number and a unit, and the parameters of its uncertainty, a positive one where it is
lognormal. -/
theorem convert_succeeds_iff {env : Env ℝ} {unit ref : Str} {file : List UFile} :
    (∃ outs, convert env unit ref file = .ok outs) ↔ ∀ y ∈ file, y.x.internalId ≠ ref → (∃ n, y.x.names = [n]) ∧
      ∀ fp, aget y.x.id ilcdToEcsFp = some fp → (∃ a, env.flt y.x.value = .ok a) ∧ env.unit fp.unitName = .ok () ∧
        ∀ u, y.unc = some u → Spec.Readable u := by
  have key : (∃ d e, IlcdProps.readProps env ref ([], []) (file.map UFile.x) = .ok (d, e) ∧
        ∃ fs, IlcdProps.convertProps unit (IlcdProps.convertible d) = .ok fs) ↔
      ∃ r, IlcdProps.readProps env ref ([], []) (file.map UFile.x) = .ok r := by
    constructor
    · rintro ⟨d, e, h, -⟩; exact ⟨_, h⟩
    · rintro ⟨⟨d, e⟩, h⟩; exact ⟨d, e, h, IlcdProps.convertProps_succeeds h⟩
  rw [convert_ok_iff, key, IlcdProps.readProps_ok_iff]
  constructor
  · rintro ⟨h1, h2⟩ y hy hr
    obtain ⟨h3, h4⟩ := h1 y.x (List.mem_map_of_mem hy) hr
    refine ⟨h3, fun fp hf => ⟨(h4 fp hf).1, (h4 fp hf).2, fun u hu => h2 y hy hr (by simp [hf]) u hu⟩⟩
  · intro h
    refine ⟨fun x hx hr => ?_, fun y hy hr hn u hu => ?_⟩
    · obtain ⟨y, hy, rfl⟩ := List.mem_map.mp hx
      exact ⟨(h y hy hr).1, fun fp hf => ⟨((h y hy hr).2 fp hf).1, ((h y hy hr).2 fp hf).2.1⟩⟩
    · obtain ⟨fp, hf⟩ := Option.ne_none_iff_exists'.mp hn
      exact ((h y hy hr).2 fp hf).2.2 u hu

/-! ### Cases -/

/-- Numbers with decimals and known units. -/
noncomputable def exEnv : Env ℝ :=
  ⟨fun t => if t = c!"0.2" then .ok (1 / 5) else if t = c!"0.08" then .ok (2 / 25) else .error .valueError,
    fun _ => .ok (), fun t => t⟩

/-- The flow properties of the case in Props/IlcdProps.lean, the content of chromium between 0.07 and 0.09. -/
noncomputable def exFile : List UFile :=
  [⟨IlcdProps.exMass, none⟩, ⟨IlcdProps.exWater, some ⟨.normal, some (1 / 50), none, none⟩⟩,
    ⟨IlcdProps.exChromium, some ⟨.uniform, none, some (7 / 100), some (9 / 100)⟩⟩]

/-- The hypotheses of the theorems are met. -/
theorem ex_converts : ∃ outs, convert exEnv c!"kilogram" c!"0" exFile = .ok outs := by
  rw [convert_succeeds_iff]
  intro y hy hr
  simp only [exFile, List.mem_cons, List.not_mem_nil, or_false] at hy
  rcases hy with rfl | rfl | rfl
  · exact absurd rfl hr
  · refine ⟨⟨_, rfl⟩, fun fp _ => ⟨⟨1 / 5, ?_⟩, rfl, ?_⟩⟩
    · simp only [exEnv]; rw [if_pos (by decide)]
    · rintro u ⟨⟩; trivial
  · refine ⟨⟨_, rfl⟩, fun fp _ => ⟨⟨2 / 25, ?_⟩, rfl, ?_⟩⟩
    · simp only [exEnv]; rw [if_neg (by decide), if_pos (by decide)]
    · rintro u ⟨⟩; trivial

/-- **C174**, a case: with a water content of 0.2 the content of chromium of 0.08 becomes 0.1, and is said to lie between
0.07 and 0.09. The dry mass of 0.8 is certain although the water content is not. -/
theorem amount_outside_bounds : ∃ outs, convert exEnv c!"kilogram" c!"0" exFile = .ok outs ∧
    (∃ o ∈ outs, o.prop.name = some c!"chromium content" ∧ o.prop.amount = some (1 / 10) ∧
      o.unc = some (.uniform (7 / 100) (9 / 100))) ∧
    (∃ o ∈ outs, o.prop.name = some c!"dry mass" ∧ o.prop.amount = some (4 / 5) ∧ o.unc = none) := by
  obtain ⟨outs, h⟩ := ex_converts
  have hwfp : (aget IlcdProps.exWater.id ilcdToEcsFp).isSome = true := by decide +kernel
  have hcfp : (aget IlcdProps.exChromium.id ilcdToEcsFp).map (·.name) = some c!"chromium content" := by decide +kernel
  obtain ⟨wf, hwf⟩ := Option.isSome_iff_exists.mp hwfp
  obtain ⟨cf, hcf, hcn⟩ := Option.map_eq_some_iff.mp hcfp
  have hw : Spec.Given exEnv exFile c!"0" c!"water content" wf (1 / 5) (some ⟨.normal, some (1 / 50), none, none⟩) := by
    refine ⟨[⟨IlcdProps.exMass, none⟩], _, _, rfl, by decide, rfl, ?_, hwf, ?_, rfl⟩
    · simp only [List.mem_singleton, forall_eq]; intro _; decide
    · simp only [exEnv]; rw [if_pos (by decide)]
  have hc : Spec.Given exEnv exFile c!"0" c!"chromium content" cf (2 / 25)
      (some ⟨.uniform, none, some (7 / 100), some (9 / 100)⟩) := by
    refine ⟨[⟨IlcdProps.exMass, none⟩, ⟨IlcdProps.exWater, some ⟨.normal, some (1 / 50), none, none⟩⟩], [], _, rfl, by decide, rfl,
      by simp, hcf, ?_, rfl⟩
    simp only [exEnv]; rw [if_neg (by decide), if_pos (by decide)]
  have hwater : IlcdProps.Spec.Water exEnv (exFile.map UFile.x) c!"0" c!"kilogram" (1 / 5) := ⟨by decide, wf, given_plain hw⟩
  refine ⟨outs, h, ⟨⟨⟨some cf.id, some cf.name, cf.unitName, cf.unitId, some (1 / 10)⟩, some (.uniform (7 / 100) (9 / 100))⟩,
    (convert_iff h _).mpr (.inl ⟨c!"chromium content", cf, 2 / 25, _, some (1 - 1 / 5), hc, ?_, .water hwater, ?_, ?_⟩), ?_, rfl, rfl⟩,
    ⟨⟨_, none⟩, (convert_iff h _).mpr (.inr ⟨1 / 5, hwater, .dry, rfl⟩), rfl, ?_, rfl⟩⟩
  · rintro ⟨hk, -⟩
    exact absurd hk (by decide)
  · refine .content ⟨c!"chromium", [], by decide⟩ (fun c => absurd c (by decide)) (fun c => absurd c (by decide)) ?_
    constructor
    · intro _; norm_num
    · intro h0; norm_num at h0
  · simp [uncOf, readUnc, Except.map]
  · rw [hcn]
  · norm_num

end Verif.IlcdPropUnc
