/-
The properties of an exchange of EcoSpold2 are those in the file of its flow, and the masses that follow from the water
content.
-/
import Mathlib.Algebra.Field.Rat
import Mathlib.Tactic.Ring
import Verif.Lemmas.IlcdProps
import Verif.Model.Comments

namespace Verif.IlcdProps
open Verif.Units

section
variable {K : Type} [Field K] [DecidableEq K]

omit [DecidableEq K] in
/-- What `addMasses` leaves. -/
theorem addMasses_get {env : Env K} {unit ref : Str} {file : List FileProp} {d : List (Str × Option (Pr K))}
    {e : List Energy} (h : readProps env ref ([], []) file = .ok (d, e)) :
    ((addMasses unit (convertible d)).map Prod.fst).Nodup ∧
    ((∃ w, Spec.Water env file ref unit w ∧ ∀ k, aget k (addMasses unit (convertible d)) =
      if k = c!"water in wet mass" then some (massProp w c!"water in wet mass" waterId)
      else if k = c!"dry mass" then some (massProp (1 - w) c!"dry mass" dryId)
      else if k = c!"wet mass" then some (massProp 1 c!"wet mass" wetId) else aget k (convertible d)) ∨
    ((∀ w, ¬ Spec.Water env file ref unit w) ∧ ∀ k, aget k (addMasses unit (convertible d)) = aget k (convertible d))) := by
  obtain ⟨h1, h2, h3⟩ := convertible_get h
  unfold addMasses
  cases hw : aget c!"water content" (convertible d) with
  | none =>
    refine ⟨h1, .inr ⟨?_, fun _ => rfl⟩⟩
    rintro w ⟨-, fp, hg⟩
    obtain ⟨x, hx⟩ := h3 _ _ _ hg
    rw [hw] at hx; cases hx
  | some p =>
    obtain ⟨x, fp, a, hx, hf, ha, rfl⟩ := h2 _ _ hw
    simp only
    by_cases hu : unit = c!"m**3"
    · rw [if_pos hu]
      exact ⟨h1, .inr ⟨fun w c => c.1 hu, fun _ => rfl⟩⟩
    · rw [if_neg hu]
      refine ⟨aset_nodup (aset_nodup (aset_nodup h1)), .inl ⟨a, ⟨hu, fp, x, hx, hf, ha⟩, fun k => ?_⟩⟩
      rw [aget_aset, aget_aset, aget_aset]
      rfl

omit [Field K] [DecidableEq K] in
theorem water_unique {env : Env K} {file : List FileProp} {ref unit : Str} {w w' : K}
    (h : Spec.Water env file ref unit w) (h' : Spec.Water env file ref unit w') : w = w' := by
  obtain ⟨-, fp, h⟩ := h
  obtain ⟨-, fp', h'⟩ := h'
  exact (given_unique h h').2

omit [DecidableEq K] in
theorem dry_unique {env : Env K} {file : List FileProp} {ref unit : Str} {d d' : Option K}
    (h : Spec.Dry env file ref unit d) (h' : Spec.Dry env file ref unit d') : d = d' := by
  cases h with
  | water hw =>
    cases h' with
    | water hw' => rw [water_unique hw hw']
    | given hn => exact absurd hw (hn _)
    | unknown hn => exact absurd hw (hn _)
  | given hn h =>
    cases h' with
    | water hw' => exact absurd hw' (hn _)
    | given _ h' => rw [(given_unique h h').2]
    | unknown _ hd => exact absurd h (hd _ _)
  | unknown hn hd =>
    cases h' with
    | water hw' => exact absurd hw' (hn _)
    | given _ h' => exact absurd h' (hd _ _)
    | unknown => rfl

theorem convertProps_iff {env : Env K} {unit ref : Str} {file : List FileProp} {d : List (Str × Option (Pr K))}
    {e : List Energy} (h : readProps env ref ([], []) file = .ok (d, e)) {fs : List (Written K)}
    (hf : convertProps unit (convertible d) = .ok fs) (o : Written K) : o ∈ fs ↔ Spec.FromFile env file ref unit o := by
  obtain ⟨h1, h2, h3⟩ := convertible_get h
  obtain ⟨hnd, hall⟩ := addMasses_get (unit := unit) h
  unfold convertProps at hf
  simp only at hf
  rw [mem_of_mapM hf o]
  have hdry : Spec.Dry env file ref unit ((aget c!"dry mass" (addMasses unit (convertible d))).map (·.m)) := by
    rcases hall with ⟨w, hw, hg⟩ | ⟨hn, hg⟩
    · rw [hg, if_neg (by decide), if_pos rfl]
      exact .water hw
    · rw [hg]
      cases hq : aget c!"dry mass" (convertible d) with
      | none =>
        refine .unknown hn ?_
        intro fp a ha
        obtain ⟨x, hx⟩ := h3 _ _ _ ha
        rw [hq] at hx; cases hx
      | some p =>
        obtain ⟨x, fp, a, hx, hf, ha, rfl⟩ := h2 _ _ hq
        exact .given hn ⟨x, hx, hf, ha⟩
  generalize (aget c!"dry mass" (addMasses unit (convertible d))).map (·.m) = dry at hdry
  have hread : ∀ k p, aget k (convertible d) = some p → (k ∈ Spec.massNames → ∀ w, ¬ Spec.Water env file ref unit w) →
      (placeProp unit dry k p).map (·.field) = .ok o → Spec.FromFile env file ref unit o := by
    intro k p hp hk ho
    obtain ⟨x, fp, a, hx, hf, ha, rfl⟩ := h2 _ _ hp
    exact .given ⟨x, hx, hf, ha⟩ hk hdry ((placeProp_read o).mp ho)
  constructor
  · rintro ⟨⟨k, p⟩, hm, ho⟩
    have hp := aget_eq_of_mem hnd hm
    rcases hall with ⟨w, hw, hg⟩ | ⟨hn, hg⟩
    · rw [hg] at hp
      split_ifs at hp with c1 c2 c3
      · injection hp with hp; subst hp
        rw [placeProp_mass (by decide)] at ho
        injection ho with ho; subst ho
        exact .mass hw .water
      · injection hp with hp; subst hp
        rw [placeProp_mass (by decide)] at ho
        injection ho with ho; subst ho
        exact .mass hw .dry
      · injection hp with hp; subst hp
        rw [placeProp_mass (by decide)] at ho
        injection ho with ho; subst ho
        exact .mass hw .wet
      · refine hread k p hp ?_ ho
        intro hk
        simp [Spec.massNames, c1, c2, c3] at hk
    · rw [hg] at hp
      exact hread k p hp (fun _ => hn) ho
  · intro ho
    cases ho with
    | @given n fp a dry' hgv hn hd he =>
      cases dry_unique hdry hd
      obtain ⟨x, hx⟩ := h3 _ _ _ hgv
      refine ⟨(n, asRead x n fp a), aget_mem ?_, (placeProp_read o).mpr he⟩
      rcases hall with ⟨w, hw, hg⟩ | ⟨_, hg⟩
      · have hnm : n ∉ Spec.massNames := fun hm => hn hm w hw
        simp only [Spec.massNames, List.mem_cons, not_or] at hnm
        rw [hg, if_neg hnm.2.2.1, if_neg hnm.2.1, if_neg hnm.1]
        exact hx
      · rw [hg]; exact hx
    | @mass w hw hm =>
      rcases hall with ⟨w', hw', hg⟩ | ⟨hn, hg⟩
      · cases water_unique hw hw'
        cases hm with
        | wet =>
          refine ⟨(c!"wet mass", massProp 1 c!"wet mass" wetId), aget_mem (by rw [hg, if_neg (by decide), if_neg (by decide), if_pos rfl]),
            placeProp_mass (by decide)⟩
        | dry =>
          refine ⟨(c!"dry mass", massProp (1 - w) c!"dry mass" dryId), aget_mem (by rw [hg, if_neg (by decide), if_pos rfl]), placeProp_mass (by decide)⟩
        | water =>
          refine ⟨(c!"water in wet mass", massProp w c!"water in wet mass" waterId), aget_mem (by rw [hg, if_pos rfl]), placeProp_mass (by decide)⟩
      · exact absurd hw (hn w)

/-- **C78**: which properties an exchange of EcoSpold2 gets from the file of its flow, without the option to use master
data; the allocation factors follow. -/
theorem properties_iff {env : Env K} {unit ref : Str} {refs : List (Str × Str)} {allocs : Allocs}
    {file : List FileProp} {ps : List (Written K)} {e : List Energy}
    (h : exchangeProps env false unit ref refs allocs file = .ok (ps, e)) :
    ∃ fs al, allocations env refs allocs = .ok al ∧ ps = fs ++ al.map (allocProp env) ∧
      ∀ o, o ∈ fs ↔ Spec.FromFile env file ref unit o := by
  unfold exchangeProps at h
  obtain ⟨al, hal, h⟩ := IlcdFlows.Except.bind_ok' h
  obtain ⟨⟨d, e'⟩, hd, h⟩ := IlcdFlows.Except.bind_ok' h
  obtain ⟨fs, hfs, h⟩ := IlcdFlows.Except.bind_ok' h
  injection h with h; injection h with h1 h2; subst h1 h2
  exact ⟨fs, al, hal, rfl, convertProps_iff hd hfs⟩

/-- No property of the table has the identifier of one of the masses. -/
theorem table_no_mass : ∀ e ∈ ilcdToEcsFp, ∀ i ∈ [wetId, dryId, waterId], e.2.id ≠ i ∧
    (∀ v, e.2.mass = some v → v.1 ≠ i) ∧ ∀ v, e.2.volume = some v → v.1 ≠ i := by
  have h : ∀ e ∈ ilcdToEcsFp, ∀ i ∈ [wetId, dryId, waterId], e.2.id ≠ i ∧ e.2.mass.map (·.1) ≠ some i ∧
      e.2.volume.map (·.1) ≠ some i := by decide +kernel
  intro e he i hi
  obtain ⟨h1, h2, h3⟩ := h e he i hi
  refine ⟨h1, ?_, ?_⟩
  · intro v hv; rw [hv] at h2; simpa using h2
  · intro v hv; rw [hv] at h3; simpa using h3

omit [DecidableEq K] in
/-- What a file gives directly is not one of the masses. -/
theorem expected_not_mass {unit n : Str} {dry : Option K} {x : FileProp} {fp : Ecs} {a : K} {o : Written K}
    (hf : aget x.id ilcdToEcsFp = some fp) (he : Spec.Expected unit dry n fp a o) {i : Str}
    (hi : i ∈ [wetId, dryId, waterId]) : o.propId ≠ some i := by
  obtain ⟨h1, h2, h3⟩ := table_no_mass _ (aget_mem hf) i hi
  cases he with
  | other h => simpa using h1
  | content h => simpa using h1
  | mass h _ hm => simpa using h2 _ hm
  | volume h _ hm => simpa using h3 _ hm

/-- **C45**: where the water content is known, the wet mass, the dry mass and the water of the product are written, each
once as far as the value goes, and the dry mass and the water make up the wet mass. -/
theorem masses_consistent {env : Env K} {unit ref : Str} {file : List FileProp} {d : List (Str × Option (Pr K))}
    {e : List Energy} {fs : List (Written K)} (h : readProps env ref ([], []) file = .ok (d, e))
    (hf : convertProps unit (convertible d) = .ok fs) {w : K} (hw : Spec.Water env file ref unit w) :
    ∃ wet dry water : K, dry + water = wet ∧ water = w ∧ wet = 1 ∧
      ∀ o : Written K, (o ∈ fs ∧ o.propId = some wetId ↔ o = ⟨some wetId, some c!"wet mass", c!"kg",
          c!"487df68b-4994-4027-8fdc-a4dc298257b7", some wet⟩) ∧
        (o ∈ fs ∧ o.propId = some dryId ↔ o = ⟨some dryId, some c!"dry mass", c!"kg",
          c!"487df68b-4994-4027-8fdc-a4dc298257b7", some dry⟩) ∧
        (o ∈ fs ∧ o.propId = some waterId ↔ o = ⟨some waterId, some c!"water in wet mass", c!"kg",
          c!"487df68b-4994-4027-8fdc-a4dc298257b7", some water⟩) := by
  have key : ∀ o i, i ∈ [wetId, dryId, waterId] → o ∈ fs → o.propId = some i → Spec.Mass w o := by
    intro o i hi ho hp
    rw [convertProps_iff h hf] at ho
    cases ho with
    | given hg hn hd he =>
      obtain ⟨x, _, hx, _⟩ := hg
      exact absurd hp (expected_not_mass hx he hi)
    | mass hw' hm => rw [water_unique hw hw']; exact hm
  refine ⟨1, 1 - w, w, by ring, rfl, rfl, fun o => ⟨⟨?_, ?_⟩, ⟨?_, ?_⟩, ⟨?_, ?_⟩⟩⟩
  · rintro ⟨ho, hp⟩
    cases key o wetId (by simp) ho hp with
    | wet => rfl
    | dry => exact absurd hp (by simp only [Option.some.injEq]; decide)
    | water => exact absurd hp (by simp only [Option.some.injEq]; decide)
  · rintro rfl
    exact ⟨(convertProps_iff h hf _).mpr (.mass hw .wet), rfl⟩
  · rintro ⟨ho, hp⟩
    cases key o dryId (by simp) ho hp with
    | wet => exact absurd hp (by simp only [Option.some.injEq]; decide)
    | dry => rfl
    | water => exact absurd hp (by simp only [Option.some.injEq]; decide)
  · rintro rfl
    exact ⟨(convertProps_iff h hf _).mpr (.mass hw .dry), rfl⟩
  · rintro ⟨ho, hp⟩
    cases key o waterId (by simp) ho hp with
    | wet => exact absurd hp (by simp only [Option.some.injEq]; decide)
    | dry => exact absurd hp (by simp only [Option.some.injEq]; decide)
    | water => rfl
  · rintro rfl
    exact ⟨(convertProps_iff h hf _).mpr (.mass hw .water), rfl⟩

/-- **C78**: a content that is written per dry mass, times the dry mass written, is the content in the file. -/
theorem content_times_dry {env : Env K} {unit ref : Str} {file : List FileProp} {d : List (Str × Option (Pr K))}
    {e : List Energy} {fs : List (Written K)} (h : readProps env ref ([], []) file = .ok (d, e))
    (hf : convertProps unit (convertible d) = .ok fs) {w : K} (hw : Spec.Water env file ref unit w) (h1 : w ≠ 1)
    (hk : unit ≠ c!"kg") {n : Str} (hn : Spec.Contains c!" content" n) {fp : Ecs} {a : K}
    (hg : Spec.Given env file ref n fp a) :
    ∃ b, ⟨some fp.id, some fp.name, fp.unitName, fp.unitId, some b⟩ ∈ fs ∧ b * (1 - w) = a := by
  have hd : (1 : K) - w ≠ 0 := fun c => h1 (sub_eq_zero.mp c).symm
  refine ⟨a / (1 - w), (convertProps_iff h hf _).mpr (.given hg ?_ (.water hw)
    (.content hn (fun c => absurd c hk) (fun c => absurd c hw.1) ⟨fun _ => ?_, fun c => absurd c hd⟩)), ?_⟩
  · intro hm
    exfalso
    have hall : ∀ n ∈ Spec.massNames, isInfix c!" content" n = false := by decide
    have := hall n hm
    rw [IlcdVars.isInfix_iff.mpr hn] at this
    cases this
  · field_simp
  · field_simp

/-- **C78**: a product without dry matter loses its contents: zero is written whatever the file gives. -/
theorem contents_lost {env : Env K} {unit ref : Str} {file : List FileProp} {d : List (Str × Option (Pr K))}
    {e : List Energy} {fs : List (Written K)} (h : readProps env ref ([], []) file = .ok (d, e))
    (hf : convertProps unit (convertible d) = .ok fs) (hw : Spec.Water env file ref unit (1 : K))
    (hk : unit ≠ c!"kg") {n : Str} (hn : Spec.Contains c!" content" n) {fp : Ecs} {a : K}
    (hg : Spec.Given env file ref n fp a) :
    ⟨some fp.id, some fp.name, fp.unitName, fp.unitId, some 0⟩ ∈ fs := by
  refine (convertProps_iff h hf _).mpr (.given hg ?_ (.water hw)
    (.content hn (fun c => absurd c hk) (fun c => absurd c hw.1) ⟨fun c => absurd (by ring) c, fun _ => rfl⟩))
  intro hm
  exfalso
  have hall : ∀ n ∈ Spec.massNames, isInfix c!" content" n = false := by decide
  have := hall n hm
  rw [IlcdVars.isInfix_iff.mpr hn] at this
  cases this

/-- **C78**: the variants of contents per mass and per volume are only written for a product whose unit is printed as
`kg` or `m**3`; the unit library prints `kilogram` and `m3`. -/
theorem variants_unused {env : Env K} {unit ref : Str} {file : List FileProp} {d : List (Str × Option (Pr K))}
    {e : List Energy} {fs : List (Written K)} (h : readProps env ref ([], []) file = .ok (d, e))
    (hf : convertProps unit (convertible d) = .ok fs) (hk : unit ≠ c!"kg") (hv : unit ≠ c!"m**3") {o : Written K}
    (ho : o ∈ fs) : (∃ fp ∈ ilcdToEcsFp.map Prod.snd, o.propId = some fp.id) ∨
      o.propId ∈ [some wetId, some dryId, some waterId] := by
  rw [convertProps_iff h hf] at ho
  cases ho with
  | given hg hn hd he =>
    obtain ⟨x, _, hx, _⟩ := hg
    refine .inl ⟨_, List.mem_map_of_mem (f := Prod.snd) (aget_mem hx), ?_⟩
    cases he with
    | other h => rfl
    | content h => rfl
    | mass _ hu => exact absurd hu hk
    | volume _ hu => exact absurd hu hv
  | mass hw hm =>
    right
    cases hm <;> simp [wetId, dryId, waterId]

/-- **C45**: a product in cubic metres gets a wet mass of 1 kg, since the unit is printed as `m3`. -/
theorem volume_gets_mass {env : Env K} {ref : Str} {file : List FileProp} {d : List (Str × Option (Pr K))}
    {e : List Energy} {fs : List (Written K)} (h : readProps env ref ([], []) file = .ok (d, e))
    (hf : convertProps c!"m3" (convertible d) = .ok fs) {fp : Ecs} {w : K}
    (hg : Spec.Given env file ref c!"water content" fp w) :
    ⟨some wetId, some c!"wet mass", c!"kg", c!"487df68b-4994-4027-8fdc-a4dc298257b7", some 1⟩ ∈ fs :=
  (convertProps_iff h hf _).mpr (.mass ⟨by decide, fp, hg⟩ .wet)

/-! ### When the conversion stops -/

omit [Field K] [DecidableEq K] in
theorem readProps_ok_iff {env : Env K} {ref : Str} : ∀ {file : List FileProp} {s : List (Str × Option (Pr K)) × List Energy},
    (∃ r, readProps env ref s file = .ok r) ↔ ∀ x ∈ file, x.internalId ≠ ref →
      (∃ n, x.names = [n]) ∧ ∀ fp, aget x.id ilcdToEcsFp = some fp → (∃ a, env.flt x.value = .ok a) ∧
        env.unit fp.unitName = .ok ()
  | [], s => by simp [readProps]
  | x :: l, s => by
    simp only [readProps, List.forall_mem_cons]
    by_cases hr : x.internalId = ref
    · rw [if_pos hr, readProps_ok_iff]
      simp [hr]
    · rw [if_neg hr]
      constructor
      · rintro ⟨r, h⟩
        obtain ⟨n, hn, h⟩ := IlcdFlows.Except.bind_ok' h
        obtain ⟨⟨p, es⟩, hp, h⟩ := IlcdFlows.Except.bind_ok' h
        refine ⟨fun _ => ⟨⟨n, shortName_ok.mp hn⟩, ?_⟩, readProps_ok_iff.mp ⟨r, h⟩⟩
        intro fp hfp
        unfold normalInit at hp
        rw [hn, hfp] at hp
        obtain ⟨_, _, hp⟩ := IlcdFlows.Except.bind_ok' hp
        obtain ⟨a, ha, hp⟩ := IlcdFlows.Except.bind_ok' hp
        obtain ⟨_, hu, hp⟩ := IlcdFlows.Except.bind_ok' hp
        exact ⟨⟨a, ha⟩, hu⟩
      · rintro ⟨h1, h2⟩
        obtain ⟨⟨n, hn⟩, h3⟩ := h1 hr
        have hp : ∃ q, normalInit env x = .ok q := by
          unfold normalInit
          rw [shortName_ok.mpr hn]
          simp only [bind, Except.bind]
          split
          · exact ⟨_, rfl⟩
          · rename_i fp hfp
            obtain ⟨⟨a, ha⟩, hu⟩ := h3 fp hfp
            rw [ha, hu]
            exact ⟨_, rfl⟩
        obtain ⟨⟨q, es⟩, hq⟩ := hp
        rw [shortName_ok.mpr hn, hq]
        exact readProps_ok_iff.mpr h2

theorem mapM_ok {α β : Type} {f : α → Py β} : ∀ {l : List α}, (∀ a ∈ l, ∃ b, f a = .ok b) → ∃ r, l.mapM f = .ok r
  | [], _ => ⟨[], rfl⟩
  | a :: l, h => by
    obtain ⟨b, hb⟩ := h a (by simp)
    obtain ⟨r, hr⟩ := mapM_ok (l := l) (fun c hc => h c (by simp [hc]))
    exact ⟨b :: r, by rw [List.mapM_cons, hb, hr]; rfl⟩

/-- The properties of a file that has been read are always converted. -/
theorem convertProps_succeeds {env : Env K} {unit ref : Str} {file : List FileProp} {d : List (Str × Option (Pr K))}
    {e : List Energy} (h : readProps env ref ([], []) file = .ok (d, e)) :
    ∃ fs, convertProps unit (convertible d) = .ok fs := by
  obtain ⟨h1, h2, h3⟩ := convertible_get h
  obtain ⟨hnd, hall⟩ := addMasses_get (unit := unit) h
  unfold convertProps
  simp only
  generalize (aget c!"dry mass" (addMasses unit (convertible d))).map (·.m) = dry
  refine mapM_ok ?_
  rintro ⟨k, p⟩ hm
  have hp := aget_eq_of_mem hnd hm
  have hread : aget k (convertible d) = some p → ∃ b, (placeProp unit dry k p).map (·.field) = .ok b := by
    intro hp
    obtain ⟨x, fp, a, hx, hf, ha, rfl⟩ := h2 _ _ hp
    simp only [placeProp_read]
    by_cases hc : Spec.Contains c!" content" k
    · by_cases hu : unit = c!"kg" ∧ fp.mass ≠ none
      · obtain ⟨⟨i, m⟩, hm⟩ := Option.ne_none_iff_exists'.mp hu.2
        exact ⟨_, .mass hc hu.1 hm⟩
      · by_cases hv : unit = c!"m**3" ∧ fp.volume ≠ none
        · obtain ⟨⟨i, m⟩, hm⟩ := Option.ne_none_iff_exists'.mp hv.2
          exact ⟨_, .volume hc hv.1 hm⟩
        · exact ⟨_, .content hc (fun c => by by_contra h'; exact hu ⟨c, h'⟩) (fun c => by by_contra h'; exact hv ⟨c, h'⟩)
            ((perDry_spec _ _ _).mp rfl)⟩
    · exact ⟨_, .other hc⟩
  rcases hall with ⟨w, hw, hg⟩ | ⟨hn, hg⟩
  · rw [hg] at hp
    split_ifs at hp with c1 c2 c3
    · injection hp with hp; subst hp; exact ⟨_, placeProp_mass (by decide)⟩
    · injection hp with hp; subst hp; exact ⟨_, placeProp_mass (by decide)⟩
    · injection hp with hp; subst hp; exact ⟨_, placeProp_mass (by decide)⟩
    · exact hread hp
  · rw [hg] at hp
    exact hread hp

/-- **C78**: exactly when the properties of an exchange can be converted: every flow property besides the reference
property has a short description in one language only, and those that EcoSpold2 knows have a number and a unit that the
unit library knows; and the allocations can be read. -/
theorem exchange_ok_iff {env : Env K} {md : Bool} {unit ref : Str} {refs : List (Str × Str)} {allocs : Allocs}
    {file : List FileProp} :
    (∃ r, exchangeProps env md unit ref refs allocs file = .ok r) ↔
      (∃ al, allocations env refs allocs = .ok al) ∧
      ∀ x ∈ file, x.internalId ≠ ref → (∃ n, x.names = [n]) ∧
        ∀ fp, aget x.id ilcdToEcsFp = some fp → (∃ a, env.flt x.value = .ok a) ∧ env.unit fp.unitName = .ok () := by
  rw [← readProps_ok_iff (s := ([], []))]
  constructor
  · rintro ⟨r, h⟩
    unfold exchangeProps at h
    obtain ⟨al, hal, h⟩ := IlcdFlows.Except.bind_ok' h
    obtain ⟨de, hd, h⟩ := IlcdFlows.Except.bind_ok' h
    exact ⟨⟨al, hal⟩, de, hd⟩
  · rintro ⟨⟨al, hal⟩, ⟨d, e⟩, hd⟩
    obtain ⟨fs, hfs⟩ := convertProps_succeeds (unit := unit) hd
    unfold exchangeProps
    rw [hal, hd]
    cases md with
    | false => simp only [bind, Except.bind, Bool.false_eq_true, if_false, hfs]; exact ⟨_, rfl⟩
    | true => exact ⟨_, rfl⟩

/-! ### The option to use master data -/

/-- **C79** is not met: with the option to use master data, the properties of a product have the identifier and the name
of the flow property of ILCD, and no masses. -/
theorem master_keeps_ilcd {env : Env K} {unit ref : Str} {refs : List (Str × Str)} {allocs : Allocs}
    {file : List FileProp} {ps : List (Written K)} {e : List Energy}
    (h : exchangeProps env true unit ref refs allocs file = .ok (ps, e)) :
    ∃ fs al, allocations env refs allocs = .ok al ∧ ps = fs ++ al.map (allocProp env) ∧
      ∀ o, o ∈ fs ↔ ∃ n x fp a, Spec.LastNamed file ref n x ∧ aget x.id ilcdToEcsFp = some fp ∧
        env.flt x.value = .ok a ∧ o = ⟨some x.id, some n, fp.unitName, fp.unitId, some a⟩ := by
  unfold exchangeProps at h
  obtain ⟨al, hal, h⟩ := IlcdFlows.Except.bind_ok' h
  obtain ⟨⟨d, e'⟩, hd, h⟩ := IlcdFlows.Except.bind_ok' h
  obtain ⟨fs, hfs, h⟩ := IlcdFlows.Except.bind_ok' h
  injection h with h; injection h with h1 h2; subst h1 h2
  injection hfs with hfs
  refine ⟨fs, al, hal, rfl, fun o => ?_⟩
  obtain ⟨c1, c2, c3⟩ := convertible_get hd
  rw [← hfs]
  unfold convertMaster
  rw [List.mem_map]
  constructor
  · rintro ⟨⟨n, p⟩, hm, rfl⟩
    obtain ⟨x, fp, a, hx, hf, ha, rfl⟩ := c2 n p (aget_eq_of_mem c1 hm)
    exact ⟨n, x, fp, a, hx, hf, ha, rfl⟩
  · rintro ⟨n, x, fp, a, hx, hf, ha, rfl⟩
    obtain ⟨y, hy⟩ := c3 n fp a ⟨x, hx, hf, ha⟩
    obtain ⟨x', fp', a', hx', hf', ha', he⟩ := c2 n _ hy
    cases lastNamed_unique hx hx'
    refine ⟨(n, asRead x n fp a), aget_mem ?_, rfl⟩
    rw [hf] at hf'; rw [ha] at ha'
    injection hf' with hf'; injection ha' with ha'; subst hf' ha'
    rw [hy, he]

/-- No flow property of ILCD has an identifier that EcoSpold2 uses for a property. -/
theorem ilcd_ids_foreign : ∀ e ∈ ilcdToEcsFp, ∀ e' ∈ ilcdToEcsFp, e.1 ≠ e'.2.id := by decide +kernel

/-! ### Allocation -/

omit [Field K] [DecidableEq K] in
theorem readAllocs_ok {env : Env K} {refs : List (Str × Str)} : ∀ {l : List (Str × Str)} {d al : List (Str × K)},
    readAllocs env refs d l = .ok al → (∀ p ∈ l, ∀ n, aget p.1 refs = some n → c!"allocation for " ++ n ∉ d.map Prod.fst) →
    (l.map fun p => aget p.1 refs).Nodup →
    ∃ r, al = d ++ r ∧ List.Forall₂ (fun p q => ∃ n, aget p.1 refs = some n ∧ q.1 = c!"allocation for " ++ n ∧
      env.flt p.2 = .ok q.2) l r
  | [], d, al, h, _, _ => by
    simp only [readAllocs] at h
    injection h with h; subst h
    exact ⟨[], by simp, .nil⟩
  | (r, t) :: l, d, al, h, hd, hn => by
    simp only [readAllocs] at h
    split at h
    · cases h
    · rename_i n hr
      obtain ⟨a, ha, h⟩ := IlcdFlows.Except.bind_ok' h
      simp only [List.map_cons, List.nodup_cons] at hn
      rw [aset_of_notMem _ (hd (r, t) (by simp) n hr)] at h
      obtain ⟨q, hq, hf⟩ := readAllocs_ok h (by
        intro p hp m hm
        simp only [List.map_append, List.map_cons, List.map_nil, List.mem_append, List.mem_singleton, not_or]
        refine ⟨hd p (by simp [hp]) m hm, fun c => ?_⟩
        have : m = n := by simpa using c
        subst this
        exact hn.1 (List.mem_map.mpr ⟨p, hp, by rw [hm, hr]⟩)) hn.2
      exact ⟨(c!"allocation for " ++ n, a) :: q, by simp [hq], .cons ⟨n, hr, rfl, ha⟩ hf⟩

omit [Field K] [DecidableEq K] in
/-- **C80**: where an exchange is allocated to several co-products with names of their own, each fraction is kept. -/
theorem allocations_kept {env : Env K} {refs : List (Str × Str)} {l : List (Str × Str)} {al : List (Str × K)}
    (h : allocations env refs (.many l) = .ok al) (hn : (l.map fun p => aget p.1 refs).Nodup) :
    List.Forall₂ (fun p q => ∃ n, aget p.1 refs = some n ∧ q.1 = c!"allocation for " ++ n ∧ env.flt p.2 = .ok q.2)
      l al := by
  obtain ⟨r, hr, hf⟩ := readAllocs_ok h (by simp) hn
  simp only [List.nil_append] at hr
  rw [hr]; exact hf

omit [DecidableEq K] in
/-- **C80** is not met: an exchange allocated to one co-product only stops the conversion of the data set. -/
theorem allocation_single_stops [DecidableEq K] {env : Env K} {md : Bool} {unit ref : Str} {refs : List (Str × Str)}
    {r t : Str} {file : List FileProp} : exchangeProps env md unit ref refs (.one r t) file = .error .typeError := rfl

/-! ### Elementary exchanges with master data -/

omit [Field K] [DecidableEq K] in
theorem unitIdOf_ok {n i : Str} : ∀ {l : List (Str × (Str × Str))}, unitIdOf n l = .ok i →
    ∃ a u b, l = a ++ (u, i, n) :: b ∧ ∀ x ∈ a, x.2.2 ≠ n
  | [], h => by cases h
  | (u, j, m) :: l, h => by
    unfold unitIdOf at h
    split at h
    · rename_i hm
      injection h with h; subst h hm
      exact ⟨[], u, l, rfl, by simp⟩
    · rename_i hm
      obtain ⟨a, v, b, h1, h2⟩ := unitIdOf_ok h
      refine ⟨(u, j, m) :: a, v, b, by rw [h1]; rfl, ?_⟩
      intro x hx
      rcases List.mem_cons.1 hx with rfl | hx
      · exact hm
      · exact h2 x hx

omit [Field K] [DecidableEq K] in
theorem readMaster_ok {env : Env K} : ∀ {rows : List (Str × MasterRow)} {d r : List (Str × Pr K)},
    readMaster env d rows = .ok r → (rows.map fun x => x.2.name).Nodup →
    (∀ x ∈ rows, x.2.name ∉ d.map Prod.fst) →
    ∃ q, r = d ++ q ∧ List.Forall₂ (fun x y => masterInit env x.1 x.2 = .ok y.2) rows q
  | [], d, r, h, _, _ => by
    unfold readMaster at h
    injection h with h; subst h
    exact ⟨[], by simp, .nil⟩
  | (i, x) :: rows, d, r, h, hn, hd => by
    unfold readMaster at h
    obtain ⟨p, hp, h⟩ := IlcdFlows.Except.bind_ok' h
    simp only [List.map_cons, List.nodup_cons] at hn
    rw [aset_of_notMem _ (hd (i, x) (by simp))] at h
    obtain ⟨q, hq, hf⟩ := readMaster_ok h hn.2 (by
      intro y hy
      simp only [List.map_append, List.map_cons, List.map_nil, List.mem_append, List.mem_singleton, not_or]
      refine ⟨hd y (by simp [hy]), fun c => hn.1 ?_⟩
      rw [← c]
      exact List.mem_map.2 ⟨y, hy, rfl⟩)
    exact ⟨(x.name, p) :: q, by simp [hq], .cons hp hf⟩

omit [Field K] [DecidableEq K] in
/-- **C79**: with the option to use master data, an elementary exchange has the properties of the master data, each with
its identifier, name, unit and amount; after them it has a property for each allocation, whose identifier is made of the
name. -/
theorem master_rows {env : Env K} {refs : List (Str × Str)} {allocs : Allocs} {rows : List (Str × MasterRow)}
    {ps : List (Written K)} (h : masterProps env refs allocs rows = .ok ps)
    (hn : (rows.map fun x => x.2.name).Nodup) :
    ∃ fs al gs, allocations env refs allocs = .ok al ∧ ps = fs ++ gs ∧
      List.Forall₂ (fun (x : Str × MasterRow) (o : Written K) => o.propId = some x.1 ∧ o.name = some x.2.name ∧
        o.unitName = x.2.unitName ∧ (∃ u, (u, o.unitId, x.2.unitName) ∈ ilcdToEcsUnit) ∧
        ∃ t a, List.Forall₂ (fun c d => (c = ',' ∧ d = '.') ∨ (c ≠ ',' ∧ d = c)) x.2.amount t ∧
          env.flt t = .ok a ∧ o.amount = some a) rows fs ∧
      List.Forall₂ (fun (q : Str × K) (o : Written K) => o.propId = some (env.hash q.1) ∧ o.name = some q.1 ∧
        o.unitName = c!"dimensionless" ∧ o.amount = some q.2) al gs := by
  unfold masterProps at h
  obtain ⟨al, hal, h⟩ := IlcdFlows.Except.bind_ok' h
  obtain ⟨d, hd, h⟩ := IlcdFlows.Except.bind_ok' h
  injection h with h; subst h
  obtain ⟨q, hq, hf⟩ := readMaster_ok hd hn (by simp)
  simp only [List.nil_append] at hq
  subst hq
  refine ⟨convertMaster d, al, al.map (allocProp env), hal, rfl, ?_, ?_⟩
  · unfold convertMaster
    rw [List.forall₂_map_right_iff]
    refine hf.imp ?_
    rintro ⟨i, x⟩ ⟨n, p⟩ hp
    simp only at hp ⊢
    unfold masterInit at hp
    obtain ⟨a, ha, hp⟩ := IlcdFlows.Except.bind_ok' hp
    obtain ⟨_, -, hp⟩ := IlcdFlows.Except.bind_ok' hp
    obtain ⟨j, hj, hp⟩ := IlcdFlows.Except.bind_ok' hp
    injection hp with hp; subst hp
    obtain ⟨l, u, b, hl, -⟩ := unitIdOf_ok hj
    refine ⟨rfl, rfl, rfl, ⟨u, by rw [hl]; simp⟩, _, a, ?_, ha, rfl⟩
    rw [List.forall₂_map_right_iff]
    refine List.forall₂_same.2 fun c _ => ?_
    by_cases hc : c = ','
    · exact .inl ⟨hc, by simp [hc]⟩
    · exact .inr ⟨hc, by simp [hc]⟩
  · rw [List.forall₂_map_right_iff]
    exact List.forall₂_same.2 fun q _ => ⟨rfl, rfl, rfl, rfl⟩

/-! ### Energy -/

omit [Field K] [DecidableEq K] in
theorem marks_count (k : Energy) (x : FileProp) : (marks x).count k = if Spec.Heating k x then 1 else 0 := by
  cases hq : aget x.id ilcdToEcsFp with
  | none => rw [if_neg (by simp [Spec.Heating, hq])]; simp [marks, hq]
  | some fp =>
    have e1 : marks x = energyOf fp := by simp [marks, hq]
    have e2 : Spec.Heating k x ↔ fp.name = Spec.heatingName k := by simp [Spec.Heating, hq]
    rw [e1]
    simp only [e2]
    unfold energyOf
    by_cases h1 : fp.name = c!"heating value, gross"
    · rw [if_pos h1, h1]; cases k <;> decide
    · rw [if_neg h1]
      by_cases h2 : fp.name = c!"heating value, net"
      · rw [if_pos h2, h2]; cases k <;> decide
      · rw [if_neg h2, if_neg]
        · rfl
        · cases k with
          | net => exact h2
          | gross => exact h1

/-- **C42**: the marks that an exchange leaves are the heating values in the file of its flow. -/
theorem energy_marks {env : Env K} {md : Bool} {unit ref : Str} {refs : List (Str × Str)} {allocs : Allocs}
    {file : List FileProp} {ps : List (Written K)} {e : List Energy}
    (h : exchangeProps env md unit ref refs allocs file = .ok (ps, e)) (k : Energy) :
    e.count k = Spec.heatings k ref file := by
  unfold exchangeProps at h
  obtain ⟨al, hal, h⟩ := IlcdFlows.Except.bind_ok' h
  obtain ⟨⟨d, e'⟩, hd, h⟩ := IlcdFlows.Except.bind_ok' h
  have hee : e' = e := by
    simp only at h
    split at h
    · obtain ⟨fs, hfs, h⟩ := IlcdFlows.Except.bind_ok' h
      injection h with h; injection h with h1 h2
    · obtain ⟨fs, hfs, h⟩ := IlcdFlows.Except.bind_ok' h
      injection h with h; injection h with h1 h2
  subst hee
  obtain ⟨-, -, he⟩ := readProps_ok hd
  simp only [he, List.nil_append]
  unfold Spec.heatings
  clear * -
  simp only [ne_eq]
  induction file with
  | nil => rfl
  | cons x l ih =>
    by_cases hr : x.internalId = ref
    · simpa [hr] using ih
    · have hm := marks_count k x
      by_cases hk : Spec.Heating k x
      · rw [if_pos hk] at hm
        simp only [hr, not_false_eq_true, decide_true, List.filter_cons_of_pos, List.flatMap_cons,
          List.count_append, hm, hk, Bool.and_self, List.length_cons]
        rw [ih]; omega
      · rw [if_neg hk] at hm
        simp only [hr, not_false_eq_true, decide_true, List.filter_cons_of_pos, List.flatMap_cons,
          List.count_append, hm, hk, decide_false, Bool.and_false, Bool.false_eq_true, List.filter_cons_of_neg]
        rw [← ih]; omega

end

/-- The marks of a data set as they are counted at the end. -/
def kinds (es : List (List Energy)) : List Bool := es.flatten.map fun k => decide (k = .net)

theorem kinds_net (es : List (List Energy)) : (kinds es).count true = (es.map fun e => e.count .net).sum := by
  unfold kinds
  induction es with
  | nil => rfl
  | cons e l ih =>
    simp only [List.flatten_cons, List.map_append, List.count_append, List.map_cons, List.sum_cons, ih]
    congr 1
    clear ih
    induction e with
    | nil => rfl
    | cons k e ih => cases k <;> simp [ih]

theorem kinds_gross (es : List (List Energy)) : (kinds es).count false = (es.map fun e => e.count .gross).sum := by
  unfold kinds
  induction es with
  | nil => rfl
  | cons e l ih =>
    simp only [List.flatten_cons, List.map_append, List.count_append, List.map_cons, List.sum_cons, ih]
    congr 1
    clear ih
    induction e with
    | nil => rfl
    | cons k e ih => cases k <;> simp [ih]

/-- **C42**: the code of the data set, by the numbers `n` and `g` of net and gross heating values in the files of its
flows: gross only if there are more than three gross ones to a net one, undefined only if neither kind has three times
as many, so never against the majority. -/
theorem energy_code {K : Type} [Field K] [DecidableEq K] (env : Env K) {xs : List (Str × List FileProp)}
    {es : List (List Energy)}
    (h : List.Forall₂ (fun x e => ∃ md unit refs allocs ps,
      exchangeProps env md unit x.1 refs allocs x.2 = .ok (ps, e)) xs es) :
    let n := (xs.map fun x => Spec.heatings .net x.1 x.2).sum
    let g := (xs.map fun x => Spec.heatings .gross x.1 x.2).sum
    (Comments.energyBack none (kinds es) = c!"1" ↔ 3 * g ≤ n) ∧
    (Comments.energyBack none (kinds es) = c!"2" ↔ 3 * n ≤ g ∧ 0 < g) ∧
    (Comments.energyBack none (kinds es) = c!"0" ↔ n < 3 * g ∧ g < 3 * n) := by
  have hsum : ∀ k, (es.map fun e => e.count k).sum = (xs.map fun x => Spec.heatings k x.1 x.2).sum := by
    intro k
    induction h with
    | nil => rfl
    | cons hx _ ih =>
      obtain ⟨md, unit, refs, allocs, ps, hx⟩ := hx
      simp only [List.map_cons, List.sum_cons, ih, energy_marks hx k]
  simp only
  unfold Comments.energyBack Comments.energyBack.chosen
  simp only [kinds_net, kinds_gross, hsum]
  generalize (xs.map fun x => Spec.heatings .net x.1 x.2).sum = n
  generalize (xs.map fun x => Spec.heatings .gross x.1 x.2).sum = g
  by_cases h1 : n ≥ 3 * g
  · rw [if_pos h1]
    refine ⟨⟨fun _ => h1, fun _ => rfl⟩, ⟨fun c => absurd c (by decide), fun c => by omega⟩,
      ⟨fun c => absurd c (by decide), fun c => by omega⟩⟩
  · rw [if_neg h1]
    by_cases h2 : g ≥ 3 * n
    · rw [if_pos h2]
      refine ⟨⟨fun c => absurd c (by decide), fun c => by omega⟩, ⟨fun _ => by omega, fun _ => rfl⟩,
        ⟨fun c => absurd c (by decide), fun c => by omega⟩⟩
    · rw [if_neg h2]
      refine ⟨⟨fun c => absurd c (by decide), fun c => by omega⟩, ⟨fun c => absurd c (by decide), fun c => by omega⟩,
        ⟨fun _ => by omega, fun _ => rfl⟩⟩

/-- **C42** is not met in full: a data set without any heating value is said to use net heating values. -/
theorem energy_without_values : Comments.energyBack none (kinds []) = c!"1" := rfl

/-! ### Cases -/

/-- Numbers with decimals, known units, and a hash. -/
def exEnv : Env ℚ :=
  ⟨fun t => if t = c!"0.2" then .ok (1 / 5) else if t = c!"0.08" then .ok (2 / 25) else if t = c!"0.6" then .ok (3 / 5)
      else if t = c!"0.4" then .ok (2 / 5) else if t = c!"18" then .ok 18 else .error .valueError,
    fun _ => .ok (), fun t => c!"id of " ++ t⟩

def exWater : FileProp := ⟨c!"1", [c!"water content"], c!"7ec8d70e-4ffc-4024-86b7-6141cc0a2bf5", c!"0.2"⟩
def exChromium : FileProp := ⟨c!"2", [c!"chromium content"], c!"f2149ae0-b105-4299-b1f1-cf1fd1577867", c!"0.08"⟩
def exHeat : FileProp := ⟨c!"3", [c!"heating value, net"], c!"93a60a56-a3c8-11da-a746-0800200c9a66", c!"18"⟩
def exMass : FileProp := ⟨c!"0", [c!"Mass"], c!"93a60a56-a3c8-11da-a746-0800200b9a66", c!"1"⟩
def exRefs : List (Str × Str) := [(c!"1", c!"electricity"), (c!"2", c!"heat"), (c!"3", c!"heat")]

def amounts (l : List (Written ℚ)) : List (Option Str × Option ℚ) := l.map fun o => (o.name, o.amount)

/-- The hypotheses of `properties_iff` and what follows are met. -/
theorem ex_convert : ∃ ps e, exchangeProps exEnv false c!"kilogram" c!"0" exRefs
      (.many [(c!"1", c!"0.6"), (c!"2", c!"0.4")]) [exMass, exWater, exChromium] = .ok (ps, e) ∧
    amounts ps = [(some c!"water content", some (1 / 4)), (some c!"chromium content", some (1 / 10)),
      (some c!"wet mass", some 1), (some c!"dry mass", some (4 / 5)), (some c!"water in wet mass", some (1 / 5)),
      (some c!"allocation for electricity", some (3 / 5)), (some c!"allocation for heat", some (2 / 5))] :=
  ⟨_, _, rfl, by decide +kernel⟩

/-- The hypotheses of `energy_code` are met by a data set with one product. -/
example : ∃ es, List.Forall₂ (fun (x : Str × List FileProp) e => ∃ md unit refs allocs ps,
      exchangeProps exEnv md unit x.1 refs allocs x.2 = .ok (ps, e)) [(c!"0", [exMass, exHeat])] es ∧
    Spec.heatings .net c!"0" [exMass, exHeat] = 1 :=
  ⟨[[.net]], .cons ⟨false, c!"kilogram", [], .absent, _, rfl⟩ .nil, by decide +kernel⟩

/-- **C79**: the same product with the option to use master data. -/
theorem ex_master : ∃ ps e, exchangeProps exEnv true c!"kilogram" c!"0" exRefs .absent [exMass, exWater, exChromium] =
      .ok (ps, e) ∧ ps.map (·.propId) = [some exWater.id, some exChromium.id] := ⟨_, _, rfl, by decide +kernel⟩

/-- **C80**: two co-products with the same name share one fraction, the last. -/
theorem ex_allocation_collapse : ∃ al, allocations exEnv exRefs (.many [(c!"2", c!"0.6"), (c!"3", c!"0.4")]) = .ok al ∧
    al = [(c!"allocation for heat", 2 / 5)] := ⟨_, rfl, by decide +kernel⟩

/-- The hypotheses of `master_rows` are met by a carbon content with a decimal comma. -/
example : ∃ ps, masterProps exEnv exRefs (.many [(c!"1", c!"0.6"), (c!"2", c!"0.4")])
      [(c!"6393c14b-db78-445d-a47b-c0cb866a1b25", ⟨c!"carbon content, fossil", c!"0,2", c!"kg"⟩)] = .ok ps ∧
    amounts ps = [(some c!"carbon content, fossil", some (1 / 5)), (some c!"allocation for electricity", some (3 / 5)),
      (some c!"allocation for heat", some (2 / 5))] := ⟨_, rfl, by decide +kernel⟩

end Verif.IlcdProps
