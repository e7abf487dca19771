/-
The properties of a product of ILCD after the conversion to EcoSpold2 and back.
-/
import Verif.Props.EcsProps
import Verif.Props.IlcdProps

namespace Verif.PropsRound
open Verif.Units

/-- The contents of the table are dimensionless, and their properties lead back to where they came from. -/
theorem table_contents : ∀ e ∈ ilcdToEcsFp, isInfix c!" content" e.2.name = true → e.2.unitName = c!"dimensionless" ∧
    e.2.unitId = c!"577e242a-461f-44a7-922c-d8e1c3d2bf45" ∧
    (aget e.2.id pintToIlcdFp).map (·.fp) = some e.1 ∧ e.2.name ∉ EcsProps.Spec.unitNames := by decide +kernel

/-- The other properties of the table. -/
theorem table_others : ∀ e ∈ ilcdToEcsFp, isInfix c!" content" e.2.name = false →
    e.2.name = c!"price" ∨ (isInfix c!"heating value, " e.2.name = true ∧ e.2.unitName = c!"MJ") := by decide +kernel

/-- All of the table leads back, save the second of the two net heating values. -/
theorem table_back : ∀ e ∈ ilcdToEcsFp, e.1 ≠ c!"9b784a67-fbb1-4ad2-8774-30c39643b844" →
    (aget e.2.id pintToIlcdFp).map (·.fp) = some e.1 := by decide +kernel

section
variable {K : Type} [Field K] [LinearOrder K] [IsStrictOrderedRing K]

/-- The element of the EcoSpold2 file for a property that was written. -/
def Same (env : EcsProps.Env K) (o : IlcdProps.Written K) (x : EcsProps.EProp) : Prop :=
  o.propId = some x.id ∧ o.name = some x.name ∧ x.units = [o.unitName] ∧ x.unitId = some o.unitId ∧
    ∃ a, o.amount = some a ∧ env.flt x.amount = .ok a

/-- The file holds what was written. -/
structure Holds (env : EcsProps.Env K) (fs : List (IlcdProps.Written K)) (xs : List EcsProps.EProp) : Prop where
  nodup : (xs.map EcsProps.EProp.name).Nodup
  all : ∀ o ∈ fs, ∃ x ∈ xs, Same env o x
  only : ∀ x ∈ xs, ∃ o ∈ fs, Same env o x

/-- What the unit library says of the units that matter. -/
structure Units (env : EcsProps.Env K) : Prop where
  one : env.unit c!"dimensionless" = .ok (c!"dimensionless", c!"dimensionless", 1)
  kg : env.unit c!"kg" = .ok (c!"kilogram", c!"kilogram", 1)
  mj : env.unit c!"MJ" = .ok (c!"megajoule", c!"megajoule", 1)

omit [LinearOrder K] [IsStrictOrderedRing K] in
theorem same_amount {env : EcsProps.Env K} {o : IlcdProps.Written K} {x : EcsProps.EProp} {a : K} {n u : Str}
    (h : Same env o x) (ha : o.amount = some a) (hu : env.unit o.unitName = .ok (n, u, 1)) :
    EcsProps.Spec.Amount env x a n u := by
  obtain ⟨-, -, h3, -, a', h5, h6⟩ := h
  rw [ha] at h5; injection h5 with h5; subst h5
  exact ⟨a, 1, h6, by rw [h3]; exact hu, by ring⟩

omit [Field K] [LinearOrder K] [IsStrictOrderedRing K] in
theorem same_unit {env : EcsProps.Env K} {o : IlcdProps.Written K} {x : EcsProps.EProp}
    (h : Same env o x) (hi : o.unitId ≠ []) : EcsProps.Spec.HasUnit x :=
  ⟨⟨o.unitId, h.2.2.2.1, hi⟩, by rw [h.2.2.1]; simp⟩

/-- **C81**: a content of a product with a water content below 1 comes back as the flow property it was, with the
quantity it had: `f` units of ILCD of the new flow have `a` of it, as one unit had in the beginning. -/
theorem content_round_trip {env : IlcdProps.Env K} {unit ref : Str} {file : List IlcdProps.FileProp}
    {d : List (Str × Option (IlcdProps.Pr K))} {e : List IlcdProps.Energy} {fs : List (IlcdProps.Written K)}
    (h : IlcdProps.readProps env ref ([], []) file = .ok (d, e))
    (hf : IlcdProps.convertProps unit (IlcdProps.convertible d) = .ok fs) (hk : unit ≠ c!"kg") {w : K}
    (hw : IlcdProps.Spec.Water env file ref unit w) (h1 : w ≠ 1) {env' : EcsProps.Env K} {xs : List EcsProps.EProp}
    (hx : Holds env' fs xs) (hu : Units env') (hf0 : env'.factor ≠ 0) {outs : List (EcsProps.Out K)}
    (ho : EcsProps.convert env' xs = .ok outs) {n : Str} {x : IlcdProps.FileProp} {fp : Ecs} {a : K}
    (hn : IlcdProps.Spec.LastNamed file ref n x) (hxf : aget x.id ilcdToEcsFp = some fp)
    (hxa : env.flt x.value = .ok a) (hc : IlcdProps.Spec.Contains c!" content" n) (hname : fp.name = n) :
    ∃ num name, ⟨num, x.id, name, a / env'.factor⟩ ∈ outs := by
  obtain ⟨b, hb, hba⟩ := IlcdProps.content_times_dry h hf hw h1 hk hc ⟨x, hn, hxf, hxa⟩
  obtain ⟨wet, dry, water, hsum, rfl, rfl, hmass⟩ := IlcdProps.masses_consistent h hf hw
  have hdry : dry = 1 - water := by rw [← hsum]; ring
  subst hdry
  have hd := ((hmass _).2.1.mpr rfl).1
  obtain ⟨y, hym, hy⟩ := hx.all _ hb
  obtain ⟨z, hzm, hz⟩ := hx.all _ hd
  have hci : isInfix c!" content" fp.name = true := by rw [hname]; exact IlcdVars.isInfix_iff.mpr hc
  obtain ⟨t1, t2, t3, t4⟩ := table_contents _ (aget_mem hxf) hci
  simp only at t1 t2 t3 t4
  have hyid : y.id = fp.id := by have := hy.1; simpa using this.symm
  have hyname : y.name = fp.name := by have := hy.2.1; simpa using this.symm
  have hzname : z.name = c!"dry mass" := by have := hz.2.1; simpa using this.symm
  have hyu : EcsProps.Spec.HasUnit y := same_unit hy (by simp only [t2]; decide)
  have hya : EcsProps.Spec.Amount env' y b c!"dimensionless" c!"dimensionless" :=
    same_amount hy rfl (by simp only [t1]; exact hu.one)
  have hza : EcsProps.Spec.Amount env' z (1 - water) c!"kilogram" c!"kilogram" := same_amount hz rfl hu.kg
  have hzk : EcsProps.Spec.Known env' xs c!"dry mass" (1 - water) :=
    ⟨z, hzm, hzname, same_unit hz (by simp only; decide), _, _, hza⟩
  obtain ⟨e', he', hfp⟩ := Option.map_eq_some_iff.mp t3
  have hcc : EcsProps.Spec.Contains c!"content" y.name := by
    rw [hyname, hname]
    obtain ⟨l, r, hlr⟩ := hc
    exact ⟨l ++ [' '], r, by rw [hlr]; simp⟩
  have hbasis : EcsProps.Spec.BasisOf env' y.name c!"dimensionless" c!"dimensionless" .dry := by
    by_cases hdn : y.name ∈ EcsProps.Spec.dryNames
    · exact .dryNamed hdn
    · exact .contentDry hcc hdn rfl
  obtain ⟨num, v, hv, htot⟩ := EcsProps.total_per_dry_mass hx.nodup ho hf0 hym hyu (by rw [hyid]; exact he') hya hbasis hzk
  have := htot 1
  have hva : v = a / env'.factor := by
    rw [eq_div_iff hf0]
    have h2 : v * (1 * env'.factor) = b * ((1 - water) * 1) := htot 1
    rw [one_mul, mul_one, hba] at h2
    exact h2
  rw [hfp, hva] at hv
  exact ⟨num, _, hv⟩

/-- **C81**: a heating value comes back too. -/
theorem heating_round_trip {env : IlcdProps.Env K} {unit ref : Str} {file : List IlcdProps.FileProp}
    {d : List (Str × Option (IlcdProps.Pr K))} {e : List IlcdProps.Energy} {fs : List (IlcdProps.Written K)}
    (h : IlcdProps.readProps env ref ([], []) file = .ok (d, e))
    (hf : IlcdProps.convertProps unit (IlcdProps.convertible d) = .ok fs)
    {env' : EcsProps.Env K} {xs : List EcsProps.EProp}
    (hx : Holds env' fs xs) (hu : Units env') (hf0 : env'.factor ≠ 0) {outs : List (EcsProps.Out K)}
    (ho : EcsProps.convert env' xs = .ok outs) {n : Str} {x : IlcdProps.FileProp} {fp : Ecs} {a : K}
    (hn : IlcdProps.Spec.LastNamed file ref n x) (hxf : aget x.id ilcdToEcsFp = some fp)
    (hxa : env.flt x.value = .ok a) (hc : IlcdProps.Spec.Contains c!"heating value, " fp.name) (hname : fp.name = n)
    (hid : x.id ≠ c!"9b784a67-fbb1-4ad2-8774-30c39643b844") :
    ∃ num name, ⟨num, x.id, name, a / env'.factor⟩ ∈ outs := by
  have hall : ∀ e ∈ ilcdToEcsFp, isInfix c!"heating value, " e.2.name = true → isInfix c!" content" e.2.name = false ∧
      isInfix c!"content" e.2.name = false ∧ isInfix c!"concentration, " e.2.name = false ∧ e.2.unitName = c!"MJ" ∧
      e.2.unitId ≠ [] ∧ e.2.name ∉ IlcdProps.Spec.massNames ∧ e.2.name ≠ c!"water in wet mass" := by decide +kernel
  obtain ⟨t1, t2, t3, t4, t5, t6, t7⟩ := hall _ (aget_mem hxf) (IlcdVars.isInfix_iff.mpr hc)
  simp only at t1 t2 t3 t4 t5 t6 t7
  have hb := table_back _ (aget_mem hxf) hid
  simp only at hb
  obtain ⟨e', he', hfp⟩ := Option.map_eq_some_iff.mp hb
  have hw : (⟨some fp.id, some fp.name, fp.unitName, fp.unitId, some a⟩ : IlcdProps.Written K) ∈ fs := by
    rw [IlcdProps.convertProps_iff h hf]
    have hother : ¬ IlcdProps.Spec.Contains c!" content" n := by
      rw [← hname]
      intro hcc
      rw [IlcdVars.isInfix_iff.mpr hcc] at t1; cases t1
    rcases Classical.em (∃ w, IlcdProps.Spec.Water env file ref unit w) with ⟨w, hw⟩ | hw
    · exact .given ⟨x, hn, hxf, hxa⟩ (fun hm => absurd hm (by rw [← hname]; exact t6)) (.water hw) (.other hother)
    · have hw' : ∀ w, ¬ IlcdProps.Spec.Water env file ref unit w := fun w c => hw ⟨w, c⟩
      rcases Classical.em (∃ fp d, IlcdProps.Spec.Given env file ref c!"dry mass" fp d) with ⟨fp', d', hd⟩ | hd
      · exact .given ⟨x, hn, hxf, hxa⟩ (fun _ => hw') (.given hw' hd) (.other hother)
      · exact .given ⟨x, hn, hxf, hxa⟩ (fun _ => hw') (.unknown hw' (fun fp d c => hd ⟨fp, d, c⟩)) (.other hother)
  obtain ⟨y, hym, hy⟩ := hx.all _ hw
  have hyid : y.id = fp.id := by have := hy.1; simpa using this.symm
  have hyname : y.name = fp.name := by have := hy.2.1; simpa using this.symm
  have hyu : EcsProps.Spec.HasUnit y := same_unit hy t5
  have hya : EcsProps.Spec.Amount env' y a c!"megajoule" c!"megajoule" :=
    same_amount hy rfl (by simp only [t4]; exact hu.mj)
  have hbasis : EcsProps.Spec.BasisOf env' y.name c!"megajoule" c!"megajoule" .unit := by
    rw [hyname]
    refine .heating ?_ ?_ hc rfl
    · rw [EcsProps.contains_iff, t2]; simp
    · rintro ⟨c, -⟩; rw [EcsProps.contains_iff, t3] at c; cases c
  obtain ⟨num, v, hv, htot⟩ := EcsProps.total_per_unit hx.nodup ho hf0 hym hyu (by rw [hyid]; exact he') hya hbasis
    (by rw [hyname]; exact t7)
  have hva : v = a / env'.factor := by
    rw [eq_div_iff hf0]
    have h2 := htot 1
    rw [one_mul, mul_one] at h2
    exact h2
  rw [hfp, hva] at hv
  exact ⟨num, _, hv⟩

/-- **C81** is not met without a water content: nothing comes back of the contents of a product whose file has neither
a water content nor a dry mass. -/
theorem contents_need_water {env : IlcdProps.Env K} {unit ref : Str} {file : List IlcdProps.FileProp}
    {d : List (Str × Option (IlcdProps.Pr K))} {e : List IlcdProps.Energy} {fs : List (IlcdProps.Written K)}
    (h : IlcdProps.readProps env ref ([], []) file = .ok (d, e))
    (hf : IlcdProps.convertProps unit (IlcdProps.convertible d) = .ok fs) (hk : unit ≠ c!"kg") (hv : unit ≠ c!"m**3")
    (hw : ∀ w, ¬ IlcdProps.Spec.Water env file ref unit w)
    {env' : EcsProps.Env K} {xs : List EcsProps.EProp}
    (hx : Holds env' fs xs) (hu : Units env') {outs : List (EcsProps.Out K)}
    (ho : EcsProps.convert env' xs = .ok outs) {o : EcsProps.Out K} (hm : o ∈ outs) :
    ∃ x ∈ xs, EcsProps.Spec.FromSource env' xs x o.fp o.name o.value ∧ ¬ EcsProps.Spec.Contains c!" content" x.name := by
  -- no property of the file is called dry mass
  have hfile : ∀ x ∈ xs, ∃ e ∈ ilcdToEcsFp, x.name = e.2.name ∧ x.units = [e.2.unitName] := by
    intro x hxm
    obtain ⟨p, hp, hs⟩ := hx.only x hxm
    rw [IlcdProps.convertProps_iff h hf] at hp
    cases hp with
    | given hg hn hd he =>
      obtain ⟨y, _, hy, _⟩ := hg
      refine ⟨_, aget_mem hy, ?_⟩
      cases he with
      | other h => exact ⟨by simpa using hs.2.1.symm, hs.2.2.1⟩
      | content h => exact ⟨by simpa using hs.2.1.symm, hs.2.2.1⟩
      | mass _ hu => exact absurd hu hk
      | volume _ hu => exact absurd hu hv
    | mass hw' _ => exact absurd hw' (hw _)
  have hdm : ∀ a, ¬ EcsProps.Spec.Known env' xs c!"dry mass" a := by
    rintro a ⟨x, hxm, hxn, -⟩
    obtain ⟨e, he, hn, -⟩ := hfile x hxm
    have hall : ∀ e ∈ ilcdToEcsFp, e.2.name ≠ c!"dry mass" := by decide +kernel
    exact hall e he (by rw [← hn, hxn])
  rcases (EcsProps.flow_properties_iff hx.nodup ho o.fp o.name o.value).mp ⟨o.num, hm⟩ with
    ⟨x, hxm, hs, hn⟩ | ⟨_, _, _, w, m, _, hm', _⟩
  · refine ⟨x, hxm, hs, ?_⟩
    intro hc
    obtain ⟨e, he, hname, hunits⟩ := hfile x hxm
    obtain ⟨t1, -, -, t4⟩ := table_contents e he (by rw [← hname]; exact IlcdVars.isInfix_iff.mpr hc)
    obtain ⟨e1, a, o', u, b, h1, h2, h3, h4, ha, hb, hval⟩ := hs
    have hua : o' = c!"dimensionless" ∧ u = c!"dimensionless" := by
      obtain ⟨t, f, _, h6, _⟩ := ha
      rw [hunits, t1] at h6
      simp only [List.headD_cons] at h6
      rw [hu.one] at h6
      injection h6 with h6; injection h6 with h7 h8; injection h8 with h8 h9
      exact ⟨h7.symm, h8.symm⟩
    obtain ⟨rfl, rfl⟩ := hua
    have hcc : EcsProps.Spec.Contains c!"content" x.name := by
      obtain ⟨l, r, hlr⟩ := hc
      exact ⟨l ++ [' '], r, by rw [hlr]; simp⟩
    have hbd : b = .dry := by
      cases hb with
      | named h => rw [hname] at h; exact absurd h t4
      | dryNamed h => rfl
      | content _ _ h => exact absurd h (by decide)
      | contentDry h => rfl
      | concentration h => exact absurd hcc h
      | heating h => exact absurd hcc h
      | lifetime h => exact absurd hcc h
    subst hbd
    obtain ⟨dd, hdd, -⟩ := hval
    exact hdm dd hdd
  · exact absurd hm' (hdm m)

end

/-! An example -/

def exEnv : EcsProps.Env ℚ :=
  ⟨fun t => if t = c!"0.25" then .ok (1 / 4) else if t = c!"0.1" then .ok (1 / 10) else if t = c!"1" then .ok 1
      else if t = c!"0.8" then .ok (4 / 5) else if t = c!"0.2" then .ok (1 / 5) else .error .valueError,
    fun u => if u = c!"kg" then .ok (c!"kilogram", c!"kilogram", 1) else if u = c!"MJ" then .ok (c!"megajoule", c!"megajoule", 1)
      else if u = c!"dimensionless" then .ok (c!"dimensionless", c!"dimensionless", 1) else .error (.other 0),
    fun _ => .ok false, 2, 1⟩

def exText (a : ℚ) : Str :=
  if a = 1 / 4 then c!"0.25" else if a = 1 / 10 then c!"0.1" else if a = 1 then c!"1" else if a = 4 / 5 then c!"0.8"
  else c!"0.2"

def exFile (fs : List (IlcdProps.Written ℚ)) : List EcsProps.EProp :=
  fs.map fun o => ⟨o.name.getD [], o.propId.getD [], exText (o.amount.getD 0), [o.unitName], some o.unitId⟩

def exInput : List IlcdProps.FileProp := [IlcdProps.exMass, IlcdProps.exWater, IlcdProps.exChromium]

def exConverted : List (IlcdProps.Written ℚ) :=
  match IlcdProps.readProps IlcdProps.exEnv c!"0" ([], []) exInput with
  | .ok (d, _) => match IlcdProps.convertProps c!"kilogram" (IlcdProps.convertible d) with
    | .ok fs => fs
    | .error _ => []
  | .error _ => []

theorem ex_holds : Holds exEnv exConverted (exFile exConverted) := by
  have key : ∀ o ∈ exConverted, o.name.isSome ∧ o.propId.isSome ∧ o.amount.isSome ∧
      (exEnv.flt (exText (o.amount.getD 0))).toOption = some (o.amount.getD 0) := by decide +kernel
  have same : ∀ o ∈ exConverted,
      Same exEnv o ⟨o.name.getD [], o.propId.getD [], exText (o.amount.getD 0), [o.unitName], some o.unitId⟩ := by
    intro o ho
    obtain ⟨h1, h2, h3, h4⟩ := key o ho
    obtain ⟨n, h1⟩ := Option.isSome_iff_exists.mp h1
    obtain ⟨i, h2⟩ := Option.isSome_iff_exists.mp h2
    obtain ⟨a, h3⟩ := Option.isSome_iff_exists.mp h3
    refine ⟨by rw [h2]; rfl, by rw [h1]; rfl, rfl, rfl, a, h3, ?_⟩
    rw [h3] at h4
    simp only [Option.getD_some] at h4
    simp only [h3, Option.getD_some]
    cases hh : exEnv.flt (exText a) with
    | error e => rw [hh] at h4; cases h4
    | ok b => rw [hh] at h4; simp only [Except.toOption, Option.some.injEq] at h4; rw [h4]
  refine ⟨by decide +kernel, fun o ho => ⟨_, List.mem_map.mpr ⟨o, ho, rfl⟩, same o ho⟩, fun x hx => ?_⟩
  obtain ⟨o, ho, rfl⟩ := List.mem_map.mp hx
  exact ⟨o, ho, same o ho⟩

/-- The hypotheses of `content_round_trip` are met, and the chromium comes back. -/
example : ∃ num name, ∃ outs, EcsProps.convert exEnv (exFile exConverted) = .ok outs ∧
    ⟨num, IlcdProps.exChromium.id, name, 2 / 25⟩ ∈ outs := by
  have hok : (EcsProps.convert exEnv (exFile exConverted)).toOption.isSome := by decide +kernel
  cases ho : EcsProps.convert exEnv (exFile exConverted) with
  | error e => rw [ho] at hok; cases hok
  | ok outs =>
    obtain ⟨num, name, h⟩ := content_round_trip (env := IlcdProps.exEnv) (unit := c!"kilogram") (ref := c!"0")
      (file := exInput) (fs := exConverted) (w := 1 / 5) (env' := exEnv) (xs := exFile exConverted)
      (n := c!"chromium content") (x := IlcdProps.exChromium) (a := 2 / 25) rfl rfl (by decide)
      ⟨by decide, _, IlcdProps.exWater, ⟨[IlcdProps.exMass], [IlcdProps.exChromium], rfl, by decide +kernel, by decide +kernel⟩, rfl, rfl⟩
      (by decide +kernel) ex_holds ⟨rfl, rfl, rfl⟩ (by decide) ho
      ⟨[IlcdProps.exMass, IlcdProps.exWater], [], rfl, by decide +kernel, by decide +kernel⟩ rfl rfl
      (IlcdVars.isInfix_iff.mp (by decide)) (by decide)
    exact ⟨num, name, outs, rfl, by simpa [exEnv] using h⟩

end Verif.PropsRound
