/-
C172: the uncertainty of a flow property is that of its value. C173: the uncertainty of the variable of a property is
that of the amount of the source.
-/
import Verif.Lemmas.PropUnc
import Verif.Props.EcsProps
import Verif.Spec.PropUnc

namespace Verif.PropUnc
open Uncertainty Uncertainty.Spec
open EcsProps (EProp Pr Env perFlow perDryMass unitParts)

theorem perDry_iff {env : Env ℝ} {y : UProp} {p : UPr} (h : ReadAs env y p) :
    PerDry y.x.name p.pr.u ↔ Spec.PerDryMass env y := by
  obtain ⟨o, ho⟩ := h.unit
  unfold PerDry Spec.PerDryMass
  rw [EcsProps.contains_iff]
  constructor
  · rintro (h | ⟨h1, h2⟩)
    · exact .inl h
    · exact .inr ⟨h1, o, p.f, by rw [ho, h2]⟩
  · rintro (h | ⟨h1, o', c', h2⟩)
    · exact .inl h
    · rw [ho] at h2
      simp only [Except.ok.injEq, Prod.mk.injEq] at h2
      exact .inr ⟨h1, h2.2.1⟩

theorem ReadAs.given {env : Env ℝ} {y : UProp} {p : UPr} (h : ReadAs env y p) : Spec.Given env y p.a p.f := by
  obtain ⟨o, ho⟩ := h.unit
  exact ⟨h.flt, o, _, ho⟩

theorem ReadAs.amt {env : Env ℝ} {y : UProp} {p : UPr} (h : ReadAs env y p) : p.amt = ⟨p.a * p.f, p.f, y.unc⟩ := by
  simp only [UPr.amt, h.m, h.unc]

theorem given_unique {env : Env ℝ} {y : UProp} {a b c d : ℝ} (h : Spec.Given env y a c) (h' : Spec.Given env y b d) :
    a = b ∧ c = d := by
  obtain ⟨h1, o, u, h2⟩ := h
  obtain ⟨h3, o', u', h4⟩ := h'
  rw [h1] at h3; rw [h2] at h4
  simp only [Except.ok.injEq, Prod.mk.injEq] at h3 h4
  exact ⟨h3, h4.2.2⟩

/-- The names at the end are distinct. -/
theorem finished_nodup {env : Env ℝ} {xs : List UProp} {r : List (Str × UPr)}
    (hx : (xs.map fun y => y.x.name).Nodup) (h : finished env xs = .ok r) : (r.map Prod.fst).Nodup := by
  obtain ⟨d, n, s1, s2, n2, s3, h0, h1, h2, h3, h4⟩ := finished_ok h
  have hx' : ((xs.map UProp.x).map EProp.name).Nodup := by simpa [Function.comp_def] using hx
  have hL := EcsProps.leaves (EcsProps.reads hx' (readProps_erase h0)) (firstLoop_erase h1) (secondLoop_erase h2)
    (by rw [show s2.erased.props.map Prod.fst = s2.props.map Prod.fst from keys_erase _]; exact thirdLoop_erase h3)
  have hn : (s3.props.map Prod.fst).Nodup := by rw [← keys_erase]; exact hL.nodup
  subst h4
  split_ifs
  · exact EcsProps.adel_nodup hn
  · exact hn

/-- Each flow property comes from one property of the dictionary. -/
theorem out_from {env : Env ℝ} {xs : List UProp} {outs : List Out} (hx : (xs.map fun y => y.x.name).Nodup)
    (h : convert env xs = .ok outs) {o : Out} (ho : o ∈ outs) :
    ∃ r, finished env xs = .ok r ∧ ∃ k p, aget k r = some p ∧ p.pr.considered = true ∧ o.prop.value = p.amt.m ∧
      o.unc = p.amt.written := by
  unfold convert at h
  cases hr : finished env xs with
  | error e => rw [hr] at h; cases h
  | ok r =>
    rw [hr] at h
    injection h with h; subst h
    obtain ⟨⟨k, p⟩, hm, hp⟩ := List.mem_filterMap.1 ho
    refine ⟨r, rfl, k, p, aget_eq_of_mem (finished_nodup hx hr) hm, ?_⟩
    simp only [outOf, EcsProps.outOf] at hp
    split at hp
    · rename_i e hc he
      simp only [Option.map_some, Option.some.injEq] at hp
      subst hp
      exact ⟨hc, rfl, rfl⟩
    · cases hp

theorem written_other (m f : ℝ) : (⟨m, f, some .other⟩ : Amt).written = none := rfl

theorem unscale_amt (a c t : ℝ) (u : Option Unc) :
    (⟨a * c, c, u⟩ : Amt).unscale t = ⟨a * (c / t), c / t, u⟩ := by
  simp [Amt.unscale, mul_div_assoc]

/-- The amounts of a property that is not corrected for dry mass: the distribution is multiplied with a number. -/
theorem scaled_case {a t : ℝ} {u : Option Unc} (ht : 0 < t) (hv : ∀ d, u = some d → d = .other ∨ Valid a d) :
    (⟨a * t, t, u⟩ : Amt).written = none ∨ ∃ d, u = some d ∧
      (⟨a * t, t, u⟩ : Amt).written.bind writtenLaw = (law a d).map (fun μ => μ.map (fun x => t * x)) := by
  cases u with
  | none => exact .inl rfl
  | some d =>
    rcases hv d rfl with rfl | hd
    · exact .inl rfl
    · exact .inr ⟨d, rfl, written_law a t d hd ht⟩

/-- **C172**, what is written is exact: an uncertainty written beside the value of a flow property is the distribution
of the property of the source multiplied with the number the value was multiplied with, or, for a property per dry mass,
the distribution of the product with the dry mass. -/
theorem uncertainty_exact {env : Env ℝ} {xs : List UProp} {outs : List Out} (hs : Spec.Sane env xs)
    (h : convert env xs = .ok outs) {o : Out} (ho : o ∈ outs) :
    o.unc = none ∨
    (∃ y ∈ xs, ∃ a c t d, Spec.Given env y a c ∧ y.unc = some d ∧ 0 < t ∧ o.prop.value = a * t ∧
      o.unc.bind writtenLaw = (law a d).map (fun μ => μ.map (fun x => t * x))) ∨
    (∃ y ∈ xs, ∃ z ∈ xs, Spec.PerDryMass env y ∧ Spec.IsDryMass z ∧ ∃ a c b e v w, Spec.Given env y a c ∧
      Spec.Given env z b e ∧ y.unc = some (.lognormal v) ∧ z.unc = some (.lognormal w) ∧
      o.prop.value = a * c * (b * e / env.factor) ∧ o.unc.bind writtenLaw =
        some (((lognormalLaw (a * c) v).prod (lognormalLaw (b * e / env.factor) w)).map fun p => p.1 * p.2)) := by
  obtain ⟨r, hr, k, p, hp, hc, hval, hunc⟩ := out_from hs.names h ho
  obtain ⟨d, hd, hk, -, -⟩ := finished_inv hr
  rcases hk k p hp hc with ⟨p0, e0, hf⟩ | ⟨-, -, hu, -⟩
  · obtain ⟨y, hy, hyn, hyr⟩ := hd k p0 e0
    have hc0 := hs.units y hy _ _ hyr.given
    have hv : ∀ d, y.unc = some d → d = .other ∨ Valid p0.a d := fun d hd => hs.uncs y hy _ _ d hyr.given hd
    have scaled : ∀ t, 0 < t → p.amt = ⟨p0.a * t, t, y.unc⟩ → o.unc = none ∨
        (∃ y ∈ xs, ∃ a c t d, Spec.Given env y a c ∧ y.unc = some d ∧ 0 < t ∧ o.prop.value = a * t ∧
          o.unc.bind writtenLaw = (law a d).map (fun μ => μ.map (fun x => t * x))) := fun t ht e => by
      rw [hunc, hval, e]
      rcases scaled_case ht hv with h' | ⟨d', hd', h'⟩
      · exact .inl h'
      · exact .inr ⟨y, hy, p0.a, p0.f, t, d', hyr.given, hd', ht, rfl, h'⟩
    cases hf with
    | unit h _ =>
      have e := h.amt
      rw [put_amt, hyr.amt, unscale_amt] at e
      rcases scaled _ (div_pos hc0 hs.factor) e with h' | h'
      · exact .inl h'
      · exact .inr (.inl h')
    | noDry _ _ hcc => rw [hc] at hcc; cases hcc
    | amount h _ =>
      have e := h.amt
      rw [put_amt, hyr.amt] at e
      simp only [Amt.scale, mul_assoc] at e
      rcases scaled _ (mul_pos hc0 (abs_pos.2 hs.amount)) e with h' | h'
      · exact .inl h'
      · exact .inr (.inl h')
    | dry q hq z hz h hpd =>
      obtain ⟨w, hw, hwn, hwr⟩ := hd _ q hq
      have e := h.amt
      rw [put_amt] at e
      have hb := hs.dry w hw hwn _ _ hwr.given
      have hcw := hs.units w hw _ _ hwr.given
      rw [hyr.amt, hwr.amt] at hz
      have hpos : 0 < ((⟨q.a * q.f, q.f, w.unc⟩ : Amt).unscale env.factor).m := by
        simp only [Amt.unscale]; exact div_pos (mul_pos hb hcw) hs.factor
      by_cases hoth : y.unc = some .other
      · left
        rw [hunc, e]
        rw [hoth] at hz
        simp only [Amt.multiply, Amt.unscale] at hz
        cases hwu : w.unc with
        | none =>
          rw [hwu] at hz
          simp only [productUnc, Except.map] at hz
          injection hz with hz; subst hz; rfl
        | some g =>
          rw [hwu] at hz
          simp only [productUnc, Except.map] at hz
          injection hz with hz; subst hz; rfl
      · have hv' : ∀ d, y.unc = some d → Valid p0.a d := fun d hd =>
          (hv d hd).resolve_left fun e => hoth (by rw [hd, e])
        obtain ⟨hm, hcase⟩ := product_exact p0.a p0.f y.unc _ z hv' hc0 hpos hz
        rcases hcase with h' | ⟨-, d', hd', h'⟩ | ⟨v, w', hv1, hw1, h'⟩
        · exact .inl (by rw [hunc, e]; exact h')
        · refine .inr (.inl ⟨y, hy, p0.a, p0.f, _, d', hyr.given, hd', mul_pos hc0 hpos, ?_, ?_⟩)
          · rw [hval, e, hm, mul_assoc]
          · rw [hunc, e]; exact h'
        · refine .inr (.inr ⟨y, hy, w, hw, ?_, ⟨hwn, hwr.has⟩, p0.a, p0.f, q.a, q.f, v, w', hyr.given, hwr.given, hv1, hw1, ?_, ?_⟩)
          · rw [← perDry_iff hyr, hyn]; exact hpd
          · rw [hval, e, hm]; rfl
          · rw [hunc, e]; exact h'
  · left
    rw [hunc]
    simp [UPr.amt, hu, Amt.written]

theorem name_unique {xs : List UProp} (hx : (xs.map fun y => y.x.name).Nodup) {y z : UProp} (hy : y ∈ xs) (hz : z ∈ xs)
    (h : y.x.name = z.x.name) : y = z := List.inj_on_of_nodup_map hx hy hz h

theorem written_none_iff (m f : ℝ) (u : Option Unc) :
    (⟨m, f, u⟩ : Amt).written = none ↔ u = none ∨ u = some .other := by
  cases u with
  | none => simp [Amt.written]
  | some d => cases d <;> simp [Amt.written]

theorem multiply_unc {x y z : Amt} (h : x.multiply y = .ok z) : productUnc x y = .ok z.unc := by
  unfold Amt.multiply at h
  cases hp : productUnc x y with
  | error e => rw [hp] at h; cases h
  | ok w => rw [hp] at h; injection h with h; subst h; rfl

/-- The uncertainty of a product is lost just when both factors are uncertain and not both are lognormal. -/
theorem product_none_iff {x y : Amt} {u : Option Unc} (h : productUnc x y = .ok u) :
    u = none ↔ x.unc = none ∨ ∃ d e, x.unc = some d ∧ y.unc = some e ∧ ¬ Spec.BothLog d e := by
  obtain ⟨xm, xf, xu⟩ := x
  obtain ⟨ym, yf, yu⟩ := y
  cases xu with
  | none => cases yu <;> simp [productUnc] at h <;> simp [← h]
  | some d =>
    cases yu with
    | none =>
      have : u = some d := by cases d <;> (simp only [productUnc, Except.ok.injEq] at h; exact h.symm)
      simp [this]
    | some e =>
      by_cases hb : Spec.BothLog d e
      · obtain ⟨v, w, rfl, rfl⟩ := hb
        simp only [productUnc] at h
        split at h
        · injection h with h; subst h
          simp [Spec.BothLog]
        · cases h
      · have : u = none := by
          cases d <;> cases e <;> first
            | exact absurd ⟨_, _, rfl, rfl⟩ hb
            | (simp only [productUnc, Except.ok.injEq] at h; exact h.symm)
        simp [this, hb]

theorem product_other {x y : Amt} {u : Option Unc} (h : productUnc x y = .ok u) : u = some .other →
    x.unc = some .other := by
  obtain ⟨xm, xf, xu⟩ := x
  obtain ⟨ym, yf, yu⟩ := y
  rintro rfl
  cases xu with
  | none => cases yu <;> simp [productUnc] at h
  | some d =>
    cases yu with
    | none => cases d <;> simp_all [productUnc]
    | some e =>
      cases d <;> cases e <;> simp only [productUnc] at h <;> first
        | (split at h <;> cases h)
        | cases h

/-- What is known of a property at the end, from the property of the source with its name. -/
theorem source_of {env : Env ℝ} {xs : List UProp} {r : List (Str × UPr)} (hx : (xs.map fun y => y.x.name).Nodup)
    (h : finished env xs = .ok r) {y : UProp} (hy : y ∈ xs) (hu : EcsProps.Spec.HasUnit y.x) {p : UPr}
    (hp : aget y.x.name r = some p) (hc : p.pr.considered = true) :
    ∃ p0, ReadAs env y p0 ∧ ∃ dry, Final env dry y.x.name p0 p ∧
      (∀ q, dry = some q → ∃ z ∈ xs, Spec.IsDryMass z ∧ ReadAs env z q) ∧
      (dry = none → ∀ z ∈ xs, ¬ Spec.IsDryMass z) := by
  obtain ⟨d, hd, hk, -, n, hn⟩ := finished_inv h
  have hx' : ((xs.map UProp.x).map EProp.name).Nodup := by simpa [Function.comp_def] using hx
  have hR := EcsProps.reads hx' (readProps_erase hn)
  have hsome : ∀ z ∈ xs, EcsProps.Spec.HasUnit z.x → ∃ q, aget z.x.name d = some q ∧ ReadAs env z q := by
    intro z hz hzu
    obtain ⟨q, hq, -⟩ := hR.2.2 z.x (List.mem_map_of_mem hz) hzu
    rw [aget_erase] at hq
    cases hg : aget z.x.name d with
    | none => rw [hg] at hq; cases hq
    | some q' =>
      obtain ⟨z', hz', hzn, hzr⟩ := hd _ q' hg
      rw [name_unique hx hz' hz hzn] at hzr
      exact ⟨q', rfl, hzr⟩
  obtain ⟨p0, e0, hr0⟩ := hsome y hy hu
  rcases hk _ p hp hc with ⟨p1, e1, hf⟩ | ⟨-, e1, -⟩
  · rw [e0] at e1; injection e1 with e1; subst e1
    refine ⟨p0, hr0, _, hf, fun q hq => ?_, fun hnone z hz hzd => ?_⟩
    · obtain ⟨z, hz, hzn, hzr⟩ := hd _ q hq
      exact ⟨z, hz, ⟨hzn, hzr.has⟩, hzr⟩
    · obtain ⟨q, hq, -⟩ := hsome z hz hzd.2
      rw [hzd.1, hnone] at hq; cases hq
  · rw [e0] at e1; cases e1

/-- **C172**, when the uncertainty is missing: a property of the source with an uncertainty that ILCD knows loses it just
when it is given per dry mass, the dry mass is uncertain, and not both are lognormal. -/
theorem uncertainty_missing_iff {env : Env ℝ} {xs : List UProp} {r : List (Str × UPr)}
    (hx : (xs.map fun y => y.x.name).Nodup) (h : finished env xs = .ok r) {y : UProp} (hy : y ∈ xs)
    (hu : EcsProps.Spec.HasUnit y.x) {p : UPr} (hp : aget y.x.name r = some p) (hc : p.pr.considered = true) {d : Unc}
    (hyd : y.unc = some d) (hk : Spec.Known d) {o : Out} (ho : outOf p = some o) :
    o.unc = none ↔ Spec.PerDryMass env y ∧ ∃ z ∈ xs, Spec.IsDryMass z ∧ ∃ e, z.unc = some e ∧ ¬ Spec.BothLog d e := by
  have hou : o.unc = p.amt.written := by
    unfold outOf at ho
    cases hh : EcsProps.outOf p.pr with
    | none => rw [hh] at ho; cases ho
    | some q => rw [hh] at ho; injection ho with ho; subst ho; rfl
  rw [hou]
  obtain ⟨p0, hr0, dry, hf, hsome, hnone⟩ := source_of hx h hy hu hp hc
  have plain : ¬ PerDry y.x.name p0.pr.u → ∀ m f, p.amt = ⟨m, f, y.unc⟩ → (p.amt.written = none ↔
      Spec.PerDryMass env y ∧ ∃ z ∈ xs, Spec.IsDryMass z ∧ ∃ e, z.unc = some e ∧ ¬ Spec.BothLog d e) := by
    intro hn m f e
    rw [perDry_iff hr0] at hn
    rw [e, written_none_iff, hyd]
    simp only [reduceCtorEq, Option.some.injEq, false_or]
    exact ⟨fun h => absurd h hk, fun h => absurd h.1 hn⟩
  cases hf with
  | unit hsame hn =>
    have e := hsame.amt
    rw [put_amt, hr0.amt, unscale_amt] at e
    exact plain hn _ _ e
  | amount hsame hn =>
    have e := hsame.amt
    rw [put_amt, hr0.amt] at e
    exact plain hn _ _ e
  | noDry _ _ hcc => rw [hc] at hcc; cases hcc
  | dry q hq z hz hsame hpd =>
    obtain ⟨w, hw, hwd, hwr⟩ := hsome q hq
    have e := hsame.amt
    rw [put_amt] at e
    have hprod := multiply_unc hz
    have hxu : p0.amt.unc = some d := by rw [hr0.amt]; exact hyd
    have hyu : (q.amt.unscale env.factor).unc = w.unc := by rw [hwr.amt]; rfl
    have h1 := product_none_iff hprod
    have h2 := product_other hprod
    rw [hxu, hyu] at h1
    rw [hxu] at h2
    rw [e, show z = ⟨z.m, z.f, z.unc⟩ from rfl, written_none_iff, h1]
    constructor
    · rintro ((h' | ⟨d', e', h1', h2', h3'⟩) | h')
      · cases h'
      · injection h1' with h1'; subst h1'
        exact ⟨(perDry_iff hr0).1 hpd, w, hw, hwd, e', h2', h3'⟩
      · have := h2 h'
        injection this with this
        exact absurd this hk
    · rintro ⟨-, w', hw', hwd', e', he', hnb⟩
      have : w' = w := name_unique hx hw' hw (hwd'.1.trans hwd.1.symm)
      subst this
      exact .inl (.inr ⟨d, e', rfl, he', hnb⟩)

/-- **C173**: the variable of a property states the uncertainty of the amount of the source, unless the property is per
dry mass and both it and the dry mass are lognormal: then the variance of the dry mass is added to it, although the value
of the variable is not multiplied. -/
theorem variable_uncertainty_iff {env : Env ℝ} {xs : List UProp} {r : List (Str × UPr)}
    (hx : (xs.map fun y => y.x.name).Nodup) (h : finished env xs = .ok r) {y : UProp} (hy : y ∈ xs)
    (hu : EcsProps.Spec.HasUnit y.x) {p : UPr} (hp : aget y.x.name r = some p) (hc : p.pr.considered = true) {a c : ℝ}
    (hg : Spec.Given env y a c) :
    varUnc p = (init a y.unc).written ↔
      ¬ (Spec.PerDryMass env y ∧ ∃ z ∈ xs, Spec.IsDryMass z ∧ ∃ v w, y.unc = some (.lognormal v) ∧
        z.unc = some (.lognormal w)) := by
  obtain ⟨p0, hr0, dry, hf, hsome, hnone⟩ := source_of hx h hy hu hp hc
  obtain ⟨ea, -⟩ := given_unique hr0.given hg
  have hseen : ∀ z : Amt, z.unc = y.unc → (p0.put z).seen = y.unc := by
    intro z hz
    simp only [UPr.put, hz]
    cases hyu : y.unc with
    | none => simp only; rw [hr0.fresh, hr0.unc, hyu]
    | some u => rfl
  have same : p.a = p0.a → p.seen = y.unc → varUnc p = (init a y.unc).written := by
    intro e1 e2
    rw [varUnc, e1, e2, ea]; rfl
  cases hf with
  | unit hsame hn =>
    rw [perDry_iff hr0] at hn
    refine iff_of_true (same hsame.src ?_) fun h' => hn h'.1
    rw [hsame.seen]
    exact hseen _ (by rw [hr0.amt]; rfl)
  | amount hsame hn =>
    rw [perDry_iff hr0] at hn
    refine iff_of_true (same hsame.src ?_) fun h' => hn h'.1
    rw [hsame.seen]
    exact hseen _ (by rw [hr0.amt]; rfl)
  | noDry _ _ hcc => rw [hc] at hcc; cases hcc
  | dry q hq z hz hsame hpd =>
    obtain ⟨w, hw, hwd, hwr⟩ := hsome q hq
    have hprod := multiply_unc hz
    have hxu : p0.amt.unc = y.unc := by rw [hr0.amt]
    have hyu : (q.amt.unscale env.factor).unc = w.unc := by rw [hwr.amt]; rfl
    by_cases hb : ∃ v v', y.unc = some (.lognormal v) ∧ w.unc = some (.lognormal v')
    · obtain ⟨v, v', hv, hv'⟩ := hb
      refine iff_of_false ?_ (not_not.2 ⟨(perDry_iff hr0).1 hpd, w, hw, hwd, v, v', hv, hv'⟩)
      have hz' : z.unc = some (.lognormal (v + v')) ∧ 0 < v ∧ 0 < v' := by
        unfold productUnc at hprod
        rw [hxu, hyu, hv, hv'] at hprod
        simp only at hprod
        split at hprod
        · rename_i hm
          injection hprod with hprod
          exact ⟨hprod.symm, hm.1.2, hm.2.2⟩
        · cases hprod
      have e2 : p.seen = some (.lognormal (v + v')) := by
        rw [hsame.seen]; simp only [UPr.put, hz'.1]
      rw [varUnc, e2, hv]
      simp only [Amt.written, init, Option.some.injEq, Written.mk.injEq, not_and]
      intro _ _ _ _ hstd
      have hstd : Real.exp (Real.sqrt (v + v')) ^ 2 = Real.exp (Real.sqrt v) ^ 2 := hstd
      have h1 : Real.sqrt v < Real.sqrt (v + v') := Real.sqrt_lt_sqrt hz'.2.1.le (by linarith [hz'.2.2])
      have h2 := pow_lt_pow_left₀ (Real.exp_lt_exp.2 h1) (Real.exp_pos _).le two_ne_zero
      exact absurd hstd h2.ne'
    · refine iff_of_true (same hsame.src ?_) fun ⟨_, w', hw', hwd', v, v', h1, h2⟩ => hb ⟨v, v', h1, by
        rw [← name_unique hx hw' hw (hwd'.1.trans hwd.1.symm)]; exact h2⟩
      rw [hsame.seen]
      cases hzu : z.unc with
      | none => simp only [UPr.put, hzu]; rw [hr0.fresh, hr0.unc]
      | some u =>
        have : z.unc = y.unc := by
          unfold productUnc at hprod
          rw [hxu, hyu] at hprod
          split at hprod
          · rename_i v v' h1 h2
            exact absurd ⟨v, v', h1, h2⟩ hb
          · rw [hzu] at hprod; cases hprod
          · injection hprod with hprod; exact hprod.symm
          · rw [hzu] at hprod; cases hprod
        exact hseen z this

end Verif.PropUnc
