/-
C172: when a conversion of properties stops over their uncertainties, and cases.
-/
import Verif.Props.PropUnc

namespace Verif.PropUnc
open Uncertainty Uncertainty.Spec
open EcsProps (EProp Pr Env perFlow perDryMass unitParts)

theorem productUnc_log {x y : Amt} {u : Option Unc} {v w : ℝ} (h : productUnc x y = .ok u)
    (hx : x.unc = some (.lognormal v)) (hy : y.unc = some (.lognormal w)) :
    canMake x.m v true ∧ canMake y.m w true := by
  obtain ⟨xm, xf, xu⟩ := x
  obtain ⟨ym, yf, yu⟩ := y
  simp only at hx hy
  subst hx; subst hy
  simp only [productUnc] at h
  split at h
  · assumption
  · cases h

/-- **C172**, where a conversion stops: it succeeds only if no property known as given per dry mass is lognormal with the
amount zero or the variance zero beside a lognormal dry mass; OpenTURNS makes no such distributions. -/
theorem lognormal_zero_stops {env : Env ℝ} {xs : List UProp} {outs : List Out}
    (hx : (xs.map fun y => y.x.name).Nodup) (h : convert env xs = .ok outs) {y z : UProp} (hy : y ∈ xs) (hz : z ∈ xs)
    (hu : EcsProps.Spec.HasUnit y.x) (hn : y.x.name ∈ EcsProps.Spec.dryNames) (hd : Spec.IsDryMass z) {a c b e v w : ℝ}
    (hg : Spec.Given env y a c) (hgz : Spec.Given env z b e) (hv : y.unc = some (.lognormal v))
    (hw : z.unc = some (.lognormal w)) : a * c ≠ 0 ∧ 0 < v ∧ b * e / env.factor ≠ 0 ∧ 0 < w := by
  unfold convert at h
  cases hr : finished env xs with
  | error e => rw [hr] at h; cases h
  | ok r =>
    obtain ⟨d, hdd, -, hlast, n, hrd⟩ := finished_inv hr
    have hx' : ((xs.map UProp.x).map EProp.name).Nodup := by simpa [Function.comp_def] using hx
    have hR := EcsProps.reads hx' (readProps_erase hrd)
    have hsome : ∀ z ∈ xs, EcsProps.Spec.HasUnit z.x → ∃ q, aget z.x.name d = some q ∧ ReadAs env z q := by
      intro z hz hzu
      obtain ⟨q, hq, -⟩ := hR.2.2 z.x (List.mem_map_of_mem hz) hzu
      rw [aget_erase] at hq
      cases hg : aget z.x.name d with
      | none => rw [hg] at hq; cases hq
      | some q' =>
        obtain ⟨z', hz', hzn, hzr⟩ := hdd _ q' hg
        rw [name_unique hx hz' hz hzn] at hzr
        exact ⟨q', rfl, hzr⟩
    obtain ⟨p0, e0, hr0⟩ := hsome y hy hu
    obtain ⟨q0, f0, hq0⟩ := hsome z hz hd.2
    rw [hd.1] at f0
    obtain ⟨p, hf⟩ := hlast _ hn p0 e0
    have hper : PerDry y.x.name p0.pr.u := .inl hn
    cases hf with
    | unit _ h' => exact absurd hper h'
    | amount _ h' => exact absurd hper h'
    | noDry h' _ _ => rw [f0] at h'; cases h'
    | dry q hq t ht _ _ =>
      rw [f0] at hq; injection hq with hq; subst hq
      have hprod := multiply_unc ht
      rw [hr0.amt, hq0.amt] at hprod
      obtain ⟨rfl, rfl⟩ := given_unique hr0.given hg
      obtain ⟨rfl, rfl⟩ := given_unique hq0.given hgz
      have hm := productUnc_log hprod hv hw
      exact ⟨hm.1.1 rfl, hm.1.2, hm.2.1 rfl, hm.2.2⟩

/-- A lognormal uncertainty is one that OpenTURNS can make. -/
def LogOk (p : UPr) : Prop := ∀ v, p.unc = some (.lognormal v) → p.pr.m ≠ 0 ∧ 0 < v

structure AllOk (s : St) : Prop where
  log : ∀ k p, aget k s.props = some p → LogOk p
  dry : ∀ d, aget c!"dry mass" s.props = some d → d.pr.m ≠ 0

theorem allOk_aset {k : Str} {p : UPr} {s : St} {dn : List Str} (h : AllOk s) (hp : LogOk p)
    (hd : k = c!"dry mass" → p.pr.m ≠ 0) : AllOk ⟨aset k p s.props, dn⟩ := by
  refine ⟨fun j q hq => ?_, fun q hq => ?_⟩
  · simp only [aget_aset] at hq
    split_ifs at hq
    · injection hq with hq; subst hq; exact hp
    · exact h.log j q hq
  · simp only [aget_aset] at hq
    split_ifs at hq with hk
    · injection hq with hq; subst hq; exact hd hk.symm
    · exact h.dry q hq

theorem divFactor_total {env : Env ℝ} (hf : env.factor ≠ 0) {k : Str} {p : UPr} {s : St} (h : AllOk s)
    (hp : aget k s.props = some p) : ∃ s', divFactor env k p s = .ok s' ∧ AllOk s' := by
  unfold divFactor
  split_ifs
  · exact ⟨_, rfl, h.log, h.dry⟩
  · refine ⟨_, rfl, allOk_aset h (fun v hv => ?_) fun hk => ?_⟩
    · obtain ⟨h1, h2⟩ := h.log k p hp v hv
      exact ⟨div_ne_zero h1 hf, h2⟩
    · subst hk; exact div_ne_zero (h.dry p hp) hf

theorem mulDry_total {k : Str} {p : UPr} {s : St} (h : AllOk s) (hp : aget k s.props = some p) :
    ∃ s', mulDry k p s = .ok s' ∧ AllOk s' := by
  have hlog := h.log k p hp
  unfold mulDry
  cases hd : aget c!"dry mass" s.props with
  | none => exact ⟨_, rfl, allOk_aset h hlog fun hk => by subst hk; exact h.dry p hp⟩
  | some d =>
    have hdm := h.dry d hd
    have hdl := h.log _ d hd
    have : ∃ u, productUnc p.amt d.amt = .ok u ∧ ∀ v, u = some (.lognormal v) → p.pr.m ≠ 0 ∧ 0 < v := by
      unfold productUnc
      split
      · rename_i v w hv hw
        obtain ⟨h1, h2⟩ := hlog v hv
        obtain ⟨h3, h4⟩ := hdl w hw
        rw [if_pos ⟨⟨fun _ => h1, h2⟩, fun _ => h3, h4⟩]
        refine ⟨_, rfl, fun v' hv' => ?_⟩
        simp only [Option.some.injEq, Unc.lognormal.injEq] at hv'
        exact ⟨h1, by linarith⟩
      · exact ⟨_, rfl, fun v hv => by cases hv⟩
      · exact ⟨_, rfl, fun v hv => hlog v hv⟩
      · exact ⟨_, rfl, fun v hv => by cases hv⟩
    obtain ⟨u, hu, hul⟩ := this
    simp only [Amt.multiply, hu, Except.map]
    refine ⟨_, rfl, allOk_aset h (fun v hv => ?_) fun hk => ?_⟩
    · obtain ⟨h1, h2⟩ := hul v hv
      exact ⟨mul_ne_zero h1 hdm, h2⟩
    · subst hk; exact mul_ne_zero (h.dry p hp) hdm

theorem mulAmount_total {env : Env ℝ} (ha : env.amount ≠ 0) {k : Str} {p : UPr} {s : St} (h : AllOk s)
    (hp : aget k s.props = some p) : ∃ s', mulAmount env k p s = .ok s' ∧ AllOk s' := by
  have hne : env.amount * (if env.amount ≥ 0 then 1 else -1) ≠ 0 := by
    refine mul_ne_zero ha ?_
    split_ifs <;> norm_num
  unfold mulAmount
  refine ⟨_, rfl, allOk_aset h (fun v hv => ?_) fun hk => ?_⟩
  · obtain ⟨h1, h2⟩ := h.log k p hp v hv
    exact ⟨mul_ne_zero h1 hne, h2⟩
  · subst hk; exact mul_ne_zero (h.dry p hp) hne

theorem drop_total {k : Str} {p : UPr} {s : St} (h : AllOk s) (hp : aget k s.props = some p) : AllOk (drop k p s) :=
  allOk_aset h (h.log k p hp) fun hk => by subst hk; exact h.dry p hp

theorem firstLoop_total {env : Env ℝ} (hf : env.factor ≠ 0) : ∀ (l : List Str) (s : St), AllOk s →
    ∃ s', firstLoop env s l = .ok s' ∧ AllOk s'
  | [], s, h => ⟨s, rfl, h⟩
  | k :: l, s, h => by
    unfold firstLoop
    cases hk : aget k s.props with
    | none => exact firstLoop_total hf l s h
    | some p =>
      obtain ⟨s1, h1, h2⟩ := divFactor_total hf h hk
      obtain ⟨s2, h3, h4⟩ := firstLoop_total hf l s1 h2
      exact ⟨s2, by simp only [h1]; exact h3, h4⟩

theorem secondLoop_total : ∀ (l : List Str) (s : St) (n : Nat), c!"dry mass" ∉ l → AllOk s →
    ∃ s' n', secondLoop (s, n) l = .ok (s', n') ∧ AllOk s'
  | [], s, n, _, h => ⟨s, n, rfl, h⟩
  | k :: l, s, n, hn, h => by
    have hn' : c!"dry mass" ∉ l := fun hm => hn (List.mem_cons_of_mem _ hm)
    unfold secondLoop
    cases hk : aget k s.props with
    | some p =>
      obtain ⟨s1, h1, h2⟩ := mulDry_total h hk
      obtain ⟨s2, n2, h3, h4⟩ := secondLoop_total l s1 n hn' h2
      exact ⟨s2, n2, by simp only [h1]; exact h3, h4⟩
    | none =>
      simp only
      split
      · rename_i d w hb _ _
        have : ∃ p, EcsProps.estimated w.pr.m d.pr.m n = .ok p := by
          unfold EcsProps.estimated
          split
          · rename_i hnone
            have : (aget c!"a9358458-9724-4f03-b622-106eda248916" Units.pintToIlcdFp).isSome = true := by decide +kernel
            rw [hnone] at this; cases this
          · exact ⟨_, rfl⟩
        obtain ⟨p, hp⟩ := this
        obtain ⟨s2, n2, h3, h4⟩ := secondLoop_total l
          ⟨aset k ⟨p, w.pr.m - d.pr.m, 1, none, none⟩ s.props, s.done ++ [k]⟩ (n + 1) hn'
          (allOk_aset h (fun v hv => by cases hv) fun hk => absurd (hk ▸ List.mem_cons_self) hn)
        exact ⟨s2, n2, by rw [hp]; exact h3, h4⟩
      · exact secondLoop_total l s n hn' h

theorem general_total {env : Env ℝ} (hf : env.factor ≠ 0) (ha : env.amount ≠ 0) (hc : ∀ t, ∃ b, env.check t = .ok b)
    {k : Str} {p : UPr} {s : St} (h : AllOk s) (hp : aget k s.props = some p) :
    ∃ s', general env k p s = .ok s' ∧ AllOk s' := by
  unfold general
  split_ifs
  · exact ⟨s, rfl, h⟩
  · exact divFactor_total hf h hp
  · exact mulDry_total h hp
  · exact ⟨_, rfl, drop_total h hp⟩
  · obtain ⟨b, hb⟩ := hc ((unitParts p.pr.o).getLastD [])
    rw [hb]
    cases b with
    | true => exact mulAmount_total ha h hp
    | false => exact ⟨_, rfl, drop_total h hp⟩
  · exact divFactor_total hf h hp
  · exact divFactor_total hf h hp
  · exact ⟨_, rfl, drop_total h hp⟩

theorem thirdLoop_total {env : Env ℝ} (hf : env.factor ≠ 0) (ha : env.amount ≠ 0)
    (hc : ∀ t, ∃ b, env.check t = .ok b) : ∀ (l : List Str) (s : St), AllOk s →
    ∃ s', thirdLoop env s l = .ok s' ∧ AllOk s'
  | [], s, h => ⟨s, rfl, h⟩
  | k :: l, s, h => by
    unfold thirdLoop
    cases hk : aget k s.props with
    | none => exact thirdLoop_total hf ha hc l s h
    | some p =>
      obtain ⟨s1, h1, h2⟩ := general_total hf ha hc h hk
      obtain ⟨s2, h3, h4⟩ := thirdLoop_total hf ha hc l s1 h2
      exact ⟨s2, by simp only [h1]; exact h3, h4⟩

theorem readProps_total {env : Env ℝ} : ∀ {xs : List UProp} (s : List (Str × UPr) × Nat),
    (∀ y ∈ xs, ∃ a c, Spec.Given env y a c) → ∃ r, readProps env s xs = .ok r
  | [], s, _ => ⟨s, rfl⟩
  | y :: xs, s, h => by
    obtain ⟨a, c, h1, o, u, h2⟩ := h y List.mem_cons_self
    have : ∃ p n, construct env s.2 y = .ok (p, n) := by
      have : ∃ p, EcsProps.construct env s.2 y.x = .ok p := by
        unfold EcsProps.construct
        rw [h1, h2]
        simp only [bind, Except.bind]
        split
        · exact ⟨_, rfl⟩
        · split <;> exact ⟨_, rfl⟩
      obtain ⟨⟨p, n⟩, hp⟩ := this
      unfold construct
      rw [hp, h1, h2]
      exact ⟨_, _, rfl⟩
    obtain ⟨p, n, hp⟩ := this
    obtain ⟨r, hr⟩ := readProps_total (if p.pr.considered then aset y.x.name p s.1 else s.1, n)
      (fun z hz => h z (List.mem_cons_of_mem _ hz))
    refine ⟨r, ?_⟩
    unfold readProps
    simp only [hp, bind, Except.bind]
    exact hr

/-- **C172**: the uncertainties do not stop the conversion of properties that make sense. -/
theorem convert_succeeds {env : Env ℝ} {xs : List UProp} (hs : Spec.Sane env xs)
    (hc : ∀ t, ∃ b, env.check t = .ok b) (hg : ∀ y ∈ xs, ∃ a c, Spec.Given env y a c)
    (hv : ∀ y ∈ xs, ∀ v, y.unc = some (.lognormal v) → 0 < v) : ∃ outs, convert env xs = .ok outs := by
  obtain ⟨⟨d, n⟩, hd⟩ := readProps_total ([], 1) hg
  have hread : ∀ k p, aget k d = some p → ∃ y ∈ xs, y.x.name = k ∧ ReadAs env y p := fun k p hp =>
    (readProps_inv hd k p hp).resolve_right (by simp [aget])
  have h0 : AllOk ⟨d, []⟩ := by
    refine ⟨fun k p hp v hpv => ?_, fun p hp => ?_⟩
    · obtain ⟨y, hy, -, hr⟩ := hread k p hp
      rw [hr.unc] at hpv
      rw [hr.m]
      have hval := (hs.uncs y hy _ _ _ hr.given hpv).resolve_left (by simp)
      exact ⟨(mul_pos hval.1 (hs.units y hy _ _ hr.given)).ne', hv y hy v hpv⟩
    · obtain ⟨y, hy, hn, hr⟩ := hread _ p hp
      rw [hr.m]
      exact (mul_pos (hs.dry y hy hn _ _ hr.given) (hs.units y hy _ _ hr.given)).ne'
  obtain ⟨s1, h1, a1⟩ := firstLoop_total hs.factor.ne' perFlow _ h0
  obtain ⟨s2, n2, h2, a2⟩ := secondLoop_total perDryMass s1 n (by decide) a1
  obtain ⟨s3, h3, -⟩ := thirdLoop_total hs.factor.ne' hs.amount hc (s2.props.map Prod.fst) s2 a2
  unfold convert finished equivalent
  simp only [hd, h1, h2, h3, bind, Except.bind, Except.map]
  exact ⟨_, rfl⟩

/-- A property known as given per dry mass is converted if there is a dry mass. -/
theorem per_dry_present {env : Env ℝ} {xs : List UProp} {r : List (Str × UPr)}
    (hx : (xs.map fun y => y.x.name).Nodup) (h : finished env xs = .ok r) {y z : UProp} (hy : y ∈ xs) (hz : z ∈ xs)
    (hu : EcsProps.Spec.HasUnit y.x) (hn : y.x.name ∈ EcsProps.Spec.dryNames) (hd : Spec.IsDryMass z) {b e : ℝ}
    (hg : Spec.Given env z b e) : ∃ p, aget y.x.name r = some p ∧ p.pr.considered = true := by
  obtain ⟨d, n, s1, s2, n2, s3, h0, h1, h2, h3, h4⟩ := finished_ok h
  have hx' : ((xs.map UProp.x).map EProp.name).Nodup := by simpa [Function.comp_def] using hx
  have hR := EcsProps.reads hx' (readProps_erase h0)
  have hL := EcsProps.leaves hR (firstLoop_erase h1) (secondLoop_erase h2)
    (by rw [show s2.erased.props.map Prod.fst = s2.props.map Prod.fst from keys_erase _]; exact thirdLoop_erase h3)
  obtain ⟨q, hq, -⟩ := hR.2.2 y.x (List.mem_map_of_mem hy) hu
  obtain ⟨t, ht, hright⟩ := hL.source _ q hq
  obtain ⟨g1, o, u, g2⟩ := hg
  have hk : EcsProps.Spec.Known env (xs.map UProp.x) c!"dry mass" (b * e) :=
    ⟨z.x, List.mem_map_of_mem hz, hd.1, hd.2, o, u, b, e, g1, g2, rfl⟩
  have hc := ((hright.2 (q.m * (b * e) / env.factor)).2 ⟨.dry, .dryNamed hn, b * e, hk, rfl⟩).1
  have ht' : aget y.x.name (erase s3.props) = some t := ht
  rw [aget_erase] at ht'
  cases hp : aget y.x.name s3.props with
  | none => rw [hp] at ht'; cases ht'
  | some p =>
    rw [hp] at ht'
    injection ht' with ht'
    refine ⟨p, ?_, by rw [ht']; exact hc⟩
    subst h4
    split_ifs
    · rw [EcsProps.aget_adel, if_neg (fun e => by rw [e] at hn; revert hn; decide)]
      exact hp
    · exact hp

/-! ### Cases -/

/-- Numbers and units of a flow in cubic metres. -/
noncomputable def exEnv : Env ℝ :=
  ⟨fun t => if t = c!"800" then .ok 800 else if t = c!"0.25" then .ok (1 / 4) else if t = c!"0" then .ok 0
      else .error .valueError,
    fun u => if u = c!"kg" then .ok (c!"kilogram", c!"kilogram", 1)
      else .ok (c!"dimensionless", c!"dimensionless", 1),
    fun u => .ok (decide (u = c!"m3")), 2, 4⟩

def exDry (u : Option Unc) : UProp := ⟨EcsProps.exDry, u⟩
def exWater (u : Option Unc) : UProp := ⟨EcsProps.exWater, u⟩
def exZero (u : Option Unc) : UProp := ⟨{ EcsProps.exWater with amount := c!"0" }, u⟩

theorem exDry_given (u : Option Unc) : Spec.Given exEnv (exDry u) 800 1 := ⟨rfl, _, _, rfl⟩
theorem exWater_given (u : Option Unc) : Spec.Given exEnv (exWater u) (1 / 4) 1 := ⟨rfl, _, _, rfl⟩
theorem exZero_given (u : Option Unc) : Spec.Given exEnv (exZero u) 0 1 := ⟨rfl, _, _, rfl⟩

theorem exDry_unit (u : Option Unc) : EcsProps.Spec.HasUnit (exDry u).x :=
  (EcsProps.hasUnit_iff EcsProps.exDry).1 (by decide +kernel)
theorem exWater_unit (u : Option Unc) : EcsProps.Spec.HasUnit (exWater u).x :=
  (EcsProps.hasUnit_iff EcsProps.exWater).1 (by decide +kernel)
theorem exZero_unit (u : Option Unc) : EcsProps.Spec.HasUnit (exZero u).x :=
  (EcsProps.hasUnit_iff { EcsProps.exWater with amount := c!"0" }).1 (by decide +kernel)

/-- The hypotheses of the theorems hold of a lognormal water content and a lognormal dry mass. -/
theorem ex_sane (u w : Option Unc) (hu : ∀ d, u = some d → d = .other ∨ Valid (1 / 4) d)
    (hw : ∀ d, w = some d → d = .other ∨ Valid 800 d) : Spec.Sane exEnv [exDry w, exWater u] where
  names := show [EcsProps.exDry.name, EcsProps.exWater.name].Nodup by decide +kernel
  factor := by norm_num [exEnv]
  amount := by norm_num [exEnv]
  units := by
    intro y hy a c hg
    simp only [List.mem_cons, List.not_mem_nil, or_false] at hy
    rcases hy with rfl | rfl
    · rw [← (given_unique (exDry_given w) hg).2]; norm_num
    · rw [← (given_unique (exWater_given u) hg).2]; norm_num
  uncs := by
    intro y hy a c d hg hd
    simp only [List.mem_cons, List.not_mem_nil, or_false] at hy
    rcases hy with rfl | rfl
    · rw [← (given_unique (exDry_given w) hg).1]; exact hw d hd
    · rw [← (given_unique (exWater_given u) hg).1]; exact hu d hd
  dry := by
    intro y hy hn a c hg
    simp only [List.mem_cons, List.not_mem_nil, or_false] at hy
    rcases hy with rfl | rfl
    · rw [← (given_unique (exDry_given w) hg).1]; norm_num
    · exact absurd (show EcsProps.exWater.name = c!"dry mass" from hn) (by decide +kernel)

/-- The conversion of the case succeeds. -/
theorem ex_converts (v w : ℝ) (hv : 0 < v) (hw : 0 < w) :
    ∃ outs, convert exEnv [exDry (some (.lognormal w)), exWater (some (.lognormal v))] = .ok outs := by
  refine convert_succeeds (ex_sane _ _ ?_ ?_) (fun t => ⟨_, rfl⟩) ?_ ?_
  · rintro d h; injection h with h; subst h; exact .inr ⟨by norm_num, hv.le⟩
  · rintro d h; injection h with h; subst h; exact .inr ⟨by norm_num, hw.le⟩
  · intro y hy
    simp only [List.mem_cons, List.not_mem_nil, or_false] at hy
    rcases hy with rfl | rfl
    · exact ⟨_, _, exDry_given _⟩
    · exact ⟨_, _, exWater_given _⟩
  · intro y hy x hx
    simp only [List.mem_cons, List.not_mem_nil, or_false] at hy
    rcases hy with rfl | rfl
    · simp only [exDry, Option.some.injEq, Unc.lognormal.injEq] at hx; rw [← hx]; exact hw
    · simp only [exWater, Option.some.injEq, Unc.lognormal.injEq] at hx; rw [← hx]; exact hv

/-- **C172** is not met: a water content of zero with a lognormal uncertainty stops the conversion when the dry mass is
lognormal too. -/
theorem zero_content_stops (v w : ℝ) (outs : List Out) :
    convert exEnv [exDry (some (.lognormal w)), exZero (some (.lognormal v))] ≠ .ok outs := by
  intro h
  have := lognormal_zero_stops (xs := [exDry (some (.lognormal w)), exZero (some (.lognormal v))]) (y := exZero (some (.lognormal v))) (z := exDry (some (.lognormal w)))
    (show [EcsProps.exDry.name, EcsProps.exWater.name].Nodup by decide +kernel) h (by simp) (by simp) (exZero_unit _)
    (by simp only [exZero, EcsProps.exWater]; decide) ⟨rfl, exDry_unit _⟩ (exZero_given _) (exDry_given _) rfl rfl
  exact this.1 (by norm_num)

/-- **C173** is not met: the variable of a lognormal water content states the variance of the water content and of the dry
mass together. -/
theorem variable_wrong (v w : ℝ) (hv : 0 < v) (hw : 0 < w) :
    ∃ r p, finished exEnv [exDry (some (.lognormal w)), exWater (some (.lognormal v))] = .ok r ∧
      aget c!"water content" r = some p ∧ p.pr.considered = true ∧
      varUnc p ≠ (init (1 / 4) (some (.lognormal v))).written := by
  obtain ⟨outs, ho⟩ := ex_converts v w hv hw
  unfold convert at ho
  cases hr : finished exEnv [exDry (some (.lognormal w)), exWater (some (.lognormal v))] with
  | error e => rw [hr] at ho; cases ho
  | ok r =>
    have hx : ([exDry (some (.lognormal w)), exWater (some (.lognormal v))].map fun y => y.x.name).Nodup :=
      show [EcsProps.exDry.name, EcsProps.exWater.name].Nodup by decide +kernel
    have hn : (exWater (some (.lognormal v))).x.name ∈ EcsProps.Spec.dryNames :=
      show EcsProps.exWater.name ∈ _ by decide +kernel
    obtain ⟨p, hp, hc⟩ := per_dry_present hx hr (y := exWater (some (.lognormal v)))
      (z := exDry (some (.lognormal w))) (by simp) (by simp) (exWater_unit _) hn ⟨rfl, exDry_unit _⟩ (exDry_given _)
    refine ⟨r, p, rfl, hp, hc, fun h => ?_⟩
    exact (variable_uncertainty_iff hx hr (y := exWater (some (.lognormal v))) (by simp) (exWater_unit _) hp hc
      (exWater_given _)).1 h ⟨.inl hn, exDry (some (.lognormal w)), by simp, ⟨rfl, exDry_unit _⟩, v, w, rfl, rfl⟩

/-- **C172** is not met: a normal water content loses its uncertainty when the dry mass is lognormal. -/
theorem uncertainty_lost (v w : ℝ) (hv : 0 ≤ v) (hw : 0 < w) :
    ∃ r p o, finished exEnv [exDry (some (.lognormal w)), exWater (some (.normal v))] = .ok r ∧
      aget c!"water content" r = some p ∧ outOf p = some o ∧ o.unc = none := by
  have hs : Spec.Sane exEnv [exDry (some (.lognormal w)), exWater (some (.normal v))] := by
    refine ex_sane _ _ ?_ ?_
    · rintro d h; injection h with h; subst h; exact .inr hv
    · rintro d h; injection h with h; subst h; exact .inr ⟨by norm_num, hw.le⟩
  obtain ⟨outs, ho⟩ := convert_succeeds hs (fun t => ⟨_, rfl⟩)
    (by
      intro y hy
      simp only [List.mem_cons, List.not_mem_nil, or_false] at hy
      rcases hy with rfl | rfl
      · exact ⟨_, _, exDry_given _⟩
      · exact ⟨_, _, exWater_given _⟩)
    (by
      intro y hy x hx
      simp only [List.mem_cons, List.not_mem_nil, or_false] at hy
      rcases hy with rfl | rfl
      · simp only [exDry, Option.some.injEq, Unc.lognormal.injEq] at hx; rw [← hx]; exact hw
      · simp [exWater] at hx)
  unfold convert at ho
  cases hr : finished exEnv [exDry (some (.lognormal w)), exWater (some (.normal v))] with
  | error e => rw [hr] at ho; cases ho
  | ok r =>
    have hn : (exWater (some (.normal v))).x.name ∈ EcsProps.Spec.dryNames :=
      show EcsProps.exWater.name ∈ _ by decide +kernel
    obtain ⟨p, hp, hc⟩ := per_dry_present hs.names hr (y := exWater (some (.normal v)))
      (z := exDry (some (.lognormal w))) (by simp) (by simp) (exWater_unit _) hn ⟨rfl, exDry_unit _⟩ (exDry_given _)
    obtain ⟨d, n, s1, s2, n2, s3, h0, h1, h2, h3, h4⟩ := finished_ok hr
    have hx' : ((([exDry (some (.lognormal w)), exWater (some (.normal v))] : List UProp).map UProp.x).map
        EProp.name).Nodup := hs.names
    have hR := EcsProps.reads hx' (readProps_erase h0)
    have hL := EcsProps.leaves hR (firstLoop_erase h1) (secondLoop_erase h2)
      (by rw [show s2.erased.props.map Prod.fst = s2.props.map Prod.fst from keys_erase _]; exact thirdLoop_erase h3)
    obtain ⟨q, hq, hqr⟩ := hR.2.2 EcsProps.exWater (by simp [exWater]) (exWater_unit none)
    obtain ⟨t, ht, hright⟩ := hL.source _ q hq
    have hp3 : aget c!"water content" s3.props = some p := by
      have hp' : aget c!"water content" r = some p := hp
      subst h4
      split_ifs at hp'
      · rw [EcsProps.aget_adel, if_neg (by decide)] at hp'
        exact hp'
      · exact hp'
    have ht' : aget c!"water content" (erase s3.props) = some t := ht
    rw [aget_erase, hp3] at ht'
    injection ht' with ht'
    have he : p.pr.equiv = aget EcsProps.exWater.id Units.pintToIlcdFp := by rw [ht', hright.1.1, hqr.equiv]
    have hsome : ∃ e, aget EcsProps.exWater.id Units.pintToIlcdFp = some e := by
      have : (aget EcsProps.exWater.id Units.pintToIlcdFp).isSome = true := by decide +kernel
      exact Option.isSome_iff_exists.1 this
    obtain ⟨e, hse⟩ := hsome
    have hout : ∃ o, outOf p = some o := by
      unfold outOf EcsProps.outOf
      rw [hc, he, hse]
      exact ⟨_, rfl⟩
    obtain ⟨o, hout⟩ := hout
    refine ⟨r, p, o, rfl, hp, hout, ?_⟩
    refine (uncertainty_missing_iff hs.names hr (y := exWater (some (.normal v))) (by simp) (exWater_unit _) hp hc rfl
      (by simp [Spec.Known]) hout).2 ⟨.inl hn, exDry (some (.lognormal w)), by simp, ⟨rfl, exDry_unit _⟩, _, rfl, ?_⟩
    rintro ⟨a, b, h, -⟩
    cases h

end Verif.PropUnc
