/-
The loops over properties with uncertainties: without the uncertainties they are those of Verif.EcsProps, and what
becomes of each amount.
-/
import Verif.Lemmas.Assoc
import Verif.Lemmas.EcsProps
import Verif.Model.PropUnc

namespace Verif.PropUnc
open Uncertainty
open EcsProps (EProp Pr Env perFlow perDryMass unitParts)

/-! ### Without the uncertainties -/

/-- The properties without their uncertainties. -/
def erase (d : List (Str × UPr)) : List (Str × Pr ℝ) := d.map fun e => (e.1, e.2.pr)

theorem aget_erase (k : Str) (d : List (Str × UPr)) : aget k (erase d) = (aget k d).map UPr.pr := by
  induction d with
  | nil => rfl
  | cons e d ih =>
    obtain ⟨j, p⟩ := e
    simp only [erase, List.map_cons, aget] at ih ⊢
    split_ifs <;> simp [ih]

theorem aset_erase (k : Str) (p : UPr) (d : List (Str × UPr)) : erase (aset k p d) = aset k p.pr (erase d) := by
  induction d with
  | nil => rfl
  | cons e d ih =>
    obtain ⟨j, q⟩ := e
    simp only [erase, List.map_cons, aset] at ih ⊢
    split_ifs <;> simp [ih]

theorem adel_erase (k : Str) (d : List (Str × UPr)) : erase (adel k d) = adel k (erase d) := by
  simp [erase, adel, List.filter_map, Function.comp_def]

theorem keys_erase (d : List (Str × UPr)) : (erase d).map Prod.fst = d.map Prod.fst := by
  simp [erase, Function.comp_def]

/-- The state without the uncertainties. -/
def St.erased (s : St) : EcsProps.St ℝ := ⟨erase s.props, s.done⟩

theorem construct_ok {env : Env ℝ} {n n' : Nat} {y : UProp} {p : UPr} (h : construct env n y = .ok (p, n')) :
    EcsProps.construct env n y.x = .ok (p.pr, n') ∧ p.unc = y.unc ∧ p.seen = y.unc ∧
      env.flt y.x.amount = .ok p.a ∧ (∃ o, env.unit (y.x.units.headD c!"dimensionless") = .ok (o, p.pr.u, p.f)) ∧
      p.pr.m = p.a * p.f := by
  unfold construct at h
  cases h0 : EcsProps.construct env n y.x with
  | error e => rw [h0] at h; cases h
  | ok r =>
    obtain ⟨p0, n0⟩ := r
    rw [h0] at h
    cases h1 : env.flt y.x.amount with
    | error e => rw [h1] at h; cases h
    | ok a =>
      rw [h1] at h
      cases h2 : env.unit (y.x.units.headD c!"dimensionless") with
      | error e => rw [h2] at h; cases h
      | ok t =>
        obtain ⟨o, u, f⟩ := t
        rw [h2] at h
        injection h with h
        injection h with ha hb
        subst ha; subst hb
        suffices hsuf : p0.u = u ∧ p0.m = a * f from
          ⟨rfl, rfl, rfl, rfl, ⟨o, by rw [hsuf.1]⟩, hsuf.2⟩
        unfold EcsProps.construct at h0
        rw [h1] at h0
        simp only [h2] at h0
        change (match aget y.x.id Units.pintToIlcdFp with | none => _ | some e => _ : Py _) = _ at h0
        split at h0
        · injection h0 with h0; injection h0 with h0 _; subst h0; exact ⟨rfl, rfl⟩
        · split at h0 <;> (injection h0 with h0; injection h0 with h0 _; subst h0; exact ⟨rfl, rfl⟩)

theorem readProps_erase {env : Env ℝ} : ∀ {ys : List UProp} {d d' : List (Str × UPr)} {n n' : Nat},
    readProps env (d, n) ys = .ok (d', n') →
    EcsProps.readProps env (erase d, n) (ys.map UProp.x) = .ok (erase d', n')
  | [], d, d', n, n', h => by injection h with h; injection h with h1 h2; subst h1; subst h2; rfl
  | y :: l, d, d', n, n', h => by
    unfold readProps at h
    cases hc : construct env n y with
    | error e => simp only [hc] at h; cases h
    | ok r =>
      obtain ⟨p, m⟩ := r
      simp only [hc] at h
      obtain ⟨h0, -⟩ := construct_ok hc
      have h := readProps_erase h
      simp only [List.map_cons, EcsProps.readProps, h0]
      change EcsProps.readProps env (if p.pr.considered then aset y.x.name p.pr (erase d) else erase d, m) _ = _
      rw [← h]
      split_ifs <;> simp [aset_erase]

theorem divFactor_erase {env : Env ℝ} {k : Str} {p : UPr} {s s' : St} (h : divFactor env k p s = .ok s') :
    EcsProps.divFactor env k p.pr s.erased = .ok s'.erased := by
  unfold divFactor at h
  unfold EcsProps.divFactor
  split_ifs at h ⊢ with h1 h2
  · injection h with h; subst h; rfl
  · injection h with h; subst h
    simp [St.erased, aset_erase, UPr.put, Amt.unscale, UPr.amt]

theorem mulDry_erase {k : Str} {p : UPr} {s s' : St} (h : mulDry k p s = .ok s') :
    EcsProps.mulDry k p.pr s.erased = .ok s'.erased := by
  unfold mulDry at h
  unfold EcsProps.mulDry
  simp only [St.erased, aget_erase]
  cases hd : aget c!"dry mass" s.props with
  | none =>
    rw [hd] at h
    injection h with h; subst h
    simp [aset_erase]
  | some d =>
    rw [hd] at h
    simp only at h
    cases hz : p.amt.multiply d.amt with
    | error e => rw [hz] at h; cases h
    | ok z =>
      rw [hz] at h
      injection h with h; subst h
      have : z.m = p.pr.m * d.pr.m := by
        simp only [Amt.multiply] at hz
        cases hp : productUnc p.amt d.amt with
        | error e => rw [hp] at hz; cases hz
        | ok w => rw [hp] at hz; injection hz with hz; subst hz; rfl
      simp [aset_erase, UPr.put, this]

theorem mulAmount_erase {env : Env ℝ} {k : Str} {p : UPr} {s s' : St} (h : mulAmount env k p s = .ok s') :
    EcsProps.mulAmount env k p.pr s.erased = .ok s'.erased := by
  unfold mulAmount at h
  injection h with h; subst h
  simp [EcsProps.mulAmount, St.erased, aset_erase, UPr.put, Amt.scale, UPr.amt]

theorem drop_erase (k : Str) (p : UPr) (s : St) : (drop k p s).erased = EcsProps.drop k p.pr s.erased := by
  simp [drop, EcsProps.drop, St.erased, aset_erase]

theorem firstLoop_erase {env : Env ℝ} : ∀ {l : List Str} {s s' : St}, firstLoop env s l = .ok s' →
    EcsProps.firstLoop env s.erased l = .ok s'.erased
  | [], s, s', h => by injection h with h; subst h; rfl
  | k :: l, s, s', h => by
    unfold firstLoop at h
    unfold EcsProps.firstLoop
    simp only [St.erased, aget_erase]
    cases hk : aget k s.props with
    | none => rw [hk] at h; exact firstLoop_erase h
    | some p =>
      simp only [hk] at h
      cases hd : divFactor env k p s with
      | error e => rw [hd] at h; cases h
      | ok s1 =>
        rw [hd] at h
        have h1 := divFactor_erase hd
        have h2 := firstLoop_erase (s := s1) h
        simp only [Option.map_some]
        change (EcsProps.divFactor env k p.pr s.erased).bind _ = _
        rw [h1]
        exact h2

theorem secondLoop_erase : ∀ {l : List Str} {s s' : St} {n n' : Nat}, secondLoop (s, n) l = .ok (s', n') →
    EcsProps.secondLoop (s.erased, n) l = .ok (s'.erased, n')
  | [], s, s', n, n', h => by injection h with h; injection h with h1 h2; subst h1; subst h2; rfl
  | k :: l, s, s', n, n', h => by
    unfold secondLoop at h
    unfold EcsProps.secondLoop
    simp only [St.erased, aget_erase]
    cases hk : aget k s.props with
    | some p =>
      simp only [hk] at h
      cases hd : mulDry k p s with
      | error e => rw [hd] at h; cases h
      | ok s1 =>
        rw [hd] at h
        have h1 := mulDry_erase hd
        have h2 := secondLoop_erase (s := s1) h
        simp only [Option.map_some]
        change (EcsProps.mulDry k p.pr s.erased).bind _ = _
        rw [h1]
        exact h2
    | none =>
      simp only [hk] at h
      simp only [Option.map_none]
      cases hb : decide (k = c!"water content") with
      | false => simp only [hb] at h ⊢; exact secondLoop_erase h
      | true =>
        cases hdry : aget c!"dry mass" s.props with
        | none => simp only [hb, hdry, Option.map_none] at h ⊢; exact secondLoop_erase h
        | some d =>
          cases hwet : aget c!"wet mass" s.props with
          | none => simp only [hb, hdry, hwet, Option.map_none, Option.map_some] at h ⊢; exact secondLoop_erase h
          | some w =>
            simp only [hb, hdry, hwet, Option.map_some] at h ⊢
            cases he : EcsProps.estimated w.pr.m d.pr.m n with
            | error e => rw [he] at h; cases h
            | ok p =>
              rw [he] at h
              have h2 := secondLoop_erase (n := n + 1) h
              simp only [St.erased, aset_erase] at h2
              exact h2

theorem general_erase {env : Env ℝ} {k : Str} {p : UPr} {s s' : St} (h : general env k p s = .ok s') :
    EcsProps.general env k p.pr s.erased = .ok s'.erased := by
  unfold general at h
  unfold EcsProps.general
  by_cases h0 : k ∈ s.done
  · rw [if_pos h0] at h
    injection h with h; subst h
    rw [if_pos (show k ∈ s.erased.done from h0)]
  · rw [if_neg h0] at h
    rw [if_neg (show k ∉ s.erased.done from h0)]
    split_ifs at h ⊢
    · exact divFactor_erase h
    · exact mulDry_erase h
    · injection h with h; subst h; rw [drop_erase]
    · cases hc : env.check ((unitParts p.pr.o).getLastD []) with
      | error e => rw [hc] at h; cases h
      | ok b =>
        rw [hc] at h
        cases b with
        | true => exact mulAmount_erase h
        | false =>
          injection h with h; subst h
          rw [drop_erase]; rfl
    · exact divFactor_erase h
    · exact divFactor_erase h
    · injection h with h; subst h; rw [drop_erase]

theorem thirdLoop_erase {env : Env ℝ} : ∀ {l : List Str} {s s' : St}, thirdLoop env s l = .ok s' →
    EcsProps.thirdLoop env s.erased l = .ok s'.erased
  | [], s, s', h => by injection h with h; subst h; rfl
  | k :: l, s, s', h => by
    unfold thirdLoop at h
    unfold EcsProps.thirdLoop
    simp only [St.erased, aget_erase]
    cases hk : aget k s.props with
    | none => rw [hk] at h; exact thirdLoop_erase h
    | some p =>
      simp only [hk] at h
      cases hd : general env k p s with
      | error e => rw [hd] at h; cases h
      | ok s1 =>
        rw [hd] at h
        have h1 := general_erase hd
        have h2 := thirdLoop_erase (s := s1) h
        simp only [Option.map_some]
        change (EcsProps.general env k p.pr s.erased).bind _ = _
        rw [h1]
        exact h2

/-- The stages of a conversion that succeeds. -/
theorem finished_ok {env : Env ℝ} {xs : List UProp} {r : List (Str × UPr)} (h : finished env xs = .ok r) :
    ∃ d n s1 s2 n2 s3, readProps env ([], 1) xs = .ok (d, n) ∧ firstLoop env ⟨d, []⟩ perFlow = .ok s1 ∧
      secondLoop (s1, n) perDryMass = .ok (s2, n2) ∧ thirdLoop env s2 (s2.props.map Prod.fst) = .ok s3 ∧
      r = (if (aget c!"water content" s3.props).isSome then adel c!"water in wet mass" s3.props else s3.props) := by
  unfold finished at h
  cases h0 : readProps env ([], 1) xs with
  | error e => rw [h0] at h; cases h
  | ok t =>
    obtain ⟨d, n⟩ := t
    rw [h0] at h
    change equivalent env d n = _ at h
    unfold equivalent at h
    cases h1 : firstLoop env ⟨d, []⟩ perFlow with
    | error e => rw [h1] at h; cases h
    | ok s1 =>
      rw [h1] at h
      cases h2 : secondLoop (s1, n) perDryMass with
      | error e => simp only [h2, bind, Except.bind] at h; cases h
      | ok t2 =>
        obtain ⟨s2, n2⟩ := t2
        simp only [h2, bind, Except.bind] at h
        cases h3 : thirdLoop env s2 (s2.props.map Prod.fst) with
        | error e => rw [h3] at h; cases h
        | ok s3 =>
          rw [h3] at h
          injection h with h
          exact ⟨d, n, s1, s2, n2, s3, rfl, h1, h2, h3, h.symm⟩

/-- Without the uncertainties the conversion is that of Verif.EcsProps. -/
theorem convert_erase {env : Env ℝ} {xs : List UProp} {outs : List Out} (h : convert env xs = .ok outs) :
    EcsProps.convert env (xs.map UProp.x) = .ok (outs.map Out.prop) := by
  unfold convert at h
  cases hr : finished env xs with
  | error e => rw [hr] at h; cases h
  | ok r =>
    rw [hr] at h
    injection h with h
    subst h
    obtain ⟨d, n, s1, s2, n2, s3, h0, h1, h2, h3, h4⟩ := finished_ok hr
    have e0 := readProps_erase h0
    have e1 := firstLoop_erase h1
    have e2 := secondLoop_erase h2
    have e3 := thirdLoop_erase h3
    have e0' : EcsProps.readProps env ([], 1) (xs.map UProp.x) = .ok (erase d, n) := e0
    have e1' : EcsProps.firstLoop env ⟨erase d, []⟩ perFlow = .ok s1.erased := e1
    have e3' : EcsProps.thirdLoop env s2.erased (s2.erased.props.map Prod.fst) = .ok s3.erased := by
      rw [show s2.erased.props.map Prod.fst = s2.props.map Prod.fst from keys_erase _]
      exact e3
    simp only [EcsProps.convert, EcsProps.equivalent, e0', e1', e2, e3', bind, Except.bind]
    congr 1
    have hl : erase r = (if (aget c!"water content" s3.erased.props).isSome = true then
        adel c!"water in wet mass" s3.erased.props else s3.erased.props) := by
      subst h4
      simp only [St.erased, aget_erase, Option.isSome_map]
      split_ifs
      · rw [adel_erase]
      · rfl
    rw [← hl, erase, List.filterMap_map, List.map_filterMap]
    apply List.filterMap_congr
    intro e _
    simp only [outOf, Function.comp_def]
    cases EcsProps.outOf e.2.pr <;> rfl

/-! ### What becomes of each amount -/

/-- Up to whether the property is considered. -/
def SameBut (p q : UPr) : Prop := ∃ b, p = { q with pr := { q.pr with considered := b } }

theorem SameBut.amt {p q : UPr} (h : SameBut p q) : p.amt = q.amt := by obtain ⟨b, rfl⟩ := h; rfl
theorem SameBut.seen {p q : UPr} (h : SameBut p q) : p.seen = q.seen := by obtain ⟨b, rfl⟩ := h; rfl
theorem SameBut.src {p q : UPr} (h : SameBut p q) : p.a = q.a := by obtain ⟨b, rfl⟩ := h; rfl
theorem SameBut.refl (p : UPr) : SameBut p p := ⟨p.pr.considered, rfl⟩
theorem SameBut.drop {p q : UPr} (h : SameBut p q) :
    SameBut { p with pr := { p.pr with considered := false } } q := by obtain ⟨b, rfl⟩ := h; exact ⟨false, rfl⟩
theorem SameBut.put {p q : UPr} (h : SameBut p q) (z : Amt) : SameBut (p.put z) (q.put z) := by
  obtain ⟨b, rfl⟩ := h; exact ⟨b, rfl⟩

/-- The name and the unit in ILCD of a property that is given per dry mass. -/
def PerDry (k u : Str) : Prop := k ∈ perDryMass ∨ isInfix c!"content" k = true ∧ u = c!"dimensionless"

/-- The amount that a property has in the end, from the property `p0` that was read and the dry mass `dry` that was
read. -/
inductive Final (env : Env ℝ) (dry : Option UPr) (k : Str) (p0 p : UPr) : Prop
  | unit (h : SameBut p (p0.put (p0.amt.unscale env.factor))) (hk : ¬ PerDry k p0.pr.u)
  | dry (d : UPr) (hd : dry = some d) (z : Amt) (hz : p0.amt.multiply (d.amt.unscale env.factor) = .ok z)
    (h : SameBut p (p0.put z)) (hk : PerDry k p0.pr.u)
  | noDry (hd : dry = none) (h : SameBut p p0) (hc : p.pr.considered = false)
  | amount (h : SameBut p (p0.put (p0.amt.scale |env.amount|))) (hk : ¬ PerDry k p0.pr.u)

theorem SameBut.u {p q : UPr} (h : SameBut p q) : p.pr.u = q.pr.u := by obtain ⟨b, rfl⟩ := h; rfl

/-- A property that was read has one uncertainty. -/
def Fresh (p : UPr) : Prop := p.seen = p.unc

theorem put_unscale_one {p : UPr} (h : Fresh p) : p.put (p.amt.unscale 1) = p := by
  obtain ⟨⟨e, c, n, m, o, u⟩, a, f, un, se⟩ := p
  simp only [Fresh] at h
  subst h
  cases se <;> simp [UPr.put, UPr.amt, Amt.unscale]

/-- One step at the name `k`. -/
structure StepAt (k : Str) (s s' : St) (p' : UPr) : Prop where
  get : ∀ j, aget j s'.props = if j = k then some p' else aget j s.props
  keys : (aget k s.props).isSome → s'.props.map Prod.fst = s.props.map Prod.fst

theorem stepAt_aset (k : Str) (s : St) (p' : UPr) (dn : List Str) : StepAt k s ⟨aset k p' s.props, dn⟩ p' :=
  ⟨fun j => by rw [aget_aset], fun h => EcsProps.aset_mem_keys h⟩

theorem stepAt_self {k : Str} {s : St} {p : UPr} (hp : aget k s.props = some p) (dn : List Str) :
    StepAt k s ⟨s.props, dn⟩ p :=
  ⟨fun j => by split_ifs with h <;> simp_all, fun _ => rfl⟩

theorem divFactor_step {env : Env ℝ} {k : Str} {p p0 : UPr} {s s' : St} {dry : Option UPr} (hf : Fresh p0)
    (hk : ¬ PerDry k p0.pr.u) (hs : SameBut p p0) (hp : aget k s.props = some p) (h : divFactor env k p s = .ok s') :
    ∃ p', StepAt k s s' p' ∧ s'.done = s.done ++ [k] ∧ Final env dry k p0 p' ∧
      SameBut p' (p0.put (p0.amt.unscale env.factor)) := by
  unfold divFactor at h
  split_ifs at h with h1 h2
  · injection h with h; subst h
    have : SameBut p (p0.put (p0.amt.unscale env.factor)) := by rw [h1, put_unscale_one hf]; exact hs
    exact ⟨p, stepAt_self hp _, rfl, .unit this hk, this⟩
  · injection h with h; subst h
    have : SameBut (p.put (p.amt.unscale env.factor)) (p0.put (p0.amt.unscale env.factor)) := by
      rw [hs.amt]; exact hs.put _
    exact ⟨_, stepAt_aset _ _ _ _, rfl, .unit this hk, this⟩

/-- The dry mass in a state where it has been corrected. -/
structure DryOk (env : Env ℝ) (dry : Option UPr) (s : St) : Prop where
  some : ∀ d, aget c!"dry mass" s.props = some d → ∃ d0, dry = Option.some d0 ∧
    SameBut d (d0.put (d0.amt.unscale env.factor)) ∧ c!"dry mass" ∈ s.done
  none : aget c!"dry mass" s.props = none → dry = Option.none

theorem put_amt (p : UPr) (z : Amt) : (p.put z).amt = z := rfl

theorem mulDry_step {env : Env ℝ} {k : Str} {p p0 : UPr} {s s' : St} {dry : Option UPr}
    (hs : SameBut p p0) (hdry : DryOk env dry s) (hk : PerDry k p0.pr.u) (h : mulDry k p s = .ok s') :
    ∃ p', StepAt k s s' p' ∧ s'.done = s.done ++ [k] ∧ Final env dry k p0 p' := by
  unfold mulDry at h
  cases hd : aget c!"dry mass" s.props with
  | none =>
    rw [hd] at h
    injection h with h; subst h
    exact ⟨_, stepAt_aset _ _ _ _, rfl, .noDry (hdry.none hd) hs.drop rfl⟩
  | some d =>
    rw [hd] at h
    simp only at h
    obtain ⟨d0, e0, hd0, -⟩ := hdry.some d hd
    cases hz : p.amt.multiply d.amt with
    | error e => rw [hz] at h; cases h
    | ok z =>
      rw [hz] at h
      injection h with h; subst h
      refine ⟨_, stepAt_aset _ _ _ _, rfl, .dry d0 e0 z ?_ (hs.put z) hk⟩
      rw [hs.amt, hd0.amt, put_amt] at hz
      exact hz

theorem mulAmount_step {env : Env ℝ} {k : Str} {p p0 : UPr} {s s' : St} {dry : Option UPr}
    (hk : ¬ PerDry k p0.pr.u) (hs : SameBut p p0) (h : mulAmount env k p s = .ok s') :
    ∃ p', StepAt k s s' p' ∧ s'.done = s.done ++ [k] ∧ Final env dry k p0 p' := by
  unfold mulAmount at h
  injection h with h; subst h
  refine ⟨_, stepAt_aset _ _ _ _, rfl, .amount ?_ hk⟩
  have : env.amount * (if env.amount ≥ 0 then 1 else -1) = |env.amount| := by
    split_ifs with h
    · rw [mul_one, abs_of_nonneg h]
    · rw [mul_neg_one, abs_of_neg (not_le.1 h)]
  rw [this, hs.amt]
  exact hs.put _

theorem general_step {env : Env ℝ} {k : Str} {p p0 : UPr} {s s' : St} {dry : Option UPr} (hf : Fresh p0)
    (hs : SameBut p p0) (hdry : DryOk env dry s) (hk : k ∉ s.done) (hkn : k ∉ perDryMass)
    (hp : aget k s.props = some p) (h : general env k p s = .ok s') :
    ∃ p', StepAt k s s' p' ∧ ((s'.done = s.done ++ [k] ∧ Final env dry k p0 p') ∨
      (s'.done = s.done ∧ SameBut p' p0 ∧ p'.pr.considered = false)) := by
  have hdrop : ∃ p', StepAt k s (drop k p s) p' ∧ (((drop k p s).done = s.done ++ [k] ∧ Final env dry k p0 p') ∨
      ((drop k p s).done = s.done ∧ SameBut p' p0 ∧ p'.pr.considered = false)) :=
    ⟨_, stepAt_aset _ _ _ _, .inr ⟨rfl, hs.drop, rfl⟩⟩
  have hdiv : ¬ PerDry k p0.pr.u → divFactor env k p s = .ok s' → ∃ p', StepAt k s s' p' ∧ ((s'.done = s.done ++ [k] ∧ Final env dry k p0 p') ∨
      (s'.done = s.done ∧ SameBut p' p0 ∧ p'.pr.considered = false)) := fun hn h => by
    obtain ⟨p', h1, h2, h3, -⟩ := divFactor_step (dry := dry) hf hn hs hp h
    exact ⟨p', h1, .inl ⟨h2, h3⟩⟩
  have hnot : ¬ isInfix c!"content" k = true → ¬ PerDry k p0.pr.u := by
    rintro hn (h' | ⟨h', -⟩)
    · exact hkn h'
    · exact hn h'
  unfold general at h
  rw [if_neg hk] at h
  split_ifs at h with hc hu hu hc hh hl
  · refine hdiv ?_ h
    rintro (h' | ⟨-, h'⟩)
    · exact hkn h'
    · rw [← hs.u] at h'
      rw [h'] at hu
      revert hu; decide
  · obtain ⟨p', h1, h2, h3⟩ := mulDry_step hs hdry (.inr ⟨hc, by rw [← hs.u]; exact hu⟩) h
    exact ⟨p', h1, .inl ⟨h2, h3⟩⟩
  · injection h with h; subst h; exact hdrop
  · cases hc : env.check ((unitParts p.pr.o).getLastD []) with
    | error e => rw [hc] at h; cases h
    | ok b =>
      rw [hc] at h
      cases b with
      | true =>
        obtain ⟨p', h1, h2, h3⟩ := mulAmount_step (dry := dry) (hnot (by assumption)) hs h
        exact ⟨p', h1, .inl ⟨h2, h3⟩⟩
      | false => injection h with h; subst h; exact hdrop
  · exact hdiv (hnot (by assumption)) h
  · exact hdiv (hnot (by assumption)) h
  · injection h with h; subst h; exact hdrop

/-- What is known of each property in a state: it was read and not treated, or treated, or it is the water content that
was estimated. -/
def Inv (env : Env ℝ) (orig : List (Str × UPr)) (s : St) : Prop :=
  ∀ k p, aget k s.props = some p →
    (k ∉ s.done ∧ ∃ p0, aget k orig = some p0 ∧ SameBut p p0) ∨
    (k ∈ s.done ∧ ∃ p0, aget k orig = some p0 ∧ Final env (aget c!"dry mass" orig) k p0 p) ∨
    (k ∈ s.done ∧ k = c!"water content" ∧ aget k orig = none ∧ p.unc = none ∧ p.seen = none)

theorem inv_step {env : Env ℝ} {orig : List (Str × UPr)} {s s' : St} {k : Str} {p' : UPr} (hi : Inv env orig s)
    (hst : StepAt k s s' p')
    (hd : (s'.done = s.done ++ [k] ∧ ∃ p0, aget k orig = some p0 ∧ Final env (aget c!"dry mass" orig) k p0 p') ∨
      (s'.done = s.done ++ [k] ∧ k = c!"water content" ∧ aget k orig = none ∧ p'.unc = none ∧ p'.seen = none) ∨
      (s'.done = s.done ∧ k ∉ s.done ∧ ∃ p0, aget k orig = some p0 ∧ SameBut p' p0)) : Inv env orig s' := by
  intro j p hp
  rw [hst.get] at hp
  split_ifs at hp with hj
  · injection hp with hp
    subst hp; subst hj
    rcases hd with ⟨e, h⟩ | ⟨e, h⟩ | ⟨e, h1, h2⟩
    · exact .inr (.inl ⟨by rw [e]; simp, h⟩)
    · exact .inr (.inr ⟨by rw [e]; simp, h⟩)
    · exact .inl ⟨by rw [e]; exact h1, h2⟩
  · have hdone : j ∈ s'.done ↔ j ∈ s.done := by
      rcases hd with ⟨e, -⟩ | ⟨e, -⟩ | ⟨e, -⟩ <;> rw [e] <;> simp [hj]
    rw [hdone]
    exact hi j p hp

theorem dryOk_step {env : Env ℝ} {dry : Option UPr} {s s' : St} {k : Str} {p' : UPr} (hdry : DryOk env dry s)
    (hst : StepAt k s s' p') (hk : k ≠ c!"dry mass") (hd : ∀ j, j ∈ s.done → j ∈ s'.done) : DryOk env dry s' := by
  have e : aget c!"dry mass" s'.props = aget c!"dry mass" s.props := by rw [hst.get, if_neg (Ne.symm hk)]
  refine ⟨fun d hg => ?_, fun hg => hdry.none (by rw [← e]; exact hg)⟩
  rw [e] at hg
  obtain ⟨d0, h1, h2, h3⟩ := hdry.some d hg
  exact ⟨d0, h1, h2, hd _ h3⟩

/-- All that was read is fresh. -/
def AllFresh (orig : List (Str × UPr)) : Prop := ∀ k p, aget k orig = some p → Fresh p

theorem firstLoop_rest {env : Env ℝ} {orig : List (Str × UPr)} (hfr : AllFresh orig) : ∀ {l : List Str} {s s' : St},
    c!"dry mass" ∉ l → (∀ k ∈ l, ∀ u, ¬ PerDry k u) → l.Nodup → (∀ k ∈ l, k ∉ s.done) → (∀ k ∈ l, aget k orig = none → aget k s.props = none) →
    Inv env orig s → DryOk env (aget c!"dry mass" orig) s →
    firstLoop env s l = .ok s' → Inv env orig s' ∧ DryOk env (aget c!"dry mass" orig) s' ∧
      (∀ k ∈ s'.done, k ∈ s.done ∨ k ∈ l) ∧ s'.props.map Prod.fst = s.props.map Prod.fst
  | [], s, s', _, _, _, _, _, hi, hd, h => by injection h with h; subst h; exact ⟨hi, hd, fun k hk => .inl hk, rfl⟩
  | k :: l, s, s', hn, hpd, hnd, hnot, hno, hi, hd, h => by
    unfold firstLoop at h
    have hnd' := List.nodup_cons.1 hnd
    cases hk : aget k s.props with
    | none =>
      rw [hk] at h
      obtain ⟨a, b, c, e⟩ := firstLoop_rest hfr (fun hm => hn (List.mem_cons_of_mem _ hm))
            (fun j hj => hpd j (List.mem_cons_of_mem _ hj)) hnd'.2
        (fun j hj => hnot j (List.mem_cons_of_mem _ hj)) (fun j hj => hno j (List.mem_cons_of_mem _ hj)) hi hd h
      exact ⟨a, b, fun j hj => (c j hj).imp_right (List.mem_cons_of_mem _), e⟩
    | some p =>
      simp only [hk] at h
      cases hc : divFactor env k p s with
      | error e => rw [hc] at h; cases h
      | ok s1 =>
        rw [hc] at h
        change firstLoop env s1 l = .ok s' at h
        rcases hi k p hk with ⟨-, p0, e0, hs⟩ | ⟨hm, -⟩ | ⟨hm, -⟩
        · obtain ⟨p', hst, hdn, hfin, -⟩ := divFactor_step (dry := aget c!"dry mass" orig) (hfr k p0 e0) (hpd k List.mem_cons_self _) hs hk hc
          have hi1 : Inv env orig s1 := inv_step hi hst (.inl ⟨hdn, p0, e0, hfin⟩)
          have hkd : k ≠ c!"dry mass" := fun e => hn (by rw [e]; exact List.mem_cons_self)
          have hd1 := dryOk_step hd hst hkd (fun j hj => by rw [hdn]; exact List.mem_append_left _ hj)
          obtain ⟨a, b, c, e⟩ := firstLoop_rest (s := s1) hfr (fun hm => hn (List.mem_cons_of_mem _ hm))
            (fun j hj => hpd j (List.mem_cons_of_mem _ hj)) hnd'.2
            (fun j hj => by
              rw [hdn, List.mem_append, List.mem_singleton]
              rintro (h' | rfl)
              · exact hnot j (List.mem_cons_of_mem _ hj) h'
              · exact hnd'.1 hj)
            (fun j hj hj0 => by
              rw [hst.get, if_neg (fun e : j = k => hnd'.1 (e ▸ hj))]
              exact hno j (List.mem_cons_of_mem _ hj) hj0)
            hi1 hd1 h
          refine ⟨a, b, fun j hj => ?_, e.trans (hst.keys (by rw [hk]; rfl))⟩
          rcases c j hj with h' | h'
          · rw [hdn, List.mem_append, List.mem_singleton] at h'
            rcases h' with h' | rfl
            · exact .inl h'
            · exact .inr List.mem_cons_self
          · exact .inr (List.mem_cons_of_mem _ h')
        · exact absurd hm (hnot k List.mem_cons_self)
        · exact absurd hm (hnot k List.mem_cons_self)

theorem inv_init (env : Env ℝ) (orig : List (Str × UPr)) : Inv env orig ⟨orig, []⟩ :=
  fun _ p hp => .inl ⟨by simp, p, hp, .refl p⟩

theorem perFlow_not : ∀ k ∈ perFlow, ∀ u, ¬ PerDry k u := by
  intro k hk u h
  have h1 : ∀ k ∈ perFlow, k ∉ perDryMass ∧ isInfix c!"content" k = false := by decide
  rcases h with h | ⟨h, -⟩
  · exact (h1 k hk).1 h
  · rw [(h1 k hk).2] at h; cases h

theorem firstLoop_inv {env : Env ℝ} {orig : List (Str × UPr)} (hfr : AllFresh orig) {s' : St}
    (h : firstLoop env ⟨orig, []⟩ perFlow = .ok s') :
    Inv env orig s' ∧ DryOk env (aget c!"dry mass" orig) s' ∧ (∀ k ∈ s'.done, k ∈ perFlow) ∧
      s'.props.map Prod.fst = orig.map Prod.fst := by
  have hi := inv_init env orig
  unfold perFlow at h
  unfold firstLoop at h
  cases hk : aget c!"dry mass" orig with
  | none =>
    simp only [hk] at h
    have := firstLoop_rest (s := ⟨orig, []⟩) hfr (by decide) (fun k hm => perFlow_not k (List.mem_cons_of_mem _ hm)) (by decide) (by simp) (fun k _ e => e) hi
      ⟨fun d hd => (by simp only [hk] at hd; exact absurd hd (by simp)), fun _ => hk⟩ h
    rw [hk] at this
    exact ⟨this.1, this.2.1, fun k hm => List.mem_cons_of_mem _ ((this.2.2.1 k hm).resolve_left (by simp)), this.2.2.2⟩
  | some p =>
    simp only [hk] at h
    cases hc : divFactor env c!"dry mass" p ⟨orig, []⟩ with
    | error e => rw [hc] at h; cases h
    | ok s1 =>
      rw [hc] at h
      change firstLoop env s1 _ = .ok s' at h
      obtain ⟨p', hst, hdn, hfin, hsame⟩ := divFactor_step (dry := some p) (hfr _ p hk)
        (perFlow_not _ List.mem_cons_self _) (.refl p) hk hc
      have hi1 : Inv env orig s1 := inv_step hi hst (.inl ⟨hdn, p, hk, by rw [hk]; exact hfin⟩)
      have hd1 : DryOk env (aget c!"dry mass" orig) s1 := by
        refine ⟨fun d hd => ?_, fun hd => ?_⟩
        · rw [hst.get, if_pos rfl] at hd
          injection hd with hd; subst hd
          exact ⟨p, hk, hsame, by rw [hdn]; simp⟩
        · rw [hst.get, if_pos rfl] at hd; cases hd
      have := firstLoop_rest hfr (by decide) (fun k hm => perFlow_not k (List.mem_cons_of_mem _ hm)) (by decide)
        (fun k hm => by
          rw [hdn]
          simp only [List.nil_append, List.mem_singleton]
          rintro rfl
          revert hm; decide)
        (fun k hm e => by
          rw [hst.get, if_neg (fun e' => by subst e'; revert hm; decide)]
          exact e) hi1 hd1 h
      rw [hk] at this
      refine ⟨this.1, this.2.1, fun k hm => ?_, this.2.2.2.trans (hst.keys (by simp only [hk]; rfl))⟩
      rcases this.2.2.1 k hm with h' | h'
      · rw [hdn] at h'
        simp only [List.nil_append, List.mem_singleton] at h'
        subst h'; decide
      · exact List.mem_cons_of_mem _ h'

theorem secondLoop_inv {env : Env ℝ} {orig : List (Str × UPr)} : ∀ {l : List Str} {s s' : St}
    {n n' : Nat}, c!"dry mass" ∉ l → (∀ k ∈ l, k ∈ perDryMass) → l.Nodup → (∀ k ∈ l, k ∉ s.done) →
    (∀ k ∈ l, aget k s.props = none → aget k orig = none) → Inv env orig s →
    DryOk env (aget c!"dry mass" orig) s → secondLoop (s, n) l = .ok (s', n') →
    Inv env orig s' ∧ DryOk env (aget c!"dry mass" orig) s' ∧
      (∀ k, k ∈ s.done ∨ k ∈ l → (aget k s'.props).isSome → k ∈ s'.done) ∧
      (∀ j, j ∉ l → aget j s'.props = aget j s.props) ∧
      (∀ j, (aget j s.props).isSome → (aget j s'.props).isSome)
  | [], s, s', n, n', _, _, _, _, _, hi, hd, h => by
    injection h with h; injection h with h _; subst h; exact ⟨hi, hd, fun k h _ => h.resolve_right (by simp), fun _ _ => rfl, fun _ h => h⟩
  | k :: l, s, s', n, n', hn, hcn, hnd, hnot, hno, hi, hd, h => by
    unfold secondLoop at h
    have hnd' := List.nodup_cons.1 hnd
    have hkd : k ≠ c!"dry mass" := fun e => hn (by rw [e]; exact List.mem_cons_self)
    have skip : (aget k s.props = none) → secondLoop (s, n) l = .ok (s', n') → Inv env orig s' ∧ DryOk env (aget c!"dry mass" orig) s' ∧
        (∀ j, j ∈ s.done ∨ j ∈ k :: l → (aget j s'.props).isSome → j ∈ s'.done) ∧
        (∀ j, j ∉ k :: l → aget j s'.props = aget j s.props) ∧
      (∀ j, (aget j s.props).isSome → (aget j s'.props).isSome) := fun hkn h => by
      obtain ⟨a, b, c, e, m⟩ := secondLoop_inv (fun hm => hn (List.mem_cons_of_mem _ hm))
          (fun j hj => hcn j (List.mem_cons_of_mem _ hj)) hnd'.2
        (fun j hj => hnot j (List.mem_cons_of_mem _ hj)) (fun j hj => hno j (List.mem_cons_of_mem _ hj)) hi hd h
      refine ⟨a, b, fun j hj hjs => ?_, fun j hj => e j fun h' => hj (List.mem_cons_of_mem _ h'), m⟩
      rcases hj with hj | hj
      · exact c j (.inl hj) hjs
      · rcases List.mem_cons.1 hj with rfl | hj
        · rw [e j hnd'.1, hkn] at hjs
          cases hjs
        · exact c j (.inr hj) hjs
    have step : ∀ {s1 : St} {n1 : Nat} {p' : UPr}, StepAt k s s1 p' → s1.done = s.done ++ [k] → Inv env orig s1 →
        secondLoop (s1, n1) l = .ok (s', n') → Inv env orig s' ∧ DryOk env (aget c!"dry mass" orig) s' ∧
        (∀ j, j ∈ s.done ∨ j ∈ k :: l → (aget j s'.props).isSome → j ∈ s'.done) ∧
        (∀ j, j ∉ k :: l → aget j s'.props = aget j s.props) ∧
      (∀ j, (aget j s.props).isSome → (aget j s'.props).isSome) := fun {s1 n1 p'} hst hdn hi1 h => by
      have hd1 := dryOk_step hd hst hkd (fun j hj => by rw [hdn]; exact List.mem_append_left _ hj)
      obtain ⟨a, b, c, e, m⟩ := secondLoop_inv (s := s1) (fun hm => hn (List.mem_cons_of_mem _ hm))
          (fun j hj => hcn j (List.mem_cons_of_mem _ hj)) hnd'.2
        (fun j hj => by
          rw [hdn, List.mem_append, List.mem_singleton]
          rintro (h' | rfl)
          · exact hnot j (List.mem_cons_of_mem _ hj) h'
          · exact hnd'.1 hj)
        (fun j hj hj0 => by
          rw [hst.get, if_neg (fun e : j = k => hnd'.1 (e ▸ hj))] at hj0
          exact hno j (List.mem_cons_of_mem _ hj) hj0)
        hi1 hd1 h
      refine ⟨a, b, fun j hj => c j ?_, fun j hj => by
        rw [e j fun h' => hj (List.mem_cons_of_mem _ h'), hst.get, if_neg fun e' : j = k => hj (e' ▸ List.mem_cons_self)],
        fun j hj => m j (by rw [hst.get]; split_ifs; exacts [rfl, hj])⟩
      rw [hdn, List.mem_append, List.mem_singleton]
      rcases hj with hj | hj
      · exact .inl (.inl hj)
      · rcases List.mem_cons.1 hj with hj | hj
        · exact .inl (.inr hj)
        · exact .inr hj
    cases hk : aget k s.props with
    | some p =>
      simp only [hk] at h
      cases hc : mulDry k p s with
      | error e => rw [hc] at h; cases h
      | ok s1 =>
        rw [hc] at h
        change secondLoop (s1, n) l = .ok (s', n') at h
        rcases hi k p hk with ⟨-, p0, e0, hs⟩ | ⟨hm, -⟩ | ⟨hm, -⟩
        · obtain ⟨p', hst, hdn, hfin⟩ := mulDry_step hs hd (.inl (hcn k List.mem_cons_self)) hc
          exact step hst hdn (inv_step hi hst (.inl ⟨hdn, p0, e0, hfin⟩)) h
        · exact absurd hm (hnot k List.mem_cons_self)
        · exact absurd hm (hnot k List.mem_cons_self)
    | none =>
      simp only [hk] at h
      split at h
      · rename_i d w hb _ _
        have hkw : k = c!"water content" := of_decide_eq_true hb
        cases he : EcsProps.estimated w.pr.m d.pr.m n with
        | error e => rw [he] at h; cases h
        | ok q =>
          rw [he] at h
          exact step (stepAt_aset k s _ _) rfl (inv_step hi (stepAt_aset k s _ _)
            (.inr (.inl ⟨rfl, hkw, hno k List.mem_cons_self hk, rfl, rfl⟩))) h
      · exact skip hk h

theorem thirdLoop_inv {env : Env ℝ} {orig : List (Str × UPr)} (hfr : AllFresh orig) : ∀ {l : List Str} {s s' : St},
    Inv env orig s → DryOk env (aget c!"dry mass" orig) s →
    (∀ k ∈ perDryMass, (aget k s.props).isSome → k ∈ s.done) → thirdLoop env s l = .ok s' →
    Inv env orig s' ∧ (∀ k, (aget k s.props).isSome → (aget k s'.props).isSome) ∧
      (∀ k p, aget k s'.props = some p → (k ∈ l ∨ k ∈ s.done ∨ ∀ q, aget k s.props = some q → q.pr.considered = false) →
        k ∈ s'.done ∨ p.pr.considered = false)
  | [], s, s', hi, hd, _, h => by
    injection h with h; subst h
    refine ⟨hi, fun _ h => h, fun k p hp hor => ?_⟩
    rcases hor with h | h | h
    · cases h
    · exact .inl h
    · exact .inr (h p hp)
  | k :: l, s, s', hi, hd, hpd, h => by
    unfold thirdLoop at h
    cases hk : aget k s.props with
    | none =>
      rw [hk] at h
      obtain ⟨a, b, c⟩ := thirdLoop_inv hfr hi hd hpd h
      refine ⟨a, b, fun j p hp hor => c j p hp ?_⟩
      rcases hor with h' | h' | h'
      · rcases List.mem_cons.1 h' with rfl | h'
        · exact .inr (.inr fun q hq => by rw [hk] at hq; cases hq)
        · exact .inl h'
      · exact .inr (.inl h')
      · exact .inr (.inr h')
    | some p =>
      simp only [hk] at h
      cases hc : general env k p s with
      | error e => rw [hc] at h; cases h
      | ok s1 =>
        rw [hc] at h
        change thirdLoop env s1 l = .ok s' at h
        by_cases hkd : k ∈ s.done
        · have : s1 = s := by
            unfold general at hc
            rw [if_pos hkd] at hc
            injection hc with hc; exact hc.symm
          subst this
          obtain ⟨a, b, c⟩ := thirdLoop_inv hfr hi hd hpd h
          refine ⟨a, b, fun j p hp hor => c j p hp ?_⟩
          rcases hor with h' | h' | h'
          · rcases List.mem_cons.1 h' with rfl | h'
            · exact .inr (.inl hkd)
            · exact .inl h'
          · exact .inr (.inl h')
          · exact .inr (.inr h')
        · rcases hi k p hk with ⟨-, p0, e0, hs⟩ | ⟨hm, -⟩ | ⟨hm, -⟩
          · obtain ⟨p', hst, hor⟩ := general_step (hfr k p0 e0) hs hd hkd
              (fun hm => hkd (hpd k hm (by rw [hk]; rfl))) hk hc
            have hkdry : k ≠ c!"dry mass" := fun e => by
              subst e
              obtain ⟨-, -, -, h3⟩ := hd.some p hk
              exact hkd h3
            have hdone : ∀ j, j ∈ s.done → j ∈ s1.done := by
              rcases hor with ⟨e, -⟩ | ⟨e, -⟩ <;> rw [e]
              · exact fun j hj => List.mem_append_left _ hj
              · exact fun j hj => hj
            have hi1 : Inv env orig s1 := by
              rcases hor with ⟨e, hfin⟩ | ⟨e, hsame, -⟩
              · exact inv_step hi hst (.inl ⟨e, p0, e0, hfin⟩)
              · exact inv_step hi hst (.inr (.inr ⟨e, hkd, p0, e0, hsame⟩))
            obtain ⟨a, b, c⟩ := thirdLoop_inv hfr hi1 (dryOk_step hd hst hkdry hdone)
              (fun j hj hjs => by
                rw [hst.get] at hjs
                split_ifs at hjs with hjk
                · subst hjk; exact absurd (hpd j hj (by rw [hk]; rfl)) hkd
                · exact hdone j (hpd j hj hjs)) h
            refine ⟨a, fun j hj => b j ?_, fun j q hq hor' => c j q hq ?_⟩
            · rw [hst.get]
              split_ifs
              · rfl
              · exact hj
            · by_cases hjk : j = k
              · subst hjk
                right
                rcases hor with ⟨e, -⟩ | ⟨e, -, hcons⟩
                · left; rw [e]; simp
                · right
                  intro q' hq'
                  rw [hst.get, if_pos rfl] at hq'
                  injection hq' with hq'; subst hq'
                  exact hcons
              · rcases hor' with h' | h' | h'
                · exact .inl ((List.mem_cons.1 h').resolve_left hjk)
                · exact .inr (.inl (hdone j h'))
                · refine .inr (.inr fun q' hq' => ?_)
                  rw [hst.get, if_neg hjk] at hq'
                  exact h' q' hq'
          · exact absurd hm hkd
          · exact absurd hm hkd

/-- What was read for the name `k`. -/
structure ReadAs (env : Env ℝ) (y : UProp) (p : UPr) : Prop where
  unc : p.unc = y.unc
  fresh : Fresh p
  flt : env.flt y.x.amount = .ok p.a
  unit : ∃ o, env.unit (y.x.units.headD c!"dimensionless") = .ok (o, p.pr.u, p.f)
  has : EcsProps.Spec.HasUnit y.x
  m : p.pr.m = p.a * p.f

theorem readProps_inv {env : Env ℝ} : ∀ {ys : List UProp} {d d' : List (Str × UPr)} {n n' : Nat},
    readProps env (d, n) ys = .ok (d', n') → ∀ k p, aget k d' = some p →
    (∃ y ∈ ys, y.x.name = k ∧ ReadAs env y p) ∨ aget k d = some p
  | [], d, d', n, n', h, k, p, hp => by
    injection h with h; injection h with h1 h2; subst h1; exact .inr hp
  | y :: l, d, d', n, n', h, k, p, hp => by
    unfold readProps at h
    cases hc : construct env n y with
    | error e => simp only [hc] at h; cases h
    | ok r =>
      obtain ⟨q, m⟩ := r
      simp only [hc] at h
      obtain ⟨h0, h1, h2, h3, h4, h5⟩ := construct_ok hc
      rcases readProps_inv h k p hp with ⟨z, hz, hzn, hr⟩ | hd
      · exact .inl ⟨z, List.mem_cons_of_mem _ hz, hzn, hr⟩
      · split_ifs at hd with hcon
        · rw [aget_aset] at hd
          split_ifs at hd with hk
          · injection hd with hd; subst hd
            exact .inl ⟨y, List.mem_cons_self, hk.symm, h1, by rw [Fresh, h1, h2], h3, h4,
              (EcsProps.construct_ok h0).elim (fun h => h.1) (fun h => absurd hcon (by rw [h.2]; simp)), h5⟩
          · exact .inr hd
        · exact .inr hd

/-- What is left at the end, name by name. -/
theorem finished_inv {env : Env ℝ} {xs : List UProp} {r : List (Str × UPr)} (h : finished env xs = .ok r) :
    ∃ d, (∀ k p, aget k d = some p → ∃ y ∈ xs, y.x.name = k ∧ ReadAs env y p) ∧
      (∀ k p, aget k r = some p → p.pr.considered = true →
        (∃ p0, aget k d = some p0 ∧ Final env (aget c!"dry mass" d) k p0 p) ∨
        (k = c!"water content" ∧ aget k d = none ∧ p.unc = none ∧ p.seen = none)) ∧
      (∀ k ∈ perDryMass, ∀ p0, aget k d = some p0 → ∃ p, Final env (aget c!"dry mass" d) k p0 p) ∧
      ∃ n, readProps env ([], 1) xs = .ok (d, n) := by
  obtain ⟨d, n, s1, s2, n2, s3, h0, h1, h2, h3, h4⟩ := finished_ok h
  have hr : ∀ k p, aget k d = some p → ∃ y ∈ xs, y.x.name = k ∧ ReadAs env y p := fun k p hp =>
    (readProps_inv h0 k p hp).resolve_right (by simp [aget])
  have hfr : AllFresh d := fun k p hp => by obtain ⟨y, -, -, hy⟩ := hr k p hp; exact hy.fresh
  obtain ⟨i1, d1, n1, k1⟩ := firstLoop_inv hfr h1
  have hkeys : ∀ k, aget k s1.props = none → aget k d = none := fun k hk => by
    by_contra hne
    have : k ∈ d.map Prod.fst := (aget_isSome k d).1 (Option.isSome_iff_ne_none.2 hne)
    rw [← k1, ← aget_isSome, hk] at this
    cases this
  obtain ⟨i2, d2, p2, -, m2⟩ := secondLoop_inv (l := perDryMass) (by decide) (fun k hk => hk) (by decide)
    (fun k hk hm => by
      have := n1 k hm
      have hdis : ∀ k ∈ perDryMass, k ∉ perFlow := by decide
      exact hdis k hk this)
    (fun k _ => hkeys k) i1 d1 h2
  obtain ⟨i3, -, c3⟩ := thirdLoop_inv hfr i2 d2 (fun k hk => p2 k (.inr hk)) h3
  have hlast : ∀ k ∈ perDryMass, ∀ p0, aget k d = some p0 → ∃ p, Final env (aget c!"dry mass" d) k p0 p := by
    intro k hk p0 hp0
    have hs1 : (aget k s1.props).isSome := by
      rw [aget_isSome, k1, ← aget_isSome, hp0]; rfl
    obtain ⟨p, hp⟩ := Option.isSome_iff_exists.1 (m2 k hs1)
    have hdn := p2 k (.inr hk) (m2 k hs1)
    rcases i2 k p hp with ⟨hm, -⟩ | ⟨-, q0, e0, hf⟩ | ⟨-, -, e0, -⟩
    · exact absurd hdn hm
    · rw [hp0] at e0; injection e0 with e0; subst e0; exact ⟨p, hf⟩
    · rw [hp0] at e0; cases e0
  refine ⟨d, hr, fun k p hp hcons => ?_, hlast, n, h0⟩
  have hp3 : aget k s3.props = some p := by
    subst h4
    split_ifs at hp
    · rw [EcsProps.aget_adel] at hp
      split_ifs at hp
      exact hp
    · exact hp
  have hdone : k ∈ s3.done := by
    refine (c3 k p hp3 ?_).resolve_right (by rw [hcons]; simp)
    by_cases hk2 : (aget k s2.props).isSome
    · exact .inl ((aget_isSome k _).1 hk2)
    · exact .inr (.inr fun q hq => absurd (by rw [hq]; rfl) hk2)
  rcases i3 k p hp3 with ⟨hm, -⟩ | ⟨-, p0, e0, hf⟩ | ⟨-, e⟩
  · exact absurd hdone hm
  · exact .inl ⟨p0, e0, hf⟩
  · exact .inr e

end Verif.PropUnc
