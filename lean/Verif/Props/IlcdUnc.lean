/-
The uncertainties and the groups of the exchanges of an ILCD data set in EcoSpold2.
-/
import Verif.Spec.IlcdUnc
import Verif.Props.IlcdMerge
import Mathlib.Tactic.Ring
import Mathlib.Algebra.Order.Field.Basic

namespace Verif.IlcdFlows
open Spec

section
variable {K D : Type} [Field K] [DecidableEq K] [DecidableEq D]

omit [DecidableEq K] in
theorem write_rescaled (u : Unc K) (m f : K) : Rescaled m f u (u.write m f) := by
  cases u <;> simp only [Unc.write]
  · exact .lognormal _
  · exact .normal _ _ (by ring)
  · exact .triangular _ _ _ _ (by ring) (by ring)
  · exact .uniform _ _ _ _ (by ring) (by ring)
  · exact .other

omit [DecidableEq K] in
/-- C31, from ILCD to EcoSpold2: an exchange has an uncertainty in EcoSpold2 exactly if it has one in ILCD, and it
describes the amount written: it is that of the source under the factor by which the amount was multiplied. -/
theorem exchange_uncertainty {env : Env K D} {xs : List (Exch K)} {s : St K} (h : convertAll env .empty xs = .ok s) :
    ∀ fl ∈ s.flows, ∃ a f, Value env fl.src a ∧ fl.field.amount = a * f ∧
      (fl.elem = true → ∃ r, Mapped env fl.src.fid r ∧ Factor env r f) ∧ (fl.elem = false → f = 1) ∧
      ((fl.src.unc = none ∧ fl.field.unc = none) ∨
        ∃ u w, fl.src.unc = some u ∧ fl.field.unc = some w ∧ Rescaled fl.field.amount f u w) := by
  intro fl hfl
  obtain ⟨h1 | h1, -⟩ := exchange_amounts h fl hfl
  · obtain ⟨f, r, a, cf, -, hm, hv, hf, he, -, -, -, ha, hu⟩ := h1
    refine ⟨a, cf, hv, ha, fun _ => ⟨r, hm, hf⟩, by simp [he], ?_⟩
    cases hs : fl.src.unc with
    | none => exact .inl ⟨rfl, by rw [hu, hs]; rfl⟩
    | some u => exact .inr ⟨u, _, rfl, by rw [hu, hs]; rfl, by rw [ha]; exact write_rescaled _ _ _⟩
  · obtain ⟨f, a, i, n, -, -, hv, he, -, -, -, ha, hu⟩ := h1
    refine ⟨a, 1, hv, by rw [ha, mul_one], by simp [he], fun _ => rfl, ?_⟩
    cases hs : fl.src.unc with
    | none => exact .inl ⟨rfl, by rw [hu, hs]; rfl⟩
    | some u => exact .inr ⟨u, _, rfl, by rw [hu, hs]; rfl, by rw [ha]; exact write_rescaled _ _ _⟩

/-- The variance kept for sums is the one that was written. -/
def Kept (fl : Flow K) : Prop :=
  ∀ v, fl.unc = some (.normal v) ↔ ∃ c, fl.field.unc = some (.normal c v)

omit [DecidableEq K] in
theorem kept_scaled (u : Option (Unc K)) (m f : K) (v : K) :
    (u.map fun u => u.scaled f) = some (.normal v) ↔ ∃ c, (u.map fun u => u.write m f) = some (.normal c v) := by
  cases u with
  | none => simp
  | some u => cases u <;> simp [Unc.scaled, Unc.write]

omit [DecidableEq K] in
theorem kept_plain (u : Option (Unc K)) (m : K) (v : K) :
    u = some (.normal v) ↔ ∃ c, (u.map fun u => u.write m 1) = some (.normal c v) := by
  cases u with
  | none => simp
  | some u => cases u <;> simp [Unc.write]

omit [Field K] [DecidableEq K] [DecidableEq D] in
theorem finish_unc {env : Env K D} {s s' : St K} {fl fl' : Flow K} (h : finish env s fl = .ok (s', fl')) :
    fl'.unc = fl.unc ∧ fl'.field.unc = fl.field.unc := by
  unfold finish at h
  split at h
  · cases h
  · split at h
    · cases h
    · obtain ⟨-, rfl⟩ := Prod.mk.inj (Except.ok.inj h)
      exact ⟨rfl, rfl⟩

omit [DecidableEq K] in
theorem convertOne_kept {env : Env K D} {s s' : St K} {x : Exch K} (h : convertOne env s x = .ok s')
    (hs : ∀ fl ∈ s.flows, Kept fl) : ∀ fl ∈ s'.flows, Kept fl := by
  have hput : ∀ (s1 : St K) (fl : Flow K), s1.flows = s.flows → Kept fl → ∀ g ∈ (s1.put fl).flows, Kept g := by
    intro s1 fl e hk g hg
    simp only [St.put, e, List.mem_append, List.mem_singleton] at hg
    rcases hg with hg | rfl
    · exact hs g hg
    · exact hk
  have hfl : ∀ {s1 : St K} {fl fl' : Flow K}, finish env s fl = .ok (s1, fl') → s1.flows = s.flows := by
    intro s1 fl fl' h
    unfold finish at h
    split at h
    · cases h
    · split at h
      · cases h
      · obtain ⟨rfl, -⟩ := Prod.mk.inj (Except.ok.inj h)
        rfl
  unfold convertOne at h
  split at h
  · cases h
  obtain ⟨a, -, h⟩ := Except.bind_ok' h
  split at h
  · obtain rfl := Except.ok.inj h; exact hs
  split at h
  · cases h
  split at h
  · split at h
    · obtain rfl := Except.ok.inj h; exact hs
    · obtain ⟨⟨s1, fl⟩, h1, h⟩ := Except.bind_ok' h
      obtain rfl := Except.ok.inj h
      unfold elementary at h1
      split at h1
      · cases h1
      split at h1
      · cases h1
      obtain ⟨cf, -, h1⟩ := Except.bind_ok' h1
      obtain ⟨⟨d, c⟩, -, h1⟩ := Except.bind_ok' h1
      obtain ⟨i, -, h1⟩ := Except.bind_ok' h1
      obtain ⟨b, -, h1⟩ := Except.bind_ok' h1
      obtain ⟨e1, e2⟩ := finish_unc h1
      refine hput _ _ (hfl h1) fun v => ?_
      rw [e1, e2]
      exact kept_scaled _ _ _ _
  · obtain ⟨o, ho, h⟩ := Except.bind_ok' h
    unfold intermediate at ho
    obtain ⟨t, -, ho⟩ := Except.bind_ok' ho
    obtain ⟨b, -, ho⟩ := Except.bind_ok' ho
    split at ho
    · obtain rfl := Except.ok.inj ho
      obtain rfl := Except.ok.inj h; exact hs
    · obtain ⟨u, -, ho⟩ := Except.bind_ok' ho
      obtain ⟨⟨s1, fl⟩, h1, ho⟩ := Except.bind_ok' ho
      obtain rfl := Except.ok.inj ho
      obtain rfl := Except.ok.inj h
      obtain ⟨e1, e2⟩ := finish_unc h1
      refine hput _ _ (hfl h1) fun v => ?_
      rw [e1, e2]
      exact kept_plain _ _ _

omit [DecidableEq K] in
theorem convertAll_kept {env : Env K D} {xs : List (Exch K)} {s : St K} (h : convertAll env .empty xs = .ok s) :
    ∀ fl ∈ s.flows, Kept fl :=
  convert_induction (P := fun _ s => ∀ fl ∈ s.flows, Kept fl) (by simp [St.empty])
    (fun _ _ _ _ _ ih hx => convertOne_kept hx ih) h

/-- C74: the variance of the sum of two exchanges with normal uncertainty is the sum of the variances written for
them, and the two variances are not zero. -/
theorem merge_variance {env : Env K D} {xs : List (Exch K)} {s : St K} (h : convertAll env .empty xs = .ok s)
    {x y z : Flow K} (hx : x ∈ s.flows) (hy : y ∈ s.flows) {a v b w : K} (hux : x.field.unc = some (.normal a v))
    (huy : y.field.unc = some (.normal b w)) (hz : sum env x y = .ok z) :
    z.field.unc = some (.normal (x.field.amount + y.field.amount) (v + w)) ∧ v ≠ 0 ∧ w ≠ 0 := by
  have h1 := (convertAll_kept h x hx v).2 ⟨a, hux⟩
  have h2 := (convertAll_kept h y hy w).2 ⟨b, huy⟩
  obtain ⟨-, d, c, c', u1, u2, -, hu⟩ := sum_ok hz
  have e1 := ((convertAll_inv h).flows x hx).amount
  have e2 := ((convertAll_inv h).flows y hy).amount
  rw [e1, e2]
  unfold sumUnc at hu
  rw [h1, h2] at hu
  simp only at hu
  split at hu
  · cases hu
  · rename_i hvw
    exact ⟨(Prod.mk.inj (Except.ok.inj hu)).2.symm, fun e => hvw (.inl e), fun e => hvw (.inr e)⟩

omit [DecidableEq K] in
/-- C72: the group says what the type of the flow says. An exchange that is no reference flow is, as an input, from the
environment or from the technosphere, and as an output, an elementary flow, a waste or a by-product. -/
theorem group_codes {env : Env K D} {xs : List (Exch K)} {s : St K} (h : convertAll env .empty xs = .ok s) :
    ∀ fl ∈ s.flows, fl.src.internalId ∉ env.refs → ∀ f t, env.file fl.src.fid fl.src.version fl.src.uri = some f → f.typ = some t →
      (fl.src.dir = c!"Input" → fl.field.inputGroup = some (if t = c!"Elementary flow" then 4 else 5)) ∧
      (fl.src.dir ≠ c!"Input" → fl.field.outputGroup =
        some (if t = c!"Elementary flow" then 4 else if t = c!"Waste flow" then 3 else 2)) := by
  intro fl hfl hn f t hf ht
  have c := (convertAll_inv h).flows fl hfl
  have e : fl.typ = t := by
    rcases c.kind with ⟨f', r, a, cf, d, _, _, p, n, h1, h2, h3, h4, h5, h6, -⟩ | ⟨f', a, i, n, h1, h2, h3, h4, h5, -⟩
    · rw [h6]
      have := h1.1.symm.trans hf
      obtain rfl := Option.some.inj this
      exact Option.some.inj (h1.2.symm.trans ht)
    · have := h1.1.symm.trans hf
      obtain rfl := Option.some.inj this
      exact Option.some.inj (h5.symm.trans ht)
  have g := c.groups
  rw [e] at g
  unfold groups at g
  simp only [hn, decide_false, Bool.false_eq_true, if_false] at g
  have acc : ∀ {codes o k}, accept codes o = .ok k → o = some k := by
    intro codes o k hk
    unfold accept at hk
    split at hk
    · cases hk
    · split at hk
      · rw [Except.ok.inj hk]
      · cases hk
  constructor
  · intro hd
    rw [if_pos hd] at g
    obtain ⟨k, hk, hg⟩ : ∃ k, accept (inputCodes fl.elem) (inputCode t) = .ok k ∧
        (some k, none) = (fl.field.inputGroup, fl.field.outputGroup) := by
      cases ha : accept (inputCodes fl.elem) (inputCode t) with
      | error e => rw [ha] at g; cases g
      | ok k => rw [ha] at g; exact ⟨k, rfl, Except.ok.inj g⟩
    rw [← (Prod.mk.inj hg).1, ← acc hk]
    have hk := acc hk
    unfold inputCode at hk ⊢
    split_ifs at hk ⊢ <;> rfl
  · intro hd
    rw [if_neg hd] at g
    obtain ⟨k, hk, hg⟩ : ∃ k, accept (outputCodes fl.elem) (outputCode t) = .ok k ∧
        (none, some k) = (fl.field.inputGroup, fl.field.outputGroup) := by
      cases ha : accept (outputCodes fl.elem) (outputCode t) with
      | error e => rw [ha] at g; cases g
      | ok k => rw [ha] at g; exact ⟨k, rfl, Except.ok.inj g⟩
    rw [← (Prod.mk.inj hg).2, ← acc hk]
    have hk := acc hk
    unfold outputCode at hk ⊢
    split_ifs at hk ⊢ <;> first | rfl | simp_all

end

section
variable {K : Type} [Field K] [LinearOrder K] [IsStrictOrderedRing K]

/-- Under a positive factor the limits written still enclose the amount written. -/
theorem limits_enclose {a f : K} (hf : 0 < f) {u : Unc K} {w : WUnc K} (h : Rescaled (a * f) f u w) (he : Encloses a u) :
    WEncloses (a * f) w := by
  cases h with
  | lognormal => trivial
  | normal => trivial
  | other => trivial
  | triangular lo hi lo' hi' h1 h2 =>
    subst h1 h2
    rw [mul_comm f lo, mul_comm f hi]
    exact ⟨mul_le_mul_of_nonneg_right he.1 hf.le, mul_le_mul_of_nonneg_right he.2 hf.le, rfl⟩
  | uniform lo hi lo' hi' h1 h2 =>
    subst h1 h2
    rw [mul_comm f lo, mul_comm f hi]
    exact ⟨mul_le_mul_of_nonneg_right he.1 hf.le, mul_le_mul_of_nonneg_right he.2 hf.le⟩

/-- Under a negative factor the limits are exchanged: no amount between two different limits lies between those written. -/
theorem limits_reversed {a f lo hi : K} (hf : f < 0) (hl : lo < hi) :
    ∃ w, Rescaled (a * f) f (.uniform lo hi) w ∧ ¬ WEncloses (a * f) w := by
  refine ⟨_, write_rescaled _ _ _, ?_⟩
  simp only [Unc.write, WEncloses]
  rintro ⟨h1, h2⟩
  have := mul_lt_mul_of_neg_right hl hf
  exact absurd (h1.trans h2) (not_le.2 this)

end

/-- The hypotheses of the theorems: two normal amounts with a common target, in different units. -/
def uncState : St ℚ :=
  match convertAll exEnv .empty [exElem c!"e1" c!"2" c!"2" none (some (.normal 3)), exElem c!"e2" c!"3" c!"3" none (some (.normal 5))] with
  | .ok s => s
  | .error _ => .empty

example : convertAll exEnv .empty [exElem c!"e1" c!"2" c!"2" none (some (.normal 3)), exElem c!"e2" c!"3" c!"3" none (some (.normal 5))]
    = .ok uncState ∧ uncState.flows.map (fun f => f.field.unc) = [some (.normal 2 3), some (.normal (3 / 2) (5 / 4))] := by
  decide +kernel

example : Encloses (2 : ℚ) (.uniform 1 3) := ⟨by decide +kernel, by decide +kernel⟩

end Verif.IlcdFlows
