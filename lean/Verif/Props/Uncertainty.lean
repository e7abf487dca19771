/-
Uncertain amounts: what is written describes the right distribution, or does not.
-/
import Verif.Lemmas.Uncertainty
import Mathlib.Tactic.Linarith
import Mathlib.Tactic.Positivity
import Mathlib.Tactic.FieldSimp
import Mathlib.Tactic.NormNum

namespace Verif.Uncertainty
open MeasureTheory ProbabilityTheory Spec

/-! ### Changes of unit and multiplication by certain numbers -/

/-- What the converter does to an amount before it writes it. -/
inductive Step where
  | toUnit (c : ℝ)
  | scale (c : ℝ)
  | unscale (c : ℝ)

/-- The step on amounts. -/
noncomputable def Step.apply (x : Amt) : Step → Amt
  | .toUnit c => x.toUnit c
  | .scale c => x.scale c
  | .unscale c => x.unscale c

/-- The number a step multiplies the value with. -/
noncomputable def Step.factor : Step → ℝ
  | .toUnit c => c
  | .scale c => c
  | .unscale c => c⁻¹

/-- The uncertainties that describe a distribution. -/
def Valid (a : ℝ) : Unc → Prop
  | .lognormal v => 0 < a ∧ 0 ≤ v
  | .normal v => 0 ≤ v
  | .triangular _ _ => True
  | .uniform _ _ => True
  | .other => False

theorem steps_apply (steps : List Step) : ∀ x : Amt,
    steps.foldl Step.apply x =
      ⟨x.m * (steps.map Step.factor).prod, x.f * (steps.map Step.factor).prod, x.unc⟩ := by
  induction steps with
  | nil => intro x; simp
  | cons s l ih =>
    intro x
    rw [List.foldl_cons, ih]
    cases s <;> simp [Step.apply, Step.factor, Amt.toUnit, Amt.scale, Amt.unscale, div_eq_mul_inv, mul_assoc]

theorem log_std {v : ℝ} (hv : 0 ≤ v) : (Real.log (Real.exp (Real.sqrt v) ^ 2) / 2) ^ 2 = v := by
  rw [Real.log_pow, Real.log_exp]
  have := Real.sq_sqrt hv
  push_cast
  linarith [show (2 * Real.sqrt v / 2) ^ 2 = Real.sqrt v ^ 2 by ring]

/-- The distribution that is written for an amount in general. -/
theorem written_law (a f : ℝ) (u : Unc) (hv : Valid a u) (hf : 0 < f) :
    ((⟨a * f, f, some u⟩ : Amt).written.bind writtenLaw) =
      (law a u).map (fun μ => μ.map (fun x => f * x)) := by
  cases u with
  | lognormal v =>
    obtain ⟨ha, hv⟩ := hv
    simp only [Amt.written, Option.bind_some, writtenLaw, law, Option.map_some]
    rw [log_std hv, lognormalLaw_scale ha hf, mul_comm]
  | normal v =>
    simp only [Valid] at hv
    simp only [Amt.written, Option.bind_some, writtenLaw, law, Option.map_some]
    rw [normalLaw_scale hv, mul_comm a f]
    congr 2
    rw [show (2 * Real.sqrt v * f / 2) ^ 2 = f ^ 2 * Real.sqrt v ^ 2 by ring, Real.sq_sqrt hv]
  | triangular lo hi =>
    simp only [Amt.written, Option.bind_some, writtenLaw, law, Option.map_some]
    rw [triangularLaw_scale _ _ _ hf, mul_comm a f, mul_comm lo f, mul_comm hi f]
  | uniform lo hi =>
    simp only [Amt.written, Option.bind_some, writtenLaw, law, Option.map_some]
    rw [uniformLaw_scale _ _ hf, mul_comm lo f, mul_comm hi f]
  | other => exact hv.elim

/-- C32, unit conversions. After any sequence of conversions to other units and multiplications and
divisions by positive numbers, the distribution that is written is exactly that of the original amount
multiplied by the product of the factors. -/
theorem scaled_exact (a : ℝ) (u : Unc) (steps : List Step) (hv : Valid a u)
    (hs : ∀ s ∈ steps, 0 < s.factor) :
    (((steps.foldl Step.apply (init a (some u))).written).bind writtenLaw) =
      (law a u).map (fun μ => μ.map (fun x => (steps.map Step.factor).prod * x)) := by
  have hc : 0 < (steps.map Step.factor).prod := by
    apply List.prod_pos
    intro x hx
    obtain ⟨s, hs', rfl⟩ := List.mem_map.1 hx
    exact hs s hs'
  rw [steps_apply, ← written_law a _ u hv hc]
  simp [init]

example : ∀ s ∈ [Step.toUnit 1000, .unscale 2], 0 < s.factor := by
  intro s hs
  simp only [List.mem_cons, List.not_mem_nil, or_false] at hs
  rcases hs with rfl | rfl <;> norm_num [Step.factor]

example : Valid 2 (.lognormal (1 / 10)) := by norm_num [Valid]

/-- C32. The value itself is always multiplied by the factors, whatever their sign. -/
theorem scaled_value (a : ℝ) (u : Option Unc) (steps : List Step) :
    (steps.foldl Step.apply (init a u)).m = a * (steps.map Step.factor).prod := by
  rw [steps_apply]; simp [init]

/-! ### Products and quotients -/

/-- C32, products. The uncertainty of the product of two amounts is the exact one of the product of
independent lognormal amounts, or that of the first amount multiplied by a certain number; in all other
cases none is written. -/
theorem product_exact (a f : ℝ) (u : Option Unc) (y z : Amt) (hv : ∀ d, u = some d → Valid a d)
    (hf : 0 < f) (hy : 0 < y.m) (h : (⟨a * f, f, u⟩ : Amt).multiply y = .ok z) :
    z.m = a * f * y.m ∧
    (z.written = none ∨
      (y.unc = none ∧ ∃ d, u = some d ∧ z.written.bind writtenLaw =
        (law a d).map (fun μ => μ.map (fun x => f * y.m * x))) ∨
      (∃ v w, u = some (.lognormal v) ∧ y.unc = some (.lognormal w) ∧ z.written.bind writtenLaw =
        some (((lognormalLaw (a * f) v).prod (lognormalLaw y.m w)).map fun p => p.1 * p.2))) := by
  obtain ⟨ym, yf, yu⟩ := y
  simp only at hy
  simp only [Amt.multiply] at h
  cases hp : productUnc ⟨a * f, f, u⟩ ⟨ym, yf, yu⟩ with
  | error e => simp [hp, Except.map] at h
  | ok w =>
    simp only [hp, Except.map, Except.ok.injEq] at h
    subst h
    refine ⟨rfl, ?_⟩
    cases u with
    | none =>
      left
      have : w = none := by
        cases yu with
        | none => simp only [productUnc, Except.ok.injEq] at hp; exact hp.symm
        | some d => simp only [productUnc, Except.ok.injEq] at hp; exact hp.symm
      simp [Amt.written, this]
    | some d =>
      have hd := hv d rfl
      cases yu with
      | none =>
        right; left
        have hw : w = some d := by
          cases d <;> (simp only [productUnc, Except.ok.injEq] at hp; exact hp.symm)
        subst hw
        refine ⟨rfl, d, rfl, ?_⟩
        have := written_law a (f * ym) d hd (mul_pos hf hy)
        rw [← this]
        simp only [mul_assoc]
      | some e =>
        by_cases hll : ∃ v w', d = .lognormal v ∧ e = .lognormal w'
        · obtain ⟨v, w', rfl, rfl⟩ := hll
          simp only [productUnc] at hp
          split at hp
          · rename_i hmk
            simp only [Except.ok.injEq] at hp
            subst hp
            right; right
            refine ⟨v, w', rfl, rfl, ?_⟩
            have hv0 : 0 ≤ v := hd.2
            have hw0 : 0 ≤ w' := hmk.2.2.le
            simp only [Amt.written, Option.bind_some, writtenLaw]
            rw [log_std (add_nonneg hv0 hw0), lognormalLaw_mul (mul_pos hd.1 hf) hy hv0 hw0]
          · simp at hp
        · left
          have : w = none := by
            cases d <;> cases e <;> first
              | (exact absurd ⟨_, _, rfl, rfl⟩ hll)
              | (simp only [productUnc, Except.ok.injEq] at hp; exact hp.symm)
          simp [Amt.written, this]

/-- C32, quotients, likewise. -/
theorem quotient_exact (a f : ℝ) (u : Option Unc) (y z : Amt) (hv : ∀ d, u = some d → Valid a d)
    (hf : 0 < f) (hy : 0 < y.m) (h : (⟨a * f, f, u⟩ : Amt).divide y = .ok z) :
    z.m = a * f / y.m ∧
    (z.written = none ∨
      (y.unc = none ∧ ∃ d, u = some d ∧ z.written.bind writtenLaw =
        (law a d).map (fun μ => μ.map (fun x => f / y.m * x))) ∨
      (∃ v w, u = some (.lognormal v) ∧ y.unc = some (.lognormal w) ∧ z.written.bind writtenLaw =
        some (((lognormalLaw (a * f) v).prod (lognormalLaw y.m w)).map fun p => p.1 / p.2))) := by
  obtain ⟨ym, yf, yu⟩ := y
  simp only at hy
  simp only [Amt.divide] at h
  cases hp : productUnc ⟨a * f, f, u⟩ ⟨ym, yf, yu⟩ with
  | error e => simp [hp] at h
  | ok w =>
    simp only [hp, hy.ne', if_false, Except.ok.injEq] at h
    subst h
    refine ⟨rfl, ?_⟩
    cases u with
    | none =>
      left
      have : w = none := by
        cases yu with
        | none => simp only [productUnc, Except.ok.injEq] at hp; exact hp.symm
        | some d => simp only [productUnc, Except.ok.injEq] at hp; exact hp.symm
      simp [Amt.written, this]
    | some d =>
      have hd := hv d rfl
      cases yu with
      | none =>
        right; left
        have hw : w = some d := by
          cases d <;> (simp only [productUnc, Except.ok.injEq] at hp; exact hp.symm)
        subst hw
        refine ⟨rfl, d, rfl, ?_⟩
        have := written_law a (f / ym) d hd (div_pos hf hy)
        rw [← this]
        simp only [mul_div_assoc]
      | some e =>
        by_cases hll : ∃ v w', d = .lognormal v ∧ e = .lognormal w'
        · obtain ⟨v, w', rfl, rfl⟩ := hll
          simp only [productUnc] at hp
          split at hp
          · rename_i hmk
            simp only [Except.ok.injEq] at hp
            subst hp
            right; right
            refine ⟨v, w', rfl, rfl, ?_⟩
            have hv0 : 0 ≤ v := hd.2
            have hw0 : 0 ≤ w' := hmk.2.2.le
            simp only [Amt.written, Option.bind_some, writtenLaw]
            rw [log_std (add_nonneg hv0 hw0), lognormalLaw_div (mul_pos hd.1 hf) hy hv0 hw0]
          · simp at hp
        · left
          have : w = none := by
            cases d <;> cases e <;> first
              | (exact absurd ⟨_, _, rfl, rfl⟩ hll)
              | (simp only [productUnc, Except.ok.injEq] at hp; exact hp.symm)
          simp [Amt.written, this]

/-! ### Sums -/

theorem normalLaw_inj {a b v w : ℝ} (hv : 0 ≤ v) (hw : 0 ≤ w) (h : normalLaw a v = normalLaw b w) :
    a = b ∧ v = w := by
  obtain ⟨h1, h2⟩ := gaussianReal_ext_iff.1 h
  exact ⟨h1, by rw [← Real.coe_toNNReal v hv, ← Real.coe_toNNReal w hw, h2]⟩

/-- C32 fails for sums. The sum of two normal amounts has the right value, but its standard deviation is
multiplied by one plus the second value; the distribution that is written is that of the sum of the two
independent amounts only if the second value is 0 or -2. -/
theorem sum_exact_iff (a b v w : ℝ) (hv : 0 < v) (hw : 0 < w) :
    ∃ z, (init a (some (.normal v))).add (init b (some (.normal w))) = .ok z ∧ z.m = a + b ∧
      (z.written.bind writtenLaw =
          some (((normalLaw a v).prod (normalLaw b w)).map fun p => p.1 + p.2) ↔ b = 0 ∨ b = -2) := by
  refine ⟨⟨a + b, 1 + b, some (.normal (v + w))⟩, ?_, rfl, ?_⟩
  · simp [Amt.add, sumUnc, init, canMake, hv, hw, Except.map]
  · rw [normalLaw_conv hv.le hw.le]
    simp only [Amt.written, Option.bind_some, writtenLaw, Option.some.injEq]
    have hvw : 0 < v + w := add_pos hv hw
    have e : (2 * Real.sqrt (v + w) * (1 + b) / 2) ^ 2 = (1 + b) ^ 2 * (v + w) := by
      rw [show (2 * Real.sqrt (v + w) * (1 + b) / 2) ^ 2 = (1 + b) ^ 2 * Real.sqrt (v + w) ^ 2 by ring,
        Real.sq_sqrt hvw.le]
    rw [e]
    constructor
    · intro h
      have h2 := (normalLaw_inj (by positivity) hvw.le h).2
      have h3 : (1 + b) ^ 2 = 1 := mul_right_cancel₀ hvw.ne' (by rw [h2, one_mul])
      have h4 : b * (b + 2) = 0 := by linarith [show (1 + b) ^ 2 = 1 + b * (b + 2) by ring]
      rcases mul_eq_zero.1 h4 with h | h
      · exact .inl h
      · exact .inr (by linarith)
    · intro h
      have : (1 + b) ^ 2 = 1 := by rcases h with rfl | rfl <;> norm_num
      rw [this, one_mul]

/-- C32 fails for sums with a certain number as well: the bounds of a triangular or uniform amount are
multiplied by one plus the number that is added, instead of being shifted. -/
theorem sum_certain (a b lo hi : ℝ) : ∃ z w, (init a (some (.uniform lo hi))).add (init b none) = .ok z ∧
    z.written = some w ∧ w.min = lo * (1 + b) ∧ w.max = hi * (1 + b) ∧
    (w.min = lo + b ∧ w.max = hi + b ↔ b = 0 ∨ (lo = 1 ∧ hi = 1)) := by
  refine ⟨⟨a + b, 1 + b, some (.uniform lo hi)⟩, _, ?_, rfl, rfl, rfl, ?_⟩
  · simp [Amt.add, sumUnc, init, Except.map]
  · constructor
    · rintro ⟨h1, h2⟩
      have h1' : b * (lo - 1) = 0 := by linarith
      have h2' : b * (hi - 1) = 0 := by linarith
      rcases mul_eq_zero.1 h1' with h | h
      · exact .inl h
      · rcases mul_eq_zero.1 h2' with h' | h'
        · exact .inl h'
        · exact .inr ⟨by linarith, by linarith⟩
    · rintro (rfl | ⟨rfl, rfl⟩)
      · simp
      · constructor <;> simp

/-! ### The factor of the elementary flow mapping -/

/-- C32 for elementary flows: the factor of the mapping reaches a lognormal uncertainty exactly. -/
theorem elementary_lognormal (a k v : ℝ) (ha : 0 < a) (hk : 0 < k) (hv : 0 ≤ v) :
    (elementary a k (some (.lognormal v))).written.bind writtenLaw =
      some ((lognormalLaw a v).map (fun x => k * x)) := by
  simp only [elementary, init, Amt.written, Option.bind_some, writtenLaw]
  rw [log_std hv, lognormalLaw_scale ha hk, mul_comm]

/-- C32 fails for elementary flows with a normal uncertainty: it is not multiplied by the factor of the
mapping; what is written is the distribution of the multiplied amount only if the factor is one (or the
variance zero). -/
theorem elementary_normal_iff (a k v : ℝ) (hk : 0 < k) (hv : 0 ≤ v) :
    (elementary a k (some (.normal v))).written.bind writtenLaw =
      some ((normalLaw a v).map (fun x => k * x)) ↔ k = 1 ∨ v = 0 := by
  simp only [elementary, init, Amt.written, Option.bind_some, writtenLaw, Option.some.injEq]
  rw [normalLaw_scale hv, mul_comm a k, show (2 * Real.sqrt v * 1 / 2) ^ 2 = Real.sqrt v ^ 2 by ring,
    Real.sq_sqrt hv]
  constructor
  · intro h
    have h2 := (normalLaw_inj hv (by positivity) h).2
    by_cases h0 : v = 0
    · exact .inr h0
    · left
      have h3 : k ^ 2 = 1 := mul_right_cancel₀ h0 (by rw [← h2, one_mul])
      nlinarith
  · rintro (rfl | rfl) <;> simp

/-- C31 fails for elementary flows: the bounds of a triangular or uniform amount are those of the
original amount, so with a factor above the ratio of maximum and amount they do not enclose the amount
that is written. -/
theorem elementary_bounds_miss (a k lo hi : ℝ) (hk : hi < a * k) :
    ∃ w, (elementary a k (some (.triangular lo hi))).written = some w ∧ w.min = lo ∧ w.max = hi ∧
      w.max < w.mean := by
  refine ⟨_, rfl, ?_, ?_, ?_⟩ <;> simp [elementary, init, hk]

/-! ### The bounds enclose the amount -/

/-- The uncertainty of EcoSpold2 is sound for an amount: variances are not negative and the bounds
enclose the amount. -/
def Sound (a : ℝ) : Unc → Prop
  | .lognormal v => 0 ≤ v
  | .normal v => 0 ≤ v
  | .triangular lo hi => lo ≤ a ∧ a ≤ hi
  | .uniform lo hi => lo ≤ a ∧ a ≤ hi
  | .other => True

theorem one_le_std (v : ℝ) : 1 ≤ Real.exp (Real.sqrt v) ^ 2 :=
  one_le_pow₀ (Real.one_le_exp (Real.sqrt_nonneg v))

/-- C31, as far as it holds: with a positive factor, and a value that is not negative if the
distribution is lognormal, minimum and maximum enclose the value. -/
theorem bounds_enclose_partial (a f : ℝ) (u : Unc) (hs : Sound a u) (hf : 0 ≤ f)
    (ha : (∃ v, u = .lognormal v) → 0 ≤ a) (w : Written)
    (h : (⟨a * f, f, some u⟩ : Amt).written = some w) : w.min ≤ w.mean ∧ w.mean ≤ w.max := by
  cases u with
  | lognormal v =>
    have ha' := ha ⟨v, rfl⟩
    simp only [Amt.written, Option.some.injEq] at h
    subst h
    have h1 := one_le_std v
    have h0 : 0 ≤ a * f := mul_nonneg ha' hf
    exact ⟨div_le_self h0 h1, le_mul_of_one_le_right h0 h1⟩
  | normal v =>
    simp only [Amt.written, Option.some.injEq] at h
    subst h
    have : 0 ≤ 2 * Real.sqrt v * f := by positivity
    constructor <;> simp only [] <;> linarith
  | triangular lo hi =>
    simp only [Amt.written, Option.some.injEq] at h
    subst h
    exact ⟨mul_le_mul_of_nonneg_right hs.1 hf, mul_le_mul_of_nonneg_right hs.2 hf⟩
  | uniform lo hi =>
    simp only [Amt.written, Option.some.injEq] at h
    subst h
    exact ⟨mul_le_mul_of_nonneg_right hs.1 hf, mul_le_mul_of_nonneg_right hs.2 hf⟩
  | other => simp [Amt.written] at h

/-- C31 fails for negative lognormal amounts (which the converter only warns about): minimum and maximum
are exchanged. -/
theorem bounds_negative_lognormal (m f v : ℝ) (hm : m < 0) (hv : 0 < v) (w : Written)
    (h : (⟨m, f, some (.lognormal v)⟩ : Amt).written = some w) : w.max < w.mean ∧ w.mean < w.min := by
  simp only [Amt.written, Option.some.injEq] at h
  subst h
  have h1 : 1 < Real.exp (Real.sqrt v) ^ 2 :=
    one_lt_pow₀ (Real.one_lt_exp_iff.2 (Real.sqrt_pos.2 hv)) (by norm_num)
  constructor
  · simp only []; nlinarith
  · simp only []
    rw [lt_div_iff₀ (by linarith)]
    nlinarith

/-- C31 fails for negative factors: minimum and maximum of a normal amount are exchanged and the
standard deviation is negative. -/
theorem bounds_negative_factor (m f v : ℝ) (hf : f < 0) (hv : 0 < v) (w : Written)
    (h : (⟨m, f, some (.normal v)⟩ : Amt).written = some w) :
    w.max < w.mean ∧ w.mean < w.min ∧ ∃ s, w.std95 = some s ∧ s < 0 := by
  simp only [Amt.written, Option.some.injEq] at h
  subst h
  have : 2 * Real.sqrt v * f < 0 := mul_neg_of_pos_of_neg (by have := Real.sqrt_pos.2 hv; linarith) hf
  exact ⟨by simp only []; linarith, by simp only []; linarith, _, rfl, this⟩

example : Sound 2 (.triangular 1 3) := by norm_num [Sound]

/-! ### There and back -/

/-- The uncertainty of EcoSpold2 as it was before. -/
noncomputable def original (a : ℝ) : Unc → Option EcsWritten
  | .lognormal v => some (.lognormal a (Real.log a) v)
  | .normal v => some (.normal a v)
  | .triangular lo hi => some (.triangular lo a hi)
  | .uniform lo hi => some (.uniform lo hi)
  | .other => none

/-- C30. An amount with a lognormal, normal, triangular or uniform uncertainty that is converted to ILCD
with any factor and back with the inverse factor has its original mean, variance and bounds again. -/
theorem round_trip (a f : ℝ) (u : Unc) (hv : Valid a u) (hf : f ≠ 0) :
    ∃ w e, (⟨a * f, f, some u⟩ : Amt).written = some w ∧ readBack w (w.mean * f⁻¹) f⁻¹ = .ok e ∧
      original a u = some e := by
  have hm : a * f * f⁻¹ = a := mul_inv_cancel_right₀ hf a
  cases u with
  | lognormal v =>
    obtain ⟨ha, hv⟩ := hv
    refine ⟨_, _, rfl, ?_, rfl⟩
    have hs : ¬ Real.exp (Real.sqrt v) ^ 2 ≤ 0 := not_le.2 (by positivity)
    simp only [readBack, hs, if_false, hm, ha, if_true]
    rw [Real.sqrt_sq (Real.exp_pos _).le, Real.log_exp, Real.sq_sqrt hv]
  | normal v =>
    simp only [Valid] at hv
    refine ⟨_, _, rfl, ?_, rfl⟩
    simp only [readBack, hm]
    rw [show (2 * Real.sqrt v * f * f⁻¹ / 2) ^ 2 = (f * f⁻¹) ^ 2 * Real.sqrt v ^ 2 by ring,
      mul_inv_cancel₀ hf, Real.sq_sqrt hv, one_pow, one_mul]
  | triangular lo hi =>
    refine ⟨_, _, rfl, ?_, rfl⟩
    simp only [readBack, hm, mul_inv_cancel_right₀ hf]
  | uniform lo hi =>
    refine ⟨_, _, rfl, ?_, rfl⟩
    simp only [readBack, mul_inv_cancel_right₀ hf]
  | other => exact hv.elim

/-- C30 fails for negative lognormal amounts: the logarithmic mean comes back as zero, as if the amount
were one. -/
theorem round_trip_negative (a v : ℝ) (ha : a < 0) (hv : 0 ≤ v) :
    ∃ w, (⟨a, 1, some (.lognormal v)⟩ : Amt).written = some w ∧
      readBack w w.mean 1 = .ok (.lognormal a 0 v) := by
  refine ⟨_, rfl, ?_⟩
  have hs : ¬ Real.exp (Real.sqrt v) ^ 2 ≤ 0 := not_le.2 (by positivity)
  simp only [readBack, hs, if_false, not_lt.2 ha.le]
  rw [Real.sqrt_sq (Real.exp_pos _).le, Real.log_exp, Real.sq_sqrt hv]

end Verif.Uncertainty
