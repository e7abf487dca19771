import Verif.Spec.Uncertainty
import Mathlib.MeasureTheory.Measure.Lebesgue.Basic
import Mathlib.MeasureTheory.Group.Convolution

namespace Verif.Uncertainty
open MeasureTheory ProbabilityTheory Spec

theorem normalLaw_scale {m v : ℝ} (hv : 0 ≤ v) (c : ℝ) :
    (normalLaw m v).map (fun x => c * x) = normalLaw (c * m) (c ^ 2 * v) := by
  rw [normalLaw, gaussianReal_map_const_mul, normalLaw]
  congr 1
  apply NNReal.coe_injective
  rw [NNReal.coe_mul, Real.coe_toNNReal _ hv, Real.coe_toNNReal _ (mul_nonneg (sq_nonneg _) hv)]
  rfl

theorem lognormalLaw_scale {m v c : ℝ} (hm : 0 < m) (hc : 0 < c) :
    (lognormalLaw m v).map (fun x => c * x) = lognormalLaw (c * m) v := by
  rw [lognormalLaw, lognormalLaw, Measure.map_map (by fun_prop) (by fun_prop)]
  have hf : (fun x => c * x) ∘ Real.exp = Real.exp ∘ (fun x => Real.log c + x) := by
    funext x
    simp only [Function.comp_apply, Real.exp_add, Real.exp_log hc]
  rw [hf, ← Measure.map_map (by fun_prop) (by fun_prop), gaussianReal_map_const_add]
  rw [Real.log_mul hc.ne' hm.ne', add_comm]

theorem volume_scale {c : ℝ} (hc : 0 < c) :
    (volume : Measure ℝ) = ENNReal.ofReal c • (volume : Measure ℝ).map (fun x => c * x) := by
  have := Real.smul_map_volume_mul_left hc.ne'
  rw [abs_of_pos hc] at this
  exact this.symm

theorem scale_embedding {c : ℝ} (hc : 0 < c) : MeasurableEmbedding (fun x : ℝ => c * x) :=
  measurableEmbedding_mulLeft₀ hc.ne'

theorem withDensity_scale {c : ℝ} (hc : 0 < c) (g h : ℝ → ENNReal)
    (hgh : ∀ x, ENNReal.ofReal c * h (c * x) = g x) :
    ((volume : Measure ℝ).withDensity g).map (fun x => c * x) = (volume : Measure ℝ).withDensity h := by
  have he := scale_embedding hc
  ext s hs
  rw [he.map_apply, withDensity_apply _ (he.measurable hs), withDensity_apply _ hs]
  conv_rhs => rw [volume_scale hc]
  rw [Measure.restrict_smul, lintegral_smul_measure, he.restrict_map, he.lintegral_map,
    smul_eq_mul, ← lintegral_const_mul' _ _ ENNReal.ofReal_ne_top]
  simp only [hgh]

theorem triangularLaw_scale (lo m hi : ℝ) {c : ℝ} (hc : 0 < c) :
    (triangularLaw lo m hi).map (fun x => c * x) = triangularLaw (c * lo) (c * m) (c * hi) := by
  rw [triangularLaw, triangularLaw]
  refine withDensity_scale hc _ _ fun x => ?_
  rw [← ENNReal.ofReal_mul hc.le]
  congr 1
  have h1 : c * x < c * lo ↔ x < lo := mul_lt_mul_iff_right₀ hc
  have h2 : c * x < c * m ↔ x < m := mul_lt_mul_iff_right₀ hc
  have h3 : c * x ≤ c * hi ↔ x ≤ hi := mul_le_mul_iff_right₀ hc
  have h4 : c * x = c * m ↔ x = m := mul_right_inj' hc.ne'
  have e1 : ∀ a b d e : ℝ, c * (2 * (c * a - c * b) / ((c * hi - c * lo) * (c * d - c * e))) =
      2 * (a - b) / ((hi - lo) * (d - e)) := by
    intro a b d e
    have : c * (2 * (c * a - c * b) / ((c * hi - c * lo) * (c * d - c * e))) =
        (c * c * (2 * (a - b))) / (c * c * ((hi - lo) * (d - e))) := by ring
    rw [this, mul_div_mul_left _ _ (mul_ne_zero hc.ne' hc.ne')]
  have e2 : c * (2 / (c * hi - c * lo)) = 2 / (hi - lo) := by
    have : c * (2 / (c * hi - c * lo)) = (c * 2) / (c * (hi - lo)) := by ring
    rw [this, mul_div_mul_left _ _ hc.ne']
  simp only [triangularDensity, h1, h2, h3, h4]
  split
  · simp
  · split
    · exact e1 x lo m lo
    · split
      · exact e2
      · split
        · exact e1 hi x hi m
        · simp

theorem uniformLaw_scale (lo hi : ℝ) {c : ℝ} (hc : 0 < c) :
    (uniformLaw lo hi).map (fun x => c * x) = uniformLaw (c * lo) (c * hi) := by
  have he := scale_embedding hc
  have hpre : (fun x => c * x) ⁻¹' Set.Icc (c * lo) (c * hi) = Set.Icc lo hi := by
    ext x
    simp only [Set.mem_preimage, Set.mem_Icc, mul_le_mul_iff_right₀ hc]
  have hvol : volume (Set.Icc (c * lo) (c * hi)) = ENNReal.ofReal c * volume (Set.Icc lo hi) := by
    conv_lhs => rw [volume_scale hc]
    rw [Measure.smul_apply, he.map_apply, hpre, smul_eq_mul]
  have hc0 : ENNReal.ofReal c ≠ 0 := by simpa using hc
  rw [uniformLaw, uniformLaw, ProbabilityTheory.cond, ProbabilityTheory.cond, Measure.map_smul, hvol]
  conv_rhs => rw [volume_scale hc]
  rw [Measure.restrict_smul, he.restrict_map, hpre, smul_smul]
  congr 1
  rw [ENNReal.mul_inv (.inl hc0) (.inl ENNReal.ofReal_ne_top), mul_comm, ← mul_assoc,
    ENNReal.mul_inv_cancel hc0 ENNReal.ofReal_ne_top, one_mul, ← volume_scale hc]

theorem normalLaw_conv {a b v w : ℝ} (hv : 0 ≤ v) (hw : 0 ≤ w) :
    ((normalLaw a v).prod (normalLaw b w)).map (fun p => p.1 + p.2) = normalLaw (a + b) (v + w) := by
  have := gaussianReal_conv_gaussianReal (m₁ := a) (m₂ := b) (v₁ := v.toNNReal) (v₂ := w.toNNReal)
  rw [Measure.conv] at this
  rw [normalLaw, normalLaw, normalLaw, this, Real.toNNReal_add hv hw]

theorem lognormalLaw_mul {a b v w : ℝ} (ha : 0 < a) (hb : 0 < b) (hv : 0 ≤ v) (hw : 0 ≤ w) :
    ((lognormalLaw a v).prod (lognormalLaw b w)).map (fun p => p.1 * p.2) = lognormalLaw (a * b) (v + w) := by
  rw [lognormalLaw, lognormalLaw, Measure.map_prod_map _ _ (by fun_prop) (by fun_prop),
    Measure.map_map (by fun_prop) (by fun_prop)]
  have hf : (fun p : ℝ × ℝ => p.1 * p.2) ∘ Prod.map Real.exp Real.exp =
      Real.exp ∘ (fun p : ℝ × ℝ => p.1 + p.2) := by
    funext p
    simp [Real.exp_add]
  rw [hf, ← Measure.map_map (by fun_prop) (by fun_prop)]
  have := normalLaw_conv (a := Real.log a) (b := Real.log b) hv hw
  rw [normalLaw, normalLaw] at this
  rw [this, lognormalLaw, normalLaw, Real.log_mul ha.ne' hb.ne']

theorem lognormalLaw_inv {b w : ℝ} : (lognormalLaw b w).map (fun x => x⁻¹) = lognormalLaw b⁻¹ w := by
  rw [lognormalLaw, lognormalLaw, Measure.map_map (by fun_prop) (by fun_prop)]
  have hf : (fun x : ℝ => x⁻¹) ∘ Real.exp = Real.exp ∘ (fun x => -x) := by
    funext x
    simp [Real.exp_neg]
  rw [hf, ← Measure.map_map (by fun_prop) (by fun_prop), gaussianReal_map_neg, Real.log_inv]

theorem lognormalLaw_div {a b v w : ℝ} (ha : 0 < a) (hb : 0 < b) (hv : 0 ≤ v) (hw : 0 ≤ w) :
    ((lognormalLaw a v).prod (lognormalLaw b w)).map (fun p => p.1 / p.2) = lognormalLaw (a / b) (v + w) := by
  have : IsProbabilityMeasure (lognormalLaw a v) := by
    rw [lognormalLaw]; exact Measure.isProbabilityMeasure_map (by fun_prop)
  have : IsProbabilityMeasure (lognormalLaw b w) := by
    rw [lognormalLaw]; exact Measure.isProbabilityMeasure_map (by fun_prop)
  have h := lognormalLaw_mul (v := v) (w := w) ha (inv_pos.2 hb) hv hw
  rw [← lognormalLaw_inv (b := b)] at h
  have h2 := Measure.map_prod_map (μa := lognormalLaw a v) (μc := lognormalLaw b w) (f := id)
    (g := fun x => x⁻¹) measurable_id (by fun_prop)
  rw [Measure.map_id] at h2
  rw [h2, Measure.map_map (by fun_prop) (by fun_prop)] at h
  rw [div_eq_mul_inv, ← h]
  congr 1

end Verif.Uncertainty
