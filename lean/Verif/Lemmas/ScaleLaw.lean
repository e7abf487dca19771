/-
A distribution that is not concentrated in zero changes if it is scaled.
-/
import Verif.Lemmas.Uncertainty
import Mathlib.MeasureTheory.Measure.Typeclasses.NullSingletonClass

namespace Verif.Uncertainty
open MeasureTheory ProbabilityTheory Spec Filter Topology

theorem scaled_once {μ : Measure ℝ} {t : ℝ} (ht : 0 < t) (h : μ.map (fun x => t * x) = μ) (r : ℝ) :
    μ (Set.Icc (-(t * r)) (t * r)) = μ (Set.Icc (-r) r) := by
  conv_lhs => rw [← h]
  rw [Measure.map_apply (by fun_prop) measurableSet_Icc]
  congr 1
  ext x
  simp only [Set.mem_preimage, Set.mem_Icc]
  constructor
  · rintro ⟨h1, h2⟩
    exact ⟨by nlinarith, by nlinarith⟩
  · rintro ⟨h1, h2⟩
    exact ⟨by nlinarith, by nlinarith⟩

theorem scaled_often {μ : Measure ℝ} {t : ℝ} (ht : 0 < t) (h : μ.map (fun x => t * x) = μ) (r : ℝ) :
    ∀ n : ℕ, μ (Set.Icc (-(t ^ n * r)) (t ^ n * r)) = μ (Set.Icc (-r) r)
  | 0 => by simp
  | n + 1 => by
    rw [pow_succ', mul_assoc, scaled_once ht h, scaled_often ht h r n]

theorem all_inside {μ : Measure ℝ} {t : ℝ} (ht : 1 < t) (h : μ.map (fun x => t * x) = μ) {r : ℝ} (hr : 0 < r) :
    μ (Set.Icc (-r) r) = μ Set.univ := by
  have hm : Monotone fun n : ℕ => Set.Icc (-(t ^ n * r)) (t ^ n * r) := by
    intro n m hnm
    have : t ^ n * r ≤ t ^ m * r := by gcongr; exact ht.le
    exact Set.Icc_subset_Icc (by linarith) this
  have hu : (⋃ n : ℕ, Set.Icc (-(t ^ n * r)) (t ^ n * r)) = Set.univ := by
    ext x
    simp only [Set.mem_iUnion, Set.mem_Icc, Set.mem_univ, iff_true]
    obtain ⟨n, hn⟩ := pow_unbounded_of_one_lt (|x| / r) ht
    rw [div_lt_iff₀ hr] at hn
    exact ⟨n, by linarith [neg_abs_le x], by linarith [le_abs_self x]⟩
  have := tendsto_measure_iUnion_atTop (μ := μ) hm
  rw [hu] at this
  refine tendsto_nhds_unique ?_ this
  refine tendsto_const_nhds.congr fun n => ?_
  simp only [Function.comp_apply, scaled_often (by linarith) h]

theorem all_at_zero {μ : Measure ℝ} [IsFiniteMeasure μ] {t : ℝ} (ht : 1 < t) (h : μ.map (fun x => t * x) = μ) :
    μ {0} = μ Set.univ := by
  have ha : Antitone fun n : ℕ => Set.Icc (-(1 / ((n : ℝ) + 1))) (1 / ((n : ℝ) + 1)) := by
    intro n m hnm
    have : 1 / ((m : ℝ) + 1) ≤ 1 / ((n : ℝ) + 1) := by
      have : (n : ℝ) ≤ m := by exact_mod_cast hnm
      gcongr
    exact Set.Icc_subset_Icc (by linarith) this
  have hi : (⋂ n : ℕ, Set.Icc (-(1 / ((n : ℝ) + 1))) (1 / ((n : ℝ) + 1))) = {0} := by
    ext x
    simp only [Set.mem_iInter, Set.mem_Icc, Set.mem_singleton_iff]
    constructor
    · intro hx
      by_contra hne
      obtain ⟨n, hn⟩ := exists_nat_one_div_lt (abs_pos.mpr hne)
      have := abs_le.mpr (hx n)
      linarith
    · rintro rfl n
      have : (0 : ℝ) ≤ 1 / ((n : ℝ) + 1) := by positivity
      exact ⟨by linarith, this⟩
  have := tendsto_measure_iInter_atTop (μ := μ) (fun n => measurableSet_Icc.nullMeasurableSet) ha ⟨0, measure_ne_top _ _⟩
  rw [hi] at this
  refine tendsto_nhds_unique this ?_
  refine tendsto_const_nhds.congr fun n => ?_
  exact (all_inside ht h (by positivity)).symm

/-- Scaling by a positive number changes a finite measure that is not concentrated in zero, unless the number is 1. -/
theorem scale_eq_iff {μ : Measure ℝ} [IsFiniteMeasure μ] (h0 : μ {0} = 0) (hu : μ Set.univ ≠ 0) {t : ℝ} (ht : 0 < t) :
    μ.map (fun x => t * x) = μ ↔ t = 1 := by
  constructor
  · intro h
    by_contra hne
    rcases lt_or_gt_of_ne hne with h1 | h1
    · have h' : μ.map (fun x => t⁻¹ * x) = μ := by
        conv_lhs => rw [← h]
        rw [Measure.map_map (by fun_prop) (by fun_prop)]
        have : (fun x => t⁻¹ * x) ∘ (fun x => t * x) = id := by
          funext x
          simp only [Function.comp_apply, id]
          field_simp
        rw [this, Measure.map_id]
      exact hu ((all_at_zero ((one_lt_inv₀ ht).mpr h1) h').symm.trans h0)
    · exact hu ((all_at_zero h1 h).symm.trans h0)
  · rintro rfl
    simp

theorem lognormal_zero (m v : ℝ) : lognormalLaw m v {0} = 0 := by
  rw [lognormalLaw, Measure.map_apply (by fun_prop) (measurableSet_singleton _)]
  have : Real.exp ⁻¹' {0} = ∅ := by
    ext x; simp [Real.exp_ne_zero]
  rw [this, measure_empty]

instance (m v : ℝ) : IsProbabilityMeasure (lognormalLaw m v) := by
  unfold lognormalLaw
  exact Measure.isProbabilityMeasure_map (by fun_prop)

instance (m v : ℝ) : IsProbabilityMeasure (normalLaw m v) := by
  unfold normalLaw
  infer_instance

theorem normal_zero (m : ℝ) {v : ℝ} (hv : 0 < v) : normalLaw m v {0} = 0 := by
  unfold normalLaw
  have : v.toNNReal ≠ 0 := by simpa using hv
  have := nullSingletonClass_gaussianReal (μ := m) this
  exact measure_singleton 0

theorem uniform_zero (l h : ℝ) : uniformLaw l h {0} = 0 := by
  unfold uniformLaw
  exact cond_absolutelyContinuous (μ := volume) (s := Set.Icc l h) (by simp)

theorem uniform_prob {l h : ℝ} (hlh : l < h) : IsProbabilityMeasure (uniformLaw l h) := by
  unfold uniformLaw
  refine cond_isProbabilityMeasure_of_finite ?_ ?_
  · simp [hlh]
  · simp

theorem triangular_zero (l m h : ℝ) : triangularLaw l m h {0} = 0 := by
  unfold triangularLaw
  exact withDensity_absolutelyContinuous volume _ (by simp)

theorem triangular_le (l m h : ℝ) (h1 : l ≤ m) (h2 : m ≤ h) (hlh : l < h) (x : ℝ) :
    triangularDensity l m h x ≤ Set.indicator (Set.Icc l h) (fun _ => 2 / (h - l)) x := by
  have hp : 0 < h - l := by linarith
  by_cases hx : x ∈ Set.Icc l h
  · rw [Set.indicator_of_mem hx]
    obtain ⟨a, b⟩ := hx
    unfold triangularDensity
    split_ifs with c1 c2 c3
    · positivity
    · have : 0 < m - l := by linarith
      rw [div_le_div_iff₀ (by positivity) hp]
      nlinarith
    · exact le_refl _
    · have : 0 < h - m := by
        rcases lt_or_eq_of_le (not_lt.mp c2) with c | c
        · linarith
        · exact absurd c.symm c3
      have : m < x := lt_of_le_of_ne (not_lt.mp c2) (fun c => c3 c.symm)
      rw [div_le_div_iff₀ (by positivity) hp]
      nlinarith
  · rw [Set.indicator_of_notMem hx]
    simp only [Set.mem_Icc, not_and_or, not_le] at hx
    unfold triangularDensity
    rcases hx with hx | hx
    · rw [if_pos hx]
    · split_ifs with c1 c2 c3 c4
      · exact le_refl _
      · linarith
      · linarith
      · linarith
      · exact le_refl _

theorem triangular_finite {l m h : ℝ} (h1 : l ≤ m) (h2 : m ≤ h) (hlh : l < h) : IsFiniteMeasure (triangularLaw l m h) := by
  unfold triangularLaw
  refine isFiniteMeasure_withDensity ?_
  refine ne_of_lt (lt_of_le_of_lt (b := ∫⁻ x, Set.indicator (Set.Icc l h) (fun _ => ENNReal.ofReal (2 / (h - l))) x) ?_ ?_)
  · refine lintegral_mono fun x => ?_
    have := ENNReal.ofReal_le_ofReal (triangular_le l m h h1 h2 hlh x)
    refine this.trans (le_of_eq ?_)
    by_cases hx : x ∈ Set.Icc l h
    · rw [Set.indicator_of_mem hx, Set.indicator_of_mem hx]
    · rw [Set.indicator_of_notMem hx, Set.indicator_of_notMem hx, ENNReal.ofReal_zero]
  · rw [lintegral_indicator measurableSet_Icc, lintegral_const]
    simp only [Measure.restrict_apply_univ, Real.volume_Icc]
    exact ENNReal.mul_lt_top ENNReal.ofReal_lt_top ENNReal.ofReal_lt_top

theorem triangular_pos {l m h : ℝ} {x : ℝ} (hx : x ∈ Set.Ioo l h) :
    0 < triangularDensity l m h x := by
  obtain ⟨a, b⟩ := hx
  have hp : 0 < h - l := by linarith
  unfold triangularDensity
  split_ifs with c1 c2 c3 c4
  · linarith
  · have : 0 < m - l := by linarith
    have : 0 < x - l := by linarith
    positivity
  · positivity
  · have : m < x := lt_of_le_of_ne (not_lt.mp c2) (fun c => c3 c.symm)
    have : 0 < h - m := by linarith
    have : 0 < h - x := by linarith
    positivity
  · linarith

theorem triangular_measurable (l m h : ℝ) : Measurable (triangularDensity l m h) := by
  unfold triangularDensity
  refine Measurable.ite measurableSet_Iio (by fun_prop) ?_
  refine Measurable.ite measurableSet_Iio (by fun_prop) ?_
  refine Measurable.ite (measurableSet_singleton m) (by fun_prop) ?_
  exact Measurable.ite measurableSet_Iic (by fun_prop) (by fun_prop)

theorem triangular_univ {l m h : ℝ} (hlh : l < h) : triangularLaw l m h Set.univ ≠ 0 := by
  intro hc
  unfold triangularLaw at hc
  rw [withDensity_apply _ MeasurableSet.univ, Measure.restrict_univ,
    lintegral_eq_zero_iff (by have := triangular_measurable l m h; fun_prop)] at hc
  have hs : Set.Ioo l h ⊆ {x | ¬ ENNReal.ofReal (triangularDensity l m h x) = (0 : ℝ → ENNReal) x} := by
    intro x hx
    have := triangular_pos (m := m) hx
    simpa using this
  have := measure_mono_null hs hc
  simp at this
  linarith

end Verif.Uncertainty
