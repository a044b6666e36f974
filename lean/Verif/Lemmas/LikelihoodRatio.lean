import Mathlib.MeasureTheory.Integral.Bochner.Basic
import Mathlib.MeasureTheory.Measure.WithDensity
import Mathlib.Probability.Independence.Integration

/-! Helper lemmas for C113: ratios of densities of independent observations. -/

open MeasureTheory ProbabilityTheory

namespace Respy

noncomputable section

section One

variable {E : Type} [MeasurableSpace E] {ν : Measure E} {f g : E → ℝ}

theorem integrable_of_total (hf : Measurable f) (h0 : ∀ y, 0 ≤ f y) (h1 : ∫⁻ y, ENNReal.ofReal (f y) ∂ν = 1) :
    Integrable f ν ∧ ∫ y, f y ∂ν = 1 := by
  have hi : Integrable f ν := by
    refine ⟨hf.aestronglyMeasurable, ?_⟩
    rw [hasFiniteIntegral_iff_ofReal (Filter.Eventually.of_forall h0), h1]
    exact ENNReal.one_lt_top
  refine ⟨hi, ?_⟩
  rw [integral_eq_lintegral_of_nonneg_ae (Filter.Eventually.of_forall h0) hf.aestronglyMeasurable, h1]
  rfl

/-- The integral of the geometric mean of two densities is at most one, and equal to one only for equal densities. -/
theorem affinity_le_one (hf : Measurable f) (hg : Measurable g) (hf0 : ∀ y, 0 ≤ f y) (hg0 : ∀ y, 0 ≤ g y)
    (hf1 : ∫⁻ y, ENNReal.ofReal (f y) ∂ν = 1) (hg1 : ∫⁻ y, ENNReal.ofReal (g y) ∂ν = 1) :
    Integrable (fun y => √(f y * g y)) ν ∧ ∫ y, √(f y * g y) ∂ν ≤ 1 ∧
      (∫ y, √(f y * g y) ∂ν = 1 ↔ f =ᵐ[ν] g) := by
  obtain ⟨hfi, hf1'⟩ := integrable_of_total hf hf0 hf1
  obtain ⟨hgi, hg1'⟩ := integrable_of_total hg hg0 hg1
  have hid : ∀ y, √(f y * g y) = (f y + g y) / 2 - (√(f y) - √(g y)) ^ 2 / 2 := by
    intro y
    rw [Real.sqrt_mul (hf0 y), sub_sq, Real.sq_sqrt (hf0 y), Real.sq_sqrt (hg0 y)]
    ring
  have hm : Measurable fun y => √(f y * g y) := by fun_prop
  have hi : Integrable (fun y => √(f y * g y)) ν := by
    refine Integrable.mono' ((hfi.add hgi).div_const 2) hm.aestronglyMeasurable (Filter.Eventually.of_forall fun y => ?_)
    rw [Real.norm_eq_abs, abs_of_nonneg (Real.sqrt_nonneg _), hid y]
    have := sq_nonneg (√(f y) - √(g y))
    simp only [Pi.add_apply]
    linarith
  have hsq : Integrable (fun y => (√(f y) - √(g y)) ^ 2) ν := by
    have h := ((hfi.add hgi).sub (hi.const_mul 2))
    refine h.congr (Filter.Eventually.of_forall fun y => ?_)
    simp only [Pi.add_apply, Pi.sub_apply, hid y]
    ring
  have hval : ∫ y, √(f y * g y) ∂ν = 1 - (∫ y, (√(f y) - √(g y)) ^ 2 ∂ν) / 2 := by
    have h : ∫ y, √(f y * g y) ∂ν = ∫ y, ((f y + g y) / 2 - (√(f y) - √(g y)) ^ 2 / 2) ∂ν := by
      simp only [hid]
    have hadd : Integrable (fun y => f y + g y) ν := hfi.add hgi
    rw [h, integral_sub (hadd.div_const 2) (hsq.div_const 2), integral_div, integral_div,
      integral_add hfi hgi, hf1', hg1']
    norm_num
  have hnn : 0 ≤ ∫ y, (√(f y) - √(g y)) ^ 2 ∂ν := integral_nonneg fun y => sq_nonneg _
  refine ⟨hi, by rw [hval]; linarith, ?_⟩
  rw [hval]
  constructor
  · intro h
    have h0 : ∫ y, (√(f y) - √(g y)) ^ 2 ∂ν = 0 := by linarith
    have h2 := (integral_eq_zero_iff_of_nonneg (fun y => sq_nonneg _) hsq).1 h0
    filter_upwards [h2] with y hy
    have h3 : √(f y) - √(g y) = 0 := by
      have : (√(f y) - √(g y)) ^ 2 = 0 := hy
      exact pow_eq_zero_iff (two_ne_zero) |>.1 this
    exact (Real.sqrt_inj (hf0 y) (hg0 y)).1 (sub_eq_zero.1 h3)
  · intro h
    have h0 : ∫ y, (√(f y) - √(g y)) ^ 2 ∂ν = 0 := by
      rw [← integral_zero E ℝ (μ := ν)]
      refine integral_congr_ae ?_
      filter_upwards [h] with y hy
      simp [hy]
    rw [h0]
    norm_num

/-- Integrals of functions of an observation with density `f`. -/
theorem lintegral_observation {Ω : Type} [MeasurableSpace Ω] {Q : Measure Ω} {X : Ω → E} (hX : Measurable X)
    (hf : Measurable f) (hlaw : Q.map X = ν.withDensity fun y => ENNReal.ofReal (f y)) (φ : E → ENNReal)
    (hφ : Measurable φ) : ∫⁻ ω, φ (X ω) ∂Q = ∫⁻ y, ENNReal.ofReal (f y) * φ y ∂ν := by
  rw [← lintegral_map hφ hX, hlaw, lintegral_withDensity_eq_lintegral_mul _ hf.ennreal_ofReal hφ]
  rfl

/-- An observation has positive density almost surely. -/
theorem density_pos_ae {Ω : Type} [MeasurableSpace Ω] {Q : Measure Ω} {X : Ω → E} (hX : Measurable X)
    (hf : Measurable f) (hlaw : Q.map X = ν.withDensity fun y => ENNReal.ofReal (f y)) : ∀ᵐ ω ∂Q, 0 < f (X ω) := by
  have h : ∀ᵐ y ∂(Q.map X), 0 < f y := by
    rw [hlaw, ae_withDensity_iff hf.ennreal_ofReal]
    exact Filter.Eventually.of_forall fun y hy => by
      by_contra hn
      exact hy (ENNReal.ofReal_of_nonpos (not_lt.1 hn))
  exact ae_of_ae_map hX.aemeasurable h

end One

section Many

variable {Ω : Type} [MeasurableSpace Ω] {Q : Measure Ω} {N : Nat} {E : Fin N → Type} [∀ i, MeasurableSpace (E i)]
  {ν : ∀ i, Measure (E i)} {f g : ∀ i, E i → ℝ} {X : ∀ i, Ω → E i}

/-- Markov's inequality for products of functions of independent observations. -/
theorem independent_bound (hX : ∀ i, Measurable (X i)) (hind : iIndepFun X Q) (φ : ∀ i, E i → ENNReal)
    (hφ : ∀ i, Measurable (φ i)) (c : ENNReal) (A : Set Ω) (hA : ∀ᵐ ω ∂Q, ω ∈ A → c ≤ ∏ i, φ i (X i ω)) :
    c * Q A ≤ ∏ i, ∫⁻ ω, φ i (X i ω) ∂Q := by
  have h1 := lintegral_prod_eq_prod_lintegral_of_indepFun Finset.univ (fun i ω => φ i (X i ω))
    (hind.comp φ hφ) fun i => (hφ i).comp (hX i)
  rw [← h1]
  calc c * Q A ≤ c * Q {ω | c ≤ ∏ i, φ i (X i ω)} := by
        exact mul_le_mul_right (measure_mono_ae hA) c
    _ ≤ _ := mul_meas_ge_le_lintegral
        (Finset.measurable_fun_prod _ fun i _ => (hφ i).comp (hX i)) c

/-- If independent observations have the densities `f`, it is unlikely that other densities `g` are higher. -/
theorem likelihood_ratio_bounds (hX : ∀ i, Measurable (X i)) (hind : iIndepFun X Q) (hf : ∀ i, Measurable (f i))
    (hg : ∀ i, Measurable (g i)) (hf0 : ∀ i y, 0 ≤ f i y) (hg0 : ∀ i y, 0 ≤ g i y)
    (hf1 : ∀ i, ∫⁻ y, ENNReal.ofReal (f i y) ∂ν i = 1) (hg1 : ∀ i, ∫⁻ y, ENNReal.ofReal (g i y) ∂ν i = 1)
    (hpos : ∀ i y, 0 < f i y → 0 < g i y)
    (hlaw : ∀ i, Q.map (X i) = (ν i).withDensity fun y => ENNReal.ofReal (f i y)) (k : ℝ) :
    Q.real {ω | ∑ i, Real.log (f i (X i ω)) + k ≤ ∑ i, Real.log (g i (X i ω))} ≤
        Real.exp (-k / 2) * ∏ i, ∫ y, √(f i y * g i y) ∂ν i ∧
      Q.real {ω | ∑ i, Real.log (f i (X i ω)) + k ≤ ∑ i, Real.log (g i (X i ω))} ≤ Real.exp (-k) := by
  set A := {ω | ∑ i, Real.log (f i (X i ω)) + k ≤ ∑ i, Real.log (g i (X i ω))} with hAdef
  have : IsProbabilityMeasure Q := hind.isProbabilityMeasure
  have hae : ∀ᵐ ω ∂Q, ∀ i, 0 < f i (X i ω) := ae_all_iff.2 fun i => density_pos_ae (hX i) (hf i) (hlaw i)
  have hratio : ∀ ω, (∀ i, 0 < f i (X i ω)) → ω ∈ A → Real.exp k ≤ ∏ i, g i (X i ω) / f i (X i ω) := by
    intro ω hp hA
    have h1 : ∀ i, g i (X i ω) / f i (X i ω) = Real.exp (Real.log (g i (X i ω)) - Real.log (f i (X i ω))) := by
      intro i
      rw [Real.exp_sub, Real.exp_log (hp i), Real.exp_log (hpos i _ (hp i))]
    simp only [h1]
    rw [← Real.exp_sum, Real.exp_le_exp, Finset.sum_sub_distrib]
    have : ∑ i, Real.log (f i (X i ω)) + k ≤ ∑ i, Real.log (g i (X i ω)) := hA
    linarith
  have hfin : ∀ c : ℝ, ∀ R : ℝ, ENNReal.ofReal (Real.exp c) * Q A ≤ ENNReal.ofReal R →
      Q.real A ≤ Real.exp (-c) * R ∨ R < 0 := by
    intro c R h
    by_cases hR : R < 0
    · exact Or.inr hR
    · left
      have h2 := ENNReal.toReal_mono ENNReal.ofReal_ne_top h
      rw [ENNReal.toReal_mul, ENNReal.toReal_ofReal (Real.exp_pos c).le, ENNReal.toReal_ofReal (not_lt.1 hR)] at h2
      rw [Real.exp_neg, ← div_eq_inv_mul, le_div_iff₀ (Real.exp_pos c), mul_comm]
      exact h2
  constructor
  · have hb := independent_bound hX hind (fun i y => ENNReal.ofReal √(g i y / f i y))
      (fun i => by have := hf i; have := hg i; fun_prop) (ENNReal.ofReal (Real.exp (k / 2))) A (by
        filter_upwards [hae] with ω hp hA
        rw [← ENNReal.ofReal_prod_of_nonneg fun i _ => Real.sqrt_nonneg _]
        refine ENNReal.ofReal_le_ofReal ?_
        have h := Real.sqrt_le_sqrt (hratio ω hp hA)
        rw [← Real.exp_half, ← Real.sqrt_prod _ fun i _ => div_nonneg (hg0 i _) (hf0 i _)] at *
        exact h)
    have hle : ∀ i, ∫⁻ ω, ENNReal.ofReal √(g i (X i ω) / f i (X i ω)) ∂Q ≤
        ENNReal.ofReal (∫ y, √(f i y * g i y) ∂ν i) := by
      intro i
      rw [lintegral_observation (hX i) (hf i) (hlaw i) (fun y => ENNReal.ofReal √(g i y / f i y))
        (by have := hf i; have := hg i; fun_prop),
        ofReal_integral_eq_lintegral_ofReal
          (affinity_le_one (hf i) (hg i) (hf0 i) (hg0 i) (hf1 i) (hg1 i)).1
          (Filter.Eventually.of_forall fun y => Real.sqrt_nonneg _)]
      refine lintegral_mono fun y => ?_
      rw [← ENNReal.ofReal_mul (hf0 i y)]
      refine ENNReal.ofReal_le_ofReal ?_
      rcases (hf0 i y).eq_or_lt with h | h
      · rw [← h]; simp
      · have : f i y * g i y = f i y ^ 2 * (g i y / f i y) := by field_simp
        rw [this, Real.sqrt_mul (sq_nonneg _), Real.sqrt_sq h.le]
    have h2 : ENNReal.ofReal (Real.exp (k / 2)) * Q A ≤ ENNReal.ofReal (∏ i, ∫ y, √(f i y * g i y) ∂ν i) := by
      refine hb.trans ?_
      rw [ENNReal.ofReal_prod_of_nonneg fun i _ => integral_nonneg fun y => Real.sqrt_nonneg _]
      exact Finset.prod_le_prod' fun i _ => hle i
    rcases hfin _ _ h2 with h | h
    · rw [neg_div]
      exact h
    · exact absurd h (not_lt.2 (Finset.prod_nonneg fun i _ => integral_nonneg fun y => Real.sqrt_nonneg _))
  · have hb := independent_bound hX hind (fun i y => ENNReal.ofReal (g i y / f i y))
      (fun i => by have := hf i; have := hg i; fun_prop) (ENNReal.ofReal (Real.exp k)) A (by
        filter_upwards [hae] with ω hp hA
        rw [← ENNReal.ofReal_prod_of_nonneg fun i _ => div_nonneg (hg0 i _) (hf0 i _)]
        exact ENNReal.ofReal_le_ofReal (hratio ω hp hA))
    have hle : ∀ i, ∫⁻ ω, ENNReal.ofReal (g i (X i ω) / f i (X i ω)) ∂Q ≤ 1 := by
      intro i
      rw [lintegral_observation (hX i) (hf i) (hlaw i) (fun y => ENNReal.ofReal (g i y / f i y))
        (by have := hf i; have := hg i; fun_prop), ← hg1 i]
      refine lintegral_mono fun y => ?_
      rw [← ENNReal.ofReal_mul (hf0 i y)]
      refine ENNReal.ofReal_le_ofReal ?_
      rcases (hf0 i y).eq_or_lt with h | h
      · rw [← h]; simp [hg0 i y]
      · rw [mul_div_cancel₀ _ h.ne']
    have h2 : ENNReal.ofReal (Real.exp k) * Q A ≤ ENNReal.ofReal 1 := by
      refine hb.trans ?_
      rw [ENNReal.ofReal_one]
      exact Finset.prod_le_one' fun i _ => hle i
    rcases hfin _ _ h2 with h | h
    · simpa using h
    · norm_num at h

end Many

end

end Respy
