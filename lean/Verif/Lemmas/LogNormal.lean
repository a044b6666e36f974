import Mathlib.Probability.Distributions.Gaussian.Real
import Mathlib.MeasureTheory.Function.Jacobian
import Verif.Model.ConditionalDraws
import Mathlib.Tactic.Ring
import Mathlib.Tactic.FieldSimp

/-! # The density of log-normal wages -/

open MeasureTheory ProbabilityTheory

namespace Respy

/-- The law of the exponential of a normal variable has the density of the normal distribution at the
logarithm, divided by the argument. -/
theorem gaussian_map_exp (μ : ℝ) {v : NNReal} (hv : v ≠ 0) :
    (gaussianReal μ v).map Real.exp = (volume.restrict (Set.Ioi 0)).withDensity
      (fun w => ENNReal.ofReal (gaussianPDFReal μ v (Real.log w) / w)) := by
  ext B hB
  rw [Measure.map_apply Real.measurable_exp hB, gaussianReal_apply μ hv, withDensity_apply _ hB,
    Measure.restrict_restrict hB]
  have himg : B ∩ Set.Ioi 0 = Real.exp '' (Real.exp ⁻¹' B) := by
    rw [Set.image_preimage_eq_inter_range, Real.range_exp]
  rw [himg, lintegral_image_eq_lintegral_abs_deriv_mul (Real.measurable_exp hB)
    (fun x _ => (Real.hasDerivAt_exp x).hasDerivWithinAt) Real.exp_injective.injOn]
  refine lintegral_congr fun x => ?_
  rw [Real.log_exp, ← ENNReal.ofReal_mul (abs_nonneg _), abs_of_pos (Real.exp_pos x),
    mul_div_cancel₀ _ (Real.exp_pos x).ne']
  rfl

/-- The log likelihood of the code is the logarithm of the density of a log-normal variable. -/
theorem loglike_eq_log_density (μ w : ℝ) (hw : 0 < w) {v : NNReal} (hv : v ≠ 0) :
    -Real.log (2 * Real.pi) / 2 - Real.log w - Real.log √(v : ℝ) -
      (Real.log w - μ) ^ 2 / (2 * (v : ℝ)) =
      Real.log (gaussianPDFReal μ v (Real.log w) / w) := by
  have hvp : (0 : ℝ) < v := by exact_mod_cast pos_iff_ne_zero.2 hv
  have hpi := Real.pi_pos
  rw [Real.log_div (gaussianPDFReal_pos μ v _ hv).ne' hw.ne', gaussianPDFReal,
    Real.log_mul (inv_ne_zero (Real.sqrt_ne_zero'.2 (by positivity))) (Real.exp_pos _).ne',
    Real.log_inv, Real.log_exp, Real.log_sqrt hvp.le, Real.log_sqrt (by positivity),
    Real.log_mul (by positivity) hvp.ne']
  ring

end Respy
