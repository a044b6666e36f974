import Mathlib.Probability.Distributions.Gaussian.HasGaussianLaw.Independence
import Mathlib.Data.Matrix.Mul
import Mathlib.Analysis.SpecialFunctions.Exp

/-!
# Specification of the random variables of the likelihood
-/

open MeasureTheory ProbabilityTheory

namespace Respy

variable {Ω : Type*} {mΩ : MeasurableSpace Ω} {n : Nat}

/-- `Z` is a vector of independent standard normal variables (the base draws). -/
structure StandardNormal (Z : Fin n → Ω → ℝ) (Q : Measure Ω) : Prop where
  gaussian : HasGaussianLaw (fun ω i => Z i ω) Q
  mean : ∀ i, ∫ ω, Z i ω ∂Q = 0
  cov : ∀ i j, covariance (Z i) (Z j) Q = if i = j then 1 else 0

/-- `X` are normal shocks with mean zero and covariance matrix `S`, and `ε` is an independent normal
measurement error with mean zero and variance `v`. -/
structure ShocksAndError (S : Matrix (Fin n) (Fin n) ℝ) (v : ℝ) (X : Fin n → Ω → ℝ) (ε : Ω → ℝ)
    (P : Measure Ω) : Prop where
  gaussian : HasGaussianLaw (fun ω i => X i ω) P
  errGaussian : HasGaussianLaw ε P
  indep : IndepFun (fun ω i => X i ω) ε P
  mean : ∀ i, ∫ ω, X i ω ∂P = 0
  errMean : ∫ ω, ε ω ∂P = 0
  cov : ∀ i j, covariance (X i) (X j) P = S i j
  errVar : variance ε P = v

/-- `X` are normal shocks with mean zero and covariance matrix `S`. -/
structure Shocks (S : Matrix (Fin n) (Fin n) ℝ) (X : Fin n → Ω → ℝ) (P : Measure Ω) : Prop where
  gaussian : HasGaussianLaw (fun ω i => X i ω) P
  mean : ∀ i, ∫ ω, X i ω ∂P = 0
  cov : ∀ i j, covariance (X i) (X j) P = S i j

/-- The shocks which enter rewards: of the alternatives at the first `nWages` positions the exponential
of the shock, which is bounded from above before, of the others the shock itself. -/
noncomputable def rewardShock (bound : ℝ) (nWages : Nat) (x : Fin n → ℝ) (i : Fin n) : ℝ :=
  if (i : Nat) < nWages then Real.exp (min (x i) bound) else x i

end Respy
