import Mathlib.MeasureTheory.Constructions.Pi
import Mathlib.MeasureTheory.Integral.Bochner.Basic
import Mathlib.Probability.Distributions.Gaussian.Real
import Verif.Spec.LogLike

/-!
# Choice probabilities with a continuum of draws

Specification of C107: `IsChoiceProbability` with an integral in place of an average over draws.
-/

namespace Respy

open MeasureTheory ProbabilityTheory

noncomputable section

/-- `prob` is the probability of alternative `a` given the observed wage, if the standard normal numbers have their
distribution: the integral of the logit probabilities. -/
def IsExpectedChoiceProbability (bound tau delta : ℝ) (nWages : Nat) (L : List (List ℝ)) (cs : List Bool)
    (sd : Nat → ℝ) (w m c : Nat → ℝ) (a : Nat) (wage : Option ℝ) (prob : ℝ) : Prop :=
  ∃ C, IsFactorGiven (shockCov L cs) cs (observation L cs sd w a wage) C ∧
    prob = ∫ z : Fin (cs.count true) → ℝ, logitOf tau cs (fun b => w b * rewardShockGiven bound nWages cs
      (shockMean (shockCov L cs) (observation L cs sd w a wage)) C (shocksOf cs (List.ofFn z)) b + m b + delta * c b) a
        ∂Measure.pi fun _ => gaussianReal 0 1

end

end Respy
