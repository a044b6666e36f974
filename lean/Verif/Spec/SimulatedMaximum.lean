import Verif.Spec.DrawLimit

/-!
# Specification of maximum simulated likelihood
-/

open MeasureTheory ProbabilityTheory

namespace Respy

noncomputable section

/-- What C118 says about finitely many models and estimations: a maximum of the criterion functions, all of which use the
same random numbers, is a maximum of the exact log likelihoods, except with a probability of at most a constant over the
number of draws of the solution and a constant over the number of draws of the likelihood. -/
def MaximumApproaches {ι : Type} (b : ι → BuildSpec) (w m : ι → Option Nat → CoreState → Nat → ℝ)
    (future : ι → Option Nat → CoreState → List (Option Nat × ℝ)) (V : ι → Option Nat → CoreState → ℝ)
    (solution : ι → (n : Nat) → ((size seed t : Nat) → Fin n → Fin size → ℝ) → Option (SimSpace ℝ))
    (estimation : ι → SimSpace ℝ → Estimation Unit) : Prop :=
  ∃ exact : ι → ℝ,
    (∀ i sp, IsExactCriterion (b i) (w i) (m i) (future i) (V i) (estimation i sp) () (exact i)) ∧
    ∃ K K' : ℝ, ∀ (Ω : Type) [MeasurableSpace Ω] (Q : Measure Ω) [IsProbabilityMeasure Q] (n n' : Nat)
      (_ : 0 < n) (_ : 0 < n') (Z : (size seed t : Nat) → Fin n → Ω → Fin size → ℝ) (_ : StandardNormals Q n Z)
      (Z' : (rows size seed row : Nat) → Fin n' → Ω → Fin size → ℝ) (_ : EstimationNormals Q n' Z'),
      ∃ value : ι → Ω → ℝ,
        (∀ i ω, ∃ sp, solution i n (fun size seed t i => Z size seed t i ω) = some sp ∧
          ((estimation i sp).withNumbers n' fun rows size seed row i => Z' rows size seed row i ω).logLike () =
            some (value i ω)) ∧
        Q {ω | ∃ i, (∀ j, value j ω ≤ value i ω) ∧ ∃ j, exact i < exact j} ≤
          ENNReal.ofReal (K / n) + ENNReal.ofReal (K' / n')

end

end Respy
