import Verif.Spec.ChoiceProbability
import Verif.Spec.LogLikeModel
import Verif.Spec.MonteCarlo

/-!
# Specification of the criterion function with many draws

The draws of the criterion function are random numbers. With the distribution of these numbers in place of draws there
is an exact likelihood, and the value of the criterion function is close to its logarithm with high probability.
-/

open MeasureTheory ProbabilityTheory

namespace Respy

noncomputable section

variable {P : Type}

/-- The estimation with given random numbers: `z rows size seed row i` are the numbers of draw `i` for the observation
`row` in the array of base draws with this seed and shape (`respy/likelihood.py:106-115`). -/
def Estimation.withNumbers (e : Estimation P) (n : Nat) (z : (rows size seed row : Nat) → Fin n → Fin size → ℝ) :
    Estimation P :=
  { e with base := fun rows size seed => (List.range rows).map fun row =>
      List.ofFn fun i => List.ofFn (z rows size seed row i) }

/-- The random numbers of all arrays of base draws are standard normal; the `n` draws of an observation are pairwise
independent. -/
def EstimationNormals {Ω : Type} [MeasurableSpace Ω] (Q : Measure Ω) (n : Nat)
    (Z : (rows size seed row : Nat) → Fin n → Ω → Fin size → ℝ) : Prop :=
  ∀ rows size seed row, NormalDraws Q (Z rows size seed row)

/-- The term of an observation and a type, with the exact choice probability; compare `TermFollows`, in which there are
draws. -/
def ExactTerm (b : BuildSpec) (w m : Option Nat → CoreState → Nat → ℝ)
    (future : Option Nat → CoreState → List (Option Nat × ℝ)) (V : Option Nat → CoreState → ℝ)
    (e : Estimation P) (p : LikelihoodParams) (r : EstimationRow) (t : Nat) (x : LikelihoodTerm) : Prop :=
  ∃ d, b.HasIndex (e.stateOf r t).dense d ∧
    IsExpectedChoiceProbability e.maxLog e.tau p.betaDelta p.nWagesRaw p.cholesky (b.choiceSetAt d r.state.core)
      (fun a => p.measError.getD a 0) (w d r.state.core) (m d r.state.core)
      (continuationOf b future V d r.state.core) r.choice r.wage x.prob ∧
    0 < x.prob ∧
    x.density = densityOf p.cholesky (b.choiceSetAt d r.state.core) (fun a => p.measError.getD a 0)
      (w d r.state.core) r.choice r.wage ∧
    0 < x.density

/-- The mean `exact` of the exact log likelihoods of the individuals.

* the exact terms of all observations and types follow the model
* the indices of the types are those for the covariates in the first period
* the bounds on logarithms can be ignored if they have no effect -/
def IsExactCriterion (b : BuildSpec) (w m : Option Nat → CoreState → Nat → ℝ)
    (future : Option Nat → CoreState → List (Option Nat × ℝ)) (V : Option Nat → CoreState → ℝ)
    (e : Estimation P) (params : P) (exact : ℝ) : Prop :=
  ∃ (term : Nat → Nat → Nat → LikelihoodTerm) (x : Nat → Nat → ℝ),
    (∀ r ∈ e.data, ∀ t < e.typeCount, ExactTerm b w m future V e (e.params params) r t
      (term r.id r.state.core.period t)) ∧
    (2 ≤ e.nTypes → ∀ r ∈ e.data, r.state.core.period = 0 → ∀ t < e.typeCount,
      x r.id t = typeScore e (e.params params) r t) ∧
    exact = ((individuals e.data).map fun i => min (max (Real.log
      (individualLikelihood (bounded e.lo e.hi) e.typeCount e.data term x i)) e.lo) e.hi).sum /
        (individuals e.data).length ∧
    (WithinBounds e.lo e.hi e.typeCount e.data term x →
      exact = ((individuals e.data).map fun i => Real.log
        (individualLikelihood id e.typeCount e.data term x i)).sum / (individuals e.data).length)

/-- What C116 says about the criterion function: for each tolerance, the probability that it is further away from the
mean of the exact log likelihoods is at most a constant over the number of draws. -/
def CriterionApproaches (b : BuildSpec) (w m : Option Nat → CoreState → Nat → ℝ)
    (future : Option Nat → CoreState → List (Option Nat × ℝ)) (V : Option Nat → CoreState → ℝ)
    (e : Estimation P) (params : P) : Prop :=
  ∃ exact : ℝ, IsExactCriterion b w m future V e params exact ∧
    ∀ ε : ℝ, 0 < ε → ∃ K : ℝ, ∀ (Ω : Type) [MeasurableSpace Ω] (Q : Measure Ω) [IsProbabilityMeasure Q] (n : Nat)
      (_ : 0 < n) (Z : (rows size seed row : Nat) → Fin n → Ω → Fin size → ℝ) (_ : EstimationNormals Q n Z),
      ∃ value : Ω → ℝ,
        (∀ ω, (e.withNumbers n fun rows size seed row i => Z rows size seed row i ω).logLike params =
          some (value ω)) ∧
        Q {ω | ε ≤ |value ω - exact|} ≤ ENNReal.ofReal (K / n)

/-- What C117 says about the criterion function: `V` is the value function with the distribution of the shocks in place
of draws. If the model is solved with `n` draws and the criterion function uses `n'` draws, then the probability that it
is further away from the mean of the exact log likelihoods with the values `V` is at most a constant over `n` and a
constant over `n'`. -/
def SolvedCriterionApproaches (b : BuildSpec) (w m : Option Nat → CoreState → Nat → ℝ)
    (future : Option Nat → CoreState → List (Option Nat × ℝ)) (V : Option Nat → CoreState → ℝ)
    (solution : (n : Nat) → ((size seed t : Nat) → Fin n → Fin size → ℝ) → Option (SimSpace ℝ))
    (estimation : SimSpace ℝ → Estimation Unit) : Prop :=
  ∃ exact : ℝ, (∀ sp, IsExactCriterion b w m future V (estimation sp) () exact) ∧
    ∀ ε : ℝ, 0 < ε → ∃ K K' : ℝ, ∀ (Ω : Type) [MeasurableSpace Ω] (Q : Measure Ω) [IsProbabilityMeasure Q] (n n' : Nat)
      (_ : 0 < n) (_ : 0 < n') (Z : (size seed t : Nat) → Fin n → Ω → Fin size → ℝ) (_ : StandardNormals Q n Z)
      (Z' : (rows size seed row : Nat) → Fin n' → Ω → Fin size → ℝ) (_ : EstimationNormals Q n' Z'),
      ∃ value : Ω → ℝ,
        (∀ ω, ∃ sp, solution n (fun size seed t i => Z size seed t i ω) = some sp ∧
          ((estimation sp).withNumbers n' fun rows size seed row i => Z' rows size seed row i ω).logLike () =
            some (value ω)) ∧
        Q {ω | ε ≤ |value ω - exact|} ≤ ENNReal.ofReal (K / n) + ENNReal.ofReal (K' / n')

end

end Respy
