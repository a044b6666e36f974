import Mathlib.Probability.Distributions.Gaussian.Real
import Mathlib.MeasureTheory.Constructions.Pi
import Verif.Model.Simulate
import Verif.Spec.Shocks

/-!
# Specification of simulated choices and wages for random numbers

For C108: the events in which simulated choices and likelihoods may differ.
-/

namespace Respy

open MeasureTheory ProbabilityTheory

noncomputable section

/-- The standard normal numbers of an individual in a period (`respy/simulate.py:86-101`): `Z` for the shocks and `Y` for
the measurement errors, one for each choice. -/
structure SimulationNumbers {Ω : Type} [MeasurableSpace Ω] (Q : Measure Ω) {N : Nat} (Z Y : Ω → Fin N → ℝ) : Prop where
  measurable : Measurable fun ω => (Z ω, Y ω)
  law : Q.map (fun ω => (Z ω, Y ω)) =
    (Measure.pi fun _ => gaussianReal 0 1).prod (Measure.pi fun _ => gaussianReal 0 1)

/-- The random numbers of the choices as a function of alternatives. -/
def numbersOf {N : Nat} (z : Fin N → ℝ) (j : Nat) : ℝ := ((List.ofFn z)[j]?).getD 0

/-- The parameters of a simulation in a state with choice set `cs`: arrays have the right shapes, some alternative is
available, and recorded choices are the best ones (see `C24_choice_is_best_false`). -/
structure SimulatesState (p : RewardParams ℝ) (cs : List Bool) : Prop where
  exp : p.exp = Real.exp
  rows : cs.length ≤ p.cholesky.length
  columns : ∀ row ∈ p.cholesky, cs.length ≤ row.length
  errors : cs.length = p.measError.length
  available : true ∈ cs
  codes : ∀ a, cs[a]? = some true → (∀ b < a, cs[b]? = some true) ∨ cs.count true ≤ a

/-- The shock of a wage is outside of the bounds for arguments of the exponential function. -/
def OutOfBounds (lo hi : ℝ) (L : List (List ℝ)) (nWages : Nat) (cs : List Bool) (z : Nat → ℝ) : Prop :=
  ∃ b < nWages, cs[b]? = some true ∧ ¬ (lo ≤ latentShock L cs z b ∧ latentShock L cs z b ≤ hi)

/-- No available alternative is better than all others by at least `margin`. -/
def Undecided (margin : ℝ) (cs : List Bool) (u : Nat → ℝ) : Prop :=
  ∀ a, cs[a]? = some true → ∃ b, b ≠ a ∧ cs[b]? = some true ∧ u a < u b + margin

/-- The best available alternative is not unique. -/
def Tied (cs : List Bool) (u : Nat → ℝ) : Prop :=
  ∀ a, cs[a]? = some true → ∃ b, b ≠ a ∧ cs[b]? = some true ∧ u a ≤ u b

/-- The values of the alternatives of an individual with random numbers `z`. -/
def utilityWith (p : RewardParams ℝ) (cs : List Bool) (w m c : Nat → ℝ) (z : Nat → ℝ) (b : Nat) : ℝ :=
  w b * shockOf p.exp p.lo p.hi p.cholesky p.nWagesRaw cs z b + m b + p.betaDelta * c b

end

end Respy
