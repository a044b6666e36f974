import Verif.Props.Simulate
import Verif.Spec.MonteCarlo
import Verif.Spec.Simulation

/-!
# Specification of simulated samples of models which are solved with many draws
-/

open MeasureTheory ProbabilityTheory

namespace Respy

noncomputable section

/-- A row of the sample follows the model with the values `V` up to an error of `ε`; compare `RowFollows`.

* the state is in the core with dense index `d`
* the recorded values of the admissible alternatives differ by at most `ε` from those of the model
* the recorded wage is the one of an alternative `a` whose value is at most `2 ε` below the highest one
* the recorded choice is admissible; it is `a` under the conditions of `RowFollows` -/
def RowNearlyFollows (b : BuildSpec) (core : List CoreState) (p : RewardParams ℝ)
    (w m : Option Nat → CoreState → Nat → ℝ)
    (future : Option Nat → CoreState → List (Option Nat × ℝ)) (V : Option Nat → CoreState → ℝ) (ε : ℝ)
    (row : SimRow ℝ) : Prop :=
  row.state.core ∈ core ∧ ∃ d ∈ b.denseIndices, b.HasIndex row.state.dense d ∧
    (∀ a, b.Admissible d row.state.core a →
      ∃ x, row.outcome.values[positionIn (b.choiceSetAt d row.state.core) a]? = some x ∧
        |x - simulatedValue b p w m future V d row.state.core row.base a| ≤ ε) ∧
    b.Admissible d row.state.core row.outcome.choice ∧
    ∃ a, b.Admissible d row.state.core a ∧
      (∀ a', b.Admissible d row.state.core a' →
        simulatedValue b p w m future V d row.state.core row.base a' ≤
          simulatedValue b p w m future V d row.state.core row.base a + 2 * ε) ∧
      (row.outcome.choice = a ↔ (∀ a' < a, b.Admissible d row.state.core a') ∨
        (b.choiceSetAt d row.state.core).count true ≤ a) ∧
      row.outcome.wage = if a < p.nWagesRaw then
          some (w d row.state.core a * simulatedShock b p d row.state.core row.base a *
            p.exp ((row.baseWage[a]?).getD 0 * (p.measError[a]?).getD 0))
        else none

/-- What C119 says about a simulation: the model is solved with `n` draws and simulated. The simulation returns a
balanced panel in which states follow the recorded choices, and the probability that some row of the sample does not follow the model with the values `V` up to an
error of `ε` is at most `C / (n ε²)`. -/
def SampleApproaches {G : Type} (b : BuildSpec) (core : List CoreState) (w m : Option Nat → CoreState → Nat → ℝ)
    (future : Option Nat → CoreState → List (Option Nat × ℝ)) (V : Option Nat → CoreState → ℝ)
    (solution : (n : Nat) → ((size seed t : Nat) → Fin n → Fin size → ℝ) → Option (SimSpace ℝ))
    (simulation : SimSpace ℝ → Simulation ℝ G Unit) (g : G) (C : ℝ) : Prop :=
  ∀ (Ω : Type) [MeasurableSpace Ω] (Q : Measure Ω) [IsProbabilityMeasure Q] (n : Nat) (_ : 0 < n)
    (Z : (size seed t : Nat) → Fin n → Ω → Fin size → ℝ) (_ : StandardNormals Q n Z),
    ∃ (sp : Ω → SimSpace ℝ) (out : Ω → List (SimRow ℝ)),
      (∀ ω, solution n (fun size seed t i => Z size seed t i ω) = some (sp ω) ∧
        (∃ g', (simulation (sp ω)).run () g = (some (out ω), g')) ∧
        ((out ω).map fun r => (r.id, r.state.core.period)) =
          panelIndex (simulation (sp ω)).input.length (simulation (sp ω)).nPeriods ∧
        ∀ row ∈ out ω, ∀ row' ∈ out ω, row'.id = row.id →
          row'.state.core.period = row.state.core.period + 1 → StepFollows b future row row') ∧
      ∀ ε > 0, Q {ω | ∃ row ∈ out ω, ¬ RowNearlyFollows b core ((simulation (sp ω)).rewards ()) w m future V ε row} ≤
        ENNReal.ofReal (C / (n * ε ^ 2))

end

end Respy
