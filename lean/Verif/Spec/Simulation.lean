import Verif.Model.Simulate
import Verif.Spec.Shocks
import Verif.Spec.ValueFunction

/-!
# Specification of a simulated sample which follows the model

Independent of dense keys, locations and arrays of the state space: rewards `w`, `m`, the value function
`V` and the possible changes of the dense index `future` are functions of core states, dense indices and
alternatives.
-/

namespace Respy

variable {K : Type} [Field K] [LinearOrder K]

/-- `d` is the dense index of the dense columns `dense`. -/
def BuildSpec.HasIndex (b : BuildSpec) (dense : List Nat) (d : Option Nat) : Prop :=
  match b.grid with
  | none => d = none
  | some grid => ∃ i, d = some i ∧ grid[i]? = some dense

/-- Alternative `a` can be chosen. -/
def BuildSpec.Admissible (b : BuildSpec) (d : Option Nat) (s : CoreState) (a : Nat) : Prop :=
  (b.choiceSetAt d s)[a]? = some true

/-- The shock of alternative `a` for the base draws `base`. -/
def simulatedShock (b : BuildSpec) (p : RewardParams K) (d : Option Nat) (s : CoreState)
    (base : List K) (a : Nat) : K :=
  shockOf p.exp p.lo p.hi p.cholesky p.nWagesRaw (b.choiceSetAt d s) (fun j => (base[j]?).getD 0) a

/-- The value of alternative `a` for the base draws `base`: wage times shock plus non-pecuniary reward plus
the discounted expected value of the state to which `a` leads, which is zero in the last period. -/
def simulatedValue (b : BuildSpec) (p : RewardParams K) (w m : Option Nat → CoreState → Nat → K)
    (future : Option Nat → CoreState → List (Option Nat × K)) (V : Option Nat → CoreState → K)
    (d : Option Nat) (s : CoreState) (base : List K) (a : Nat) : K :=
  w d s a * simulatedShock b p d s base a + m d s a + p.betaDelta *
    (if s.period + 1 = b.core.nPeriods then 0 else
      ((future d s).map fun fp => fp.2 * V fp.1 (lawOfMotion s a)).sum)

/-- A row of the sample follows the model.

* the state is in the core with dense index `d`
* the recorded shocks and values of the admissible alternatives are those of the model
* the recorded wage is the one of the best alternative `a` (the first one of several)
* the recorded choice is admissible; it is `a` if all alternatives before `a` are admissible or if the code
  of `a` is not less than the number of admissible alternatives (see `C24_choice_is_best_false`) -/
def RowFollows (b : BuildSpec) (core : List CoreState) (p : RewardParams K)
    (w m : Option Nat → CoreState → Nat → K)
    (future : Option Nat → CoreState → List (Option Nat × K)) (V : Option Nat → CoreState → K)
    (row : SimRow K) : Prop :=
  row.state.core ∈ core ∧ ∃ d ∈ b.denseIndices, b.HasIndex row.state.dense d ∧
    (∀ a, b.Admissible d row.state.core a →
      row.outcome.shocks[positionIn (b.choiceSetAt d row.state.core) a]? =
        some (simulatedShock b p d row.state.core row.base a) ∧
      row.outcome.values[positionIn (b.choiceSetAt d row.state.core) a]? =
        some (simulatedValue b p w m future V d row.state.core row.base a)) ∧
    b.Admissible d row.state.core row.outcome.choice ∧
    ∃ a, b.Admissible d row.state.core a ∧
      (∀ a', b.Admissible d row.state.core a' →
        simulatedValue b p w m future V d row.state.core row.base a' ≤
          simulatedValue b p w m future V d row.state.core row.base a ∧
        (a' < a → simulatedValue b p w m future V d row.state.core row.base a' <
          simulatedValue b p w m future V d row.state.core row.base a)) ∧
      (row.outcome.choice = a ↔ (∀ a' < a, b.Admissible d row.state.core a') ∨
        (b.choiceSetAt d row.state.core).count true ≤ a) ∧
      row.outcome.wage = if a < p.nWagesRaw then
          some (w d row.state.core a * simulatedShock b p d row.state.core row.base a *
            p.exp ((row.baseWage[a]?).getD 0 * (p.measError[a]?).getD 0))
        else none

/-- The step from a row to the row of the same individual in the next period: the core state follows the
law of motion for the recorded choice, the dense index is one which has a positive probability. -/
def StepFollows (b : BuildSpec) (future : Option Nat → CoreState → List (Option Nat × K))
    (row row' : SimRow K) : Prop :=
  row'.id = row.id ∧ row'.state.core = lawOfMotion row.state.core row.outcome.choice ∧
    ∃ d d' q, b.HasIndex row.state.dense d ∧ b.HasIndex row'.state.dense d' ∧
      (d', q) ∈ future d row.state.core ∧ q ≠ 0

/-- The parameters of the simulation fit to the model: one measurement error per choice, a Cholesky factor
with one row and column per choice; no state has an empty choice set. -/
structure RewardParams.WF (b : BuildSpec) (core : List CoreState) (p : RewardParams K) : Prop where
  rows : p.measError.length ≤ p.cholesky.length
  cols : ∀ row ∈ p.cholesky, p.measError.length ≤ row.length
  choices : ∀ d ∈ b.denseIndices, ∀ s ∈ core, (b.choiceSetAt d s).length = p.measError.length
  nonempty : ∀ d ∈ b.denseIndices, ∀ s ∈ core, ∃ a, b.Admissible d s a

end Respy
