import Mathlib.Probability.Independence.Basic
import Mathlib.MeasureTheory.Integral.Bochner.Set
import Verif.Model.Simulate
import Verif.Spec.Simulation
import Verif.Spec.SimulatedShares
import Verif.Spec.ChoiceProbability

/-!
# Specification of simulated histories

For C110: the choices and wages of an individual in all periods of a simulated sample, and the probability which the
likelihood assigns to them.
-/

namespace Respy

open MeasureTheory ProbabilityTheory

noncomputable section

/-- The standard normal numbers of a sample (`respy/simulate.py:86-101`): one row for each individual and period,
independent of each other. -/
structure SampleNumbers {Ω : Type} [MeasurableSpace Ω] (Q : Measure Ω) {R N : Nat} (Z Y : Fin R → Ω → Fin N → ℝ) :
    Prop where
  each : ∀ r, SimulationNumbers Q (Z r) (Y r)
  independent : iIndepFun (fun r ω => (Z r ω, Y r ω)) Q

/-- A simulation with given random numbers. -/
def Simulation.withNumbers {G P : Type} (sim : Simulation ℝ G P) {R N : Nat} (Z Y : Fin R → Fin N → ℝ) :
    Simulation ℝ G P :=
  { sim with
    draws := List.ofFn fun r => List.ofFn (Z r)
    drawsWage := List.ofFn fun r => List.ofFn (Y r) }

/-- The core state in period `t` of an individual who starts in `s` and makes the choices `a 0`, `a 1`, ... -/
def coreAlong (s : CoreState) (a : Nat → Nat) : Nat → CoreState
  | 0 => s
  | t + 1 => lawOfMotion (coreAlong s a t) (a t)

/-- Individual `j` makes the choice `a t` in each period `t` before `T` and, if wages are observed in `t`, earns a wage
in the set `O t`. -/
def HasHistory (out : List (SimRow ℝ)) (j T : Nat) (a : Nat → Nat) (O : Nat → Option (Set ℝ)) : Prop :=
  ∀ t < T, ∃ row ∈ out, row.id = j ∧ row.state.core.period = t ∧ row.outcome.choice = a t ∧
    ∀ B, O t = some B → ∃ x ∈ B, row.outcome.wage = some x

/-- The expected value of the next period in state `s` after choice `a`. -/
def expectedNext (b : BuildSpec) (V : Option Nat → CoreState → ℝ) (d : Option Nat) (s : CoreState) (a : Nat) : ℝ :=
  if s.period + 1 = b.core.nPeriods then 0 else V d (lawOfMotion s a)

/-- The probability of choice `a`, or of choice `a` and a wage in `O`, according to the likelihood: the choice
probability, or the integral of choice probability and density of the wage. -/
def IsObservedProbability (p : RewardParams ℝ) (tau : ℝ) (cs : List Bool) (w m c : Nat → ℝ) (a : Nat)
    (O : Option (Set ℝ)) (l : ℝ) : Prop :=
  match O with
  | none => IsExpectedChoiceProbability p.hi tau p.betaDelta p.nWagesRaw p.cholesky cs (fun b => p.measError.getD b 0)
      w m c a none l
  | some B => ∃ prob : ℝ → ℝ, (∀ x, IsExpectedChoiceProbability p.hi tau p.betaDelta p.nWagesRaw p.cholesky cs
      (fun b => p.measError.getD b 0) w m c a (some x) (prob x)) ∧
      l = ∫ x in B, prob x * densityOf p.cholesky cs (fun b => p.measError.getD b 0) w a (some x)

/-- What can be observed: a wage in a measurable set of positive numbers, if the choice has a wage which is positive
and not certain. -/
def ObservableWage (p : RewardParams ℝ) (cs : List Bool) (w : Nat → ℝ) (a : Nat) (O : Option (Set ℝ)) : Prop :=
  ∀ B, O = some B → a < p.nWagesRaw ∧ 0 < w a ∧ 0 < shockCov p.cholesky cs a a + p.measError.getD a 0 ^ 2 ∧
    MeasurableSet B ∧ B ⊆ Set.Ioi 0

/-- The recorded choices are the best ones in all states (see `C24_choice_is_best_false`). -/
def BuildSpec.RecordsBest (b : BuildSpec) (core : List CoreState) : Prop :=
  ∀ d ∈ b.denseIndices, ∀ s ∈ core, ∀ a, b.Admissible d s a →
    (∀ a' < a, b.Admissible d s a') ∨ (b.choiceSetAt d s).count true ≤ a

/-- The wages of all alternatives are uncertain. -/
def BuildSpec.UncertainWages (b : BuildSpec) (core : List CoreState) (p : RewardParams ℝ) : Prop :=
  ∀ d ∈ b.denseIndices, ∀ s ∈ core, ∀ a < p.nWagesRaw, b.Admissible d s a →
    0 < shockCov p.cholesky (b.choiceSetAt d s) a a + p.measError.getD a 0 ^ 2

/-- The probability that shocks are out of bounds or that the two best alternatives are closer than `κ`, and the effect
of smoothing if they are not. -/
def exceptional (p : RewardParams ℝ) (κ tau : ℝ) (cs : List Bool) (w m c : Nat → ℝ) : ℝ :=
  (Measure.pi fun _ : Fin cs.length => gaussianReal 0 1).real
    {z | OutOfBounds p.lo p.hi p.cholesky p.nWagesRaw cs (numbersOf z) ∨
      Undecided κ cs (utilityWith p cs w m c (numbersOf z))} + cs.count true * Real.exp (-κ / tau)

end

end Respy
