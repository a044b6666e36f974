import Verif.Spec.Histories
import Verif.Spec.InitialDistribution

/-!
# Specification of initial characteristics and histories

For C112: individuals start with random characteristics and have a random history.
-/

open MeasureTheory ProbabilityTheory

namespace Respy

noncomputable section

/-- All random numbers of a sample (`respy/simulate.py:86-101, 537, 649`): uniform numbers for the characteristics and
normal numbers for the shocks, independent of each other. -/
structure AllNumbers {Ω : Type} [MeasurableSpace Ω] (Q : Measure Ω) {G : Type} (rs : Ω → RandomSource ℝ G) (seed : Nat)
    {n k R N : Nat} (U : Fin n → Ω → Fin k → ℝ) (Z Y : Fin R → Ω → Fin N → ℝ) : Prop where
  initial : InitialNumbers Q rs seed U
  shocks : SampleNumbers Q Z Y
  independent : IndepFun (fun ω j => U j ω) (fun ω r => (Z r ω, Y r ω)) Q

/-- A simulation with a given source of random numbers and given shocks. -/
def Simulation.withRandom {G P : Type} (sim : Simulation ℝ G P) (rs : RandomSource ℝ G) {R N : Nat}
    (Z Y : Fin R → Fin N → ℝ) : Simulation ℝ G P :=
  { sim.withNumbers Z Y with rs := rs }

/-- Individual `j` starts in the state with core `s` and dense variables `dense`. -/
def StartsIn (out : List (SimRow ℝ)) (j : Nat) (s : CoreState) (dense : List Nat) : Prop :=
  ∃ row ∈ out, row.id = j ∧ row.state.core.period = 0 ∧ row.state.core = s ∧ row.state.dense = dense

/-- The characteristics which are the columns of a state: experiences, lagged choices and dense variables. -/
def rowOfState (s : CoreState) (dense : List Nat) : CharRow :=
  s.exp.map some ++ s.lags ++ dense.map some

end

end Respy
