import Verif.Spec.Simulation
import Verif.Spec.ProcessSimulate
import Verif.Spec.ProcessEstimate

/-!
# Specification: characteristics which have no effect
-/

namespace Respy

variable {K : Type} [Field K] [LinearOrder K]

/-- Dense indices which are related by `R` cannot be told apart: in every core state the same alternatives can be
chosen, with the same rewards, and related indices follow with the same probabilities. -/
structure Indistinguishable (b : BuildSpec) (core : List CoreState) (w m : Option Nat → CoreState → Nat → K)
    (future : Option Nat → CoreState → List (Option Nat × K)) (R : Option Nat → Option Nat → Prop) : Prop where
  mem : ∀ d d', R d d' → d ∈ b.denseIndices ∧ d' ∈ b.denseIndices
  choiceSets : ∀ d d', R d d' → ∀ s ∈ core, b.choiceSetAt d s = b.choiceSetAt d' s
  wages : ∀ d d', R d d' → ∀ s ∈ core, ∀ a, b.Admissible d s a → w d s a = w d' s a
  nonpecs : ∀ d d', R d d' → ∀ s ∈ core, ∀ a, b.Admissible d s a → m d s a = m d' s a
  future : ∀ d d', R d d' → ∀ s ∈ core, s.period + 1 < b.core.nPeriods →
    List.Forall₂ (fun x y => R x.1 y.1 ∧ x.2 = y.2) (future d s) (future d' s)

/-- The same in the words of the user: in every core state the covariates to which parameters of rewards belong have
the same values, and the same formulas of the restrictions hold. -/
structure Processed.SameEffects (p : Processed) (m : UserModel) (ev : FormulaEval) (core : List CoreState)
    (d d' : Option Nat) : Prop where
  rewards : ∀ s ∈ core, ∀ c ∈ p.choices.choices, ∀ q ∈ m.params,
    q.1.1 = "wage_".toList ++ c ∨ q.1.1 = "nonpec_".toList ++ c →
      p.covariates ev d s q.1.2 = p.covariates ev d' s q.1.2
  restrictions : ∀ s ∈ core, ∀ c ∈ p.choices.choices, ∀ f ∈ p.userRestrictions m c,
    ev.holds (p.covariates ev d s) f = ev.holds (p.covariates ev d' s) f

/-- A state variable which has the same value for both dense indices. -/
def Processed.SameVariable (p : Processed) (core : List CoreState) (d d' : Option Nat) (x : Str) : Prop :=
  x ∈ coreColumns p.choices.wExp p.lags.length ++ (denseColumns p.denseSpec).map String.toList ∧
    ∀ s ∈ core, Dict.get? (p.stateVariables d s) x = Dict.get? (p.stateVariables d' s) x

/-- Two rows of a sample in which the same happens: core state, draws, shocks, values, choice and wage are the same.
The dense columns, identifiers and locations can differ. -/
structure SameHistory (a b : SimRow K) : Prop where
  core : a.state.core = b.state.core
  base : a.base = b.base
  baseWage : a.baseWage = b.baseWage
  outcome : a.outcome = b.outcome

end Respy
