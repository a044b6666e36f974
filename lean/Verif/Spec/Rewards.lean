import Verif.Model.Rewards
import Verif.Spec.Build
import Verif.Spec.Shocks
import Verif.Spec.ValueFunction

/-!
# Specification of rewards and shocks
-/

namespace Respy

variable {K : Type _} [Field K] [LinearOrder K]

/-- `Σ β x`. -/
def linearIndex (row : StateRow K) (beta : List (Str × K)) : K :=
  (beta.map fun item => item.2 * (row item.1).getD 0).sum

/-- The wage of alternative `a` without shock: the exponential of the linear index, one without
parameters. -/
def SolveInput.wageOf (inp : SolveInput K) (d : Option Nat) (s : CoreState) (a : Nat) : K :=
  match inp.rewards.wage a with
  | none => 1
  | some beta => inp.exp (linearIndex (inp.covariates d s) beta)

/-- The non-pecuniary reward of alternative `a`: the linear index, zero without parameters. -/
def SolveInput.nonpecOf (inp : SolveInput K) (d : Option Nat) (s : CoreState) (a : Nat) : K :=
  match inp.rewards.nonpec a with
  | none => 0
  | some beta => linearIndex (inp.covariates d s) beta

/-- The standard normal draws of a period for choice sets with `n` alternatives. The seed depends on
the position of `n` among the numbers of alternatives. -/
def SolveInput.baseOf (inp : SolveInput K) (t n : Nat) : List (List K) :=
  ((inp.base n (inp.seed + inp.sizes.idxOf n))[t]?).getD []

/-- The draws of the shocks of a period and choice set as functions of the alternative. -/
def SolveInput.shocks (inp : SolveInput K) (t : Nat) (cs : List Bool) : List (Nat → K) :=
  (inp.baseOf t (cs.count true)).map fun z =>
    shockOf inp.exp inp.lo inp.hi inp.cholesky inp.nWages cs (shocksOf cs z)

/-- The inputs fit to the model: all covariates in the parameters exist, `sizes` lists the numbers of
alternatives, arrays of draws have the requested shape, the Cholesky factor has one row and column per
choice. -/
structure SolveInput.WF (b : BuildSpec) (core : List CoreState) (inp : SolveInput K) : Prop where
  wages : ∀ a beta, inp.rewards.wage a = some beta → ∀ item ∈ beta, ∀ d ∈ b.denseIndices, ∀ s ∈ core,
    (inp.covariates d s item.1).isSome
  nonpecs : ∀ a beta, inp.rewards.nonpec a = some beta → ∀ item ∈ beta, ∀ d ∈ b.denseIndices,
    ∀ s ∈ core, (inp.covariates d s item.1).isSome
  sizes : ∀ d ∈ b.denseIndices, ∀ s ∈ core, (b.choiceSetAt d s).count true ∈ inp.sizes
  base : ∀ n seed, (inp.base n seed).length = b.core.nPeriods ∧
    ∀ arr ∈ inp.base n seed, ∀ row ∈ arr, row.length = n
  cholesky : ∀ row ∈ inp.cholesky, row.length = inp.cholesky.length
  choices : ∀ d ∈ b.denseIndices, ∀ s ∈ core, (b.choiceSetAt d s).length = inp.cholesky.length

end Respy
