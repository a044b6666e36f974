import Verif.Spec.Build
import Verif.Spec.Emax

/-!
# Specification of the value function of a model

Independent of dense keys, locations, arrays and of the order of the computation.
-/

namespace Respy

variable {K : Type _} [Field K] [LinearOrder K]

/-- `v` is the average over the draws of the maximum of zero and the values of the admissible
alternatives. Rewards, continuation values and shocks are functions of the alternative. -/
def IsBellman (delta : K) (admissible : Nat → Prop) (w m c : Nat → K) (draws : List (Nat → K))
    (v : K) : Prop :=
  ∃ best : (Nat → K) → K, (∀ e ∈ draws, IsGreatest
      {x | x = 0 ∨ ∃ a, admissible a ∧ x = w a * e a + m a + delta * c a} (best e)) ∧
    v = (draws.map best).sum / (draws.length : K)

/-- The shocks of a row of an array whose columns belong to the choice set `cs`, as a function of the
alternative. -/
def shocksOf (cs : List Bool) (row : List K) (a : Nat) : K := row.getD (positionIn cs a) 0

/-- `V d s` is the value of being in the core state `s` with dense index `d`: it satisfies the
Bellman equation in all states, with a continuation value of zero in the last period. `shocks` are the
draws of a period and choice set; `future d s` lists the dense indices which can follow with their
probabilities, `[(d, 1)]` without exogenous processes. -/
def IsValueFunction (b : BuildSpec) (core : List CoreState) (delta : K)
    (w m : Option Nat → CoreState → Nat → K) (shocks : Nat → List Bool → List (Nat → K))
    (future : Option Nat → CoreState → List (Option Nat × K)) (V : Option Nat → CoreState → K) : Prop :=
  ∀ d ∈ b.denseIndices, ∀ s ∈ core,
    IsBellman delta (fun a => (b.choiceSetAt d s)[a]? = some true) (w d s) (m d s)
      (fun a => if s.period + 1 = b.core.nPeriods then 0 else
        ((future d s).map fun fp => fp.2 * V fp.1 (lawOfMotion s a)).sum)
      (shocks s.period (b.choiceSetAt d s)) (V d s)

/-- The expected value of what follows after choosing `a` in the state `s` with dense index `d`; zero in the
last period. -/
def continuationOf (b : BuildSpec) (future : Option Nat → CoreState → List (Option Nat × K))
    (V : Option Nat → CoreState → K) (d : Option Nat) (s : CoreState) (a : Nat) : K :=
  if s.period + 1 = b.core.nPeriods then 0 else
    ((future d s).map fun fp => fp.2 * V fp.1 (lawOfMotion s a)).sum

end Respy
