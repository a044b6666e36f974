import Mathlib.Algebra.BigOperators.Group.Finset.Basic
import Verif.Spec.ValueFunction

/-!
# Specification: rewards with another level
-/

namespace Respy

variable {K : Type _} [Field K] [LinearOrder K]

/-- The non-pecuniary rewards `m'` of all admissible alternatives exceed `m` by the same amount, which may depend on
the period. -/
def LevelsShifted (b : BuildSpec) (core : List CoreState) (amount : Nat → K)
    (m m' : Option Nat → CoreState → Nat → K) : Prop :=
  ∀ d ∈ b.denseIndices, ∀ s ∈ core, ∀ a : Nat, (b.choiceSetAt d s)[a]? = some true →
    m' d s a = m d s a + amount s.period

/-- The discounted sum of the amounts from period `t` on in a model with `n` periods. -/
def discountedSum (delta : K) (amount : Nat → K) (n t : Nat) : K :=
  ∑ j ∈ Finset.range (n - t), delta ^ j * amount (t + j)

/-- In every state and for every draw some admissible alternative has a value which is not negative. -/
def Viable (b : BuildSpec) (core : List CoreState) (delta : K) (w m : Option Nat → CoreState → Nat → K)
    (shocks : Nat → List Bool → List (Nat → K)) (future : Option Nat → CoreState → List (Option Nat × K))
    (V : Option Nat → CoreState → K) : Prop :=
  ∀ d ∈ b.denseIndices, ∀ s ∈ core, ∀ e ∈ shocks s.period (b.choiceSetAt d s),
    ∃ a : Nat, (b.choiceSetAt d s)[a]? = some true ∧
      0 ≤ w d s a * e a + m d s a + delta * continuationOf b future V d s a

end Respy
