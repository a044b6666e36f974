import Mathlib.Data.Real.Basic
import Verif.Model.Text
import Verif.Spec.ValueFunction

/-!
# Specification of comparisons of models

Two sets of rewards and shocks are compared by the utility which an alternative gives in a period, without what
follows later.
-/

namespace Respy

variable {K : Type _} [Field K] [LinearOrder K]

/-- The utility of a period for the alternative `a`: the wage times its shock plus the non-pecuniary reward. -/
def flowUtility (w m e : Nat → K) (a : Nat) : K := w a * e a + m a

/-- In every state, for every draw and for every admissible alternative the two utilities are related by `r`. The
draws of the two models are compared one by one. -/
def FlowsRelated (r : K → K → Prop) (b : BuildSpec) (core : List CoreState)
    (w m : Option Nat → CoreState → Nat → K) (shocks : Nat → List Bool → List (Nat → K))
    (w' m' : Option Nat → CoreState → Nat → K) (shocks' : Nat → List Bool → List (Nat → K)) : Prop :=
  ∀ d ∈ b.denseIndices, ∀ s ∈ core,
    List.Forall₂ (fun e e' => ∀ a : Nat, (b.choiceSetAt d s)[a]? = some true →
        r (flowUtility (w d s) (m d s) e a) (flowUtility (w' d s) (m' d s) e' a))
      (shocks s.period (b.choiceSetAt d s)) (shocks' s.period (b.choiceSetAt d s))

/-- What can follow is a probability distribution over the dense indices of the model. -/
def IsTransition (b : BuildSpec) (core : List CoreState)
    (future : Option Nat → CoreState → List (Option Nat × K)) : Prop :=
  ∀ d ∈ b.denseIndices, ∀ s ∈ core, (∀ fp ∈ future d s, fp.1 ∈ b.denseIndices ∧ 0 ≤ fp.2) ∧
    ((future d s).map Prod.snd).sum = 1

/-- The parameters which `RaisesRewards` allows to be larger: the discount factor and the coefficients of wages and of
non-pecuniary rewards. -/
def IsReward (category : Str) : Prop :=
  category = "delta".toList ∨ "wage_".toList <+: category ∨ "nonpec_".toList <+: category

/-- The parameters `θ'` differ from `θ` at most by a larger discount factor and by larger coefficients of wages and
non-pecuniary rewards. -/
def RaisesRewards (θ θ' : Dict (Str × Str) ℝ) : Prop :=
  List.Forall₂ (fun x y => x.1 = y.1 ∧ x.2 ≤ y.2 ∧ (¬ IsReward x.1.1 → x.2 = y.2)) θ θ'

end Respy
