import Verif.Model.TransitionFrame
import Verif.Spec.Rewards

/-!
# Specification of transition probabilities
-/

namespace Respy

/-- Specification: the multinomial logit probability of level `v` given the linear indices `xs`. -/
noncomputable def logitProbability (xs : List ℝ) (v : Nat) : ℝ :=
  match xs[v]? with
  | some x => Real.exp x / (xs.map Real.exp).sum
  | none => 0

/-- Specification: the probability that the exogenous processes have the levels `e` in the next period:
the product over the processes of the multinomial logit probabilities for the linear indices `Σ β x`. -/
noncomputable def levelProbability (ep : ExogenousParams) (row : StateRow ℝ) (e : List Nat) : ℝ :=
  (List.zipWith logitProbability (ep.map fun levels => levels.map (linearIndex row)) e).prod

end Respy
