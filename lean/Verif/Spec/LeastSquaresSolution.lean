import Verif.Spec.InterpolatedSolution
import Verif.Spec.LeastSquares

/-!
# Specification of a solution with interpolation by least squares
-/

namespace Respy

/-- `V` solves the model with interpolation by least squares: as `IsInterpolatedSolution`, but the
coefficients of the regression are characterised by the sum of squared residuals. There are `n`
alternatives in the choice set of the group, hence `2 n + 1` regressors. -/
def IsLeastSquaresSolution (b : BuildSpec) (core : List CoreState) (delta : ℝ)
    (w m : Option Nat → CoreState → Nat → ℝ) (shocks : Nat → List Bool → List (Nat → ℝ))
    (future : Option Nat → CoreState → List (Option Nat × ℝ)) (mean : Nat → ℝ) (sqrt : ℝ → ℝ)
    (V : Option Nat → CoreState → ℝ) : Prop :=
  (∀ d ∈ b.denseIndices, ∀ s ∈ core, ¬ b.Interpolates core s.period →
    IsBellman delta (fun a => (b.choiceSetAt d s)[a]? = some true) (w d s) (m d s)
      (continuationOf b future V d s) (shocks s.period (b.choiceSetAt d s)) (V d s)) ∧
  ∀ t, b.Interpolates core t → ∀ g ∈ b.groupsOfPeriod core t,
    ∃ (states simulated : List CoreState) (mx : CoreState → ℝ) (x : CoreState → List ℝ) (beta : List ℝ),
      states.Perm (b.group core t g) ∧ simulated.Sublist states ∧ simulated ≠ [] ∧
      min 2 states.length ≤ simulated.length ∧
      (∀ s ∈ states, IsKw94Regressors sqrt g.2
        (fun a => w g.1 s a * mean a + m g.1 s a + delta * continuationOf b future V g.1 s a) (mx s)
        (x s)) ∧
      (∀ s ∈ simulated, IsBellman delta (fun a => g.2[a]? = some true) (w g.1 s) (m g.1 s)
          (continuationOf b future V g.1 s) (shocks t g.2) (V g.1 s)) ∧
      IsLeastSquares (2 * (alternatives g.2).length + 1) (simulated.map fun s => V g.1 s - mx s)
        (simulated.map x) beta ∧
      (simulated.map fun s => V g.1 s - mx s - prediction (x s) beta).sum = 0 ∧
      ∀ s ∈ states, s ∉ simulated → V g.1 s = mx s + max 0 (prediction (x s) beta)

end Respy
