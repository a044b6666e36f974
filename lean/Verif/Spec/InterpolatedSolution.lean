import Verif.Spec.ValueFunction

/-!
# Specification of a solution with interpolation

Independent of dense keys, locations, arrays, masks and of the order of the computation.
-/

namespace Respy

variable {K : Type _} [Field K] [LinearOrder K]

/-- The states of a period: core states together with dense indices. -/
def BuildSpec.statesOfPeriod (b : BuildSpec) (core : List CoreState) (t : Nat) :
    List (Option Nat × CoreState) :=
  b.denseIndices.flatMap fun d => (core.filter fun s => decide (s.period = t)).map fun s => (d, s)

/-- The groups of a period: the dense indices together with the choice sets which occur. -/
def BuildSpec.groupsOfPeriod (b : BuildSpec) (core : List CoreState) (t : Nat) :
    List (Option Nat × List Bool) :=
  ((b.statesOfPeriod core t).map fun x => (x.1, b.choiceSetAt x.1 x.2)).dedup

/-- The core states of a group. -/
def BuildSpec.group (b : BuildSpec) (core : List CoreState) (t : Nat) (g : Option Nat × List Bool) :
    List CoreState :=
  core.filter fun s => decide (s.period = t ∧ b.choiceSetAt g.1 s = g.2)

/-- A period is interpolated if it has more states than interpolation points and if there are at least
two points per group. -/
def BuildSpec.Interpolates (b : BuildSpec) (core : List CoreState) (t : Nat) : Prop :=
  b.points < (b.statesOfPeriod core t).length ∧ 2 * (b.groupsOfPeriod core t).length ≤ b.points

/-- The mean of the shock of alternative `a`: for the first `nWages` alternatives the mean of a
log-normal variable whose variance is the sum of squares of a row of the Cholesky factor, bounded by
`maxLog`, else zero. -/
def expectedShock (exp : K → K) (maxLog : K) (nWages : Nat) (cholesky : List (List K)) (a : Nat) : K :=
  if a < nWages then exp (min (((cholesky.getD a []).map (· ^ 2)).sum) maxLog / 2) else 0

/-- The alternatives of a choice set in ascending order. -/
def alternatives (cs : List Bool) : List Nat :=
  (List.range cs.length).filter fun a => cs.getD a false

/-- `mx` is the largest of the values `v a` of the alternatives of `cs` and `x` lists the distances of the
values to `mx`, the square roots of the distances and a constant. -/
def IsKw94Regressors (sqrt : K → K) (cs : List Bool) (v : Nat → K) (mx : K) (x : List K) : Prop :=
  IsGreatest {y | ∃ a, cs[a]? = some true ∧ y = v a} mx ∧
    x = (alternatives cs).map (fun a => mx - v a) ++ (alternatives cs).map (fun a => sqrt (mx - v a)) ++
      [1]

/-- `V` solves the model for the `states` of a group of an interpolated period, of which those are simulated which are
marked:

* at least two states, or all of them, are simulated: they satisfy the Bellman equation;
* the coefficients of a regression `ols y X` are estimated with the simulated states of the group, where
  the dependent variable is the value minus the largest value at mean shocks and the regressors are those
  of `IsKw94Regressors`;
* the value of a state which is not simulated is its largest value at mean shocks plus the prediction of
  the regression, or plus zero if the prediction is negative.

Continuation values are those of `V` itself. -/
def SolvesGroup (b : BuildSpec) (core : List CoreState) (delta : K)
    (w m : Option Nat → CoreState → Nat → K) (shocks : Nat → List Bool → List (Nat → K))
    (future : Option Nat → CoreState → List (Option Nat × K)) (mean : Nat → K) (sqrt : K → K)
    (ols : List K → List (List K) → List K) (V : Option Nat → CoreState → K) (t : Nat) (g : Option Nat × List Bool)
    (states : List CoreState) (simulated : CoreState → Bool) : Prop :=
  ∃ (mx : CoreState → K) (x : CoreState → List K),
    states.Perm (b.group core t g) ∧
    min 2 states.length ≤ (states.filter simulated).length ∧
    (∀ s ∈ states, IsKw94Regressors sqrt g.2
      (fun a => w g.1 s a * mean a + m g.1 s a + delta * continuationOf b future V g.1 s a) (mx s)
      (x s)) ∧
    (∀ s ∈ states, simulated s = true →
      IsBellman delta (fun a => g.2[a]? = some true) (w g.1 s) (m g.1 s)
        (continuationOf b future V g.1 s) (shocks t g.2) (V g.1 s)) ∧
    ∀ s ∈ states, simulated s = false →
      V g.1 s = mx s + max 0 (List.zipWith (· * ·) (x s) (ols
        ((states.filter simulated).map fun s' => V g.1 s' - mx s')
        ((states.filter simulated).map x))).sum

/-- `V` solves the model with interpolation, where the states of each group of an interpolated period and those of them
which are simulated are given. Periods which are not interpolated satisfy the Bellman equation in all states. -/
def IsInterpolatedSolutionAt (b : BuildSpec) (core : List CoreState) (delta : K)
    (w m : Option Nat → CoreState → Nat → K) (shocks : Nat → List Bool → List (Nat → K))
    (future : Option Nat → CoreState → List (Option Nat × K)) (mean : Nat → K) (sqrt : K → K)
    (ols : List K → List (List K) → List K) (states : Nat → Option Nat × List Bool → List CoreState)
    (simulated : Nat → Option Nat × List Bool → CoreState → Bool) (V : Option Nat → CoreState → K) : Prop :=
  (∀ d ∈ b.denseIndices, ∀ s ∈ core, ¬ b.Interpolates core s.period →
    IsBellman delta (fun a => (b.choiceSetAt d s)[a]? = some true) (w d s) (m d s)
      (continuationOf b future V d s) (shocks s.period (b.choiceSetAt d s)) (V d s)) ∧
  ∀ t, b.Interpolates core t → ∀ g ∈ b.groupsOfPeriod core t,
    SolvesGroup b core delta w m shocks future mean sqrt ols V t g (states t g) (simulated t g)

/-- `V` solves the model with interpolation. Periods which are not interpolated satisfy the Bellman
equation in all states. Groups of interpolated periods are solved for some selection of simulated states. -/
def IsInterpolatedSolution (b : BuildSpec) (core : List CoreState) (delta : K)
    (w m : Option Nat → CoreState → Nat → K) (shocks : Nat → List Bool → List (Nat → K))
    (future : Option Nat → CoreState → List (Option Nat × K)) (mean : Nat → K) (sqrt : K → K)
    (ols : List K → List (List K) → List K) (V : Option Nat → CoreState → K) : Prop :=
  (∀ d ∈ b.denseIndices, ∀ s ∈ core, ¬ b.Interpolates core s.period →
    IsBellman delta (fun a => (b.choiceSetAt d s)[a]? = some true) (w d s) (m d s)
      (continuationOf b future V d s) (shocks s.period (b.choiceSetAt d s)) (V d s)) ∧
  ∀ t, b.Interpolates core t → ∀ g ∈ b.groupsOfPeriod core t,
    ∃ (states : List CoreState) (simulated : CoreState → Bool),
      SolvesGroup b core delta w m shocks future mean sqrt ols V t g states simulated

/-- The condition on the number of points under which a model can be solved: there are not exactly two
points per group in an interpolated period. With a discount factor of zero nothing is required. -/
def BuildSpec.PointsSuffice (b : BuildSpec) (core : List CoreState) (delta : K) : Prop :=
  delta ≠ 0 → ∀ t < b.core.nPeriods, b.Interpolates core t →
    b.points ≠ 2 * (b.groupsOfPeriod core t).length

/-- `V` are the values with which the model is simulated and estimated: a solution with interpolation, or
zero if the discount factor is zero, where values of the next period do not matter. -/
def IsSolution (b : BuildSpec) (core : List CoreState) (delta : K)
    (w m : Option Nat → CoreState → Nat → K) (shocks : Nat → List Bool → List (Nat → K))
    (future : Option Nat → CoreState → List (Option Nat × K)) (mean : Nat → K) (sqrt : K → K)
    (ols : List K → List (List K) → List K) (V : Option Nat → CoreState → K) : Prop :=
  (delta ≠ 0 → IsInterpolatedSolution b core delta w m shocks future mean sqrt ols V) ∧
    (delta = 0 → ∀ d ∈ b.denseIndices, ∀ s ∈ core, V d s = 0)

end Respy
