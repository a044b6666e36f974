import Verif.Model.Dense
import Mathlib.Analysis.SpecialFunctions.Exp

/-!
# Transition probabilities of exogenous processes

Model of `respy/exogenous_processes.py:14-65, 147-168` and `respy/shared.py:800-814`.
-/

namespace Respy

/-- `dense_covariates_to_dense_index` (`respy/state_space.py:176-182`): the enumerated dense grid. -/
def denseIndexOf (grid : List (List Nat)) : Dict (List Nat) Nat :=
  Dict.ofItems (grid.mapIdx fun i k => (k, i))

/-- `dense_covariates[:-n_exog]` for `n_exog ≥ 1` (`respy/exogenous_processes.py:157`). -/
def staticPart (nExog : Nat) (covariates : List Nat) : List Nat :=
  covariates.take (covariates.length - nExog)

/-- `get_exogenous_from_dense_covariates` (`respy/shared.py:800-814`): `dense_covariates[-n_exog:]`
for `n_exog ≥ 1`. -/
def exogenousPart (nExog : Nat) (covariates : List Nat) : List Nat :=
  covariates.drop (covariates.length - nExog)

/-- `exogenous_grid` (`respy/state_space.py:205-206`): all combinations of levels. `levels` lists the
numbers of levels of the processes. -/
def exogenousGrid (levels : List Nat) : List (List Nat) := product (levels.map List.range)

/-- `create_transition_objects` for one dense key (`respy/exogenous_processes.py:147-168`); `none` is
a `KeyError`. -/
def transitKeys (dense : List (List Nat)) (lookup : Dict (Nat × Nat) Nat) (levels : List Nat)
    (covariates : List Nat) (coreKey : Nat) : Option (List Nat) :=
  (exogenousGrid levels).mapM fun exog => do
    let idx ← (denseIndexOf dense).get? (staticPart levels.length covariates ++ exog)
    lookup.get? (coreKey, idx)

/-- `special.softmax` of one row (SciPy): `exp(x_j) / Σ exp(x_k)`. SciPy shifts by the maximum, which
cancels in exact arithmetic (`respy/exogenous_processes.py:49`). -/
noncomputable def softmax (xs : List ℝ) : List ℝ :=
  xs.map fun x => Real.exp x / (xs.map Real.exp).sum

/-- The product over the processes of the probabilities of the levels `vals` for one state
(`respy/exogenous_processes.py:56-62`); `probs` has one row of probabilities per process, `none` is an
`IndexError`. `functools.reduce` without a start value fails for no process, which does not occur
since the function is only called with exogenous processes (`respy/solve.py:102`). -/
def pointProbability : List (List ℝ) → List Nat → Option ℝ
  | [], [] => some 1
  | ps :: probs, v :: vals => do
    let p ← ps[v]?
    let rest ← pointProbability probs vals
    pure (p * rest)
  | [], _ :: _ => none
  | _ :: _, [] => some 1

/-- One row of the frame created by `compute_transition_probabilities`
(`respy/exogenous_processes.py:14-65`): for each transit key (keys of a dictionary) its column.

* `xbetas`: one row of linear indices per process (`respy/exogenous_processes.py:41-47`)
* `covariatesOf`: `dense_key_to_dense_covariates` -/
noncomputable def transitionRow (xbetas : List (List ℝ)) (covariatesOf : Nat → Option (List Nat))
    (keys : List Nat) : Option (List (Nat × ℝ)) :=
  keys.eraseDups.mapM fun k => do
    let cov ← covariatesOf k
    let p ← pointProbability (xbetas.map softmax) (exogenousPart xbetas.length cov)
    pure (k, p)

end Respy
