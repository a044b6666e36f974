import Verif.Model.Build
import Verif.Model.Shocks
import Verif.Model.Text

/-!
# Rewards and shocks of the solution

Model of `respy/solve.py:62-130`, `respy/shared.py:553-596` and `respy/state_space.py:338-358`.
-/

namespace Respy

variable {K : Type _} [Field K] [LinearOrder K]

/-- One row of a frame of states with covariates; `none` means that the column does not exist
(`respy/solve.py:91-106`). -/
abbrev StateRow (K : Type _) := Str → Option K

/-- `pandas_dot` for one row (`respy/shared.py:553-596`): `out += beta_ * x[covariate]` for each item of
`beta`; `none` is a `KeyError`. The code works on whole columns, so that the error is also raised if
there are no rows; there are no frames without rows here. -/
def pandasDot (row : StateRow K) (beta : List (Str × K)) : Option K :=
  beta.foldlM (fun out item => (row item.1).map fun x => out + item.2 * x) 0

/-- The parameters of the rewards of each choice code: `optim_paras[f"wage_{choice}"]` and
`optim_paras[f"nonpec_{choice}"]`; `none` means that the key does not exist (`respy/solve.py:111-129`). -/
structure LinearRewards (K : Type _) where
  wage : Nat → Option (List (Str × K))
  nonpec : Nat → Option (List (Str × K))

/-- Entry of `wages` (`respy/solve.py:118, 122-124`). -/
def wageEntry (exp : K → K) (rp : LinearRewards K) (row : StateRow K) (a : Nat) : Option K :=
  match rp.wage a with
  | none => some 1
  | some beta => (pandasDot row beta).map exp

/-- Entry of `nonpecs` (`respy/solve.py:119, 126-127`). -/
def nonpecEntry (rp : LinearRewards K) (row : StateRow K) (a : Nat) : Option K :=
  match rp.nonpec a with
  | none => some 0
  | some beta => pandasDot row beta

/-- `_create_choice_rewards` (`respy/solve.py:111-130`). The code fills the arrays column by column, the
model row by row. -/
def choiceRewards (exp : K → K) (rp : LinearRewards K) (cs : List Bool) (rows : List (StateRow K)) :
    Option (List (List K) × List (List K)) := do
  let wages ← rows.mapM fun row => (validChoices cs).mapM (wageEntry exp rp row)
  let nonpecs ← rows.mapM fun row => (validChoices cs).mapM (nonpecEntry rp row)
  pure (wages, nonpecs)

/-- `StateSpace.create_draws` (`respy/state_space.py:338-358`).

* `sizes`: `list(set(map(sum, dense_key_to_choice_set.values())))`, whose order is not specified
* `base n seed`: `create_base_draws((n_periods, solution_draws, n), seed, monte_carlo_sequence)`
* `seed`: the next value of `options["solution_seed_startup"]`, an `itertools.count`

`none` is a `ValueError` of `index` or an `IndexError`. -/
def createDraws (base : Nat → Nat → List (List (List K))) (sizes : List Nat) (seed : Nat)
    (complexes : List Complex) : Option (Dict Nat (List (List K))) :=
  let sets := sizes.mapIdx fun i n => base n (seed + i)
  complexes.zipIdx.mapM fun x => do
    let idx ← sizes.idxOf? (x.1.choiceSet.count true)
    let draws ← sets[idx]?
    let periodDraws ← draws[x.1.period]?
    pure (x.2, periodDraws)

/-- The inputs of the solution which depend on the parameters or on random numbers.

* `covariates d s`: the row of the frame `states` of the core state `s` and the dense index `d`
* `lo`, `hi`: `MIN_LOG_FLOAT`, `MAX_LOG_FLOAT` (`respy/solve.py:54-108`) -/
structure SolveInput (K : Type _) where
  exp : K → K
  lo : K
  hi : K
  rewards : LinearRewards K
  covariates : Option Nat → CoreState → StateRow K
  cholesky : List (List K)
  nWages : Nat
  delta : K
  base : Nat → Nat → List (List (List K))
  sizes : List Nat
  seed : Nat

/-- `_create_param_specific_objects` for one dense key with the complex `c` and the states `sts`
(`respy/solve.py:81-108`) without the transition probabilities, and the transformation of its draws
(`respy/solve.py:158-163`). -/
def SolveInput.objectsOfKey (inp : SolveInput K) (draws : Dict Nat (List (List K)))
    (x : (Complex × Nat) × List CoreState) :
    Option (Nat × (List (List K) × List (List K)) × List (List K)) := do
  let rewards ← choiceRewards inp.exp inp.rewards x.1.1.choiceSet
    (x.2.map (inp.covariates x.1.1.dense))
  let base ← draws.get? x.1.2
  let transformed ← base.mapM
    (transformDraw inp.exp inp.lo inp.hi inp.cholesky inp.nWages x.1.1.choiceSet)
  pure (x.1.2, rewards, transformed)

/-- The objects computed in `solve` before the backward induction (`respy/solve.py:55-75, 158-163`);
`transition` is computed separately. For a state space without dense keys the decorated function
`_create_param_specific_objects` is called with empty dictionaries (`respy/parallelization.py:32-57`) and raises an
exception in `load_objects`. -/
def SolveInput.paramObjects (inp : SolveInput K) (bt : Built)
    (transition : Dict Nat (List (Nat × List K))) : Option (ParamObjects K) :=
  if bt.space.complexes = [] then none
  else do
    let draws ← createDraws inp.base inp.sizes inp.seed bt.space.complexes
    let objs ← (bt.space.complexes.zipIdx.zip bt.states).mapM (inp.objectsOfKey draws)
    pure {
      wages := objs.map fun o => (o.1, o.2.1.1)
      nonpecs := objs.map fun o => (o.1, o.2.1.2)
      draws := objs.map fun o => (o.1, o.2.2)
      delta := inp.delta
      transition }

end Respy
