import Verif.Model.Emax
import Verif.Model.Exogenous

/-!
# Backward induction

Model of `respy/solve.py:54-233` and `respy/state_space.py:189-195, 222-292, 360-405, 820-863`.
-/

namespace Respy

/-- The attributes of `StateSpace` which are used by the solution and do not depend on parameters
(`respy/state_space.py:116-131`). Dense keys are positions in `complexes`. -/
structure SolveSpace where
  nPeriods : Nat
  /-- `dense_key_to_complex` -/
  complexes : List Complex
  /-- lengths of `dense_key_to_core_indices` -/
  nStates : List Nat
  /-- `child_indices` -/
  childIndices : Dict Nat (List (List (Nat × Nat)))
  /-- `core_key_and_dense_index_to_dense_key` -/
  lookup : Dict (Nat × Nat) Nat
  /-- `transit_key_to_choice_set`, present with exogenous processes -/
  transit : Option (Dict Nat (List Bool))
  /-- `options["interpolation_points"]` -/
  interpolationPoints : Nat

/-- The objects which depend on the parameters: `state_space.wages`, `state_space.nonpecs`
(`respy/solve.py:62-73`), the transformed draws (`respy/solve.py:158-163`), the discount factor and
the transition probabilities dumped in `respy/solve.py:102-106`. -/
structure ParamObjects (K : Type _) where
  wages : Dict Nat (List (List K))
  nonpecs : Dict Nat (List (List K))
  draws : Dict Nat (List (List K))
  delta : K
  transition : Dict Nat (List (Nat × List K))

/-- `get_dense_keys_from_period` (`respy/state_space.py:360-366`). -/
def SolveSpace.keysOfPeriod (ss : SolveSpace) (period : Nat) : List Nat :=
  (List.range ss.complexes.length).filter fun k =>
    decide (ss.complexes[k]?.map (·.period) = some period)

/-- `get_attribute_from_period` (`respy/state_space.py:368-384`). -/
def SolveSpace.attributeOfPeriod {ν : Type _} (ss : SolveSpace) (d : Dict Nat ν) (period : Nat) :
    Dict Nat ν :=
  d.filter fun kv => (ss.keysOfPeriod period).contains kv.1

/-- The choice set used for the columns of the continuation values of a dense key: its transit
choice set if there are exogenous processes, else its own (`respy/state_space.py:262-267`). -/
def SolveSpace.columnChoiceSet (ss : SolveSpace) (k : Nat) : Option (List Bool) :=
  match ss.transit with
  | some tr => tr.get? k
  | none => ss.complexes[k]?.map (·.choiceSet)

variable {K : Type _} [Field K] [LinearOrder K]

/-- `_get_continuation_values` for one dense key (`respy/state_space.py:820-863`); `none` is a
`KeyError` or an access out of bounds. `evNext` are the expected value functions of the next
period. -/
def continuationArray (ss : SolveSpace) (evNext : Dict Nat (List K)) (k : Nat) :
    Option (List (List K)) := do
  let c ← ss.complexes[k]?
  let cs ← ss.columnChoiceSet k
  let n ← ss.nStates[k]?
  let children ← ss.childIndices.get? k
  (List.range n).mapM fun i => (List.range (cs.count true)).mapM fun j => do
    let childRow ← children[i]?
    let child ← childRow[j]?
    let denseChoice ← ss.lookup.get? (child.1, c.dense.getD 0)
    let values ← evNext.get? denseChoice
    values[child.2]?

/-- `StateSpace.get_continuation_values` (`respy/state_space.py:222-292`). Simplification: for a period without dense
keys the decorated function raises an exception, here the dictionary is empty. Such a period has no solution either
(`periodValues`) unless the discount factor is zero. -/
def continuationValues (ss : SolveSpace) (transition : Dict Nat (List (Nat × List K)))
    (ev : Dict Nat (List K)) (period : Nat) : Option (Dict Nat (List (List K))) :=
  if period + 1 = ss.nPeriods then
    (ss.keysOfPeriod period).mapM fun k => do
      let c ← ss.complexes[k]?
      let n ← ss.nStates[k]?
      pure (k, List.replicate n (List.replicate (c.choiceSet.count true) 0))
  else do
    let evNext := ss.attributeOfPeriod ev (period + 1)
    let cvs ← (ss.keysOfPeriod period).mapM fun k => do
      let a ← continuationArray ss evNext k
      pure (k, a)
    match ss.transit with
    | none => pure cvs
    | some reps => (ss.keysOfPeriod period).mapM fun k => do
      let c ← ss.complexes[k]?
      let n ← ss.nStates[k]?
      let tr ← transition.get? k
      let a ← weightContinuationValues c.choiceSet reps cvs tr n
      pure (k, a)

/-- `_full_solution` for one dense key (`respy/solve.py:215-233`). -/
def fullSolution (ss : SolveSpace) (par : ParamObjects K) (cvs : Dict Nat (List (List K)))
    (k : Nat) : Option (List K) := do
  let n ← ss.nStates[k]?
  let wages ← par.wages.get? k
  let nonpecs ← par.nonpecs.get? k
  let cv ← cvs.get? k
  let draws ← par.draws.get? k
  (List.range n).mapM fun i => do
    let w ← wages[i]?
    let m ← nonpecs[i]?
    let c ← cv[i]?
    emax? w m c draws par.delta

/-- A value assigned in `set_attribute_from_keys`: a number is broadcast, an array is copied
(`respy/state_space.py:386-405`). -/
inductive PeriodValue (K : Type _)
  | scalar (x : K)
  | array (xs : List K)

/-- `options["interpolation_points"] < n_states_in_period and
options["interpolation_points"] >= 2 * len(dense_keys_in_period)` (`respy/solve.py:173-183`). -/
def SolveSpace.anyInterpolated (ss : SolveSpace) (period : Nat) : Bool :=
  let keys := ss.keysOfPeriod period
  let n := (keys.map fun k => (ss.nStates[k]?).getD 0).sum
  decide (ss.interpolationPoints < n) && decide (2 * keys.length ≤ ss.interpolationPoints)

/-- The interpolation of `respy/interpolate.py`: from the parameter objects, the continuation values
of a period, the period and the next seed it computes the expected value functions and the next seed.
See `Verif/Model/Interpolate.lean` for its model (`respy/interpolate.py:13-125`). -/
abbrev Interpolation (K : Type _) :=
  ParamObjects K → Dict Nat (List (List K)) → Nat → Nat → Option (Dict Nat (List K) × Nat)

/-- The three branches of `_solve_with_backward_induction` for one period
(`respy/solve.py:185-206`). The second component is the state of
`options["solution_seed_iteration"]`. If no dense key belongs to the period, the decorated functions
`_get_continuation_values` and `_full_solution` are called with empty dictionaries instead of being called for each
dense key (`respy/parallelization.py:32-57`) and raise an exception. -/
def periodValues (ss : SolveSpace) (interp : Interpolation K) (par : ParamObjects K)
    (ev : Dict Nat (List K)) (period seed : Nat) :
    Option (List (Nat × PeriodValue K) × Nat) :=
  if par.delta = 0 then
    some ((ss.keysOfPeriod period).map fun k => (k, .scalar 0), seed)
  else if ss.anyInterpolated period then do
    let cvs ← continuationValues ss par.transition ev period
    let (values, seed') ← interp par cvs period seed
    pure (values.map fun kv => (kv.1, .array kv.2), seed')
  else if ss.keysOfPeriod period = [] then none
  else do
    let cvs ← continuationValues ss par.transition ev period
    let values ← (ss.keysOfPeriod period).mapM fun k => do
      let v ← fullSolution ss par cvs k
      pure (k, PeriodValue.array v)
    pure (values, seed)

/-- `array[:] = value`: NumPy broadcasts numbers and arrays of length one; `none` is the
`ValueError` for other shapes (`respy/state_space.py:386-405`). -/
def assignInPlace (old : List K) : PeriodValue K → Option (List K)
  | .scalar x => some (List.replicate old.length x)
  | .array xs =>
    if xs.length = old.length then some xs
    else match xs with
      | [x] => some (List.replicate old.length x)
      | _ => none

/-- `set_attribute_from_keys` (`respy/state_space.py:386-405`): in place, key by key. The Boolean is
`false` if an exception is raised, in which case the earlier keys are already changed. -/
def setAttribute : Dict Nat (List K) → List (Nat × PeriodValue K) → Dict Nat (List K) × Bool
  | ev, [] => (ev, true)
  | ev, (k, v) :: rest =>
    match (ev.get? k).bind fun old => assignInPlace old v with
    | none => (ev, false)
    | some new => setAttribute (ev.insert k new) rest

/-- The loop over periods of `_solve_with_backward_induction` (`respy/solve.py:165-210`). -/
def backwardLoop (ss : SolveSpace) (interp : Interpolation K) (par : ParamObjects K) :
    List Nat → Dict Nat (List K) → Nat → Dict Nat (List K) × Bool
  | [], ev, _ => (ev, true)
  | t :: ts, ev, seed =>
    match periodValues ss interp par ev t seed with
    | none => (ev, false)
    | some (values, seed') =>
      match setAttribute ev values with
      | (ev', true) => backwardLoop ss interp par ts ev' seed'
      | (ev', false) => (ev', false)

/-- `_solve_with_backward_induction` (`respy/solve.py:132-212`). -/
def solveBackward (ss : SolveSpace) (interp : Interpolation K) (par : ParamObjects K)
    (seed : Nat) (ev : Dict Nat (List K)) : Dict Nat (List K) × Bool :=
  backwardLoop ss interp par (List.range ss.nPeriods).reverse ev seed

/-- `create_arrays_for_expected_value_functions` (`respy/state_space.py:189-195`). -/
def initialValues (ss : SolveSpace) : Dict Nat (List K) :=
  ss.nStates.mapIdx fun k n => (k, List.replicate n 0)

end Respy
