import Verif.Model.Dense
import Mathlib.Algebra.Field.Defs

/-!
# Continuation values with exogenous processes

Model of `respy/exogenous_processes.py:68-144`.
-/

namespace Respy

/-- Boolean indexing `xs[mask]`; `none` is the `IndexError` for a mask of the wrong length
(`respy/exogenous_processes.py:141-144`). -/
def boolIndex {α : Type _} (mask : List Bool) (xs : List α) : Option (List α) :=
  if mask.length = xs.length then
    some ((mask.zip xs).filterMap fun p => if p.1 then some p.2 else none)
  else none

/-- `_get_representation_cols` (`respy/exogenous_processes.py:141-144`):
`np.array(choice_set)[np.array(rep_choice_set)]`. -/
def representationCols (rep cs : List Bool) : Option (List Bool) := boolIndex rep cs

/-- `_get_maximal_choice_set` (`respy/exogenous_processes.py:133-138`): column-wise `any`;
`none` is the `ValueError` for an empty list or arrays of different lengths. -/
def maximalChoiceSet : List (List Bool) → Option (List Bool)
  | [] => none
  | cs :: rest =>
    if ∀ c ∈ rest, c.length = cs.length then some (rest.foldl (List.zipWith (· || ·)) cs) else none

/-- `create_transit_choice_set` (`respy/exogenous_processes.py:115-130`). `transit` maps dense keys
to the dense keys reachable by a change of the exogenous processes. -/
def transitChoiceSets (transit : Dict Nat (List Nat)) (choiceSets : Dict Nat (List Bool)) :
    Option (Dict Nat (List Bool)) :=
  transit.mapM fun kv => do
    let sets ← (transit.filter fun r => r.2.contains kv.1).mapM fun r => choiceSets.get? r.1
    let m ← maximalChoiceSet sets
    pure (kv.1, m)

variable {K : Type _} [Field K]

/-- `functools.reduce(np.add, columns)` for one row (`respy/exogenous_processes.py:111`); `none` for
no columns (`TypeError`) or different lengths (`ValueError`). -/
def reduceAdd : List (List K) → Option (List K)
  | [] => none
  | x :: rest =>
    if ∀ y ∈ rest, y.length = x.length then some (rest.foldl (List.zipWith (· + ·)) x) else none

/-- One row of `weight_continuation_values` (`respy/exogenous_processes.py:68-112`).

* `cs`: the choice set of the dense key, `complex_[1]`
* `reps`: `transit_key_to_choice_set`
* `cvs`: the continuation values of all dense keys of the period
* `transition`: the columns of the transition frame, `(future_key, probabilities)`
* `i`: the row -/
def weightRow (cs : List Bool) (reps : Dict Nat (List Bool)) (cvs : Dict Nat (List (List K)))
    (transition : List (Nat × List K)) (i : Nat) : Option (List K) := do
  let cols ← transition.mapM fun col => do
    let rep ← reps.get? col.1
    let mask ← representationCols rep cs
    let cv ← cvs.get? col.1
    let row ← cv[i]?
    let adjusted ← boolIndex mask row
    let p ← col.2[i]?
    pure (adjusted.map (p * ·))
  reduceAdd cols

/-- `weight_continuation_values` for one dense key (`respy/exogenous_processes.py:69-112`). -/
def weightContinuationValues (cs : List Bool) (reps : Dict Nat (List Bool))
    (cvs : Dict Nat (List (List K))) (transition : List (Nat × List K)) (nStates : Nat) :
    Option (List (List K)) :=
  (List.range nStates).mapM (weightRow cs reps cvs transition)

end Respy
