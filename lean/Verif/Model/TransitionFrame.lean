import Verif.Model.Rewards
import Verif.Model.Transition

/-!
# Transition frames of all dense keys

Model of `respy/exogenous_processes.py:14-65` as it is called in `respy/solve.py:55-75, 99-106`.
-/

namespace Respy

/-- `optim_paras["exogenous_processes"]`: for each process for each level its parameters
(`respy/exogenous_processes.py:36-49`). -/
abbrev ExogenousParams := List (List (List (Str × ℝ)))

/-- The linear indices of one state (`respy/exogenous_processes.py:41-47`); `none` is a `KeyError`. -/
noncomputable def exogenousIndices (ep : ExogenousParams) (row : StateRow ℝ) : Option (List (List ℝ)) :=
  ep.mapM fun levels => levels.mapM (pandasDot row)

/-- One entry of the frame (`respy/exogenous_processes.py:55-63`) for the state `row` and the future
dense covariates `covariates`. -/
noncomputable def transitionEntry (ep : ExogenousParams) (covariates : List Nat) (row : StateRow ℝ) :
    Option ℝ := do
  let xbetas ← exogenousIndices ep row
  pointProbability (xbetas.map softmax) (exogenousPart ep.length covariates)

/-- `compute_transition_probabilities` (`respy/exogenous_processes.py:14-65`): one column per transit
key. The transit keys are the keys of a dictionary. -/
noncomputable def transitionFrame (ep : ExogenousParams) (covariatesOf : Nat → Option (List Nat))
    (keys : List Nat) (rows : List (StateRow ℝ)) : Option (List (Nat × List ℝ)) :=
  keys.eraseDups.mapM fun k => do
    let covariates ← covariatesOf k
    let column ← rows.mapM (transitionEntry ep covariates)
    pure (k, column)

/-- `dense_key_to_dense_covariates` (`respy/state_space.py:184-187`). -/
def Built.covariatesOf (bt : Built) (grid : List (List Nat)) (k : Nat) : Option (List Nat) := do
  let kv ← bt.dpc[k]?
  let d ← kv.1.dense
  grid[d]?

/-- The transition frame of one dense key (`respy/solve.py:99-104`). -/
noncomputable def SolveInput.transitionsOfKey (inp : SolveInput ℝ) (ep : ExogenousParams)
    (b : BuildSpec) (bt : Built) (grid : List (List Nat)) (x : ((Complex × Nat) × Nat) × List CoreState) :
    Option (Nat × List (Nat × List ℝ)) := do
  let keys ← b.transitKeysOf bt.dpc grid x.1
  let frame ← transitionFrame ep (bt.covariatesOf grid) keys.2 (x.2.map (inp.covariates x.1.1.1.dense))
  pure (x.1.2, frame)

/-- The transition frames of all dense keys (`respy/solve.py:55-75`). -/
noncomputable def SolveInput.transitions (inp : SolveInput ℝ) (ep : ExogenousParams) (b : BuildSpec)
    (bt : Built) : Option (Dict Nat (List (Nat × List ℝ))) := do
  let grid ← b.grid
  (bt.dpc.zipIdx.zip bt.states).mapM (inp.transitionsOfKey ep b bt grid)

end Respy
