import Verif.Model.Simulate
import Verif.Model.TransitionFrame
import Verif.Model.Rewards

/-!
# The solved state space of the simulation

Model of how `respy/simulate.py:181-226` uses the object returned by `solve`.
-/

namespace Respy

variable {K : Type _} [Field K] [LinearOrder K]

/-- A transition frame, given by its columns, as labels of the columns and rows
(`respy/simulate.py:477-483`). All columns have one value per state, so that the default is not used. -/
def frameRows (cols : List (Nat × List K)) : List Nat × List (List K) :=
  (cols.map Prod.fst, (List.range ((cols.head?.map fun c => c.2.length).getD 0)).map fun i =>
    cols.map fun c => (c.2[i]?).getD 0)

/-- The solved state space as it is used in the simulation (`respy/simulate.py:181-226`): dictionaries of
the state space (`respy/state_space.py:66-187`), dumped wages, non-pecuniary rewards and transition frames
(`respy/solve.py:81-108`) and the continuation values computed from the expected value functions `ev`
(`respy/state_space.py:222-292`). -/
def Built.simSpace (b : BuildSpec) (bt : Built) (par : ParamObjects K) (ev : Dict Nat (List K))
    (valueCounts keyOrder : List Nat → List Nat) : SimSpace K where
  indexer := bt.indexer
  denseIndex := b.grid.map denseIndexOf
  lookup := bt.space.lookup
  complexes := bt.space.complexes
  wages := par.wages
  nonpecs := par.nonpecs
  cvs := continuationValues bt.space par.transition ev
  covariates := fun k => b.grid.bind fun grid => bt.covariatesOf grid k
  nExog := b.exogLevels.length
  transition := par.transition.map fun kv => (kv.1, frameRows kv.2)
  valueCounts := valueCounts
  keyOrder := keyOrder

/-- `get_solve_func` and `solve` (`respy/solve.py:19-78`) as used by the simulation
(`respy/simulate.py:181`): the state space is created, then wages, non-pecuniary rewards, draws and
transition frames, then the expected value functions, starting from the arrays `ev0`, which may be those of
an earlier call. `none` is an exception. -/
def SolveInput.solveModel (inp : SolveInput K) (b : BuildSpec)
    (transitions : Built → Option (Dict Nat (List (Nat × List K)))) (interp : Interpolation K) (seed : Nat)
    (ev0 : Built → Dict Nat (List K)) (valueCounts keyOrder : List Nat → List Nat) :
    Option (SimSpace K) := do
  let bt ← buildSpace b
  let transition ← transitions bt
  let par ← inp.paramObjects bt transition
  let solved := solveBackward bt.space interp par seed (ev0 bt)
  if solved.2 then some (bt.simSpace b par solved.1 valueCounts keyOrder) else none

/-- A characteristic whose levels are sampled with multinomial logit probabilities
(`respy/simulate.py:488-542`): `betas` are the coefficients of the levels, `covariates` computes the row of
covariates from the known characteristics of an individual. Simplification: covariates which do not exist
count as zero, where pandas raises a `KeyError`. -/
noncomputable def logitCharacteristic (column : Nat) (levels : List Nat) (betas : List (List (Str × ℝ)))
    (covariates : CharRow → StateRow ℝ) : Characteristic ℝ where
  column := column
  levels := levels
  probs := fun fp => fp.map fun row => softmax (betas.map fun beta =>
    (beta.map fun item => item.2 * (covariates row item.1).getD 0).sum)

end Respy
