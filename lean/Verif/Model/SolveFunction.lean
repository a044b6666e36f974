import Verif.Model.ProcessModel
import Verif.Model.SimulateSpace
import Verif.Model.Interpolate

/-!
# Functions of the parameters

Model of `get_solve_func` and `solve` (`respy/solve.py:19-78`): parameters and options are processed once when the
function is created and again, together with the processed options, whenever it is called.
-/

namespace Respy

/-- The processed options as input of the next call of `process_params_and_options` (`respy/solve.py:46-56`,
`respy/simulate.py:74-82, 182`, `respy/likelihood.py:93-99, 158`). The keys which are added to the options, e.g.
`covariates_all`, are overwritten. `options["covariates"]` are the formulas of `covariates_all`
(`respy/pre_processing/process_covariates.py:92-136`). -/
def UserModel.reprocessed (m : UserModel) (p : Processed) (params : Dict (Str × Str) ℝ) : UserModel :=
  { m with
    params
    covariates := p.groups.all.map fun kv => (kv.1, kv.2.formula)
    negativeChoiceSet := p.negativeChoiceSet
    filters := p.filters }

/-- Random numbers, numeric routines and orders of sets used in the solution (`respy/solve.py:81-260`,
`respy/interpolate.py`); `ev0` are the arrays of expected value functions before the call. -/
structure SolveRoutines where
  senv : SolveEnv
  rng : InterpolationRandom
  sqrt : ℝ → ℝ
  ols : List ℝ → List (List ℝ) → List ℝ
  maxLog : ℝ
  seed : Nat
  ev0 : Built → Dict Nat (List ℝ)
  valueCounts : List Nat → List Nat
  keyOrder : List Nat → List Nat

/-- `solve` after the processing (`respy/solve.py:57-78`): the state space with its covariates is the one of `p`,
the parameters are those of `q`. The state space is created here; it does not depend on the call. -/
noncomputable def Processed.solveWith (p q : Processed) (ev : FormulaEval) (r : SolveRoutines) :
    Option (SimSpace ℝ) :=
  let b := p.buildSpec ev
  let inp := { q.solveInput ev r.senv with covariates := p.covariates ev }
  (buildSpace b).bind fun bt =>
    inp.solveModel b (if p.exogenous = [] then fun _ => some [] else inp.transitions q.exogenousParams b)
      (kw94 bt.space r.rng r.sqrt r.ols (expShocks Real.exp r.maxLog q.choices.wWage.length q.cholesky))
      r.seed r.ev0 r.valueCounts r.keyOrder

/-- `get_solve_func(params, options)` (`respy/solve.py:19-52`): the function `solve`; `none` is an exception. -/
noncomputable def getSolveFunc (env : ProcessEnv) (ev : FormulaEval) (r : SolveRoutines) (m : UserModel) :
    Option (Dict (Str × Str) ℝ → Option (SimSpace ℝ)) := do
  let p ← processModel env m
  let _ ← buildSpace (p.buildSpec ev)
  pure fun params => do
    let q ← processModel env (m.reprocessed p params)
    p.solveWith q ev r

end Respy
