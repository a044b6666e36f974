import Verif.Model.SolveFunction
import Verif.Model.ProcessSimulate
import Verif.Model.ProcessEstimate

/-!
# Simulate functions and criterion functions

Model of `get_simulate_func` with `simulate` (`respy/simulate.py:74-111, 182-183`) and `get_log_like_func` with
`log_like` (`respy/likelihood.py:91-130, 158-164`) as functions of the parameters. Both process parameters and options
when the function is created, create a solve function with the processed options, and process the processed options
again in every call.
-/

namespace Respy

/-- `get_simulate_func(params, options)` (`respy/simulate.py:74-111, 182-244`): a function of the parameters and the
state of the random number generator. `none` is an exception, in the result of `get_simulate_func` or of the call.
Simplification: the number of simulated periods is the number of periods of the model. -/
noncomputable def getSimulateFunc {G : Type} (env : ProcessEnv) (ev : FormulaEval) (r : SolveRoutines) (m : UserModel)
    (e : SimulateEnv G) : Option (Dict (Str × Str) ℝ → G → Option (List (SimRow ℝ)) × G) := do
  let p ← processModel env m
  let solve ← getSolveFunc env ev r (m.reprocessed p m.params)
  pure fun params g =>
    match processModel env (m.reprocessed p params) with
    | none => (none, g)
    | some q => (q.simulation ev r.senv e (solve params)).run () g

/-- The frame with which the index of type `t` is computed (`respy/likelihood.py:355-360`): `type_covariates` are
those of `p`, which belong to the data, the covariates and parameters in the index are those of `q`. -/
def Processed.typeFrameWith (p q : Processed) (ev : FormulaEval) (env : EstimateEnv) (r : EstimationRow) (t : Nat) :
    Option (Frame ℝ) := do
  let df ← p.typeCovariates ev r
  let names := ((Dict.get? q.typeProb t).getD []).map Prod.fst
  let found ← (identifyNecessary q.groups.all env.order env.fuel names).toOption
  let necessary ← found.mapM fun kd => kd.2.map fun d => (kd.1, d)
  (computeCovariates ev.value (fun _ => true) false true ⟨df.columns.insert "type".toList (t : ℝ), df.index⟩
    necessary).toOption

/-- The criterion function with data processed with `p` and parameters `q` (`respy/likelihood.py:99-164`).
Simplification: the numbers of types and periods are those of `p`; they do not depend on the values of parameters. -/
noncomputable def Processed.estimationWith (p q : Processed) (ev : FormulaEval) (env : EstimateEnv)
    (sp : Option (SimSpace ℝ)) : Estimation Unit :=
  { p.estimation ev env sp with
    covariates := fun r t x => (p.typeFrameWith q ev env r t).bind fun df => Dict.get? df.columns x
    params := fun _ => q.likelihoodParams }

/-- `get_log_like_func(params, options, df)` (`respy/likelihood.py:91-130, 158-164`): a function of the parameters.
`none` is an exception. Checks of the data (C67) are not part of it. -/
noncomputable def getCriterionFunc (env : ProcessEnv) (ev : FormulaEval) (r : SolveRoutines) (m : UserModel)
    (e : EstimateEnv) : Option (Dict (Str × Str) ℝ → Option ℝ) := do
  let p ← processModel env m
  let solve ← getSolveFunc env ev r (m.reprocessed p m.params)
  pure fun params => do
    let q ← processModel env (m.reprocessed p params)
    (p.estimationWith q ev e (solve params)).logLike ()

end Respy
