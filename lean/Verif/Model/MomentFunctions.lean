import Verif.Model.Moments
import Verif.Model.ParameterFunctions

/-!
# The function of moment errors

Model of `get_moment_errors_func` and `moment_errors` (`respy/method_of_simulated_moments.py:27-251`) as a function of
the parameters of an accepted model, with all parts of the result, and of the data for plots
(`respy/method_of_simulated_moments.py:302-323, 399-458`).
-/

namespace Respy

section
variable {K : Type _} [Field K]

/-- `get_flat_moments` (`respy/method_of_simulated_moments.py:302-323`). -/
def getFlatMoments (empirical : Input (Moments K)) : Option (Series K) := flattenIndex (harmonizeInput empirical)

/-- A row of `_create_tidy_data` (`respy/method_of_simulated_moments.py:426-458`). -/
structure TidyRow (K : Type _) where
  column : Str
  row : Str
  value : Option K
  set : Str
deriving DecidableEq

/-- The loop body of `_create_tidy_data` (`respy/method_of_simulated_moments.py:439-456`): a series becomes a frame with
the name of the set as its only column. Simplification: labels are texts, see `Moments`. -/
def tidyOne (name : Str) (m : Moments K) : List (TidyRow K) :=
  ((m.columns.getD [name]).zip m.values).flatMap fun cv =>
    (m.index.zip cv.2).map fun iv => ⟨cv.1, iv.1, iv.2, name⟩

/-- `_create_tidy_data` (`respy/method_of_simulated_moments.py:426-458`); there is nothing to concatenate in an empty
dictionary. -/
def createTidyData (d : Dict Str (Moments K)) : Option (List (TidyRow K)) :=
  if d = [] then none else some (d.flatMap fun nm => tidyOne nm.1 nm.2)

/-- The column `kind` (`respy/method_of_simulated_moments.py:417-418`). -/
inductive MomentKind
  | empirical
  | simulated
deriving DecidableEq

/-- `_create_comparison_plot_data_msm` (`respy/method_of_simulated_moments.py:399-424`). -/
def comparisonPlotDataMsm (empirical simulated : Dict Str (Moments K)) : Option (List (TidyRow K × MomentKind)) := do
  let e ← createTidyData empirical
  let s ← createTidyData simulated
  pure ((e.map fun r => (r, .empirical)) ++ s.map fun r => (r, .simulated))

/-- What `moment_errors` returns with `return_scalar=False` (`respy/method_of_simulated_moments.py:238-250`). -/
structure MomentResult (K : Type _) where
  value : Option K
  errors : Series K
  rootContributions : Option (List K)
  plotData : List (TidyRow K × MomentKind)
  simulated : Input (Moments K)

/-- `moment_errors` with `return_scalar=False` (`respy/method_of_simulated_moments.py:213-251`). -/
def momentResult {D : Type _} (sqrt : K → K) (funcs : Dict Str (D → Option (Moments K)))
    (replaceNans : Dict Str (Moments K → Option (Moments K))) (empirical : Dict Str (Moments K))
    (weights : List (List K)) (empiricalAreDict : Bool) (df : D) : Option (MomentResult K) := do
  let sim ← simulatedMoments funcs replaceNans empirical df
  let flatEmpirical ← flattenIndex empirical
  let flatSimulated ← flattenIndex sim
  let errors ← subSeries flatEmpirical flatSimulated
  let value ← criterionValue (errors.map Prod.snd) weights
  let roots ← rootContributions sqrt (errors.map Prod.snd) weights
  let plotData ← comparisonPlotDataMsm empirical sim
  pure ⟨value, errors, roots, plotData, returnedMoments empiricalAreDict sim⟩

end

/-- The arguments of `get_moment_errors_func` beside parameters and options
(`respy/method_of_simulated_moments.py:27-36`). The functions get the sample. -/
structure MomentArguments where
  calcMoments : Input (List (SimRow ℝ) → Option (Moments ℝ))
  replaceNans : Option (Input (Moments ℝ → Option (Moments ℝ)))
  empirical : Input (Moments ℝ)
  weights : Option (List (List ℝ))

/-- `isinstance(empirical_moments, dict)` (`respy/method_of_simulated_moments.py:110`). -/
def Input.isDict {α : Type _} : Input α → Bool
  | .dict _ => true
  | _ => false

/-- `get_moment_errors_func(params, options, ...)` (`respy/method_of_simulated_moments.py:109-162`): a function of the
parameters and the state of the global random number generator. `none` is an exception, in the result of
`get_moment_errors_func` or of the call. -/
noncomputable def getMomentErrorsFunc {G : Type} (env : ProcessEnv) (ev : FormulaEval) (r : SolveRoutines)
    (m : UserModel) (e : SimulateEnv G) (a : MomentArguments) :
    Option (Dict (Str × Str) ℝ → G → Option (MomentResult ℝ) × G) := do
  let w ← chosenWeights (harmonizeInput a.empirical) a.weights
  let simulate ← getSimulateFunc env ev r m e
  let empirical := harmonizeInput a.empirical
  let calcs := harmonizeInput a.calcMoments
  let replace := harmonizeReplaceNans some empirical a.replaceNans
  if lengthsFit empirical.length calcs.length replace.length then
    pure fun params g =>
      ((simulate params g).1.bind (momentResult Real.sqrt calcs replace empirical w a.empirical.isDict),
        (simulate params g).2)
  else none

end Respy
