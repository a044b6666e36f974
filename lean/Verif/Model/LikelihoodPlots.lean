import Verif.Model.LogLike
import Verif.Model.Moments

/-!
# Data for plots of the likelihood

Model of `_create_comparison_plot_data` (`respy/likelihood.py:579-617`) and of the dictionary which `log_like` returns
with `return_scalar=False` (`respy/likelihood.py:166-176`).
-/

namespace Respy

/-- The column `kind` (`respy/likelihood.py:600-601`): the part of `loglike_choice` and `loglike_wage` after `_`. -/
inductive LoglikeKind
  | choice
  | wage
deriving DecidableEq

/-- A row of the data for plots (`respy/likelihood.py:596-615`). Rows with log likelihoods have no values in the columns
`type` and `log_type_probability`, rows with type probabilities only have these columns, identifier and period. -/
inductive LoglikePlotRow
  | contribution (identifier period : Nat) (choice : Str) (value : ℝ) (kind : LoglikeKind)
  | typeProbability (identifier period type : Nat) (value : ℝ)

/-- `astype({"identifier": "uint16"})` for integers (`respy/likelihood.py:598`): NumPy keeps the lowest 16 bits. -/
def toUint16 (n : Nat) : Nat := n % 65536

/-- `astype({"period": "uint8"})` for integers (`respy/likelihood.py:598`): NumPy keeps the lowest 8 bits. -/
def wrapPeriod (n : Nat) : Nat := n % 256

/-- `df["choice"].replace(dict(enumerate(optim_paras["choices"])))` (`respy/likelihood.py:583-585`); other codes remain.
Simplification: remaining codes are texts. -/
def choiceOfCode (choices : List Str) (code : Nat) : Str := choices.getD code (numberText code)

/-- `is_wage_missing` (`respy/likelihood.py:589`); the log of the clipped wage is missing if and only if the wage is. -/
def isWageMissing (choices choicesWithWage : List Str) (r : EstimationRow) : Bool :=
  r.wage.isNone && decide (choiceOfCode choices r.choice ∈ choicesWithWage)

/-- The rows with log likelihoods (`respy/likelihood.py:583-602`): `melt` stacks the columns, `dropna` removes the log
likelihoods of missing wages. Simplification: no column of the data contains `loglike` in its name. -/
def meltedLoglikes (choices choicesWithWage : List Str) (rows : List (EstimationRow × LoglikeRow)) :
    List LoglikePlotRow :=
  (rows.map fun x => .contribution (toUint16 x.1.id) (wrapPeriod x.1.state.core.period)
    (choiceOfCode choices x.1.choice) x.2.choice .choice) ++
  rows.filterMap fun x =>
    if isWageMissing choices choicesWithWage x.1 then none
    else some (.contribution (toUint16 x.1.id) (wrapPeriod x.1.state.core.period) (choiceOfCode choices x.1.choice)
      x.2.wage .wage)

/-- `_create_comparison_plot_data` (`respy/likelihood.py:579-617`). With at least two types, the log type probabilities
of all rows of `type_covariates`, which are in period zero, are appended type by type. -/
noncomputable def likelihoodPlotData (lo hi : ℝ) (nTypes : Nat) (choices choicesWithWage : List Str)
    (rows : List (EstimationRow × LoglikeRow)) (identifiers : List Nat) (xBetas : Nat → List ℝ) :
    Option (List LoglikePlotRow) :=
  if nTypes ≥ 2 then do
    let probs ← (typeCovariateRows nTypes identifiers).mapM fun i =>
      (logTypeProbabilities lo hi (xBetas i)).map fun p => (i, p)
    pure (meltedLoglikes choices choicesWithWage rows ++
      (List.range nTypes).flatMap fun t => probs.map fun ip => .typeProbability ip.1 0 t (ip.2.getD t 0))
  else some (meltedLoglikes choices choicesWithWage rows)

/-- The dictionary of `log_like` with `return_scalar=False` (`respy/likelihood.py:168-175`). -/
structure LogLikeResult where
  value : ℝ
  contributions : List ℝ
  plotData : List LoglikePlotRow

/-- `get_log_like_func` followed by `log_like` with `return_scalar=False` (`respy/likelihood.py:32-176`); `choices` and
`choicesWithWage` are those of `optim_paras`. -/
noncomputable def Estimation.logLikeResult {P : Type} (e : Estimation P) (choices choicesWithWage : List Str)
    (params : P) : Option LogLikeResult := do
  let sp ← e.solve params
  let located ← e.located sp
  let rows ← e.loglikeRows (e.params params) sp
  let contribs ← Respy.contributions e.lo e.hi e.nTypes rows e.identifiers (e.xBetas (e.params params))
  let plot ← likelihoodPlotData e.lo e.hi e.nTypes choices choicesWithWage ((located.map (·.row)).zip rows)
    e.identifiers (e.xBetas (e.params params))
  pure ⟨meanOf contribs, contribs, plot⟩

end Respy
