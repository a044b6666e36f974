import Verif.Model.ProcessModel
import Verif.Model.LogLike

/-!
# From parameters and options to the criterion function

Model of the way in which `log_like` uses the parameters (`respy/likelihood.py:91-160, 245-260, 284-364, 536-546`):
parameters of the likelihood and covariates of type probabilities.
-/

namespace Respy

/-- What does not depend on the parameters: data, random numbers, numeric constants and the routines of numpy
(`respy/likelihood.py:91-130`). `order` is the order in which Python visits a set and `fuel` bounds the number of
passes in `identify_necessary_covariates`. -/
structure EstimateEnv where
  data : List EstimationRow
  seed : Nat
  base : Nat → Nat → Nat → List (List (List ℝ))
  tau : ℝ
  lo : ℝ
  hi : ℝ
  maxLog : ℝ
  la : ∀ n, LinearAlgebra n
  order : Nat → List Str → List Str
  fuel : Nat

/-- The parameters used in the likelihood (`respy/likelihood.py:285-325, 355-362`). -/
def Processed.likelihoodParams (p : Processed) : LikelihoodParams where
  cholesky := p.cholesky
  nWagesRaw := p.choices.wWage.length
  measError := p.measurement.2
  hasMeasError := p.measurement.1
  betaDelta := p.discount.betaDelta
  typeProb := p.typeProb.map Prod.snd

/-- The number of observables which are no exogenous process (`respy/shared.py:405-419`). -/
def Processed.nStatic (p : Processed) : Nat :=
  ((p.denseSpec.observables.map Prod.fst).filter
    fun x => !(p.denseSpec.exogenous.map Prod.fst).contains x).length

/-- A row of the data with the state variables; the rows are indexed by identifier and period
(`respy/likelihood.py:521-526`). Simplification: the columns `choice`, `dense_key`, `core_index` and
`log_wage` are left out. -/
def Processed.observationFrame (p : Processed) (r : EstimationRow) : Frame ℝ :=
  ⟨(p.coreRow r.state.core).tail ++
      ((denseColumns p.denseSpec).map String.toList).zip (r.state.dense.map fun (n : Nat) => (n : ℝ)),
    [("identifier".toList, (r.id : ℝ)), ("period".toList, (r.state.core.period : ℝ))]⟩

/-- A row of `type_covariates` (`respy/likelihood.py:528-530, 541-546`), here the one which was duplicated for
type zero; the others differ only in the column `type`, which is overwritten below. -/
def Processed.typeCovariates (p : Processed) (ev : FormulaEval) (r : EstimationRow) : Option (Frame ℝ) :=
  (computeCovariates ev.value (fun _ => true) false false (p.observationFrame (r.withType p.nStatic 0))
    p.groups.core).toOption

/-- The frame with which the index of type `t` is computed (`respy/likelihood.py:355-360`); `none` is an
exception. -/
def Processed.typeFrame (p : Processed) (ev : FormulaEval) (env : EstimateEnv) (r : EstimationRow) (t : Nat) :
    Option (Frame ℝ) := do
  let df ← p.typeCovariates ev r
  let names := ((Dict.get? p.typeProb t).getD []).map Prod.fst
  let found ← (identifyNecessary p.groups.all env.order env.fuel names).toOption
  let necessary ← found.mapM fun kd => kd.2.map fun d => (kd.1, d)
  (computeCovariates ev.value (fun _ => true) false true ⟨df.columns.insert "type".toList (t : ℝ), df.index⟩
    necessary).toOption

/-- `get_log_like_func` for processed parameters (`respy/likelihood.py:91-130`) and the solution `sp` (`none` is an
exception of `solve`). -/
noncomputable def Processed.estimation (p : Processed) (ev : FormulaEval) (env : EstimateEnv)
    (sp : Option (SimSpace ℝ)) : Estimation Unit where
  data := env.data
  nTypes := p.nTypes
  nStatic := p.nStatic
  nPeriods := p.nPeriods
  seed := env.seed
  base := env.base
  tau := env.tau
  lo := env.lo
  hi := env.hi
  maxLog := env.maxLog
  la := env.la
  covariates := fun r t x => (p.typeFrame ev env r t).bind fun df => Dict.get? df.columns x
  params := fun _ => p.likelihoodParams
  solve := fun _ => sp

end Respy
