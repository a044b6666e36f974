import Verif.Model.Build
import Verif.Model.Covariates
import Verif.Model.Labels
import Verif.Model.Names
import Verif.Model.ParseParams
import Verif.Model.Rewards
import Verif.Model.TransitionFrame
import Mathlib.Analysis.SpecialFunctions.Exp
import Mathlib.Algebra.Order.Floor.Semiring

/-!
# From parameters and options to the solution

Model of `process_params_and_options`, `_parse_parameters` and `_sync_optim_paras_and_options`
(`respy/pre_processing/model_processing.py:32-52, 138-152, 725-734`) and of the way in which
`create_state_space_class` and `solve` use the result. The steps are modelled in other files; here they are
put together.
-/

namespace Respy

/-- The parameters and options of the user with defaults (`respy/pre_processing/model_processing.py:38-42`).
`points` is zero if `options["interpolation_points"]` is `-1`. -/
structure UserModel where
  params : Dict (Str × Str) ℝ
  nPeriods : Nat
  points : Nat
  covariates : Dict Str Str
  negativeChoiceSet : Dict Str (List Str)
  filters : List Str

/-- `MAX_FLOAT`, `MIN_FLOAT` (`respy/config.py`) and estimagic's `robust_cholesky`, used in
`respy/pre_processing/model_processing.py:304-321, 545-564, 640`. -/
structure ProcessEnv where
  maxFloat : ℝ
  minFloat : ℝ
  robustCholesky : List (List ℝ) → List (List ℝ)

/-- Names, levels and coefficients of a group of distributions
(`respy/pre_processing/model_processing.py:185-242`). -/
abbrev LevelDict := Dict Level (List (Str × ℝ))

/-- `_parse_exogenous_processes` (`respy/pre_processing/model_processing.py:185-198`). The value `None` of a
name without parameters leads to a `TypeError` in `_parse_observables`, so that it is an error here. -/
noncomputable def parseExogenous (maxFloat : ℝ) (params : List ((Str × Str) × ℝ)) :
    Option (Dict Str LevelDict) := do
  let names ← parseNames "exogenous_process".toList (params.map fun p => p.1.1)
  let parsed ← (parseLevels maxFloat "exogenous_process".toList params names).toOption
  parsed.mapM fun kv => kv.2.map fun l => (kv.1, l)

/-- `_parse_observables` (`respy/pre_processing/model_processing.py:201-242`); an observable whose value is
`None` leads to a `TypeError` in `respy/state_space.py:669`, so that it is an error here. -/
noncomputable def parseObservables (maxFloat : ℝ) (params : List ((Str × Str) × ℝ))
    (exogenous : Dict Str LevelDict) : Option (Dict Str LevelDict) := do
  let names ← parseNames "observable".toList (params.map fun p => p.1.1)
  let parsed ← (parseLevels maxFloat "observable".toList params names).toOption
  let obs ← parsed.mapM fun kv => kv.2.map fun l => (kv.1, l)
  let all ← exogenous.foldlM (fun d kv => (initialLevels kv.2 (Dict.get? d kv.1)).map (Dict.insert d kv.1)) obs
  (sortedSet (Dict.keys all)).mapM fun name => (Dict.get? all name).map fun l => (name, l)

/-- `_parse_choice_parameters` for one category (`respy/pre_processing/model_processing.py:275-283`): `none`
if the key is not added to `optim_paras`. -/
def choiceParameters (params : Dict (Str × Str) ℝ) (category : Str) : Option (List (Str × ℝ)) :=
  if params.any fun p => p.1.1 = category then
    some ((params.filter fun p => p.1.1 = category).map fun p => (p.1.2, p.2))
  else none

/-- The parameters of initial experiences with their levels (`respy/pre_processing/model_processing.py:289-292`). -/
noncomputable def experienceParams (choice : Str) (params : List ((Str × Str) × ℝ)) : List (GroupParam Nat) :=
  params.filterMap fun p =>
    (extract ("initial_exp_".toList ++ choice ++ ['_']) Char.isDigit p.1.1).map fun t =>
      ⟨digitsValue t, p.1.2, p.2⟩

/-- `_parse_initial_and_max_experience` for one choice (`respy/pre_processing/model_processing.py:286-301`): the
distribution of initial experiences and the maximum. `int` of a negative number is zero here, whereas the
code goes on with a negative maximum. -/
noncomputable def parseExperience (maxFloat : ℝ) (nPeriods : Nat) (params : Dict (Str × Str) ℝ) (choice : Str) :
    Option (Dict Nat (List (Str × ℝ)) × Nat) := do
  let parsed ← (parseGroup maxFloat (experienceParams choice params)).toOption
  let start := parsed.getD [(0, [("constant".toList, 0)])]
  let given := (Dict.get? params ("maximum_exp".toList, choice)).map Nat.floor
  let max ← parseMax nPeriods (Dict.keys start) given
  pure (start, max)

/-- The text of the default restriction of a choice (`respy/pre_processing/model_processing.py:774-778`). -/
def DefaultFormula.text (choice : Str) : DefaultFormula → Str
  | .expEq m => "exp_".toList ++ choice ++ " == ".toList ++ codeText m
  | .never => "False".toList

/-- `_add_type_covariates` (`respy/pre_processing/model_processing.py:737-758`). -/
def addTypeCovariates (nTypes : Nat) (covariates : Dict Str Str) : Dict Str Str :=
  if 2 ≤ nTypes then
    Dict.update covariates ((List.range' 1 (nTypes - 1)).map fun i =>
      ("type_".toList ++ codeText i, "type == ".toList ++ codeText i))
  else covariates

/-- `optim_paras` and the processed `options` (`respy/pre_processing/model_processing.py:32-52`). -/
structure Processed where
  nPeriods : Nat
  points : Nat
  discount : Discount ℝ
  exogenous : Dict Str LevelDict
  observables : Dict Str LevelDict
  choices : Choices
  /-- `optim_paras[f"wage_{choice}"]` -/
  wage : Str → Option (List (Str × ℝ))
  /-- `optim_paras[f"nonpec_{choice}"]` -/
  nonpec : Str → Option (List (Str × ℝ))
  /-- `start` and `max` of the choices with experience -/
  experience : List (Dict Nat (List (Str × ℝ)) × Nat)
  cholesky : List (List ℝ)
  measurement : Bool × List ℝ
  nTypes : Nat
  typeProb : Dict Nat (List (Str × ℝ))
  lags : List (Dict Str (List (Str × ℝ)))
  negativeChoiceSet : Dict Str (List Str)
  filters : List Str
  groups : CovariateGroups

/-- The rows of a shock matrix, and `shocks_cholesky` (`respy/pre_processing/model_processing.py:304-321`). -/
def ShockMatrix.cholesky {K : Type _} (robust : List (List K) → List (List K)) (m : ShockMatrix K) :
    List (List K) :=
  let rows := (List.range m.dim).map fun i => (List.range m.dim).map (m.entry i)
  if m.kind = .chol then rows else robust rows

/-- The levels of the observables which are texts (`respy/pre_processing/model_processing.py:829-832`). -/
def textLevels (observables : Dict Str LevelDict) : List (Str × List (Option Str)) :=
  observables.map fun o => (o.1, o.2.map fun l =>
    match ofLex l.1 with
    | .inl _ => none
    | .inr t => some t)

/-- The formula based on the maximum experience of `choice` (`respy/pre_processing/model_processing.py:771-778`). The
lookups do not fail for the choices with experience. -/
noncomputable def defaultText (nPeriods : Nat) (experience : Dict Str (Dict Nat (List (Str × ℝ)) × Nat))
    (choice : Str) : Str :=
  match Dict.get? experience choice with
  | some (start, max) =>
    ((defaultFormula nPeriods (Dict.keys start) max).map (DefaultFormula.text choice)).getD "False".toList
  | none => "False".toList

/-- The names of the core state variables (`respy/pre_processing/process_covariates.py:79-84`,
`respy/shared.py:398-402`). -/
def coreColumns (wExp : List Str) (nLags : Nat) : List Str :=
  "period".toList :: (wExp.map fun c => "exp_".toList ++ c) ++
    (List.range nLags).map fun i => "lagged_choice_".toList ++ codeText (i + 1)

/-- The dense variables with which covariates are separated (`respy/pre_processing/process_covariates.py:85-89`). -/
def denseBaseColumns (observables : List Str) (nTypes : Nat) : List Str :=
  observables ++ if 2 ≤ nTypes then
    "type".toList :: (List.range' 2 (nTypes - 1)).map fun i => "type_".toList ++ codeText i
  else []

/-- `process_params_and_options` (`respy/pre_processing/model_processing.py:32-52`) with `_parse_parameters`
(`:138-152`) and `_sync_optim_paras_and_options` (`:725-734`); `none` is an exception. Reading of files, seeds
(C47), the cache directory and the checks of the types of options are not part of it. -/
noncomputable def processModel (env : ProcessEnv) (m : UserModel) : Option Processed := do
  let covariates ← removeIrrelevant m.covariates (m.params.map fun p => p.1.2)
  let discount ← parseDiscount m.params
  let exogenous ← parseExogenous env.maxFloat m.params
  let observables ← parseObservables env.maxFloat m.params exogenous
  let choices := parseChoices (m.params.map Prod.fst) covariates
  let experience ← choices.wExp.mapM (parseExperience env.maxFloat m.nPeriods m.params)
  let shocks ← (parseShocks m.params).toOption
  let measurement ← parseMeasurementErrors choices.choices choices.wWage m.params
  let types ← (parseTypes env.maxFloat m.params).toOption
  let lags ← (parseLaggedChoices env.maxFloat env.minFloat choices.choices covariates m.params).toOption
  let negativeChoiceSet := addDefaultIsInadmissible choices.wExp choices.woExp
    (defaultText m.nPeriods (choices.wExp.zip experience)) "False".toList m.negativeChoiceSet
  let replace := replaceLabels choices.choices (textLevels observables)
  let converted := (addTypeCovariates types.1 covariates).map fun kv => (kv.1, replace kv.2)
  let filters ← convertFilters choices.choices (textLevels observables)
    ⟨choices.wExp, choices.woExp, choices.wWage⟩ m.filters
  let groups ← separateCovariates converted (coreColumns choices.wExp lags.length)
    (denseBaseColumns (Dict.keys observables) types.1)
  if validateShocks m.params choices.choices then
    some {
      nPeriods := m.nPeriods
      points := m.points
      discount, exogenous, observables, choices, experience, measurement, lags, filters, groups
      wage := fun c => choiceParameters m.params ("wage_".toList ++ c)
      nonpec := fun c => choiceParameters m.params ("nonpec_".toList ++ c)
      cholesky := shocks.cholesky env.robustCholesky
      nTypes := types.1
      typeProb := types.2
      negativeChoiceSet := negativeChoiceSet.map fun kv =>
        (kv.1, if kv.1 ∈ choices.choices then kv.2.map replace else kv.2) }
  else none

/-! ### State space -/

/-- `df.eval` for one row (`respy/state_space.py:606, 708`, `respy/shared.py:308`).

* `value row formula`: the value, `none` is an exception. Truth values are numbers.
* `defined columns formula`: all variables of the formula are among `columns`, i.e. there is no
  `UndefinedVariableError`. -/
structure FormulaEval where
  value : (Str → Option ℝ) → Str → Option ℝ
  defined : List Str → Str → Bool

/-- The truth value of a formula (`respy/state_space.py:606, 708`); numbers are true if they are not zero.
Simplification: a formula whose variables are known but which cannot be evaluated is false; the code raises. -/
noncomputable def FormulaEval.holds (ev : FormulaEval) (row : Str → Option ℝ) (formula : Str) : Bool :=
  match ev.value row formula with
  | some v => decide (v ≠ 0)
  | none => false

/-- A row of the core state space without covariates (`respy/state_space.py:511-524, 584`). Missing lagged choices
have no entry. -/
def Processed.coreRow (p : Processed) (s : CoreState) : Dict Str ℝ :=
  ("period".toList, (s.period : ℝ)) ::
    (p.choices.wExp.zip s.exp).map (fun ce => ("exp_".toList ++ ce.1, (ce.2 : ℝ))) ++
    (s.lags.zipIdx.filterMap fun li => li.1.map fun l =>
      ("lagged_choice_".toList ++ codeText (li.2 + 1), (l : ℝ)))

/-- A row of the core state space with covariates (`respy/state_space.py:35`). -/
def Processed.coreFrame (p : Processed) (ev : FormulaEval) (s : CoreState) : Option (Frame ℝ) :=
  (computeCovariates ev.value (fun _ => true) false true ⟨p.coreRow s, []⟩ p.groups.core).toOption

/-- The dense dimensions (`respy/state_space.py:669-670`, `respy/shared.py:405-418`). -/
def Processed.denseSpec (p : Processed) : DenseSpec where
  observables := p.observables.map fun o => (String.ofList o.1, o.2.length)
  exogenous := p.exogenous.map fun o => (String.ofList o.1, o.2.length)
  nTypes := p.nTypes

/-- A row of the dense state space with covariates (`respy/state_space.py:679-696`). The frame is indexed by its own
columns. -/
def Processed.denseFrame (p : Processed) (ev : FormulaEval) (point : List Nat) : Option (Frame ℝ) :=
  let row := ((denseColumns p.denseSpec).map String.toList).zip (point.map fun (n : Nat) => (n : ℝ))
  (computeCovariates ev.value (fun _ => true) false true ⟨row, row⟩ p.groups.dense).toOption

/-- A row of the states with a dense index (`respy/state_space.py:789-790`). -/
def Processed.denseStateFrame (p : Processed) (ev : FormulaEval) (point : List Nat) (s : CoreState) :
    Option (Frame ℝ) := do
  let core ← p.coreFrame ev s
  let dense ← p.denseFrame ev point
  (computeCovariates ev.value (fun _ => true) false true ⟨Dict.update core.columns dense.columns, []⟩
    p.groups.all).toOption

/-- A row of the states of a dense index; `none` is the index of models without dense dimensions
(`respy/state_space.py:780-790`). -/
def Processed.stateFrame (p : Processed) (ev : FormulaEval) (d : Option Nat) (s : CoreState) :
    Option (Frame ℝ) :=
  match d with
  | none => p.coreFrame ev s
  | some d => do
    let grid ← denseGrid p.denseSpec
    let point ← grid[d]?
    p.denseStateFrame ev point s

/-- The columns of the states (`respy/state_space.py:35, 684-690, 789-790`). -/
def Processed.columns (p : Processed) (dense : Bool) : List Str :=
  coreColumns p.choices.wExp p.lags.length ++ Dict.keys p.groups.core ++
    if dense then (denseColumns p.denseSpec).map String.toList ++ Dict.keys p.groups.all else []

/-- The covariates of a state as a row (`respy/solve.py:91-106`). -/
def Processed.covariates (p : Processed) (ev : FormulaEval) (d : Option Nat) (s : CoreState) : StateRow ℝ :=
  fun x => (p.stateFrame ev d s).bind fun df => Dict.get? df.columns x

/-- The restrictions of all choices on the states of a dense index (`respy/state_space.py:703-709`). -/
noncomputable def Processed.restrictions (p : Processed) (ev : FormulaEval) (d : Option Nat) :
    List (List (FrameFormula CoreState)) :=
  p.choices.choices.map fun c => ((Dict.get? p.negativeChoiceSet c).getD []).map fun f =>
    if ev.defined (p.columns d.isSome) f then some fun s => ev.holds (p.covariates ev d s) f else none

/-- The input of `create_state_space_class` (`respy/state_space.py:28-44`). -/
noncomputable def Processed.buildSpec (p : Processed) (ev : FormulaEval) : BuildSpec where
  core := {
    nPeriods := p.nPeriods
    nChoices := p.choices.choices.length
    starts := p.experience.map fun e => Dict.keys e.1
    maxExp := p.experience.map Prod.snd
    nLags := p.lags.length
    filters := p.filters.map fun f s => ev.holds (Dict.get? (p.coreRow s)) f }
  restrCore := p.restrictions ev none
  restr := fun d => p.restrictions ev (some d)
  grid := denseGrid p.denseSpec
  exogLevels := p.exogenous.map fun o => o.2.length
  points := p.points

/-- Random numbers and constants of the solution (`respy/state_space.py:338-358`, `respy/shared.py:101-110`). -/
structure SolveEnv where
  lo : ℝ
  hi : ℝ
  base : Nat → Nat → List (List (List ℝ))
  sizes : List Nat
  seed : Nat

/-- The input of `solve` (`respy/solve.py:54-130`): choices are found by name. -/
noncomputable def Processed.solveInput (p : Processed) (ev : FormulaEval) (env : SolveEnv) : SolveInput ℝ where
  exp := Real.exp
  lo := env.lo
  hi := env.hi
  rewards := {
    wage := fun a => (p.choices.choices[a]?).bind p.wage
    nonpec := fun a => (p.choices.choices[a]?).bind p.nonpec }
  covariates := p.covariates ev
  cholesky := p.cholesky
  nWages := p.choices.wWage.length
  delta := p.discount.delta
  base := env.base
  sizes := env.sizes
  seed := env.seed

/-- The coefficients of the levels of the exogenous processes (`respy/exogenous_processes.py:40-49`). -/
def Processed.exogenousParams (p : Processed) : ExogenousParams :=
  p.exogenous.map fun e => e.2.map Prod.snd

end Respy
