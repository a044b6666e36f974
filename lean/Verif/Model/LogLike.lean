import Verif.Model.LikelihoodObs
import Verif.Model.SimulateSpace
import Mathlib.Data.List.Sort

/-!
# The criterion function of the maximum likelihood estimation

Model of `get_log_like_func` and `log_like` (`respy/likelihood.py:32-330, 480-550`), which puts together
the functions of `Verif/Model/Likelihood.lean`, `Verif/Model/LikelihoodObs.lean` and
`Verif/Model/ConditionalDraws.lean` with the solved state space of `Verif/Model/SimulateSpace.lean`. A data
frame is a list of rows. `_compute_wage_and_choice_log_likelihood_contributions` is applied row by row;
`Verif/Props/Parallel.lean` (C18) shows that splitting a frame by dense key and combining it again amounts
to this.
-/

namespace Respy

/-- A row of the data after labels have been replaced by codes (`respy/likelihood.py:521-526`): identifier,
state (without type), code of the choice and wage (`none` is NaN). -/
structure EstimationRow where
  id : Nat
  state : SimState
  choice : Nat
  wage : Option ℝ

/-- The order of `df.sort_index()` (`respy/likelihood.py:522`): by identifier, then by period. -/
def EstimationRow.le (r r' : EstimationRow) : Prop :=
  r.id < r'.id ∨ (r.id = r'.id ∧ r.state.core.period ≤ r'.state.core.period)

instance : DecidableRel EstimationRow.le := fun _ _ => inferInstanceAs (Decidable (_ ∨ _))

/-- The column `type` with value `type` (`respy/likelihood.py:530`); it stands behind the `nStatic`
observables which are no exogenous process (`respy/shared.py:405-419`). -/
def EstimationRow.withType (nStatic type : Nat) (r : EstimationRow) : EstimationRow :=
  { r with state := { r.state with
    dense := r.state.dense.take nStatic ++ type :: r.state.dense.drop nStatic } }

/-- The parameters which enter the likelihood beyond the solution of the model
(`respy/likelihood.py:285-325, 355-362`). `typeProb` is `optim_paras["type_prob"]`. -/
structure LikelihoodParams where
  cholesky : List (List ℝ)
  nWagesRaw : Nat
  measError : List ℝ
  hasMeasError : Bool
  betaDelta : ℝ
  typeProb : List (List (Str × ℝ))

/-- The arguments of `get_log_like_func` and what `log_like` computes from the parameters of type `P`
(`respy/likelihood.py:91-160`). `seed` is the first number of `options["estimation_seed_startup"]`, which
counts upwards. `base rows choices seed` is the array of `create_base_draws` with `estimation_draws` draws.
`lo`, `hi` and `maxLog` are `MIN_FLOAT`, `MAX_FLOAT` and `MAX_LOG_FLOAT`. `covariates r t` are the
covariates of row `r` if the type is `t` (`respy/likelihood.py:356-360`). -/
structure Estimation (P : Type) where
  data : List EstimationRow
  nTypes : Nat
  nStatic : Nat
  nPeriods : Nat
  seed : Nat
  base : Nat → Nat → Nat → List (List (List ℝ))
  tau : ℝ
  lo : ℝ
  hi : ℝ
  maxLog : ℝ
  la : ∀ n, LinearAlgebra n
  covariates : EstimationRow → Nat → StateRow ℝ
  params : P → LikelihoodParams
  solve : P → Option (SimSpace ℝ)

/-- A row of the data for one type together with its dense key and core index
(`respy/likelihood.py:528-534`). -/
structure LocatedRow where
  row : EstimationRow
  type : Nat
  key : Nat
  index : Nat

variable {P : Type}

/-- `df.sort_index()` (`respy/likelihood.py:521-522`). -/
def Estimation.sorted (e : Estimation P) : List EstimationRow := e.data.insertionSort EstimationRow.le

/-- The rows duplicated for each type (`respy/likelihood.py:528-530`). -/
def Estimation.typedRows (e : Estimation P) : List (EstimationRow × Nat) :=
  if e.nTypes ≥ 2 then
    (List.range e.nTypes).flatMap fun t => e.sorted.map fun r => (r.withType e.nStatic t, t)
  else e.sorted.map fun r => (r, 0)

/-- `map_observations_to_states` for the rows (`respy/likelihood.py:532-534`); `none` is a `KeyError`. -/
def Estimation.located (e : Estimation P) (sp : SimSpace ℝ) : Option (List LocatedRow) :=
  e.typedRows.mapM fun rt => do
    let (k, i) ← sp.locate rt.1.state
    pure ⟨rt.1, rt.2, k, i⟩

/-- The dictionary `base_draws_est` (`respy/likelihood.py:106-115`): `groupby` yields the dense keys in
increasing order. -/
def Estimation.baseDraws (e : Estimation P) (sp : SimSpace ℝ) (rows : List LocatedRow) :
    Option (Dict Nat (List (List (List ℝ)))) :=
  (((rows.map (·.key)).dedup.insertionSort (· ≤ ·)).zipIdx).mapM fun kj => do
    let complex ← sp.complexes[kj.1]?
    pure (kj.1, e.base (rows.countP fun r => r.key = kj.1) (complex.choiceSet.count true) (e.seed + kj.2))

/-- The continuation values of all periods (`respy/likelihood.py:224-229`). -/
def Estimation.continuations (e : Estimation P) (sp : SimSpace ℝ) :
    Option (Dict Nat (List (List ℝ))) :=
  (List.range e.nPeriods).foldlM (init := []) fun acc t => do
    let cvs ← sp.cvs t
    pure (Dict.update acc cvs)

/-- `loglike_choice` and `loglike_wage` of an observation (`respy/likelihood.py:284-330`) with choice set
`cs`, in which `n + 1` alternatives are available, and rows `w`, `m`, `c` of wages, non-pecuniary rewards and
continuation values; `draws` are its base draws. `none` is an exception. Simplification: arrays are read with
a default outside of their range; that the shapes agree is part of the theorems. -/
noncomputable def Estimation.observationLoglike (e : Estimation P) (p : LikelihoodParams) (n : Nat)
    (cs : List Bool) (w m c : List ℝ) (choice : Nat) (wage : Option ℝ) (draws : List (List ℝ)) :
    Option (ℝ × ℝ) := do
  let position ← mapChoiceCode cs choice
  let factor ← subsetCholesky p.cholesky cs
  let r ← wageLogProb (n := n) (e.la n) e.hi e.maxLog p.hasMeasError p.measError p.nWagesRaw
    cs choice (logWage e.hi wage) (fun j => w.getD j 0) (fun i j => (factor.getD i []).getD j 0)
  let shocks := draws.map fun z => List.ofFn (r.draw fun j => z.getD j 0)
  let logProb ← simulatedLogProb p.betaDelta e.tau w m c shocks position
  pure (clip e.lo e.hi logProb, clip e.lo e.hi r.logProbWage)

/-- `_compute_wage_and_choice_log_likelihood_contributions` for one row with the base draws `draws`
(`respy/likelihood.py:272-330`); `none` is an exception. -/
noncomputable def Estimation.rowLoglike (e : Estimation P) (p : LikelihoodParams) (sp : SimSpace ℝ)
    (cvs : Dict Nat (List (List ℝ))) (x : LocatedRow) (draws : List (List ℝ)) : Option LoglikeRow := do
  let complex ← sp.complexes[x.key]?
  let wages ← sp.wages.get? x.key
  let nonpecs ← sp.nonpecs.get? x.key
  let cv ← cvs.get? x.key
  let w ← wages[x.index]?
  let m ← nonpecs[x.index]?
  let c ← cv[x.index]?
  let (choice, wage) ← e.observationLoglike p (complex.choiceSet.count true - 1) complex.choiceSet w m c
    x.row.choice x.row.wage draws
  pure ⟨x.row.id, x.row.state.core.period, x.type, choice, wage⟩

/-- The individuals for which there is a contribution (`respy/likelihood.py:251, 541-546`): with types those
with a row of `type_covariates`, that is an observation in period zero. -/
def Estimation.identifiers (e : Estimation P) : List Nat :=
  if e.nTypes ≥ 2 then
    ((e.sorted.filter fun r => r.state.core.period = 0).map (·.id)).dedup
  else (e.sorted.map (·.id)).dedup

/-- `_compute_x_beta_for_type_probabilities` for an individual (`respy/likelihood.py:345-364`), based on the
row of period zero (`respy/likelihood.py:541-546`). Simplification: covariates which do not exist count as
zero, where pandas raises a `KeyError`. -/
noncomputable def Estimation.xBetas (e : Estimation P) (p : LikelihoodParams) (id : Nat) : List ℝ :=
  match e.sorted.find? fun r => decide (r.id = id ∧ r.state.core.period = 0) with
  | none => []
  | some r => (List.range e.nTypes).map fun t =>
      ((p.typeProb.getD t []).map fun item => item.2 * (e.covariates r t item.1).getD 0).sum

/-- The rows with log likelihoods for a solved state space (`respy/likelihood.py:102-115, 218-240`). The
`i`-th row of a dense key uses the `i`-th entry of the base draws of the dense key. -/
noncomputable def Estimation.loglikeRows (e : Estimation P) (p : LikelihoodParams) (sp : SimSpace ℝ) :
    Option (List LoglikeRow) := do
  let rows ← e.located sp
  let base ← e.baseDraws sp rows
  let cvs ← e.continuations sp
  rows.zipIdx.mapM fun xn => do
    let draws ← base.get? xn.1.key
    let own ← draws[(rows.take xn.2).countP fun r => r.key = xn.1.key]?
    e.rowLoglike p sp cvs xn.1 own

/-- `get_log_like_func` followed by `log_like` with `return_scalar=True` (`respy/likelihood.py:32-269`):
the value of the criterion function; `none` is an exception. Dense keys, core indices and base draws are
computed in `get_log_like_func` with the state space, whose dictionaries do not depend on the parameters;
here they are computed with the solved state space. -/
noncomputable def Estimation.logLike (e : Estimation P) (params : P) : Option ℝ := do
  let sp ← e.solve params
  let rows ← e.loglikeRows (e.params params) sp
  let contribs ← contributions e.lo e.hi e.nTypes rows e.identifiers (e.xBetas (e.params params))
  pure (meanOf contribs)

end Respy
