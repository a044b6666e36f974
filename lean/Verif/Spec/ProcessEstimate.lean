import Verif.Model.ProcessEstimate
import Verif.Spec.ProcessModel
import Verif.Spec.LogLikeModel
import Verif.Lemmas.ComputeCovariates
import Verif.Props.NecessaryCovariates
import Verif.Props.ShockMatrix

/-!
# Specification of models for which the criterion function is described
-/

namespace Respy

/-- The covariates of a model do what their formulas say: the variables found in a formula are the ones of the
formula (see C53, C68), and covariates and state variables have different names. -/
structure Processed.FormulasSound (p : Processed) (ev : FormulaEval) : Prop where
  accurate : ∀ c d, (c, d) ∈ p.groups.all → Accurate ev.value d
  names : ∀ x ∈ coreColumns p.choices.wExp p.lags.length ++ (denseColumns p.denseSpec).map String.toList,
    x ∉ Dict.keys p.groups.all
  dense : ((denseColumns p.denseSpec).map String.toList).Nodup

/-- The state variables of a state with dense index `d`: period, experiences, lagged choices, observables and type. -/
def Processed.stateVariables (p : Processed) (d : Option Nat) (s : CoreState) : Dict Str ℝ :=
  p.coreRow s ++ match d with
    | none => []
    | some i => ((denseColumns p.denseSpec).map String.toList).zip
        ((((denseGrid p.denseSpec).bind fun grid => grid[i]?).getD []).map fun (n : Nat) => (n : ℝ))

/-- `robust_cholesky` returns a lower triangular matrix. -/
def ProcessEnv.LowerTriangular (env : ProcessEnv) : Prop :=
  ∀ rows (i j : Nat), i < j → entry (env.robustCholesky rows) i j = 0

/-- The number of types; models without types are those with a single type. -/
def Processed.typeCount (p : Processed) : Nat := if 2 ≤ p.nTypes then p.nTypes else 1

/-- The dense columns of an observation if the individual is of type `t`: the type stands behind the observables which
are no exogenous processes. -/
def Processed.denseOf (p : Processed) (r : EstimationRow) (t : Nat) : List Nat :=
  if 2 ≤ p.nTypes then r.state.dense.take p.nStatic ++ t :: r.state.dense.drop p.nStatic else r.state.dense

/-- Data and routines fit to a model.

* linear algebra: the routines of numpy do what they are supposed to do
* `base`: arrays of base draws have the requested shape and at least one draw
* data: identifier and period are unique, with types all individuals are observed in the first period,
  states are in the state space, choices are allowed (C82) and wages such that the likelihood is defined -/
structure EstimateEnv.Fits (e : EstimateEnv) (p : Processed) (m : UserModel) (ev : FormulaEval)
    (core : List CoreState) (w : Option Nat → CoreState → Nat → ℝ) : Prop where
  qr : ∀ n, QRContract (e.la n).qr
  cholesky : ∀ n, CholeskyContract (e.la n).cholesky
  lo : e.lo ≤ 0
  hi : 0 < e.hi
  base : ∀ n k s, (e.base n k s).length = n ∧ ∀ row ∈ e.base n k s, row ≠ [] ∧ ∀ z ∈ row, z.length = k
  index : (e.data.map fun r => (r.id, r.state.core.period)).Nodup
  first : 2 ≤ p.nTypes → ∀ r ∈ e.data, ∃ r' ∈ e.data, r'.id = r.id ∧ r'.state.core.period = 0
  states : ∀ r ∈ e.data, r.state.core ∈ core ∧ ∀ t < p.typeCount, ∃ d c,
    (p.buildSpec ev).HasIndex (p.denseOf r t) d ∧ p.choices.choices[r.choice]? = some c ∧
    p.Allowed m ev d r.state.core c ∧
    ∀ y, r.wage = some y → ObservationWF e.hi p.measurement.1 p.choices.wWage.length p.cholesky
      ((p.buildSpec ev).choiceSetAt d r.state.core) p.measurement.2 (w d r.state.core) r.choice y

/-- The probabilities of types can be computed.

* the types have the codes `0, 1, ...` (C55)
* the covariates of the probabilities are columns, but not those which index the data
* `identify_necessary_covariates` finds the covariates (C54)
* no covariate with a constant formula has the name of an observable or `type_i`, and none is named `identifier` -/
structure Processed.TypesSound (p : Processed) : Prop where
  keys : Dict.keys p.typeProb = List.range p.nTypes
  names : ∀ t beta, Dict.get? p.typeProb t = some beta → ∀ item ∈ beta,
    item.1 ∈ p.columns true ∧ item.1 ≠ "period".toList ∧ item.1 ≠ "identifier".toList
  graded : ∀ t beta, Dict.get? p.typeProb t = some beta → ∃ bound, Graded p.groups.all (beta.map Prod.fst) bound
  constants : ∀ c d, (c, d) ∈ p.groups.all → d.dependsOn = [] →
    c ∉ denseBaseColumns (Dict.keys p.observables) p.nTypes
  identifier : "identifier".toList ∉ Dict.keys p.groups.all

end Respy
