import Verif.Model.ProcessSimulate
import Verif.Spec.SimulationInput
import Verif.Spec.ProcessModel

/-!
# Specification of models from which samples can be drawn
-/

namespace Respy

/-- The columns `cols` have no missing values. -/
def KnownColumns (cols : List Nat) (fp : List CharRow) : Prop :=
  ∀ c ∈ cols, ∀ row ∈ fp, row[c]? ≠ some none

/-- The values which the dense columns can have: the levels of the observables and the types. -/
def Processed.denseLevels (p : Processed) : List (List Nat) :=
  (p.observables.map fun o => List.range o.2.length) ++ if 2 ≤ p.nTypes then [List.range p.nTypes] else []

/-- Samples can be drawn: there is a period, initial experiences do not exceed the maximum, no filter removes the
first period, state variables have distinct names, the labels of lagged choices are the choices (C78), the types have the codes `0, 1, ...` (C52), and
the covariates of the distribution of a characteristic can be computed from the characteristics which
are known for all individuals and those which are sampled before. -/
structure Processed.Samplable (p : Processed) (ev : FormulaEval) (input : List CharRow) : Prop where
  periods : 0 < p.nPeriods
  starts : ∀ e ∈ p.experience, ∀ x ∈ Dict.keys e.1, x ≤ e.2
  filters : ∀ f ∈ p.filters, ∀ lags : List (Option Nat), lags.length = p.lags.length →
    (∀ l ∈ lags, ∃ c, c < p.choices.choices.length ∧ l = some c) →
    ev.holds (Dict.get? (p.coreRow ⟨0, List.replicate p.experience.length 0, lags⟩)) f = false
  names : p.stateColumns.Nodup
  lags : ∀ d ∈ p.lags, Dict.keys d = p.choices.choices
  types : 2 ≤ p.nTypes → Dict.keys p.typeProb = List.range p.nTypes
  covariates : ∀ pre v post, p.sampledVariables = pre ++ v :: post → ∀ fp : List CharRow,
    fp.length = input.length → (∀ row ∈ fp, row.length = p.stateColumns.length) →
    (∀ x ∈ p.stateColumns, KnownColumns [p.stateColumns.idxOf x] input ∨ x ∈ pre.map SampledVariable.name →
      KnownColumns [p.stateColumns.idxOf x] fp) →
    ∃ df, p.sampleFrame ev fp = some df ∧ ∀ i < fp.length, ∀ beta ∈ v.betas, ∀ item ∈ beta,
      (frameValue df i item.1).isSome

/-- A variable which can be computed from the variables which are `known`: it is one of them, or a covariate (and not a state
variable) whose variables can be computed. -/
inductive Processed.Grounded (p : Processed) (known : Str → Prop) : Str → Prop
  | known (x : Str) : known x → p.Grounded known x
  | covariate (c : Str) (d : CovariateDef) : (c, d) ∈ p.groups.all → c ∉ p.stateColumns →
      (∀ x ∈ d.dependsOn, p.Grounded known x) → p.Grounded known c

/-- The variables which are known for all individuals when the characteristics `pre` have been sampled. -/
def Processed.KnownBefore (p : Processed) (input : List CharRow) (pre : List SampledVariable) (x : Str) : Prop :=
  x = "period".toList ∨
    x ∈ p.stateColumns ∧ (KnownColumns [p.stateColumns.idxOf x] input ∨ x ∈ pre.map SampledVariable.name)

/-- Formulas of covariates are defined for rows with their variables. -/
def Processed.FormulasDefined (p : Processed) (ev : FormulaEval) : Prop :=
  ∀ cd ∈ p.groups.all, ∀ row : Str → Option ℝ, (∀ x ∈ cd.2.dependsOn, (row x).isSome) →
    (ev.value row cd.2.formula).isSome

/-- Random numbers and data of the first period fit to a model: there are individuals, there are draws for all individuals, periods
and choices, and known characteristics are among the possible ones. -/
structure SimulateEnv.Fits {G : Type} (e : SimulateEnv G) (p : Processed) (b : BuildSpec) : Prop where
  source : e.rs.Contract
  individuals : e.input ≠ []
  draws : e.input.length * p.nPeriods ≤ e.draws.length
  drawsWage : e.input.length * p.nPeriods ≤ e.drawsWage.length
  drawsRow : ∀ row ∈ e.draws, row.length = p.choices.choices.length
  drawsWageRow : ∀ row ∈ e.drawsWage, row.length = p.choices.choices.length
  input : ∀ row ∈ e.input, RowAllowed (b.initialLevels p.denseLevels) row

end Respy
