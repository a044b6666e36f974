import Verif.Model.SolveFunction
import Verif.Props.Covariates

/-!
# Options which can be processed again

Specification for C85: the conversion of labels is finished after the first time and hides nothing which is looked
up in formulas.
-/

namespace Respy

/-- The conversion of labels in formulas. -/
def Processed.convert (p : Processed) : Str → Str := replaceLabels p.choices.choices (textLevels p.observables)

/-- The options of `m`, which is processed to `p`, can be processed again. -/
structure UserModel.Reprocessable (m : UserModel) (p : Processed) : Prop where
  keys : (Dict.keys m.covariates).Nodup
  /-- converted formulas have no labels which could be converted -/
  once : ∀ c f, (c, f) ∈ m.covariates → p.convert (p.convert f) = p.convert f
  /-- no covariate is mentioned only inside of a label -/
  mentions : ∀ c f, (c, f) ∈ m.covariates → ∀ k ∈ Dict.keys m.covariates, k <:+: f → k <:+: p.convert f
  /-- no experience is mentioned only inside of a label -/
  experiences : ∀ c f, (c, f) ∈ m.covariates →
    findAll "exp_".toList isNameChar (p.convert f) = findAll "exp_".toList isNameChar f
  /-- no lagged choice is mentioned only inside of a label -/
  lags : ∀ c f, (c, f) ∈ m.covariates →
    findAllPlain "lagged_choice_".toList Char.isDigit (p.convert f) =
      findAllPlain "lagged_choice_".toList Char.isDigit f
  /-- covariates with the names of types are those which are added -/
  types : ∀ i, 1 ≤ i → i < p.nTypes → ∀ f, ("type_".toList ++ codeText i, f) ∈ m.covariates →
    f = "type == ".toList ++ codeText i
  restrictions : ∀ c ∈ p.choices.choices, ∀ f ∈ (Dict.get? m.negativeChoiceSet c).getD [],
    p.convert (p.convert f) = p.convert f
  filters : ∀ f ∈ p.filters, convertFilter p.choices.choices (textLevels p.observables)
    ⟨p.choices.wExp, p.choices.woExp, p.choices.wWage⟩ f = some [f]

/-- Two processed models have the same parameters and options; the order of covariates and filters may differ and
restrictions and filters may be repeated. -/
structure SameModel (p q : Processed) : Prop where
  nPeriods : p.nPeriods = q.nPeriods
  points : p.points = q.points
  discount : p.discount = q.discount
  exogenous : p.exogenous = q.exogenous
  observables : p.observables = q.observables
  choices : p.choices = q.choices
  wage : p.wage = q.wage
  nonpec : p.nonpec = q.nonpec
  experience : p.experience = q.experience
  cholesky : p.cholesky = q.cholesky
  measurement : p.measurement = q.measurement
  nTypes : p.nTypes = q.nTypes
  typeProb : p.typeProb = q.typeProb
  lags : p.lags = q.lags
  filters : ∀ f, f ∈ p.filters ↔ f ∈ q.filters
  formulas : (p.groups.all.map fun kv => (kv.1, kv.2.formula)).Perm (q.groups.all.map fun kv => (kv.1, kv.2.formula))
  restrictions : ∀ c ∈ p.choices.choices, ∃ fs fs', Dict.get? p.negativeChoiceSet c = some fs ∧
    Dict.get? q.negativeChoiceSet c = some fs' ∧ ∀ f, f ∈ fs ↔ f ∈ fs'

end Respy
