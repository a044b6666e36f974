import Verif.Model.ProcessModel

/-!
# Specification of C102: options which differ in orders
-/

namespace Respy

/-- The same formulas, in any order and with repetitions. -/
def SameFormulas (fs fs' : List Str) : Prop := ∀ f, f ∈ fs ↔ f ∈ fs'

/-- Two models with the same parameters whose options differ only in the order of the covariates, of the entries and
formulas of `negative_choice_set` and of the filters. Names of covariates are unique, as they are keys of a dictionary. -/
structure OtherOptions (m m' : UserModel) : Prop where
  params : m.params = m'.params
  nPeriods : m.nPeriods = m'.nPeriods
  points : m.points = m'.points
  covariates : List.Perm m.covariates m'.covariates
  unique : (Dict.keys m.covariates).Nodup
  restrictions : ∀ c, Option.Rel SameFormulas (Dict.get? m.negativeChoiceSet c) (Dict.get? m'.negativeChoiceSet c)
  filters : SameFormulas m.filters m'.filters

end Respy
