import Verif.Model.ProcessModel

/-!
# Specification of C95: models which differ in the order of coefficients
-/

namespace Respy

/-- The same levels in the same order, with the same coefficients in any order. -/
def SameCoefficients {L : Type _} (d d' : Dict L (List (Str × ℝ))) : Prop :=
  List.Forall₂ (fun a b => a.1 = b.1 ∧ a.2.Perm b.2) d d'

/-- The same names in the same order, with the same levels. -/
def SameLevels (d d' : Dict Str LevelDict) : Prop :=
  List.Forall₂ (fun a b => a.1 = b.1 ∧ SameCoefficients a.2 b.2) d d'

/-- The same model, up to the order of the coefficients of each choice or level. -/
structure Processed.SameUpToOrder (p p' : Processed) : Prop where
  nPeriods : p.nPeriods = p'.nPeriods
  points : p.points = p'.points
  discount : p.discount = p'.discount
  exogenous : SameLevels p.exogenous p'.exogenous
  observables : SameLevels p.observables p'.observables
  choices : p.choices = p'.choices
  wage : ∀ c, Option.Rel List.Perm (p.wage c) (p'.wage c)
  nonpec : ∀ c, Option.Rel List.Perm (p.nonpec c) (p'.nonpec c)
  experience : List.Forall₂ (fun e e' => SameCoefficients e.1 e'.1 ∧ e.2 = e'.2) p.experience p'.experience
  cholesky : p.cholesky = p'.cholesky
  measurement : p.measurement = p'.measurement
  nTypes : p.nTypes = p'.nTypes
  typeProb : SameCoefficients p.typeProb p'.typeProb
  lags : List.Forall₂ SameCoefficients p.lags p'.lags
  negativeChoiceSet : p.negativeChoiceSet = p'.negativeChoiceSet
  filters : p.filters = p'.filters
  groups : p.groups = p'.groups

/-- The rows of the parameters which describe the shocks. -/
def shockRows (params : Dict (Str × Str) ℝ) : List ((Str × Str) × ℝ) :=
  params.filter fun p => ["shocks_sdcorr", "shocks_cov", "shocks_chol"].any fun c =>
    c.toList <:+: p.1.1 ∨ c.toList <:+: p.1.2

/-- Probabilities in the parameters are positive. -/
def PositiveProbabilities (params : Dict (Str × Str) ℝ) : Prop :=
  ∀ p ∈ params, p.1.2 = "probability".toList → 0 < p.2

/-- The same rows in another order. The index is unique, the rows of the shocks keep their order. -/
structure OtherOrder (params params' : Dict (Str × Str) ℝ) : Prop where
  rows : List.Perm params params'
  unique : (Dict.keys params).Nodup
  positive : PositiveProbabilities params
  shocks : shockRows params = shockRows params'

end Respy
