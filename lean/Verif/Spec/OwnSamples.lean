import Verif.Model.SampleAsData
import Verif.Spec.ProcessEstimate

/-!
# Specification of models which can be estimated with their own samples
-/

namespace Respy

/-- Choices do not reveal more than the data contain.

* `types`: what is allowed does not depend on the type, which is not observed
* `order`: if an alternative with a wage is allowed, so are those with smaller codes (otherwise recorded choices and
  measurement errors belong to other alternatives, see C24 and C37) -/
structure Processed.PlainRestrictions (p : Processed) (m : UserModel) (ev : FormulaEval) (core : List CoreState) :
    Prop where
  types : 2 ≤ p.nTypes → ∀ s ∈ core, ∀ dense t d d', (p.buildSpec ev).HasIndex dense d →
    (p.buildSpec ev).HasIndex (dense.set p.nStatic t) d' → ∀ c, p.Allowed m ev d s c → p.Allowed m ev d' s c
  order : ∀ d ∈ (p.buildSpec ev).denseIndices, ∀ s ∈ core, ∀ (i j : Nat) c c', i < j → j < p.choices.wWage.length →
    p.choices.choices[i]? = some c → p.choices.choices[j]? = some c' → p.Allowed m ev d s c' → p.Allowed m ev d s c

/-- Wages can be explained at the parameters: the shock of each alternative has its own source of variation, if there
are measurement errors, all wages have one, and systematic wages are neither too small nor too large. -/
structure Processed.ExplainsWages (q : Processed) (ev : FormulaEval) (core : List CoreState)
    (w : Option Nat → CoreState → Nat → ℝ) (hi : ℝ) : Prop where
  variation : ∀ a < q.choices.choices.length, entry q.cholesky a a ≠ 0
  errors : q.measurement.1 = true → ∀ a < q.choices.wWage.length, q.measurement.2.getD a 0 ≠ 0
  systematic : ∀ d ∈ (q.buildSpec ev).denseIndices, ∀ s ∈ core, ∀ a < q.choices.wWage.length,
    1 / hi ≤ w d s a ∧ w d s a ≤ hi

end Respy
