import Mathlib.Data.List.Forall2
import Verif.Model.CoreStateSpace

/-!
# Specification of the feasible core states

Independent of how the state space is generated.
-/

namespace Respy

/-- What model processing guarantees for the core of a model: the lists of starting levels and
maxima belong to the same choices, each choice with experience has a starting level
(`respy/pre_processing/model_processing.py:286-301`), there is a choice, and all numbers fit into
`np.uint8` (otherwise NumPy wraps around or raises). There is a choice with experience: otherwise the core is empty
(`C103_no_experience_false`). -/
structure CoreSpec.WF (spec : CoreSpec) : Prop where
  experience : spec.starts ≠ []
  len : spec.starts.length = spec.maxExp.length
  nonempty : ∀ l ∈ spec.starts, l ≠ []
  starts_lt : ∀ l ∈ spec.starts, ∀ x ∈ l, x < 256
  max_lt : ∀ m ∈ spec.maxExp, m < 256
  choice : 0 < spec.nChoices

/-- A state is feasible if its period is a period of the model, its experiences are one of the
starting levels plus additional years, the additional years sum to at most the period, no
experience exceeds its maximum, and each lagged choice is a choice. -/
def Feasible (spec : CoreSpec) (s : CoreState) : Prop :=
  s.period < spec.nPeriods ∧
  (∃ init extra : List Nat, List.Forall₂ (· ∈ ·) init spec.starts ∧
    extra.length = spec.starts.length ∧ s.exp = List.zipWith (· + ·) init extra ∧
    extra.sum ≤ s.period) ∧
  List.Forall₂ (· ≤ ·) s.exp spec.maxExp ∧
  s.lags.length = spec.nLags ∧ ∀ l ∈ s.lags, ∃ c, c < spec.nChoices ∧ l = some c

end Respy
