import Mathlib.Data.Real.Basic
import Verif.Model.Text
import Verif.Model.Dict
import Verif.Spec.Characters

/-!
# Specification: parameters which differ in the coefficients of rewards
-/

namespace Respy

/-- The category of a wage or of a non-pecuniary reward. It consists of letters, digits and underscores. As the
categories of lagged choices are found anywhere in a text, it must not contain `lagged_choice_`. -/
def IsRewardCategory (category : Str) : Prop :=
  ("wage_".toList <+: category ∨ "nonpec_".toList <+: category) ∧ (∀ x ∈ category, x ∈ wordCharacters) ∧
    ¬ "lagged_choice_".toList <:+: category

/-- The same parameters except for coefficients of wages and non-pecuniary rewards. -/
def SameOutsideRewards (θ θ' : Dict (Str × Str) ℝ) : Prop :=
  List.Forall₂ (fun x y => x.1 = y.1 ∧ (¬ IsRewardCategory x.1.1 → x.2 = y.2)) θ θ'

/-- The coefficients of the covariate `x` in the non-pecuniary rewards of all choices are raised by `k`. -/
noncomputable def raiseLevel (x : Str) (k : ℝ) (θ : Dict (Str × Str) ℝ) : Dict (Str × Str) ℝ :=
  θ.map fun kv => (kv.1, if "nonpec_".toList.isPrefixOf kv.1.1 ∧ kv.1.2 = x then kv.2 + k else kv.2)

end Respy
