import Mathlib.Data.Real.Basic
import Verif.Model.Text
import Verif.Model.Dict

/-!
# Specification: parameters which differ in the discount factor
-/

namespace Respy

/-- The same parameters except for the values of the category `delta`. -/
def SameOutsideDelta (θ θ' : Dict (Str × Str) ℝ) : Prop :=
  List.Forall₂ (fun x y => x.1 = y.1 ∧ (x.1.1 ≠ "delta".toList → x.2 = y.2)) θ θ'

/-- The parameters with another discount factor, `params.loc["delta", "value"] = delta`. -/
noncomputable def setDelta (delta : ℝ) (θ : Dict (Str × Str) ℝ) : Dict (Str × Str) ℝ :=
  θ.map fun kv => (kv.1, if kv.1.1 = "delta".toList then delta else kv.2)

end Respy
