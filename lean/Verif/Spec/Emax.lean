import Mathlib.Algebra.Order.Field.Basic
import Mathlib.Order.Bounds.Basic

/-!
# Specification of the Monte Carlo Bellman operator

`IsMeanMax delta w m c draws v`: `v` is the average over the draws of the largest of zero and the
values `w j * e j + m j + delta * c j` of the alternatives `j`.
-/

namespace Respy

variable {K : Type _} [Field K] [LinearOrder K]

/-- The values of the alternatives for the shocks `e`, together with the outside value zero with which
the code starts its search. -/
def valuesAndZero (delta : K) (w m c e : List K) : Set K :=
  {x | x = 0 ∨ ∃ (j : Nat) (wj mj cj ej : K), w[j]? = some wj ∧ m[j]? = some mj ∧ c[j]? = some cj ∧
    e[j]? = some ej ∧ x = wj * ej + mj + delta * cj}

/-- `v` is the average over the draws of the maximum. -/
def IsMeanMax (delta : K) (w m c : List K) (draws : List (List K)) (v : K) : Prop :=
  ∃ best : List K → K, (∀ e ∈ draws, IsGreatest (valuesAndZero delta w m c e) (best e)) ∧
    v = (draws.map best).sum / (draws.length : K)

/-- The position of alternative `a` among the alternatives of a choice set. -/
def positionIn (cs : List Bool) (a : Nat) : Nat := (cs.take a).count true

end Respy
