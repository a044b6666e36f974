import Mathlib.Algebra.Order.Field.Basic

/-!
# Specification of correlated shocks

The shock of alternative `a` given standard normal draws `z j` for the alternatives `j` of the choice
set: `∑ j, L a j * z j` over the available alternatives `j`, and the exponential of it (bounded before)
if `a` has a wage, that is if `a < nWages`.
-/

namespace Respy

variable {K : Type _} [Field K] [LinearOrder K]

/-- Entry of a matrix; zero outside. -/
def entry (L : List (List K)) (i j : Nat) : K := ((L[i]?).bind fun row => row[j]?).getD 0

/-- The linear combination of the draws of the available alternatives. -/
def latentShock (L : List (List K)) (cs : List Bool) (z : Nat → K) (a : Nat) : K :=
  ((List.range cs.length).map fun j => if cs[j]? = some true then entry L a j * z j else 0).sum

/-- The shock of alternative `a`. -/
def shockOf (exp : K → K) (lo hi : K) (L : List (List K)) (nWages : Nat) (cs : List Bool) (z : Nat → K)
    (a : Nat) : K :=
  if a < nWages then exp (min (max (latentShock L cs z a) lo) hi) else latentShock L cs z a

end Respy
