import Verif.Model.Emax
import Verif.Model.Exogenous

/-!
# Transformation of shocks

Model of `respy/shared.py:134-169, 530-542`.
-/

namespace Respy

variable {K : Type _} [Field K] [LinearOrder K]

/-- Dot product of lists (`respy/shared.py:163`). -/
def dotList (xs ys : List K) : K := (List.zipWith (· * ·) xs ys).sum

/-- `subset_cholesky_factor_to_choice_set` (`respy/shared.py:530-542`); `none` is an `IndexError`. -/
def subsetCholesky (cholesky : List (List K)) (cs : List Bool) : Option (List (List K)) :=
  (validChoices cs).mapM fun i => do
    let row ← cholesky[i]?
    (validChoices cs).mapM fun j => row[j]?

/-- The number of wages in a choice set, `sum(choice_set[:n_wages_raw])` (`respy/shared.py:160-167`). -/
def nWagesIn (nWagesRaw : Nat) (cs : List Bool) : Nat := (cs.take nWagesRaw).count true

/-- `np.clip(x, lo, hi)` (`respy/shared.py:165-167`). -/
def clip (lo hi x : K) : K := min (max x lo) hi

/-- `transform_base_draws_with_cholesky_factor` for one row of draws (`respy/shared.py:134-169`):
`draws.dot(L.T)` with the factor of the choice set, then the exponential function of the clipped
values in the columns of the wages. `exp`, `lo` and `hi` are `np.exp`, `MIN_LOG_FLOAT` and
`MAX_LOG_FLOAT`; `none` is an exception for arrays of the wrong shape. -/
def transformDraw (exp : K → K) (lo hi : K) (cholesky : List (List K)) (nWagesRaw : Nat)
    (cs : List Bool) (draw : List K) : Option (List K) := do
  let factor ← subsetCholesky cholesky cs
  if draw.length = factor.length then
    pure ((factor.map fun row => dotList draw row).mapIdx fun i x =>
      if i < nWagesIn nWagesRaw cs then exp (clip lo hi x) else x)
  else none

end Respy
