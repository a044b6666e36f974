import Mathlib.Algebra.Order.Field.Basic

/-!
# Flow utilities, value functions, expected value functions

Model of `respy/shared.py:23-58, 373-396, 439-509`. The floats are elements of a linearly ordered
field `K`.
-/

namespace Respy

variable {K : Type _} [Field K] [LinearOrder K]

/-- `aggregate_keane_wolpin_utility` (`respy/shared.py:23-58`): value function and flow utility. -/
def kwUtility (wage nonpec cv draw delta : K) : K × K :=
  let flow := wage * draw + nonpec
  (flow + delta * cv, flow)

/-- The value functions of all alternatives for one draw: the loop over `j` in
`calculate_expected_value_functions` (`respy/shared.py:495-498`) and the gufunc
`calculate_value_functions_and_flow_utilities` (`respy/shared.py:373-396`). All arrays have the same
length (the gufunc raises otherwise, see `emax?`). -/
def valueFunctions (delta : K) : List K → List K → List K → List K → List K
  | w :: ws, n :: ns, c :: cs, e :: es =>
    (kwUtility w n c e delta).1 :: valueFunctions delta ws ns cs es
  | _, _, _, _ => []

/-- The inner loop of `calculate_expected_value_functions` (`respy/shared.py:493-501`): the running
maximum starts at `0`. -/
def maxValue (values : List K) : K :=
  values.foldl (fun m v => if v > m then v else m) 0

/-- `calculate_expected_value_functions` for one state (`respy/shared.py:439-509`). -/
def emax (wages nonpecs cvs : List K) (draws : List (List K)) (delta : K) : K :=
  (draws.foldl (fun acc draw => acc + maxValue (valueFunctions delta wages nonpecs cvs draw)) 0) /
    (draws.length : K)

/-- The same with the shape check of the gufunc signature
`(n_choices), (n_choices), (n_choices), (n_draws, n_choices), () -> ()`; `none` is a `ValueError`.
An array of draws without rows or columns is not excluded by NumPy but never created
(`respy/state_space.py:339-358`). -/
def emax? (wages nonpecs cvs : List K) (draws : List (List K)) (delta : K) : Option K :=
  if nonpecs.length = wages.length ∧ cvs.length = wages.length ∧
      ∀ d ∈ draws, d.length = wages.length then
    some (emax wages nonpecs cvs draws delta)
  else none

end Respy
