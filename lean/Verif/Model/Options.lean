import Verif.Model.Labels
import Mathlib.Data.Rat.Defs
import Mathlib.Algebra.Order.Ring.Unbundled.Rat

/-!
# Reading and checking options

Model of `process_params_and_options` as far as options are concerned and of `validate_options`,
`respy/pre_processing/model_processing.py:32-64, 67-115, 891-903` and `respy/pre_processing/model_checking.py:6-33, 74-79`.
-/

namespace Respy

/-- Values of options. `bool` is a subclass of `int` in Python, so that Booleans are the integers zero and one. Floats are
finite. `other` is any other object, e.g. a path or an iterator (`respy/pre_processing/model_checking.py:6-33`). -/
inductive PyValue where
  | int (n : Int)
  | float (x : Rat)
  | str (s : Str)
  | list (l : List PyValue)
  | dict (items : List (PyValue × PyValue))
  | other

/-- `_is_positive_nonzero_integer` (`respy/pre_processing/model_checking.py:74-75`). -/
def PyValue.positiveInteger : PyValue → Bool
  | .int n => decide (0 < n)
  | _ => false

/-- `_is_nonnegative_integer` (`respy/pre_processing/model_checking.py:78-79`). -/
def PyValue.nonnegativeInteger : PyValue → Bool
  | .int n => decide (0 ≤ n)
  | _ => false

/-- `0 < x`; `false` is also the `TypeError` (`respy/pre_processing/model_checking.py:16`). -/
def PyValue.positive : PyValue → Bool
  | .int n => decide (0 < n)
  | .float x => decide (0 < x)
  | _ => false

/-- `x == -1` (`respy/pre_processing/model_checking.py:19`). -/
def PyValue.minusOne : PyValue → Bool
  | .int n => decide (n = -1)
  | .float x => decide (x = -1)
  | _ => false

/-- `isinstance(x, str)` (`respy/pre_processing/model_checking.py:23, 26, 28`). -/
def PyValue.isText : PyValue → Bool
  | .str _ => true
  | _ => false

/-- `isinstance(x, list) and all(isinstance(y, str) for y in x)`
(`respy/pre_processing/model_checking.py:22-24, 27-28`). -/
def PyValue.isTexts : PyValue → Bool
  | .list l => l.all PyValue.isText
  | _ => false

/-- `isinstance(x, dict) and all(...)` for the restrictions of choices
(`respy/pre_processing/model_checking.py:25-30`). -/
def PyValue.isRestrictions : PyValue → Bool
  | .dict items => items.all fun kv => kv.1.isText && kv.2.isTexts
  | _ => false

/-- `x in ["random", "halton", "sobol"]` (`respy/pre_processing/model_checking.py:31`). -/
def PyValue.isSequence : PyValue → Bool
  | .str s => decide (s ∈ ["random".toList, "halton".toList, "sobol".toList])
  | _ => false

/-- `Path(x)` raises no error (`respy/pre_processing/model_processing.py:893`). -/
def PyValue.isPath : PyValue → Bool
  | .str _ => true
  | .other => true
  | _ => false

/-- `DEFAULT_OPTIONS` (`respy/config.py:58-71`). -/
def defaultOptions : Dict Str PyValue :=
  [("estimation_draws".toList, .int 200), ("estimation_seed".toList, .int 1), ("estimation_tau".toList, .int 500),
    ("interpolation_points".toList, .int (-1)), ("simulation_agents".toList, .int 1000),
    ("simulation_seed".toList, .int 2), ("solution_draws".toList, .int 200), ("solution_seed".toList, .int 3),
    ("core_state_space_filters".toList, .list []), ("negative_choice_set".toList, .dict []),
    ("monte_carlo_sequence".toList, .str "random".toList), ("cache_compression".toList, .str "snappy".toList)]

/-- The loop over all options (`respy/pre_processing/model_checking.py:10-14`). -/
def validateByName (o : Dict Str PyValue) : Bool :=
  o.all fun kv =>
    if containsText "draws".toList kv.1 then kv.2.positiveInteger
    else if "_seed".toList.isSuffixOf kv.1 then kv.2.nonnegativeInteger
    else true

/-- `validate_options` (`respy/pre_processing/model_checking.py:6-31`). `false` is a failed assertion, a missing key or a
`TypeError`. -/
def validateOptions (o : Dict Str PyValue) : Bool :=
  (o.get? "n_periods".toList).any PyValue.positiveInteger &&
  validateByName o &&
  (o.get? "estimation_tau".toList).any PyValue.positive &&
  (o.get? "interpolation_points".toList).any (fun x => x.positiveInteger || x.minusOne) &&
  (o.get? "simulation_agents".toList).any PyValue.positiveInteger &&
  (o.get? "core_state_space_filters".toList).any PyValue.isTexts &&
  (o.get? "negative_choice_set".toList).any PyValue.isRestrictions &&
  (o.get? "monte_carlo_sequence".toList).any PyValue.isSequence

/-- `seeds` in `_create_internal_seeds_from_user_seeds` (`respy/pre_processing/model_processing.py:99`). -/
def userSeedNames : List Str := ["solution_seed".toList, "simulation_seed".toList, "estimation_seed".toList]

/-- `np.bincount` raises an error if a seed is negative or not an integer and `np.random.seed` if it has more than 32 bits
(`respy/pre_processing/model_processing.py:102, 108`). Memory is not modelled. -/
def PyValue.isSeed : PyValue → Bool
  | .int n => decide (0 ≤ n ∧ n < 2 ^ 32)
  | _ => false

/-- `_create_internal_seeds_from_user_seeds` (`respy/pre_processing/model_processing.py:67-115`). The iterators are `other`,
see `seedStart` for their values. `none` is an error. -/
def addInternalSeeds (o : Dict Str PyValue) : Option (Dict Str PyValue) :=
  if userSeedNames.all fun seed => (o.get? seed).any PyValue.isSeed then
    some (userSeedNames.foldl
      (fun o seed => (o.insert (seed ++ "_startup".toList) .other).insert (seed ++ "_iteration".toList) .other) o)
  else none

/-- `_parse_cache_directory` (`respy/pre_processing/model_processing.py:891-903`). -/
def parseCacheOption (o : Dict Str PyValue) : Option (Dict Str PyValue) :=
  if ((o.get? "cache_path".toList).getD (.str ".respy".toList)).isPath then some (o.insert "cache_path".toList .other)
  else none

/-- The options in `process_params_and_options` until `validate_options`
(`respy/pre_processing/model_processing.py:38-45`). `relevant` is `remove_irrelevant_covariates` (C52) on the value of
`"covariates"`, for which there is no default. `none` is an error. -/
def processOptions (relevant : PyValue → Option PyValue) (user : Dict Str PyValue) : Option (Dict Str PyValue) := do
  let o ← addInternalSeeds (defaultOptions.update user)
  let kept ← (o.get? "covariates".toList).bind relevant
  let o ← parseCacheOption (o.insert "covariates".toList kept)
  if validateOptions o then some o else none

end Respy
