import Verif.Model.Build

/-!
# The check of a solution

Model of `check_model_solution`: `respy/pre_processing/model_checking.py:82-137`.
-/

namespace Respy

/-- What `check_model_solution` reads from the solution, one entry per dense key
(`respy/pre_processing/model_checking.py:117-137`). -/
structure SolutionValues (K : Type _) where
  wages : Dict Nat (List (List K))
  nonpecs : Dict Nat (List (List K))
  expectedValueFunctions : Dict Nat (List K)

/-- `state_space.core.filter(regex=...).isin(range(len(choices)))` for the lagged choices of one row; a missing value is
not in the range (`respy/pre_processing/model_checking.py:105-110`). -/
def lagsInRange (nChoices : Nat) (s : CoreState) : Bool :=
  s.lags.all fun l =>
    match l with
    | some c => decide (c < nChoices)
    | none => false

/-- `np.all(np.isfinite(...))` for one row of the core: only missing lagged choices are not finite
(`respy/pre_processing/model_checking.py:112`). Simplification: covariates of the core are finite. -/
def rowFinite (s : CoreState) : Bool := s.lags.all Option.isSome

/-- `state_space.core[f"exp_{choice}"].le(choices[choice]["max"]).all()` for the choices with experience
(`respy/pre_processing/model_checking.py:100-101`). -/
def experiencesWithinMax (maxExp : List Nat) (core : List CoreState) : Bool :=
  maxExp.zipIdx.all fun mi => core.all fun s =>
    match s.exp[mi.2]? with
    | some e => decide (e ≤ mi.1)
    | none => false

/-- `_apply_to_attribute_of_state_space` with `np.isfinite` and `np.all`
(`respy/pre_processing/model_checking.py:119-137, 140-151`). -/
def allFinite {V : Type _} (finite : V → Bool) (attr : Dict Nat V) : Bool :=
  (attr.map fun kv => finite kv.2).all id

/-- `check_model_solution` (`respy/pre_processing/model_checking.py:82-137`). `none` is the `ValueError` of a choice
without starting values, `some false` an `AssertionError`.

* `add` is the sum of the period and the largest initial experiences. Both are NumPy integers. Depending on the
  version, the sum has eight bits (`respy/pre_processing/model_checking.py:97`).
* `finite` is `np.isfinite`.
* Rows of the core have further columns with covariates. They are functions of the columns of the model, so that rows are
  duplicates if and only if the states are equal (`respy/pre_processing/model_checking.py:114`). -/
def checkModelSolution {K : Type _} (add : Nat → Nat → Nat) (finite : K → Bool) (spec : CoreSpec)
    (core : List CoreState) (indexer : Dict CoreState (Nat × Nat)) (values : SolutionValues K) : Option Bool :=
  (spec.starts.mapM pyMax).map fun maxInitial =>
    (core.all fun s => decide (s.period < spec.nPeriods)) &&
    (core.all fun s => decide (s.exp.sum ≤ add s.period maxInitial.sum)) &&
    experiencesWithinMax spec.maxExp core &&
    (decide (spec.nLags = 0) || core.all (lagsInRange spec.nChoices)) &&
    core.all rowFinite &&
    decide core.Nodup &&
    decide (core.length = indexer.length) &&
    allFinite (fun rows => rows.all fun row => row.all finite) values.wages &&
    allFinite (fun rows => rows.all fun row => row.all finite) values.nonpecs &&
    allFinite (fun row => row.all finite) values.expectedValueFunctions

end Respy
