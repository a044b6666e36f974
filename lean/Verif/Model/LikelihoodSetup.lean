import Verif.Model.CoreStateSpace

/-!
# Preparation of the likelihood function

Model of `respy/likelihood.py:91-127, 553-576`.
-/

namespace Respy

/-- The first observation of an individual in the data: the experience in each choice with
experience (`respy/likelihood.py:557-560`). -/
abbrev FirstObservation := List Nat

/-- `np.sort(df.query("Period == 0")[...].unique())` (`respy/likelihood.py:558-560`) for the choice
with number `j`. -/
def levelsInData (data : List FirstObservation) (j : Nat) : List Nat :=
  ((data.filterMap fun o => o[j]?).eraseDups).insertionSort (· ≤ ·)

/-- `_update_optim_paras_with_initial_experience_levels` (`respy/likelihood.py:553-576`): the levels
of the data replace those of the parameters if they differ. The warning and the removal of the
parameters of lagged choices are not modelled. -/
def updateInitialExperience (spec : CoreSpec) (data : List FirstObservation) : CoreSpec :=
  { spec with starts := spec.starts.mapIdx fun j levels =>
      if levelsInData data j = levels then levels else levelsInData data j }

/-- The two uses of the processed parameters in `get_log_like_func` (`respy/likelihood.py:91-101`). -/
structure LikelihoodSetup where
  /-- The parameters with which the data are checked, `check_estimation_data(df, optim_paras)`. -/
  checked : CoreSpec
  /-- The core state space of `get_solve_func(params, options)`. -/
  core : Option (List CoreState)

/-- `get_log_like_func` (`respy/likelihood.py:91-101`): `optim_paras` are updated with the levels of
the data, but `get_solve_func` receives the original `params` and processes them again
(`respy/solve.py:41-43`). -/
def getLogLikeFunc (spec : CoreSpec) (data : List FirstObservation) : LikelihoodSetup :=
  { checked := updateInitialExperience spec data, core := createCore spec }

end Respy
