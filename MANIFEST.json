{
 "claims": [
  {
   "property": "C01",
   "status": "partial",
   "theorems": [
    "Respy.C01_core_eq_feasible",
    "Respy.C01_core_nodup_sorted",
    "Respy.C01_periods_covered",
    "Respy.C01_eight_bits",
    "Respy.C01_eight_bit_core",
    "Respy.C01_many_periods_false",
    "Respy.C01_large_maximum_false"
   ],
   "note": "Up to 256 periods and maxima up to 255. C01_many_periods_false and C01_large_maximum_false show that feasible states are missing otherwise, as the code uses eight bits."
  },
  {
   "property": "C02",
   "status": "proved",
   "theorems": [
    "Respy.C02_closed_under_admissible_choices",
    "Respy.C02_collecting_children_succeeds"
   ],
   "note": ""
  },
  {
   "property": "C03",
   "status": "proved",
   "theorems": [
    "Respy.C03_state_location_bijection"
   ],
   "note": ""
  },
  {
   "property": "C04",
   "status": "partial",
   "theorems": [
    "Respy.C04_lag_combinations_false",
    "Respy.C04_witness_false",
    "Respy.C04_lag_combinations_partial"
   ],
   "note": "The property fails in the code: With two or more lags no core state has values in two lags: each copy of the frame gets the column of one lag only. A concrete model in which a state reached by two choices is not in the state space. Proved with restrictions: **C04 (partial).** With at most one lag and no filters, every feasible experience combination appears with every list of lagged choices of the right length. Missing: two or more lags."
  },
  {
   "property": "C05",
   "status": "partial",
   "theorems": [
    "Respy.C05_core_mem_iff",
    "Respy.C05_filters_partial",
    "Respy.C05_filters_false",
    "Respy.C05_filters_drop_unfiltered_false"
   ],
   "note": "The property fails in the code: Filters are applied before starting values are added: a state which satisfies a filter stays. For the same reason a state which satisfies no filter can be missing. Proved with restrictions: **C05 (partial).** If all experiences start at zero, no state of the state space satisfies a filter. Missing: other starting values, where the property fails (`C05_filters_false`)."
  },
  {
   "property": "C06",
   "status": "partial",
   "theorems": [
    "Respy.C06_dense_grid_partial",
    "Respy.C06_no_exogenous_partial",
    "Respy.C06_dense_grid_false",
    "Respy.C06_types_and_exogenous_false"
   ],
   "note": "The property fails in the code: Columns of the dense frame put exogenous processes last, the grid is in the order of observables: points are labelled wrongly. With types and an exogenous process the type gets the levels of the process. Proved with restrictions: **C06 (partial).** If the columns of the dense frame are in the order of the observables followed by the type, the grid is complete. Missing: exogenous processes which change this order, where the property fails (`C06_dense_grid_false`). Without exogenous processes the order of the columns is the right one."
  },
  {
   "property": "C07",
   "status": "partial",
   "theorems": [
    "Respy.C07_dense_key_partial",
    "Respy.C07_dense_key_false"
   ],
   "note": "The property fails in the code: With dense information two core keys of a period can have the same choice set; the second overwrites the first in the dictionary. Proved with restrictions: **C07 (partial).** Suppose that no two core keys of one period get the same choice set under the same dense index. Then for every core state and every dense index there is a dense key; it is attached to the core key of the state, to the period of the state, to the choice set which is admissible for the combination of core and dense state, and to the dense index; hence different combinations of core key and dense index have different dense keys (and, by C09, different cache files). Conversely every dense key belongs to one core key and one dense index, and its period and choice set are those of all the states of the core key. Missing: the general case, where the property fails (`C07_dense_key_false`)."
  },
  {
   "property": "C08",
   "status": "proved",
   "theorems": [
    "Respy.C08_choice_set_exact",
    "Respy.C08_groups_partition",
    "Respy.C08_value_error_iff"
   ],
   "note": ""
  },
  {
   "property": "C09",
   "status": "proved",
   "theorems": [
    "Respy.C09_file_names_injective"
   ],
   "note": ""
  },
  {
   "property": "C10",
   "status": "proved",
   "theorems": [
    "Respy.C10_law_of_motion_history"
   ],
   "note": ""
  },
  {
   "property": "C11",
   "status": "partial",
   "theorems": [
    "Respy.C11_bellman_partial",
    "Respy.C11_bellman_exogenous_partial",
    "Respy.C11_bellman_false"
   ],
   "note": "The property fails in the code: With a discount factor of zero, zeros are stored. Proved with restrictions: **C11 (partial).** Models without exogenous processes, without interpolation and with a discount factor other than zero. After `solve` the value stored for every state of every dense key is the Monte Carlo Bellman operator applied to the continuation values `cv`, where `cv` is zero in the last period and consists of the stored values of the child states otherwise. The state of the arrays before the call is arbitrary. Missing: a discount factor of zero, where zeros are stored and the statement is false (`C11_bellman_false`); exogenous processes are the subject of `C11_bellman_exogenous_partial`. **C11 (partial), exogenous processes.** As `C11_bellman_partial`; the continuation value of choice `a` is the sum over the reachable dense keys `f` of the probability of `f` times the stored value of the child state of `f` for the same choice `a`. The transit choice set of a reachable dense key is assumed to contain the choices of `k`, which is what `C20_transit_choice_sets` provides."
  },
  {
   "property": "C12",
   "status": "partial",
   "theorems": [
    "Respy.C12_emax_exact",
    "Respy.C12_emax_mean_of_max_partial",
    "Respy.C12_emax_overstated_false",
    "Respy.C12_emax_false"
   ],
   "note": "The property fails in the code: In general: the value is too large as soon as all alternatives are negative for one draw. The maximum over alternatives starts at zero. Proved with restrictions: **C12 (partial).** If for every draw some alternative has a non-negative value, the expected value function is the average over the draws of the largest value. Missing: draws for which all values are negative, where the property fails (`C12_emax_false`, `C12_emax_overstated`)."
  },
  {
   "property": "C13",
   "status": "proved",
   "theorems": [
    "Respy.C13_emax_monotone",
    "Respy.C13_emax_nonexpansive",
    "Respy.C13_solution_monotone"
   ],
   "note": ""
  },
  {
   "property": "C14",
   "status": "proved",
   "theorems": [
    "Respy.C14_solve_history_independent"
   ],
   "note": ""
  },
  {
   "property": "C15",
   "status": "partial",
   "theorems": [
    "Respy.C15_returned_solution_false",
    "Respy.C15_last_solution_partial"
   ],
   "note": "The property fails in the code: All calls of a solve function change and return the same object. Proved with restrictions: **C15 (partial).** What holds instead: after any sequence of calls the object contains exactly the solution of the last call, if this was successful, and solutions obtained from other functions (other objects) are never changed. Missing: the object returned by an earlier call of the same function."
  },
  {
   "property": "C16",
   "status": "partial",
   "theorems": [
    "Respy.C16_no_interference_partial",
    "Respy.C16_cache_transparent",
    "Respy.C16_same_directory_false",
    "Respy.C16_nested_directory_false"
   ],
   "note": "The property fails in the code: With the same cache directory, a model is evaluated on the states of the model created last. Creating a model deletes the caches below its own cache directory. Proved with restrictions: **C16 (partial).** Let any number of models have cache directories none of which contains another. In every interleaving of creations and evaluations of these models, an evaluation of a model which has been created gives what it gives alone. Missing: models with the same or nested directories, for which the property fails (`C16_same_directory_false`, `C16_nested_directory_false`)."
  },
  {
   "property": "C17",
   "status": "proved",
   "theorems": [
    "Respy.C17_parallel_pointwise",
    "Respy.C17_several_outputs",
    "Respy.C17_no_common_key"
   ],
   "note": ""
  },
  {
   "property": "C18",
   "status": "partial",
   "theorems": [
    "Respy.C18_split_and_combine",
    "Respy.C18_empty_frame_false"
   ],
   "note": "The property fails in the code: For a frame without rows the function is called with an empty dictionary."
  },
  {
   "property": "C19",
   "status": "proved",
   "theorems": [
    "Respy.C19_one_column_per_key",
    "Respy.C19_level_probabilities",
    "Respy.C19_transition_probabilities"
   ],
   "note": ""
  },
  {
   "property": "C20",
   "status": "proved",
   "theorems": [
    "Respy.C20_transit_choice_sets",
    "Respy.C20_weighted_continuation_values",
    "Respy.C20_between_bounds"
   ],
   "note": ""
  },
  {
   "property": "C21",
   "status": "partial",
   "theorems": [
    "Respy.C21_split_feasible_partial",
    "Respy.C21_two_points_per_key_raises",
    "Respy.C21_two_points_per_key_false"
   ],
   "note": "The property fails in the code: With exactly two points per dense key the loop which binds `dense_key` is skipped, but the name is used afterwards (`NameError`). Proved with restrictions: **C21 (partial).** If the solution decides to interpolate in period `t` and there are more than two points for each dense key, then the points are split without an error whatever is drawn, each dense key receives at least `min 2 n` and at most `n` points where `n` is the number of its states, at most `interpolation_points` are used, and as many states as points are selected. Missing: exactly two points per dense key, see `C21_two_points_per_key_false`."
  },
  {
   "property": "C22",
   "status": "proved",
   "theorems": [
    "Respy.C22_simulated_exact_interpolated_bounded",
    "Respy.C22_solution",
    "Respy.C22_regression",
    "Respy.C22_exact_for_linear_models"
   ],
   "note": ""
  },
  {
   "property": "C23",
   "status": "proved",
   "theorems": [
    "Respy.C23_zero_discount_shortcut"
   ],
   "note": ""
  },
  {
   "property": "C24",
   "status": "partial",
   "theorems": [
    "Respy.C24_choice_is_best_partial",
    "Respy.C24_choice_is_best_iff",
    "Respy.C24_choice_is_best_false"
   ],
   "note": "The property fails in the code: Positions are replaced by codes one after the other in place, so that a code can be replaced again. Proved with restrictions: **C24** (partial). If no alternative with a code below the number of available alternatives is missing in front of an available one, the recorded choice is the first available alternative with the highest value at the shocks of the individual. Missing: other choice sets, for which the claim is false, see `C24_choice_is_best_false` and the exact condition `C24_choice_is_best_iff`."
  },
  {
   "property": "C25",
   "status": "partial",
   "theorems": [
    "Respy.C25_recorded_choice_admissible",
    "Respy.C25_wage_of_choice_partial",
    "Respy.C25_wage_of_choice_false"
   ],
   "note": "The property fails in the code: The wage belongs to the position, the recorded choice to another alternative. Proved with restrictions: **C25** (partial), second part: under the condition of `C24_choice_is_best_partial` the recorded wage is the wage of the recorded choice, shocks and measurement error included, and is missing exactly if the recorded choice has no wage. Missing: other choice sets, see `C25_wage_of_choice_false`."
  },
  {
   "property": "C26",
   "status": "partial",
   "theorems": [
    "Respy.C26_balanced_panel",
    "Respy.C26_labels_are_categories",
    "Respy.C26_checks_partial",
    "Respy.C26_checks_false",
    "Respy.C26_simulated_checks_partial"
   ],
   "note": "The panel is balanced (one row per individual and period) whenever the simulation returns; that it returns is part of C73. Simulated data pass check_estimation_data with at most two lags; with three or more lags the check itself raises (C26_checks_false)."
  },
  {
   "property": "C27",
   "status": "proved",
   "theorems": [
    "Respy.C27_history"
   ],
   "note": ""
  },
  {
   "property": "C28",
   "status": "proved",
   "theorems": [
    "Respy.C28_draws_used_once",
    "Respy.C28_one_step_own_draws"
   ],
   "note": ""
  },
  {
   "property": "C29",
   "status": "partial",
   "theorems": [
    "Respy.C29_rejected_iff",
    "Respy.C29_sampled_level",
    "Respy.C29_inverse_cdf_partial",
    "Respy.C29_zero_probability_never_partial",
    "Respy.C29_zero_probability_false"
   ],
   "note": "The property fails in the code: Probabilities may sum to one after rounding only; the last level is then drawn although its probability is zero. Proved with restrictions: **C29** If the probabilities are non-negative and sum to one exactly, level `i` is sampled if and only if `u` is in the interval from `p 0 + ... + p (i - 1)` to `p 0 + ... + p i`, whose length is `p i`. Missing: weights which sum to one only after rounding, see `C29_zero_probability_false`. **C29** A level with probability zero is never sampled if the probabilities sum to one."
  },
  {
   "property": "C30",
   "status": "proved",
   "theorems": [
    "Respy.C30_reproducible",
    "Respy.C30_repeated_calls"
   ],
   "note": ""
  },
  {
   "property": "C31",
   "status": "partial",
   "theorems": [
    "Respy.C31_requested_periods_partial",
    "Respy.C31_requested_periods_false"
   ],
   "note": "The property fails in the code: A requested number of periods is replaced by the number of periods of the model. Proved with restrictions: **C31** (partial). The number of periods of the model is simulated, for one-step-ahead simulations without an argument the number of periods in the data; the model never has fewer periods than are simulated. Missing: the argument `n_simulation_periods` is honoured only if it equals the number of periods of the model, see `C31_requested_periods_false`."
  },
  {
   "property": "C32",
   "status": "proved",
   "theorems": [
    "Respy.C32_permanent_characteristics",
    "Respy.C32_next_dense_state"
   ],
   "note": ""
  },
  {
   "property": "C33",
   "status": "partial",
   "theorems": [
    "Respy.C33_accepted_data",
    "Respy.C33_labelled_rows",
    "Respy.C33_missing_label",
    "Respy.C33_labelled_data_partial",
    "Respy.C33_starts_from_data_partial",
    "Respy.C33_sampling",
    "Respy.C33_starts_from_data_false"
   ],
   "note": "The property fails in the code: Individuals 0..n-1 are simulated whatever the identifiers in the data are. Proved with restrictions: **C33** Simulating individuals whose observations contain labels. An individual with an identifier below the number of individuals starts with the values of its observation in period zero. Missing: other identifiers, see `C33_starts_from_data_false` and `C33_missing_label`. **C33** (partial). If the identifiers in the data are exactly the numbers below their number, the simulation has exactly these individuals and starts each of them from the characteristics of this individual's observation in period zero (only missing values are sampled). Missing: other identifiers, see `C33_starts_from_data_false`."
  },
  {
   "property": "C34",
   "status": "proved",
   "theorems": [
    "Respy.C34_logsumexp",
    "Respy.C34_empty_rejected"
   ],
   "note": ""
  },
  {
   "property": "C35",
   "status": "proved",
   "theorems": [
    "Respy.C35_choice_probabilities",
    "Respy.C35_no_probability_outside"
   ],
   "note": ""
  },
  {
   "property": "C36",
   "status": "partial",
   "theorems": [
    "Respy.C36_matched",
    "Respy.C36_rejected_iff",
    "Respy.C36_next_alternative",
    "Respy.C36_outside_rejected_false",
    "Respy.C36_outside_rejected_partial"
   ],
   "note": "The property fails in the code: `searchsorted` maps an unavailable choice to the next available one. Proved with restrictions: **C36, the part of the rejection which holds**: a code is rejected if no available alternative has a larger code. Missing: codes below an available alternative."
  },
  {
   "property": "C37",
   "status": "partial",
   "theorems": [
    "Respy.C37_own_measurement_error_false",
    "Respy.C37_own_measurement_error_partial"
   ],
   "note": "The property fails in the code: The standard deviations are not restricted to the choice set but indexed by the position in it. Proved with restrictions: If all alternatives before the observed choice are available, only the standard deviation of the observed choice matters: the result is the one with this standard deviation for all alternatives. Missing: choice sets without an earlier alternative, see `C37_own_measurement_error_false`."
  },
  {
   "property": "C38",
   "status": "partial",
   "theorems": [
    "Respy.C38_measurement_error_partial",
    "Respy.C38_no_measurement_error",
    "Respy.C38_no_observation",
    "Respy.C38_exact_condition",
    "Respy.C38_measurement_error_any_covariance",
    "Respy.C38_singular_covariance_false",
    "Respy.C38_contract_not_sufficient",
    "Respy.C38_factor_is_the_cholesky_factor"
   ],
   "note": "With measurement error the law of the draws is the conditional law, under the contract of QR, if the covariance is not singular; in general if and only if rows of R with a zero on the diagonal vanish (C38_exact_condition). False for singular covariance matrices (C38_singular_covariance_false, with Householder's method). Without measurement error and without an observed wage the claim is proved in full."
  },
  {
   "property": "C39",
   "status": "proved",
   "theorems": [
    "Respy.C39_draws_reproduce_wage"
   ],
   "note": ""
  },
  {
   "property": "C40",
   "status": "proved",
   "theorems": [
    "Respy.C40_log_normal_density",
    "Respy.C40_no_wage"
   ],
   "note": ""
  },
  {
   "property": "C41",
   "status": "proved",
   "theorems": [
    "Respy.C41_type_probabilities",
    "Respy.C41_mixture"
   ],
   "note": ""
  },
  {
   "property": "C42",
   "status": "partial",
   "theorems": [
    "Respy.C42_number_of_contributions",
    "Respy.C42_one_per_individual_false",
    "Respy.C42_one_per_individual_partial",
    "Respy.C42_value_is_mean"
   ],
   "note": "The property fails in the code: With several types the first observations are duplicated for each type: there is one contribution per individual and type. Proved with restrictions: **C42, one type.** There is one contribution per individual. Missing: more types."
  },
  {
   "property": "C43",
   "status": "partial",
   "theorems": [
    "Respy.C43_data_levels_used_false",
    "Respy.C43_data_levels_used_partial",
    "Respy.C43_levels_of_the_data",
    "Respy.C43_checked_levels"
   ],
   "note": "The property fails in the code: Levels of initial experience found in the data reach the data checks but not the state space. Proved with restrictions: **C43, the part which holds**: if the levels in the data are those of the parameters, the state space is the one built from the levels in the data. Missing: data with other levels."
  },
  {
   "property": "C44",
   "status": "partial",
   "theorems": [
    "Respy.C44_restricted_covariance",
    "Respy.C44_covariance_false",
    "Respy.C44_covariance_partial",
    "Respy.C44_earlier_available_partial",
    "Respy.C44_variance_iff"
   ],
   "note": "The property fails in the code: Deleting rows and columns of the Cholesky factor is not the factor of the submatrix. Proved with restrictions: The covariance is the specified one if no missing alternative contributes to both shocks. Missing: missing alternatives which contribute to both shocks, see `C44_covariance_false` and `C44_variance_iff`. In particular: a lower triangular factor if all alternatives up to the smaller one are available."
  },
  {
   "property": "C45",
   "status": "proved",
   "theorems": [
    "Respy.C45_solution_and_simulation",
    "Respy.C45_defined",
    "Respy.C45_likelihood",
    "Respy.C45_same_rule"
   ],
   "note": ""
  },
  {
   "property": "C46",
   "status": "partial",
   "theorems": [
    "Respy.C46_categories",
    "Respy.C46_categories_sound",
    "Respy.C46_categories_exact",
    "Respy.C46_choices_with_experience",
    "Respy.C46_unique_codes",
    "Respy.C46_order",
    "Respy.C46_disjoint_false",
    "Respy.C46_disjoint_partial"
   ],
   "note": "The property fails in the code: A choice with a wage and a non-pecuniary reward whose experience is not used is in both lists. Proved with restrictions: They are disjoint if the experience of every choice with a wage and a non-pecuniary reward occurs in the parameters. Missing: choices with a wage whose experience has no effect, see `C46_disjoint_false`."
  },
  {
   "property": "C47",
   "status": "proved",
   "theorems": [
    "Respy.C47_no_collision",
    "Respy.C47_bound_sharp",
    "Respy.C47_reproducible",
    "Respy.C47_characteristics_have_own_seeds"
   ],
   "note": ""
  },
  {
   "property": "C48",
   "status": "proved",
   "theorems": [
    "Respy.C48_probabilities",
    "Respy.C48_mixing_rejected"
   ],
   "note": ""
  },
  {
   "property": "C49",
   "status": "partial",
   "theorems": [
    "Respy.C49_first_code",
    "Respy.C49_unique_label_partial",
    "Respy.C49_shared_label_false",
    "Respy.C49_filters",
    "Respy.C49_all_filters"
   ],
   "note": "The property fails in the code: A label shared by an observable and a choice gets the code of the choice. Proved with restrictions: A label which only belongs to one variable is replaced by its code for this variable, wherever it is compared. Missing: labels shared by several variables, see `C49_shared_label_false`."
  },
  {
   "property": "C50",
   "status": "partial",
   "theorems": [
    "Respy.C50_partial",
    "Respy.C50_false"
   ],
   "note": "The property fails in the code: `exp` inside a word becomes `Experience`, so that names do not survive the round trip. Proved with restrictions: Lower-case names in which `exp` only occurs at the beginning of a run of letters survive the round trip, for example all names of respy unless a name given by the user contains `exp` elsewhere. Missing: other names, see `C50_false`."
  },
  {
   "property": "C51",
   "status": "partial",
   "theorems": [
    "Respy.C51_labels_partial",
    "Respy.C51_codes_partial",
    "Respy.C51_unknown_label",
    "Respy.C51_many_labels_false"
   ],
   "note": "The property fails in the code: Codes are stored as `uint8`: label 257 gets the code of the first. Proved with restrictions: With at most 256 labels, a column of labels is converted to codes which are converted back to the column, for choices and for observables. Missing: more than 256 labels, see `C51_many_labels_false`. Codes are converted to labels which are converted back to the codes."
  },
  {
   "property": "C52",
   "status": "proved",
   "theorems": [
    "Respy.C52_relevant_covariates",
    "Respy.C52_order_independent"
   ],
   "note": ""
  },
  {
   "property": "C53",
   "status": "partial",
   "theorems": [
    "Respy.C53_values_partial",
    "Respy.C53_order_partial",
    "Respy.C53_acyclic_partial",
    "Respy.C53_dependencies_partial",
    "Respy.C53_constant_false",
    "Respy.C53_substring_false"
   ],
   "note": "The property fails in the code: A covariate which uses a constant covariate has no recorded dependency; the result depends on the order. A covariate whose name is part of a name in its formula depends on itself and is never computed. Proved with restrictions: With accurate dependencies: the loop ends without an error of `eval`, existing columns are untouched, and the variables in the result are exactly those which have a value according to the definitions, with this value. With `raise_errors`, there is an error iff a covariate has no value. Missing: inaccurate dependencies, see `C53_constant_false` and `C53_substring_false`. Definitions in another order give the same columns and values. Without cycles and with all other variables in the frame, every covariate is computed. The dependencies found by respy are accurate if every variable used in a formula occurs in its text and is a state variable or a covariate which depends on state variables."
  },
  {
   "property": "C54",
   "status": "partial",
   "theorems": [
    "Respy.C54_partial",
    "Respy.C54_false",
    "Respy.C54_constant_false",
    "Respy.C54_cycle"
   ],
   "note": "The property fails in the code: `dependents.remove` raises a `KeyError` depending on the order of a set. A covariate without dependencies is not returned although it is asked for. Proved with restrictions: Whatever the order in which sets are visited: if every variable without dependencies is reached by chains of one length only and there are no cycles, the loop ends without an error and the result consists of all covariates with dependencies which are needed, with their definitions. Missing: other definitions, see `C54_false`, and covariates without dependencies, see `C54_constant_false`."
  },
  {
   "property": "C55",
   "status": "partial",
   "theorems": [
    "Respy.C55_type_names",
    "Respy.C55_number_of_types",
    "Respy.C55_entries_partial",
    "Respy.C55_own_coefficients",
    "Respy.C55_entries_false"
   ],
   "note": "The property fails in the code: A type which only occurs in the categories gets an entry in the type probabilities although it is not counted. Proved with restrictions: If no index in the categories is beyond the types in the names, there is exactly one entry of coefficients for every type in order, and a type without own parameters has the baseline coefficient. Missing: categories of types which do not occur as a name, see `C55_entries_false`."
  },
  {
   "property": "C56",
   "status": "proved",
   "theorems": [
    "Respy.C56_cache_directory",
    "Respy.C56_only_cache_deleted"
   ],
   "note": ""
  },
  {
   "property": "C57",
   "status": "proved",
   "theorems": [
    "Respy.C57_labels",
    "Respy.C57_choice_restrictions",
    "Respy.C57_inputs_unchanged"
   ],
   "note": ""
  },
  {
   "property": "C58",
   "status": "proved",
   "theorems": [
    "Respy.C58_default_maximum_never_binds"
   ],
   "note": ""
  },
  {
   "property": "C59",
   "status": "partial",
   "theorems": [
    "Respy.C59_partial",
    "Respy.C59_false"
   ],
   "note": "The property fails in the code: Negative periods are accepted, so that histories can have gaps. Proved with restrictions: **C59** If a sample without negative periods is accepted, there are numbers of observations `T i` between one and the number of periods such that identifiers and periods are exactly `histories n T`, each once. Missing: samples with negative periods, see `C59_false`."
  },
  {
   "property": "C60",
   "status": "partial",
   "theorems": [
    "Respy.C60_partial",
    "Respy.C60_last_lag_false",
    "Respy.C60_categories_false"
   ],
   "note": "The property fails in the code: The last lagged choice is never compared. Codes of different categories are compared. Proved with restrictions: **C60** In an accepted sample every lagged choice but the last is the choice of the corresponding earlier period. The sample has no negative periods, individuals are sorted by period, the columns with choices have the same categories and contain the choices. Missing: the last lagged choice, in particular a single one, see `C60_last_lag_false`, and columns with different categories, see `C60_categories_false`."
  },
  {
   "property": "C61",
   "status": "proved",
   "theorems": [
    "Respy.C61_quadratic_form",
    "Respy.C61_nonneg",
    "Respy.C61_zero_iff"
   ],
   "note": ""
  },
  {
   "property": "C62",
   "status": "partial",
   "theorems": [
    "Respy.C62_partial",
    "Respy.C62_false"
   ],
   "note": "The property fails in the code: The root of the weighting matrix is taken element by element. Proved with restrictions: C62 for diagonal matrices with non-negative weights: the squared root contributions sum to the criterion. Missing: weighting matrices with other entries, for which the claim is wrong (`C62_false`)."
  },
  {
   "property": "C63",
   "status": "partial",
   "theorems": [
    "Respy.C63_flat_labels",
    "Respy.C63_rows",
    "Respy.C63_keys_partial",
    "Respy.C63_common_order_partial",
    "Respy.C63_keys_false"
   ],
   "note": "The property fails in the code: With another order of keys pandas sorts the labels while the weights keep their order. Proved with restrictions: C63 for the default weights: the order of keys in any of the dictionaries does not matter. Missing: weights which differ between moments, for which the order of keys of the functions matters (`C63_keys_false`) unless it is the same as the one of the empirical moments (`C63_common_order_partial`). C63 for weights given by label: if all dictionaries are reordered such that the functions have the order of the empirical moments, and the weighting matrix is built by `get_diag_weighting_matrix` from weights in any order, the criterion is the same. Missing: functions in another order than the empirical moments (`C63_keys_false`)."
  },
  {
   "property": "C64",
   "status": "partial",
   "theorems": [
    "Respy.C64_list_dict",
    "Respy.C64_single_list",
    "Respy.C64_complete",
    "Respy.C64_returned_form_partial",
    "Respy.C64_one_element_list_false",
    "Respy.C64_replace_list_false"
   ],
   "note": "The property fails in the code: The moments of a list with one element come back as a single object. A list with one function for missing values passes the checks but fails for several moments. Proved with restrictions: C64: the form of the simulated moments for a dictionary, a single object, and a list with another number of moments than one. Missing: lists with one element (`C64_one_element_list_false`)."
  },
  {
   "property": "C65",
   "status": "proved",
   "theorems": [
    "Respy.C65_discount_factors"
   ],
   "note": ""
  },
  {
   "property": "C66",
   "status": "proved",
   "theorems": [
    "Respy.C66_integers",
    "Respy.C66_smallest",
    "Respy.C66_floats_close",
    "Respy.C66_floats_change"
   ],
   "note": ""
  },
  {
   "property": "C67",
   "status": "proved",
   "theorems": [
    "Respy.C67_earlier_rows",
    "Respy.C67_earlier_ages",
    "Respy.C67_periods",
    "Respy.C67_rows",
    "Respy.C67_choice_codes",
    "Respy.C67_schooling"
   ],
   "note": ""
  },
  {
   "property": "C68",
   "status": "proved",
   "theorems": [
    "Respy.C68_groups",
    "Respy.C68_self_contained"
   ],
   "note": ""
  },
  {
   "property": "C69",
   "status": "partial",
   "theorems": [
    "Respy.C69_partial",
    "Respy.C69_three_lags_false",
    "Respy.C69_false"
   ],
   "note": "The property fails in the code: In general: consistent data with three or more lags are rejected if an individual is observed twice. Consistent data with three lags are rejected. Proved with restrictions: **C69** A consistent sample with at most two lagged choices is accepted. Missing: more lagged choices, see `C69_three_lags_false`."
  },
  {
   "property": "C70",
   "status": "partial",
   "theorems": [
    "Respy.C70_solution_is_value_function_partial",
    "Respy.C70_unfiltered_models_well_formed",
    "Respy.C70_exogenous_solution_partial",
    "Respy.C70_zero_discount",
    "Respy.C70_zero_discount_false",
    "Respy.C70_solution_from_parameters_partial"
   ],
   "note": "Proved for models without interpolation and with a discount factor different from zero, with and without exogenous processes; the maximum includes zero as in the code (see C12). With interpolation and with a discount factor of zero the stored values are not the value function; they are described in C80. With a discount factor of zero all stored values are zero (C70_zero_discount), which is not the value function (C70_zero_discount_false)."
  },
  {
   "property": "C71",
   "status": "proved",
   "theorems": [
    "Respy.C71_objects_of_parameters"
   ],
   "note": ""
  },
  {
   "property": "C72",
   "status": "proved",
   "theorems": [
    "Respy.C72_accepted_values",
    "Respy.C72_accepted_observables",
    "Respy.C72_accepted_experience"
   ],
   "note": ""
  },
  {
   "property": "C73",
   "status": "partial",
   "theorems": [
    "Respy.C73_logit_probabilities",
    "Respy.C73_sample_follows_stored_values",
    "Respy.C73_simulated_sample_partial",
    "Respy.C73_exogenous_sample_partial",
    "Respy.C73_logit_weights",
    "Respy.C73_start_outside",
    "Respy.C73_sample_of_any_solution",
    "Respy.C73_exogenous_sample_of_any_solution"
   ],
   "note": "Proved for models with at most one lagged choice whose filters keep the states without additional experience in the first period (StartsInCore), for all numbers of interpolation points and all discount factors (C73_sample_of_any_solution). With more lagged choices no model can be solved (C86_two_lags_false). A known starting state outside of the state space makes the simulation raise (C73_start_outside)."
  },
  {
   "property": "C74",
   "status": "partial",
   "theorems": [
    "Respy.C74_names_recovered_partial",
    "Respy.C74_accepted_names",
    "Respy.C74_part_of_name_false",
    "Respy.C74_words_false",
    "Respy.C74_two_values_false"
   ],
   "note": "The property fails in the code: Rows are counted by substrings, so that a name inside another name leads to a rejection. Names are common beginnings of categories: levels of several words with the same first letters extend the name. Rows are counted instead of levels: one level with two coefficients is accepted as an observable. Proved with restrictions: C74 (the names are recovered). For all parameters whose categories for the keyword are `keyword_name_level`, where every name has at least two rows, no name is part of another name, names do not end with an underscore, and two rows of the same name have a level of one word or levels with different first characters: the parsed names are exactly the names, each one once, in alphabetical order. Partial: without the conditions on names and levels the claim is false, see `C74_part_of_name_false`, `C74_words_false` and `C74_two_values_false`."
  },
  {
   "property": "C75",
   "status": "partial",
   "theorems": [
    "Respy.C75_equal_initial_weights",
    "Respy.C75_levels_partial",
    "Respy.C75_own_coefficients_partial",
    "Respy.C75_process_levels_defined",
    "Respy.C75_codes_agree_partial",
    "Respy.C75_codes_false",
    "Respy.C75_upper_case_false"
   ],
   "note": "The property fails in the code: An observable of a process may have additional levels, which shift the codes: transitions and dense states then use different codes for the same level. Levels with upper-case letters are not matched and dropped without an error. Proved with restrictions: C75 (levels). For all parameters whose categories consist of word characters and where the levels of the name consist of lower-case letters, digits and underscores: the parsed levels are distinct, sorted, and exactly the levels in the categories `keyword_name_level`. They are numbers if all are texts of digits and texts otherwise. Partial: upper-case letters are excluded, see `C75_upper_case_false`. C75 (coefficients). For all parameters as in `C75_levels_partial` with texts as levels and logit coefficients: every level has exactly the coefficients with the category `keyword_name_level`, in the order of the parameters. Partial: upper-case letters are excluded as before. C75 (codes agree). For all processes and observables of the same name with sorted levels: if the initial distribution is accepted and the observable has no level which the process does not have, then every level has the same code for the process (transitions) and for the observable (dense states, initial values), and both have the same number of levels. Partial: additional levels of the observable are accepted as well, and the codes differ then, see `C75_codes_false`."
  },
  {
   "property": "C76",
   "status": "proved",
   "theorems": [
    "Respy.C76_all_or_none",
    "Respy.C76_own_standard_deviation"
   ],
   "note": ""
  },
  {
   "property": "C77",
   "status": "proved",
   "theorems": [
    "Respy.C77_one_matrix",
    "Respy.C77_validated_matrix",
    "Respy.C77_shock_matrix"
   ],
   "note": ""
  },
  {
   "property": "C78",
   "status": "partial",
   "theorems": [
    "Respy.C78_number_of_lags",
    "Respy.C78_distribution",
    "Respy.C78_codes_of_choices_partial",
    "Respy.C78_all_lags_partial",
    "Respy.C78_unknown_label_false"
   ],
   "note": "The property fails in the code: A label which is not a choice is accepted and gets a code behind the choices. Proved with restrictions: C78 (codes are choices). For all parameters as in `C78_distribution` where every label of the lag is a choice: the positions in the distribution, which are the sampled codes, are the codes of choices. Partial: other labels are not rejected, see `C78_unknown_label_false`. C78 (all lags). For all choices, covariates and parameters: if the lagged choices are accepted, there is one distribution for each of the lags `1, …, n` where `n` is the number of lags, and it is the one of this lag. With parameters only for choices the codes of all lags are the codes of choices."
  },
  {
   "property": "C79",
   "status": "partial",
   "theorems": [
    "Respy.C79_criterion_stored_values",
    "Respy.C79_criterion_is_likelihood_partial",
    "Respy.C79_exogenous_criterion_partial",
    "Respy.C79_state_outside",
    "Respy.C79_criterion_of_any_solution",
    "Respy.C79_exogenous_criterion_of_any_solution"
   ],
   "note": "Proved for all discount factors and all numbers of interpolation points (C79_criterion_of_any_solution). Missing: wages for which the likelihood is not defined (zero measurement error with a singular covariance matrix, see C38, and measurement errors of alternatives with an inadmissible predecessor, see C37). Observations outside of the state space raise (C79_state_outside)."
  },
  {
   "property": "C80",
   "status": "proved",
   "theorems": [
    "Respy.C80_solution_with_interpolation",
    "Respy.C80_exogenous_solution_with_interpolation",
    "Respy.C80_no_interpolation_is_value_function",
    "Respy.C80_zero_discount_factor",
    "Respy.C80_exogenous_zero_discount_factor",
    "Respy.C80_model_solved_iff"
   ],
   "note": ""
  },
  {
   "property": "C81",
   "status": "proved",
   "theorems": [
    "Respy.C81_least_squares",
    "Respy.C81_independent_of_method",
    "Respy.C81_residuals_sum_to_zero",
    "Respy.C81_solution_is_least_squares"
   ],
   "note": ""
  },
  {
   "property": "C82",
   "status": "partial",
   "theorems": [
    "Respy.C82_labels_by_position",
    "Respy.C82_choice_sets_by_name",
    "Respy.C82_processed_models_well_formed",
    "Respy.C82_solve_input_well_formed",
    "Respy.C82_wages_by_name",
    "Respy.C82_nonpecs_by_name",
    "Respy.C82_experience_by_name",
    "Respy.C82_accepted_models_are_solved_partial",
    "Respy.C82_exogenous_models_are_solved_partial"
   ],
   "note": "Proved with restrictions: **C82 (partial).** Every supported model without exogenous processes which is accepted is solved. The creation of the state space and the preparation of the solution succeed, the backward induction succeeds for every state of the arrays before the call, and the number found for a state is its value in the model: `V` solves the model whose restrictions and rewards are given by `C82_choice_sets_by_name`, `C82_wages_by_name` and `C82_nonpecs_by_name`. Missing: restrictions which mix core and dense variables and models whose filters leave the state space open, whose creation fails (C86), more than one lag, where the property fails (`C86_two_lags_false`), and experiences which do not fit into eight bits. **C82 (partial)** for models with exogenous processes, if these come last among the observables and there are no types (`C06_dense_grid_false` shows what happens otherwise): the continuation of a state is the mean of the values of the states with the same characteristics and all levels of the processes, weighted with the logit probabilities of the parameters of the processes."
  },
  {
   "property": "C83",
   "status": "partial",
   "theorems": [
    "Respy.C83_usable_covariates",
    "Respy.C83_samplable_of_grounded",
    "Respy.C83_samples_of_accepted_models_partial",
    "Respy.C83_samples_of_exogenous_models_partial",
    "Respy.C83_missing_constant_false",
    "Respy.C83_logit_weights",
    "Respy.C83_known_characteristics",
    "Respy.C83_initial_experience_probabilities",
    "Respy.C83_default_experience",
    "Respy.C83_observable_probabilities"
   ],
   "note": "Proved for models whose state space can be created (C86), with at most one lagged choice (Supported, see C82), provided that the covariates of initial distributions can be computed (C83_samplable_of_grounded says when). C83_missing_constant_false: without the covariate constant in the parameters the code fails."
  },
  {
   "property": "C84",
   "status": "partial",
   "theorems": [
    "Respy.C84_criterion_of_accepted_models_partial",
    "Respy.C84_criterion_of_exogenous_models_partial",
    "Respy.C84_parameters_by_name",
    "Respy.C84_type_scores",
    "Respy.C84_covariates_by_formula"
   ],
   "note": "Proved with restrictions: **C84 (partial).** The criterion function of every supported model without exogenous processes which is accepted: the model is solved, and for all data which fit to the model the value is the likelihood of the data in the model whose restrictions, rewards and starting values are given by name (`C82_choice_sets_by_name`, `C82_wages_by_name`, `C82_nonpecs_by_name`). Missing: models whose creation fails (C86), more than one lag, experiences which do not fit into eight bits, and wages for which C79 makes no statement. **C84 (partial)** for models with exogenous processes, if these come last among the observables and there are no types: the continuation values are weighted with the logit probabilities of the processes."
  },
  {
   "property": "C85",
   "status": "partial",
   "theorems": [
    "Respy.C85_state_space_of_index",
    "Respy.C85_options_processed_again_partial",
    "Respy.C85_solve_function_partial",
    "Respy.C85_solution_at_parameters_partial",
    "Respy.C85_solution_with_processes_partial",
    "Respy.C85_processed_twice_false",
    "Respy.C85_maximum_experience_false"
   ],
   "note": "Proved for options whose formulas keep their meaning when they are processed again (Reprocessable) and parameters with the same maximum experiences; C85_processed_twice_false and C85_maximum_experience_false show that both are necessary."
  },
  {
   "property": "C86",
   "status": "partial",
   "theorems": [
    "Respy.C86_created_spaces_closed",
    "Respy.C86_created_iff_closed",
    "Respy.C86_mixed_restrictions",
    "Respy.C86_two_lags_state",
    "Respy.C86_two_lags_false",
    "Respy.C86_accepted_models_created",
    "Respy.C86_created_models_supported"
   ],
   "note": "The property fails in the code: No model with two or more lagged choices and periods can be solved: states have one known lag, their successors two."
  },
  {
   "property": "C87",
   "status": "partial",
   "theorems": [
    "Respy.C87_simulate_function_partial",
    "Respy.C87_criterion_function_partial",
    "Respy.C87_samples_at_parameters_partial",
    "Respy.C87_samples_with_processes_partial",
    "Respy.C87_criterion_at_parameters_partial",
    "Respy.C87_criterion_with_processes_partial"
   ],
   "note": "Proved under the hypotheses of C85 for formulas with accurate dependencies (FormulasSound); for the criterion function also a search for the covariates of type probabilities which ends (Graded, C54). The limits of C85 apply."
  },
  {
   "property": "C88",
   "status": "partial",
   "theorems": [
    "Respy.C88_check_passes_iff_finite_partial",
    "Respy.C88_accepted_models_pass_partial",
    "Respy.C88_two_lags_false",
    "Respy.C88_passed_checks"
   ],
   "note": "The property fails in the code: With two or more lagged choices the check fails for every state space, as each state has a missing lagged choice. Proved with restrictions: **C88.** In a model with at most one lag, the check passes for the state space (and for every part of it) if and only if the values are finite. Periods plus initial experiences have to fit into eight bits, where `add` is the sum. **C88.** The state space of every accepted model which is created passes the check if and only if the values are finite."
  },
  {
   "property": "C89",
   "status": "partial",
   "theorems": [
    "Respy.C89_types",
    "Respy.C89_experiences",
    "Respy.C89_lags",
    "Respy.C89_observable_names_partial",
    "Respy.C89_observable_levels",
    "Respy.C89_observable_coefficients",
    "Respy.C89_choices",
    "Respy.C89_eleven_observables_false",
    "Respy.C89_one_level_false",
    "Respy.C89_base_values_false",
    "Respy.C89_lagged_probabilities_false",
    "Respy.C89_lagged_covariates",
    "Respy.C89_one_lag",
    "Respy.C89_types_alike"
   ],
   "note": "The property fails in the code: With eleven observables the rows of `observable_1` and `observable_10` have a common prefix, so that the template is rejected. The name of an observable with one level is not found, so that the template is rejected. Six rows of correlations in the base template have no value: the text in the column of values is a comment. The probabilities of lagged choices in the template are read as logit coefficients of the constant, so that the lagged choices have other probabilities. Proved with restrictions: C89 (names of observables). For all numbers of observables up to ten with at least two levels each: the names read from the template are those of the template, in alphabetical order."
  },
  {
   "property": "C90",
   "status": "partial",
   "theorems": [
    "Respy.C90_scalar_and_dictionary",
    "Respy.C90_reproducible",
    "Respy.C90_any_parameters_partial",
    "Respy.C90_own_moments_partial"
   ],
   "note": "Proved with restrictions: **C90 (partial).** The function of moment errors can be created if the numbers of functions fit and the state space can be created. For all parameters with the same index and the same maximum experiences, it compares the moments of the sample which is simulated from the model with these parameters, as a function does which is created at these parameters. Missing: options whose formulas mention names inside of labels, and other maximum experiences (C85). **C90 (partial).** The criterion is zero at the parameters which generated the moments: if the empirical moments are those of a sample of the model at `θ`, computed with the same functions and without missing values, then the function of moment errors, created at any parameters with the same index, finds no error at `θ`, whatever was drawn before and whatever the weights are. Missing: see `C90_any_parameters_partial`."
  },
  {
   "property": "C91",
   "status": "proved",
   "theorems": [
    "Respy.C91_plot_data"
   ],
   "note": ""
  },
  {
   "property": "C92",
   "status": "partial",
   "theorems": [
    "Respy.C92_value",
    "Respy.C92_decomposition_partial",
    "Respy.C92_rows_partial",
    "Respy.C92_type_probabilities",
    "Respy.C92_identifiers_false",
    "Respy.C92_periods_false",
    "Respy.C92_types_false",
    "Respy.C92_type_probabilities_once_false"
   ],
   "note": "The property fails in the code: Identifiers in the data for plots are stored with 16 bits: individual 65536 becomes individual 0. Periods in the data for plots are stored with 8 bits: period 256 becomes period 0. The rows of all types are in the data for plots, but the column `type` is not kept for them: log likelihoods of types cannot be told apart. Each log type probability appears as many times as there are types, because the first observations have been duplicated for each type. Proved with restrictions: **C92 (partial)** The log likelihoods of choices and wages in the data for plots decompose the likelihood: summed by individual they are the log likelihoods of the individual, summed over types. Without types, their clipped sums are the contributions. Log likelihoods of missing wages, which are removed, do not matter. Missing: identifiers from 65536 on, see `C92_identifiers_false`, and the types, see `C92_types_false`. **C92 (partial)** Every observation has a row of kind choice for each type, with its choice and the log likelihood of the choice. It also has a row of kind wage for each type with the log likelihood of the wage, unless the wage is missing although the choice has wages; then there is none. Missing: identifiers from 65536 on, periods from 256 on, and the assignment to types."
  },
  {
   "property": "C93",
   "status": "partial",
   "theorems": [
    "Respy.C93_accepted_iff",
    "Respy.C93_option_values",
    "Respy.C93_unknown_names_false"
   ],
   "note": "C93_accepted_iff and C93_option_values prove the first two claims. C93_unknown_names_false refutes the last one: options with unknown names are accepted and ignored."
  },
  {
   "property": "C94",
   "status": "partial",
   "theorems": [
    "Respy.C94_criterion_order",
    "Respy.C94_order_of_evaluation",
    "Respy.C94_criterion_of_accepted_models",
    "Respy.C94_check_partial",
    "Respy.C94_rejected_false",
    "Respy.C94_inconsistent_accepted_false"
   ],
   "note": "The property fails in the code: Accepted data are rejected when the rows of an individual are in another order, as each row is compared with the row before it instead of the period before. Data whose rows are not in the order of periods are accepted although experience falls from one period to the next. Proved with restrictions: **C94** Whether data are accepted does not depend on the order of rows, as long as identifiers appear in increasing order and the rows of each individual are in the order of periods. Missing: other orders, see `C94_rejected_false`."
  },
  {
   "property": "C95",
   "status": "partial",
   "theorems": [
    "Respy.C95_accepted",
    "Respy.C95_solve_function",
    "Respy.C95_simulate_function",
    "Respy.C95_criterion_function_partial",
    "Respy.C95_shocks_false"
   ],
   "note": "C95_accepted, C95_solve_function and C95_simulate_function prove the claim for the model, the solution and samples. The criterion function is proved under the hypotheses of C87. C95_shocks_false: other orders of the rows of shocks are rejected."
  },
  {
   "property": "C96",
   "status": "partial",
   "theorems": [
    "Respy.C96_better_models",
    "Respy.C96_bounded_response",
    "Respy.C96_better_parameters_partial",
    "Respy.C96_bounded_response_to_parameters_partial",
    "Respy.C96_better_with_processes_partial",
    "Respy.C96_bounded_response_with_processes_partial",
    "Respy.C96_larger_coefficients_partial",
    "Respy.C96_larger_coefficients_with_processes_partial",
    "Respy.C96_interpolation_false"
   ],
   "note": "Proved for the value function and for solve functions, with and without exogenous processes (which come last among the observables, without types); false for models whose values are interpolated (C96_interpolation_false)."
  },
  {
   "property": "C97",
   "status": "partial",
   "theorems": [
    "Respy.C97_selection_partial",
    "Respy.C97_same_start_same_path_partial",
    "Respy.C97_fewer_periods",
    "Respy.C97_one_step_ahead_again",
    "Respy.C97_sample_again",
    "Respy.C97_individuals_of_samples_partial",
    "Respy.C97_sample_of_fewer_periods",
    "Respy.C97_individuals_of_samples_false"
   ],
   "note": "The property fails in the code: With exogenous processes, next period's values are drawn for all individuals from one stream of random numbers, so that an individual's path depends on who else is simulated. Proved with restrictions: **C97** Without exogenous processes individuals do not affect each other: any selection of some of the individuals of a sample, in any order and with repetitions, can be simulated with the draws they had, and each has the rows it had before. **C97** Individuals of two simulations with the same solution who start in the same state and have the same draws have the same states, choices, wages and values in each period, whoever else is in the samples. **C97** Individuals of two samples of the same model, without exogenous processes. If their rows in the first period show the same state and their draws are the same in all periods, then their rows are the same in all periods. The samples can have different individuals, sizes, and initial distributions."
  },
  {
   "property": "C98",
   "status": "partial",
   "theorems": [
    "Respy.C98_same_differences_same_sample",
    "Respy.C98_same_differences_same_likelihood",
    "Respy.C98_value_of_a_higher_level",
    "Respy.C98_value_with_interpolation",
    "Respy.C98_level_of_rewards",
    "Respy.C98_level_of_rewards_with_processes",
    "Respy.C98_level_of_parameters_partial",
    "Respy.C98_level_with_processes_partial",
    "Respy.C98_levels_matter_false"
   ],
   "note": "Proved for solutions in general, for value functions and solutions with interpolation, and for the simulate and criterion functions of viable models, with and without exogenous processes; false for models with states in which all values are negative (C98_levels_matter_false)."
  },
  {
   "property": "C99",
   "status": "partial",
   "theorems": [
    "Respy.C99_samples_fit",
    "Respy.C99_wages_are_positive",
    "Respy.C99_estimation_with_own_samples_partial",
    "Respy.C99_estimation_with_processes_partial",
    "Respy.C99_estimation_with_large_numbers_partial",
    "Respy.C99_processes_with_large_numbers_partial",
    "Respy.C99_labels_are_read_back",
    "Respy.C99_restrictions_on_types_false"
   ],
   "note": "Partial: for models whose restrictions neither depend on the type nor exclude an alternative with a smaller code than an available one with a wage, with and without exogenous processes (which come last among the observables, without types); MAX_FLOAT has to be large enough for the wages of the sample. False for restrictions which depend on the type."
  },
  {
   "property": "C100",
   "status": "partial",
   "theorems": [
    "Respy.C100_same_simulated_states",
    "Respy.C100_same_simulated_states_with_processes",
    "Respy.C100_solve_function_partial",
    "Respy.C100_solve_function_with_processes_partial"
   ],
   "note": "Proved for solutions of models, with and without exogenous processes; for solve functions partial with the hypotheses of C85."
  },
  {
   "property": "C101",
   "status": "partial",
   "theorems": [
    "Respy.C101_same_values",
    "Respy.C101_same_covariates",
    "Respy.C101_unused_characteristics",
    "Respy.C101_indistinguishable",
    "Respy.C101_values_partial",
    "Respy.C101_exogenous_values_partial",
    "Respy.C101_same_path_partial",
    "Respy.C101_interpolation_false"
   ],
   "note": "Proved for value functions, for the solutions of accepted models without interpolation (exogenous processes last among the observables, without types) and for simulated samples of models without exogenous processes; false for models whose values are interpolated (C101_interpolation_false)."
  },
  {
   "property": "C102",
   "status": "partial",
   "theorems": [
    "Respy.C102_accepted",
    "Respy.C102_same_model_partial",
    "Respy.C102_solve_function_partial",
    "Respy.C102_simulate_function_partial",
    "Respy.C102_criterion_function_partial",
    "Respy.C102_constant_false"
   ],
   "note": "Proved for all orders under accurate dependencies of covariates (C53); simulate and criterion functions also with the hypotheses of C87. False for covariates which use covariates without dependencies (C102_constant_false)."
  },
  {
   "property": "C103",
   "status": "partial",
   "theorems": [
    "Respy.C103_solved_models_cover_periods",
    "Respy.C103_no_experience_false",
    "Respy.C103_one_choice_false",
    "Respy.C103_filtered_period_false"
   ],
   "note": "The negation is proved for three kinds of accepted models; the necessary condition (a state in each period) is proved for all accepted models. That models which meet the conditions are solved is C82 and C86."
  },
  {
   "property": "C104",
   "status": "partial",
   "theorems": [
    "Respy.C104_columns_of_model",
    "Respy.C104_accepted_data",
    "Respy.C104_missing_values",
    "Respy.C104_types_false",
    "Respy.C104_observations",
    "Respy.C104_type_of_previous_observation",
    "Respy.C104_types_partial",
    "Respy.C104_every_period_observed",
    "Respy.C104_first_observation_without_type",
    "Respy.C104_outcomes",
    "Respy.C104_panel_follows_model_partial",
    "Respy.C104_simulated_sample"
   ],
   "note": "Types of individuals who are not observed in the first period are those of the previous observation (C104_type_of_previous_observation, C104_types_false) or raise (C104_first_observation_without_type); periods without observations raise. C104_outcomes covers exogenous processes and interpolation through the hypothesis that the model is solved. Data may lack the type entirely if everyone is observed from the first period (PanelFits)."
  },
  {
   "property": "C105",
   "status": "proved",
   "theorems": [
    "Respy.C105_kw94",
    "Respy.C105_kw97_basic",
    "Respy.C105_kw97_extended",
    "Respy.C105_filtered_states_reachable",
    "Respy.C105_states_without_lags_reachable",
    "Respy.C105_only_experience_false",
    "Respy.C105_without_filters_false",
    "Respy.C105_filtered_spaces_closed",
    "Respy.C105_filtered_periods_covered",
    "Respy.C105_filtered_spaces_created",
    "Respy.C105_filtered_models_supported",
    "Respy.C105_robinson_reachable",
    "Respy.C105_robinson_closed",
    "Respy.C105_shipped_filters_kw94",
    "Respy.C105_shipped_filters_kw97",
    "Respy.C105_shipped_filters_robinson",
    "Respy.C105_models_like_kw94",
    "Respy.C105_models_like_kw97",
    "Respy.C105_models_like_robinson"
   ],
   "note": "Proved for the shipped filters. That they are needed, and that a choice without experience is, is shown by C105_without_filters_false and C105_only_experience_false, which are about other models than those of the property. `df.eval` is a parameter which has to evaluate conjunctions of comparisons (FormulaEval.Reads). The former implementations are modelled for one type; the order of states differs."
  },
  {
   "property": "C106",
   "status": "partial",
   "theorems": [
    "Respy.C106_more_draws",
    "Respy.C106_limit_exists",
    "Respy.C106_accepted_models_partial",
    "Respy.C106_models_with_processes_partial"
   ],
   "note": "Proved for draws as a parameter and any transition (C106_more_draws, C106_limit_exists); for accepted models partial, because interpolated periods and a discount factor of zero (for which stored values are zero, C70 and C80) are excluded, and with exogenous processes those of C82. Random numbers are a parameter with the contract StandardNormals, which pseudo-random numbers and the sequences of Halton and Sobol only imitate. As in C12 the maximum includes zero, because the loop starts with zero."
  },
  {
   "property": "C107",
   "status": "proved",
   "theorems": [
    "Respy.C107_distribution_of_choices_and_wages",
    "Respy.C107_simulated_probabilities"
   ],
   "note": "Proved. Random numbers are a parameter with the contract NormalDraws. Wages have to be such that the bounds of clip are not reached and standard deviations of measurement errors are those of the choice (ObservationWF, see C38 and C79); the density is exact, the logarithms are clipped as in the code."
  },
  {
   "property": "C108",
   "status": "proved",
   "theorems": [
    "Respy.C108_shares_of_choices",
    "Respy.C108_shares_of_choices_and_wages",
    "Respy.C108_small_smoothing_parameters",
    "Respy.C108_shocks_out_of_bounds",
    "Respy.C108_no_ties",
    "Respy.C108_simulations_follow_the_likelihood"
   ],
   "note": "Proved. Random numbers are a parameter with the contract SimulationNumbers. Choice sets for which recorded choices are not the best ones (C24_choice_is_best_false) are excluded by SimulatesState.codes. Wages and continuation values are parameters: the statement is about one state of a solved model."
  },
  {
   "property": "C109",
   "status": "partial",
   "theorems": [
    "Respy.C109_small_changes_same_sample",
    "Respy.C109_small_changes_of_likelihood",
    "Respy.C109_tiny_discount_factor_partial",
    "Respy.C109_tiny_discount_with_processes_partial",
    "Respy.C109_myopic_limit_partial",
    "Respy.C109_myopic_limit_with_processes_partial"
   ],
   "note": "Proved for any two solutions with close values (C109_small_changes_same_sample, C109_small_changes_of_likelihood). For accepted models partial: interpolated periods are excluded, because predictions of the regression (a parameter) are not bounded, and with exogenous processes those of C82."
  },
  {
   "property": "C110",
   "status": "partial",
   "theorems": [
    "Respy.C110_histories_of_samples",
    "Respy.C110_small_smoothing_parameters",
    "Respy.C110_histories_of_accepted_models_partial"
   ],
   "note": "Proved for all samples which follow a model without exogenous processes (C110_histories_of_samples, C110_small_smoothing_parameters); for accepted models partial: exogenous processes and the models excluded by C82 are missing. Probabilities are conditional on the drawn initial characteristics including the type; the mixture over types is C79. Random numbers are a parameter with the contract SampleNumbers, choice sets for which recorded choices are not the best ones (C24_choice_is_best_false) are excluded by RecordsBest."
  },
  {
   "property": "C111",
   "status": "proved",
   "theorems": [
    "Respy.C111_characteristics_of_accepted_models",
    "Respy.C111_possible_characteristics",
    "Respy.C111_distribution_of_characteristics",
    "Respy.C111_known_characteristics",
    "Respy.C111_missing_characteristics",
    "Respy.C111_last_characteristic"
   ],
   "note": "Proved for all lists of characteristics with distributions (C111_distribution_of_characteristics) and for accepted models (C111_characteristics_of_accepted_models, where Samplable is the condition under which samples can be drawn at all, C83). Uniform numbers are a parameter with the contract InitialNumbers: numbers for different seeds are independent, an idealisation of np.random.seed(next(seed)). Numbers of finite precision and the rounding of cumulative probabilities are not modelled."
  },
  {
   "property": "C112",
   "status": "partial",
   "theorems": [
    "Respy.C112_small_smoothing_parameters",
    "Respy.C112_accepted_models_partial",
    "Respy.C112_characteristics_and_histories",
    "Respy.C112_unobserved_types",
    "Respy.C112_type_probabilities_of_likelihood"
   ],
   "note": "Proved for all samples which follow a model without exogenous processes (C112_characteristics_and_histories, C112_unobserved_types, C112_small_smoothing_parameters); for accepted models partial: exogenous processes and the models excluded by C82 are missing. C112_type_probabilities_of_likelihood shows that the weights of types are the ones of the likelihood function (C84). Random numbers are a parameter with the contract AllNumbers; choice sets for which recorded choices are not the best ones are excluded by RecordsBest."
  },
  {
   "property": "C113",
   "status": "partial",
   "theorems": [
    "Respy.C113_distribution_of_histories",
    "Respy.C113_probabilities_of_events",
    "Respy.C113_distribution_with_types",
    "Respy.C113_true_parameters_are_likely",
    "Respy.C113_likelihood_of_accepted_models_partial"
   ],
   "note": "Proved for all models which satisfy BuildSpec.WF (C113_distribution_of_histories, C113_distribution_with_types, C113_probabilities_of_events, C113_true_parameters_are_likely); for accepted models partial: exogenous processes (C114), the models excluded by C82 and singular covariance matrices are missing. The likelihood is the exact one with the distribution of the draws in place of simulated draws (C107 bounds the difference); wages of all choices with a wage are observed."
  },
  {
   "property": "C114",
   "status": "partial",
   "theorems": [
    "Respy.C114_distribution_with_processes",
    "Respy.C114_true_parameters_are_likely",
    "Respy.C114_accepted_models_with_processes_partial"
   ],
   "note": "Proved for all models which satisfy BuildSpec.WF and whose processes have transition probabilities (C114_distribution_with_processes, C114_true_parameters_are_likely); for accepted models partial: types (the code mixes up the levels of types and processes, C06_types_and_exogenous_false), the models excluded by C82 and singular covariance matrices are missing. The level after the last observed period is part of the history. As in C113, the likelihood is the exact one in place of simulated draws."
  },
  {
   "property": "C115",
   "status": "partial",
   "theorems": [
    "Respy.C115_maximum_likelihood_is_consistent",
    "Respy.C115_expected_values_are_distinguished",
    "Respy.C115_accepted_models_partial",
    "Respy.C115_consistent_with_processes",
    "Respy.C115_distinguished_with_processes",
    "Respy.C115_accepted_models_with_processes_partial"
   ],
   "note": "Proved for all models which satisfy BuildSpec.WF (C115_maximum_likelihood_is_consistent, C115_expected_values_are_distinguished) and for exogenous processes (C115_consistent_with_processes, C115_distinguished_with_processes); for accepted models partial: exogenous processes together with types (the code mixes up the levels of types and processes, C06_types_and_exogenous_false), the models excluded by C82 and singular covariance matrices are missing. That candidates have different distributions is a hypothesis in general; it is proved for candidates which differ in the expected value of one choice. As in C113, the likelihood is the exact one in place of simulated draws."
  },
  {
   "property": "C116",
   "status": "partial",
   "theorems": [
    "Respy.C116_criterion_with_many_draws",
    "Respy.C116_exogenous_criterion_with_many_draws",
    "Respy.C116_accepted_models_partial",
    "Respy.C116_accepted_models_with_processes_partial"
   ],
   "note": "Proved for all models which satisfy BuildSpec.WF with and without exogenous processes (C116_criterion_with_many_draws, C116_exogenous_criterion_with_many_draws); for accepted models partial: as in C84, the models excluded by C82 and wages for which the likelihood is not defined are missing. The solution of the model is given; it has its own draws (C106)."
  },
  {
   "property": "C117",
   "status": "partial",
   "theorems": [
    "Respy.C117_accepted_models_partial",
    "Respy.C117_models_with_processes_partial"
   ],
   "note": "As in C106 and C116: models with interpolation or a negative discount factor, the models excluded by C82 and wages for which the likelihood is not defined are missing."
  },
  {
   "property": "C118",
   "status": "partial",
   "theorems": [
    "Respy.C118_accepted_models_partial",
    "Respy.C118_models_with_processes_partial"
   ],
   "note": "As in C117: models with interpolation or a negative discount factor, the models excluded by C82, exogenous processes together with types and wages for which the likelihood is not defined are missing. Proved for finite sets of candidates, not for a continuum of parameters."
  },
  {
   "property": "C119",
   "status": "partial",
   "theorems": [
    "Respy.C119_clear_alternatives",
    "Respy.C119_accepted_models_partial",
    "Respy.C119_models_with_processes_partial"
   ],
   "note": "As in C83 and C106: models with interpolation or a negative discount factor, the models excluded by C82 and exogenous processes together with types are missing. The recorded choice is the one whose wage is recorded under the condition of C24 (C24_choice_is_best_false)."
  }
 ]
}