{"id": "C01", "title": "The core state space is exactly the set of feasible states", "statement": "For a model without state space filters and with at most one lagged choice, the core state space built by create_state_space_class contains in every period t exactly the states whose experience in each choice is one of the starting levels plus a non-negative number of additional years, where the additional years sum to at most t and no experience exceeds its maximum, combined with every choice as the previous choice. Nothing feasible is missing and nothing infeasible is present.", "quantifier": "all numbers of periods, all numbers of choices, all starting levels and maxima, all states", "why_tests_cant": "The recursion enumerates a combinatorially large set; tests compare a handful of example models against legacy code.", "anchors": ["respy/state_space.py:_create_core_state_space", "respy/state_space.py:_create_core_state_space_per_period", "respy/state_space.py:_create_core_from_choice_experiences", "respy/state_space.py:_add_initial_experiences_to_core_state_space"]}
{"id": "C02", "title": "Every admissible choice leads to a state of the state space", "statement": "In every state of a non-terminal period, every choice which is not declared inadmissible leads by the law of motion to a state which is contained in the state space, so that collecting child states during get_solve_func never fails with a KeyError (no filters, at most one lag, default maximum-experience restriction in force).", "quantifier": "all models, all states in non-terminal periods, all admissible choices", "why_tests_cant": "A missing child only shows up for the particular combination of maximum, starting values and period; tests traverse a few example models.", "anchors": ["respy/state_space.py:_collect_child_indices", "respy/shared.py:apply_law_of_motion_for_core", "respy/pre_processing/model_processing.py:_add_default_is_inadmissible", "respy/shared.py:map_states_to_core_key_and_core_index"]}
{"id": "C03", "title": "States and their locations are in one-to-one correspondence", "statement": "Every core state has exactly one location (core key, position), two different states never share a location, and looking up a state and reading the stored state at that location returns the same state.", "quantifier": "all state spaces, all states", "why_tests_cant": "Needs injectivity over all pairs of states.", "anchors": ["respy/state_space.py:_create_indexer", "respy/state_space.py:_create_core_period_choice", "respy/shared.py:map_states_to_core_key_and_core_index"]}
{"id": "C04", "title": "With several lagged choices every combination of lags is a state", "statement": "If the model keeps n >= 2 lagged choices, the state space contains for each experience combination every combination of lagged choices, so that a state reached by choosing twice is in the state space.", "quantifier": "all numbers of lags, all histories of choices", "why_tests_cant": "The test-suite only generates models with at most one lag; the claim ranges over all lag counts.", "anchors": ["respy/state_space.py:_add_lagged_choice_to_core_state_space", "respy/shared.py:apply_law_of_motion_for_core"]}
{"id": "C05", "title": "Filtered states are not in the state space", "statement": "No state of the core state space satisfies a condition listed in options['core_state_space_filters'].", "quantifier": "all filter conditions, all starting experiences, all states", "why_tests_cant": "Depends on the interplay of filters with starting values; tests use filters on models with zero starting experience.", "anchors": ["respy/state_space.py:_filter_core_state_space", "respy/state_space.py:_create_core_state_space", "respy/state_space.py:_add_initial_experiences_to_core_state_space"]}
{"id": "C06", "title": "The dense grid contains every combination of observables, exogenous processes and types", "statement": "For every combination of one level per observable, one level per exogenous process and one type there is exactly one dense state carrying these values under the names of these characteristics.", "quantifier": "all sets of observables, processes and types with arbitrary numbers of levels", "why_tests_cant": "The order in which names and levels are combined matters only for particular names and level counts.", "anchors": ["respy/state_space.py:_create_dense_state_space_grid", "respy/shared.py:create_dense_state_space_columns", "respy/state_space.py:_create_dense_state_space_covariates"]}
{"id": "C07", "title": "Every combination of a core state and a dense state has its own place in the solution", "statement": "For every core state and every dense state there is a dense key, it belongs to the period of the core state, its choice set is the set of choices admissible for the combination, and different groups of states never share a dense key or a cache file.", "quantifier": "all choice restrictions on core and dense variables, all core states, all dense states", "why_tests_cant": "Collisions require two core groups to have the same choice set under a dense restriction; tests never combine such restrictions.", "anchors": ["respy/state_space.py:_create_dense_period_choice", "respy/state_space.py:StateSpace._create_conversion_dictionaries", "respy/shared.py:return_core_dense_key"]}
{"id": "C08", "title": "Choice sets are exactly what the restrictions say", "statement": "States grouped under one period-choice key all have the same admissible choice set, this choice set contains a choice iff no evaluable condition in negative_choice_set for the choice holds, every state is in exactly one group, and a dense restriction which would split a group raises a ValueError instead of being applied to the wrong states.", "quantifier": "all restriction formulas, all states", "why_tests_cant": "Formulas are arbitrary predicates.", "anchors": ["respy/state_space.py:create_is_inadmissible", "respy/state_space.py:_create_core_period_choice", "respy/state_space.py:_create_dense_period_choice"]}
{"id": "C09", "title": "Cache files of different parts of the state space never clash", "statement": "Two different parts of the state space (period, choice set, dense index) are never written to the same file in the cache directory, including files of different topics.", "quantifier": "all pairs of periods, choice sets, dense indices and topics used by the package", "why_tests_cant": "Injectivity over infinitely many names.", "anchors": ["respy/shared.py:_create_file_name_from_complex_index", "respy/shared.py:dump_objects", "respy/shared.py:load_objects"]}
{"id": "C10", "title": "The law of motion counts choices and shifts lags", "statement": "After any sequence of choices starting from any state, the period has advanced by the number of choices, the experience in each choice with experience has increased by exactly the number of times the choice was taken, and the lagged choices are the most recent choices in reverse order followed by the older lags.", "quantifier": "all initial states, all choice sequences of any length", "why_tests_cant": "Unbounded histories.", "anchors": ["respy/shared.py:apply_law_of_motion_for_core"]}
{"id": "C11", "title": "The solution satisfies the Bellman recursion in every state", "statement": "After solve(params) with any discount factor and without interpolation, the expected value function stored for each state of each period equals the Monte Carlo Bellman operator applied to the stored expected value functions of its child states in the next period, with continuation value zero in the last period.", "quantifier": "all models, all periods, all states, all draws", "why_tests_cant": "Tests check regression values of a few models.", "anchors": ["respy/solve.py:_solve_with_backward_induction", "respy/solve.py:_full_solution", "respy/state_space.py:StateSpace.get_continuation_values", "respy/shared.py:calculate_expected_value_functions"]}
{"id": "C12", "title": "The expected value function is the average maximum over alternatives", "statement": "The expected value function of a state is the average over the draws of the maximum over the available alternatives of flow utility plus discounted continuation value.", "quantifier": "all rewards, continuation values, draws and discount factors", "why_tests_cant": "Fails only where every alternative has a negative value for some draw; tests use models with positive values.", "anchors": ["respy/shared.py:calculate_expected_value_functions", "respy/shared.py:aggregate_keane_wolpin_utility"]}
{"id": "C13", "title": "Expected value functions respond monotonically and non-expansively", "statement": "Raising a non-pecuniary reward or a continuation value in any alternative never lowers the expected value function; changing all continuation values by at most e changes the expected value function by at most delta*e; and a backward induction solution is monotone in non-pecuniary rewards over all periods.", "quantifier": "all states, rewards, draws, discount factors in [0, inf)", "why_tests_cant": "Inequalities over a continuum of inputs.", "anchors": ["respy/shared.py:calculate_expected_value_functions", "respy/solve.py:_solve_with_backward_induction"]}
{"id": "C14", "title": "Solving does not depend on what was solved before", "statement": "solve(params) called after any sequence of earlier solve calls with arbitrary parameters gives the same expected value functions, wages and non-pecuniary rewards as on a freshly created state space.", "quantifier": "all histories of calls, all parameter vectors", "why_tests_cant": "Histories are unbounded; tests call solve twice with the same parameters.", "anchors": ["respy/solve.py:solve", "respy/state_space.py:StateSpace.set_attribute_from_keys", "respy/solve.py:_solve_with_backward_induction"]}
{"id": "C15", "title": "A returned solution is not changed by later calls", "statement": "The object returned by solve(params) keeps describing the solution for params after further calls of the same function with other parameters.", "quantifier": "all pairs of parameter vectors, all later calls", "why_tests_cant": "Aliasing is visible only in call histories; tests compare a solution with itself.", "anchors": ["respy/solve.py:solve", "respy/solve.py:get_solve_func", "respy/state_space.py:StateSpace.set_attribute_from_keys"]}
{"id": "C16", "title": "Models do not interfere through the cache directory", "statement": "Creating functions for a second model and evaluating both in any order gives for each model the results it gives alone.", "quantifier": "all pairs of models, all interleavings of creation and evaluation", "why_tests_cant": "Interleavings of file system operations are unbounded; tests use one model at a time.", "anchors": ["respy/shared.py:prepare_cache_directory", "respy/shared.py:dump_objects", "respy/shared.py:load_objects", "respy/pre_processing/model_processing.py:_parse_cache_directory", "respy/solve.py:solve"]}
{"id": "C17", "title": "Evaluating dense keys in parallel gives the sequential result in any schedule", "statement": "A function parallelized across dense dimensions returns for each dense key common to its dictionary arguments exactly the value of the plain function at the arguments of this key, whatever the order in which the keys are processed.", "quantifier": "all dictionaries of arguments, all orders of the keys, all functions", "why_tests_cant": "All schedules and all argument shapes.", "anchors": ["respy/parallelization.py:parallelize_across_dense_dimensions", "respy/parallelization.py:_infer_dense_keys_from_arguments", "respy/parallelization.py:_broadcast_arguments"]}
{"id": "C18", "title": "Splitting a data set by dense key and combining it loses and changes nothing", "statement": "Applying a row-wise function through split_and_combine_df gives the same rows as applying it to the whole data frame, in index order, for every data frame whose dense keys are known to the other arguments.", "quantifier": "all data frames, all groupings, all row functions", "why_tests_cant": "All permutations of rows and groups.", "anchors": ["respy/parallelization.py:split_and_combine_df", "respy/parallelization.py:_split_dataframe"]}
{"id": "C19", "title": "Transition probabilities of exogenous processes are a probability distribution", "statement": "For every state the probabilities of moving to the points of the exogenous grid are non-negative and sum to one, and each is the product over the processes of the multinomial logit probabilities.", "quantifier": "all numbers of processes and levels, all coefficients and covariates", "why_tests_cant": "Real-valued identities over all dimensions.", "anchors": ["respy/exogenous_processes.py:compute_transition_probabilities", "respy/exogenous_processes.py:create_transition_objects"]}
{"id": "C20", "title": "Continuation values with exogenous processes are expectations over next period's exogenous states", "statement": "With exogenous processes the continuation value of a choice is the probability-weighted average of the values of the same choice over all exogenous states reachable from the state; it lies between the smallest and the largest of them and the columns always refer to the choices of the state's own choice set.", "quantifier": "all choice sets and their unions, all probabilities and values", "why_tests_cant": "Column alignment for arbitrary choice sets.", "anchors": ["respy/exogenous_processes.py:weight_continuation_values", "respy/exogenous_processes.py:create_transit_choice_set", "respy/exogenous_processes.py:_get_representation_cols"]}
{"id": "C21", "title": "Interpolation points are split feasibly across dense keys", "statement": "Whenever the solution decides to interpolate in a period, each dense key receives at least min(2, number of its states) and at most as many points as it has states, the points used do not exceed options['interpolation_points'], and the split terminates without an error whatever is drawn.", "quantifier": "all numbers of states per key, all admissible numbers of points, all random draws", "why_tests_cant": "All draw sequences; the failing boundary is a single number of points.", "anchors": ["respy/interpolate.py:_split_interpolation_points_evenly", "respy/solve.py:_solve_with_backward_induction", "respy/interpolate.py:_get_not_interpolated_indicator"]}
{"id": "C22", "title": "Interpolation keeps simulated states exact and never predicts below the maximum of expected values", "statement": "In an interpolated period the expected value function of every state which is not interpolated equals the full Monte Carlo value, and the prediction in every interpolated state is at least the maximum of the choice-specific values at expected shocks.", "quantifier": "all states, all selections of points, all regression coefficients", "why_tests_cant": "Continuum of inputs and all subsets of states.", "anchors": ["respy/interpolate.py:kw_94_interpolation", "respy/interpolate.py:_predict_with_linear_model", "respy/interpolate.py:_compute_rhs_variables", "respy/interpolate.py:_compute_lhs_variable"]}
{"id": "C23", "title": "The shortcut for a discount factor of zero changes no value", "statement": "If the discount factor is zero, skipping the backward induction leads to the same alternative-specific values in every state as carrying it out.", "quantifier": "all models with discount factor zero, all states and draws", "why_tests_cant": "All inputs.", "anchors": ["respy/solve.py:_solve_with_backward_induction", "respy/shared.py:aggregate_keane_wolpin_utility"]}
{"id": "C24", "title": "Simulated individuals choose the best available alternative", "statement": "The choice recorded for a simulated individual in a period is the available alternative with the highest value at the individual's shocks (the first one in the order of choices in case of ties).", "quantifier": "all choice sets, all value vectors, all positions of missing alternatives", "why_tests_cant": "Fails only for particular patterns of restricted choice sets; tests restrict the second-to-last choice.", "anchors": ["respy/simulate.py:_simulate_single_period"]}
{"id": "C25", "title": "Recorded choices are admissible and wages match the recorded choice", "statement": "The recorded choice is always in the choice set of the state, and the recorded wage is the wage of the recorded choice and is missing exactly if the recorded choice has no wage.", "quantifier": "all choice sets, all value vectors, all wages", "why_tests_cant": "All restriction patterns.", "anchors": ["respy/simulate.py:_simulate_single_period", "respy/pre_processing/data_checking.py:check_simulated_data"]}
{"id": "C26", "title": "A simulation is a balanced panel accepted by the data checks", "statement": "simulate(params) with method n_step_ahead returns for each of the individuals exactly one row per period 0, ..., n_periods-1, ordered by identifier and period, each state visited is in the state space, and the sample passes the checks applied to estimation data.", "quantifier": "all numbers of individuals and periods, all draws", "why_tests_cant": "Induction over periods for all models.", "anchors": ["respy/simulate.py:simulate", "respy/simulate.py:_process_simulation_output", "respy/pre_processing/data_checking.py:check_estimation_data", "respy/pre_processing/data_checking.py:check_simulated_data"]}
{"id": "C27", "title": "Simulated experiences and lagged choices are the history of recorded choices", "statement": "In a simulated sample the experience in a choice in period t is the initial experience plus the number of earlier periods in which the choice was recorded and the first lagged choice in t is the choice recorded in t-1.", "quantifier": "all individuals, periods, histories", "why_tests_cant": "Unbounded histories.", "anchors": ["respy/simulate.py:simulate", "respy/shared.py:apply_law_of_motion_for_core"]}
{"id": "C28", "title": "No draw is used twice in a simulation", "statement": "In an n-step-ahead simulation the rows of the base draws used for different pairs of individual and period are different and all rows are used; in a one-step-ahead simulation every observation uses its own row.", "quantifier": "all numbers of individuals and periods", "why_tests_cant": "All sizes.", "anchors": ["respy/simulate.py:simulate"]}
{"id": "C29", "title": "Sampling of initial characteristics follows the specified probabilities", "statement": "The sampled level of a characteristic is always one of the levels, the set of uniform draws leading to level i has length equal to its probability, so levels with probability zero are never sampled, and a row of weights not summing to one (after rounding) is rejected.", "quantifier": "all probability vectors, all uniform draws", "why_tests_cant": "Continuum of draws and weights.", "anchors": ["respy/simulate.py:_random_choice", "respy/simulate.py:_sample_characteristic"]}
{"id": "C30", "title": "Simulations are reproducible", "statement": "Repeated calls of simulate(params) with the same parameters return the same sample, whatever happened to NumPy's global random state or was simulated in between.", "quantifier": "all earlier histories of calls and all states of the global generator", "why_tests_cant": "All interleavings of random number consumers.", "anchors": ["respy/simulate.py:simulate", "respy/simulate.py:_sample_characteristic", "respy/simulate.py:draw_dense_key_next_period", "respy/pre_processing/model_processing.py:_create_internal_seeds_from_user_seeds"]}
{"id": "C31", "title": "The number of simulated periods is the number requested", "statement": "get_simulate_func(..., n_simulation_periods=n) returns a function which simulates n periods.", "quantifier": "all n, all methods", "why_tests_cant": "All argument combinations.", "anchors": ["respy/simulate.py:_harmonize_simulation_arguments", "respy/simulate.py:get_simulate_func"]}
{"id": "C32", "title": "Permanent characteristics stay constant and exogenous ones move inside their grid", "statement": "For each simulated individual, type and observables which are not exogenous processes are the same in every period, and the dense state of the next period has the same core key and only exogenous coordinates changed.", "quantifier": "all individuals, all periods, all draws", "why_tests_cant": "Histories of any length.", "anchors": ["respy/simulate.py:apply_law_of_motion_for_dense", "respy/simulate.py:update_dense_state_variables", "respy/simulate.py:draw_dense_key_next_period"]}
{"id": "C33", "title": "Simulations with data start from the data", "statement": "A simulation with method n_step_ahead_with_data starts each individual in the data from the characteristics of this individual's observation in period zero.", "quantifier": "all data sets, all identifiers", "why_tests_cant": "All identifier patterns.", "anchors": ["respy/simulate.py:_process_input_df_for_simulation", "respy/simulate.py:_harmonize_simulation_arguments"]}
{"id": "C34", "title": "Log-sum-exp is exact and safe", "statement": "The value of _logsumexp is the logarithm of the sum of exponentials, no exponential with a positive argument is ever formed, and the result is between the maximum and the maximum plus the log of the number of entries.", "quantifier": "all non-empty vectors of reals", "why_tests_cant": "Continuum.", "anchors": ["respy/likelihood.py:_logsumexp"]}
{"id": "C35", "title": "Simulated choice probabilities are probabilities", "statement": "For every state, set of draws and smoothing parameter, the simulated log choice probability is at most zero and the simulated probabilities of the available choices sum to one.", "quantifier": "all rewards, continuation values, draws, temperatures > 0", "why_tests_cant": "Continuum.", "anchors": ["respy/likelihood.py:_simulate_log_probability_of_individuals_observed_choice", "respy/likelihood.py:_logsumexp"]}
{"id": "C36", "title": "Observed choices are matched with the right alternative", "statement": "For an observed choice in the choice set of the state, the likelihood uses the values of this alternative; an observed choice outside the choice set is rejected.", "quantifier": "all choice sets and observed choices", "why_tests_cant": "All restriction patterns.", "anchors": ["respy/likelihood.py:_map_choice_codes_to_indices_of_valid_choice_set"]}
{"id": "C37", "title": "The measurement error belongs to the observed choice", "statement": "The wage likelihood and the conditional draws use the standard deviation of the measurement error specified for the observed choice.", "quantifier": "all choice sets, all observed choices, all standard deviations", "why_tests_cant": "Only wrong if an earlier wage choice is inadmissible.", "anchors": ["respy/likelihood.py:_compute_wage_and_choice_log_likelihood_contributions", "respy/conditional_draws.py:update_mean_and_evaluate_likelihood", "respy/conditional_draws.py:update_cholcov_with_measurement_error"]}
{"id": "C38", "title": "Conditioning on an observed wage is the Gaussian update", "statement": "Given an observed wage, the mean and covariance used for the draws are those of the normal distribution of the shocks conditional on the noisy observation, for any covariance matrix and any standard deviation of the measurement error.", "quantifier": "all dimensions, covariance matrices, choices, observed shocks", "why_tests_cant": "Matrix identities in all dimensions.", "anchors": ["respy/conditional_draws.py:update_mean_and_evaluate_likelihood", "respy/conditional_draws.py:update_cholcov_with_measurement_error", "respy/conditional_draws.py:update_cholcov", "respy/conditional_draws.py:make_cholesky_unique"]}
{"id": "C39", "title": "Without measurement error conditional draws reproduce the observed wage", "statement": "Without measurement error every conditional draw for an observed choice reproduces exactly the observed wage of this choice.", "quantifier": "all draws, covariances, wages in the representable range", "why_tests_cant": "Continuum.", "anchors": ["respy/conditional_draws.py:calculate_conditional_draws", "respy/conditional_draws.py:update_cholcov", "respy/conditional_draws.py:update_mean_and_evaluate_likelihood", "respy/conditional_draws.py:create_draws_and_log_prob_wages"]}
{"id": "C40", "title": "The wage log likelihood is the density of a log-normal wage", "statement": "The log probability of an observed wage is the log of the density at this wage of exp(log systematic wage + normal shock + normal measurement error), and it is zero if no wage is observed.", "quantifier": "all wages, variances, measurement errors", "why_tests_cant": "Continuum.", "anchors": ["respy/conditional_draws.py:update_mean_and_evaluate_likelihood", "respy/conditional_draws.py:create_draws_and_log_prob_wages"]}
{"id": "C41", "title": "Individual likelihood contributions are finite mixtures over types", "statement": "The log likelihood contribution of an individual is the log of the type-probability-weighted sum over types of the product over periods of wage densities and choice probabilities; type probabilities are positive and sum to one; the result does not depend on the order of the rows of the data.", "quantifier": "all data sets, all permutations of rows, all numbers of types", "why_tests_cant": "All permutations and sizes.", "anchors": ["respy/likelihood.py:_internal_log_like_obs", "respy/likelihood.py:_compute_log_type_probabilities", "respy/likelihood.py:_compute_wage_and_choice_log_likelihood_contributions"]}
{"id": "C42", "title": "There is one likelihood contribution per individual", "statement": "The contributions returned by log_like(params) with return_scalar=False have one entry per individual, and the scalar value is their mean.", "quantifier": "all data sets, all numbers of types", "why_tests_cant": "Depends on the alignment of indices for every number of types.", "anchors": ["respy/likelihood.py:log_like", "respy/likelihood.py:_internal_log_like_obs", "respy/likelihood.py:_process_estimation_data"]}
{"id": "C43", "title": "Initial experience levels found in the data are used by the model", "statement": "If the initial experience levels in the data differ from the parameters, the likelihood is evaluated on a state space built from the levels in the data.", "quantifier": "all data sets and parameters", "why_tests_cant": "All combinations of levels.", "anchors": ["respy/likelihood.py:_update_optim_paras_with_initial_experience_levels", "respy/likelihood.py:get_log_like_func", "respy/solve.py:get_solve_func"]}
{"id": "C44", "title": "Shocks of restricted choice sets keep their covariance", "statement": "If some alternatives are not available, the shocks of the remaining alternatives have the covariance matrix specified for them.", "quantifier": "all choice sets, all covariance matrices", "why_tests_cant": "Only wrong if an earlier, correlated alternative is missing.", "anchors": ["respy/shared.py:subset_cholesky_factor_to_choice_set", "respy/shared.py:transform_base_draws_with_cholesky_factor"]}
{"id": "C45", "title": "Exactly the shocks of working alternatives are exponentiated", "statement": "For every choice set, the transformed shock of an available alternative is the (clipped) exponential of the normal shock if the alternative pays a wage and the normal shock itself otherwise; wage shocks are positive and the same rule is used in solution, simulation and likelihood.", "quantifier": "all choice sets, all numbers of wage choices, all draws", "why_tests_cant": "All restriction patterns.", "anchors": ["respy/shared.py:transform_base_draws_with_cholesky_factor", "respy/shared.py:select_valid_choices", "respy/likelihood.py:_compute_wage_and_choice_log_likelihood_contributions", "respy/conditional_draws.py:calculate_conditional_draws"]}
{"id": "C46", "title": "Choices are ordered consistently", "statement": "Every choice of the model gets exactly one code, choices with a wage come first, then the remaining choices with experience, so that the code of a choice with experience is its position among the choices with experience; choices with and without experience are disjoint.", "quantifier": "all parameter specifications", "why_tests_cant": "All sets of choice names.", "anchors": ["respy/pre_processing/model_processing.py:_parse_choices", "respy/pre_processing/model_processing.py:_infer_choices_with_experience", "respy/pre_processing/model_processing.py:_infer_choices_with_prefix", "respy/shared.py:apply_law_of_motion_for_core"]}
{"id": "C47", "title": "Internal seeds never collide", "statement": "The seeds used for solution, simulation and estimation at start-up and per iteration are pairwise different as long as each source uses fewer than a million seeds, and they depend only on the three user seeds.", "quantifier": "all user seeds, all numbers of seeds taken", "why_tests_cant": "All histories of draws.", "anchors": ["respy/pre_processing/model_processing.py:_create_internal_seeds_from_user_seeds", "respy/config.py:SEED_STARTUP_ITERATION_GAP"]}
{"id": "C48", "title": "Probabilities are translated into equivalent logit coefficients", "statement": "If probabilities are specified for a characteristic, the softmax of the internal coefficients gives the specified probabilities divided by their sum; mixing probabilities and coefficients is rejected.", "quantifier": "all positive probability vectors of any length", "why_tests_cant": "Continuum.", "anchors": ["respy/pre_processing/model_processing.py:_parse_probabilities_or_logit_coefficients", "respy/shared.py:normalize_probabilities", "respy/simulate.py:_sample_characteristic"]}
{"id": "C49", "title": "Labels in formulas are replaced by the code of the variable they are compared with", "statement": "In covariates, filters and choice restrictions, a quoted label is replaced by the code which the label has for the variable it refers to.", "quantifier": "all observables, labels and formulas", "why_tests_cant": "Only wrong if a label occurs for two variables.", "anchors": ["respy/pre_processing/model_processing.py:_convert_labels_in_formulas_to_codes", "respy/pre_processing/model_processing.py:_replace_choices_and_observables_in_formula", "respy/pre_processing/model_processing.py:_convert_labels_in_filters_to_codes"]}
{"id": "C50", "title": "Column names survive the round trip between internal and public form", "statement": "Renaming internal column names to public names and back yields the internal names.", "quantifier": "all lower-case column names", "why_tests_cant": "All strings.", "anchors": ["respy/shared.py:rename_labels_to_internal", "respy/shared.py:rename_labels_from_internal", "respy/shared.py:generate_column_dtype_dict_for_estimation"]}
{"id": "C51", "title": "Labels of choices and observables survive the round trip through codes", "statement": "Converting labels to codes and codes back to labels returns the original labels, for choices, lagged choices and observables.", "quantifier": "all label sets without repetitions, all columns", "why_tests_cant": "All label sets.", "anchors": ["respy/shared.py:convert_labeled_variables_to_codes", "respy/simulate.py:_convert_codes_to_original_labels"]}
{"id": "C52", "title": "Exactly the needed covariates are kept", "statement": "Processing options keeps every covariate used by a parameter, directly or through any chain of other covariates, and removes every covariate which is not mentioned by any kept one; the result does not depend on the order of the definitions.", "quantifier": "all covariate definitions, all chains of dependencies", "why_tests_cant": "Chains of any length.", "anchors": ["respy/pre_processing/process_covariates.py:remove_irrelevant_covariates"]}
{"id": "C53", "title": "Covariates are computed in dependency order, whatever order they are defined in", "statement": "compute_covariates terminates, leaves existing columns untouched, computes every covariate whose dependencies can be computed and reports an error otherwise; columns and values do not depend on the order of the definitions.", "quantifier": "all acyclic definitions, all orders", "why_tests_cant": "All permutations of definitions.", "anchors": ["respy/shared.py:compute_covariates", "respy/pre_processing/process_covariates.py:separate_covariates_into_core_dense_mixed"]}
{"id": "C54", "title": "Finding the covariates of a variable always succeeds", "statement": "identify_necessary_covariates terminates without an error for all definitions accepted by the model and returns all definitions needed for the given covariates.", "quantifier": "all definitions, all sets of covariates, all iteration orders of sets", "why_tests_cant": "Depends on set iteration order.", "anchors": ["respy/pre_processing/process_covariates.py:identify_necessary_covariates"]}
{"id": "C55", "title": "The number of types is inferred completely", "statement": "The number of types is one plus the largest type index mentioned in the parameters, every type from 0 has an entry of probability coefficients and types without an entry get the baseline coefficient.", "quantifier": "all parameter specifications", "why_tests_cant": "All sets of indices.", "anchors": ["respy/pre_processing/model_processing.py:_parse_types", "respy/pre_processing/model_processing.py:_infer_number_of_types"]}
{"id": "C56", "title": "Only cache directories are ever deleted", "statement": "Whatever cache_path is specified, the directory which is deleted and recreated is named .respy, and processing the options again does not change it.", "quantifier": "all paths", "why_tests_cant": "All paths and any number of repetitions.", "anchors": ["respy/pre_processing/model_processing.py:_parse_cache_directory", "respy/shared.py:prepare_cache_directory"]}
{"id": "C57", "title": "Processing options twice is the same as once", "statement": "The choice restrictions, seeds and defaults obtained from processing already processed options admit exactly the same choices as processing once, and the user's options and the package defaults are not modified.", "quantifier": "all options, any number of repetitions", "why_tests_cant": "Any number of repetitions.", "anchors": ["respy/pre_processing/model_processing.py:process_params_and_options", "respy/pre_processing/model_processing.py:_read_options", "respy/pre_processing/model_processing.py:_add_default_is_inadmissible"]}
{"id": "C58", "title": "The default maximum experience never binds", "statement": "If no maximum experience is given, no choice is ever made inadmissible because of the maximum and no reachable experience exceeds it.", "quantifier": "all numbers of periods, starting levels, histories", "why_tests_cant": "All histories.", "anchors": ["respy/pre_processing/model_processing.py:_parse_initial_and_max_experience", "respy/pre_processing/model_processing.py:_add_default_is_inadmissible"]}
{"id": "C59", "title": "Accepted estimation data are complete histories", "statement": "If check_estimation_data accepts a sample, every individual is observed exactly once in each period from zero to the last period of this individual, and identifiers are consecutive starting at zero.", "quantifier": "all samples", "why_tests_cant": "All samples of all sizes.", "anchors": ["respy/pre_processing/data_checking.py:check_estimation_data"]}
{"id": "C60", "title": "Inconsistent lagged choices are rejected", "statement": "check_estimation_data rejects a sample in which a lagged choice differs from the choice of the corresponding earlier period.", "quantifier": "all samples, all numbers of lags", "why_tests_cant": "The skipped lag is never exercised by tests on valid data.", "anchors": ["respy/pre_processing/data_checking.py:check_estimation_data"]}
{"id": "C61", "title": "The moments criterion is the quadratic form of the moment errors", "statement": "The scalar criterion is e'We for the moment errors e; with non-negative diagonal weights it is non-negative and with positive weights it is zero iff all simulated moments equal the empirical ones.", "quantifier": "all moment vectors, all weights", "why_tests_cant": "Continuum.", "anchors": ["respy/method_of_simulated_moments.py:moment_errors", "respy/method_of_simulated_moments.py:get_moment_errors_func"]}
{"id": "C62", "title": "Squared root contributions sum to the criterion", "statement": "The sum of the squared root contributions equals the criterion value for every admissible weighting matrix.", "quantifier": "all moment errors, all positive semi-definite weighting matrices", "why_tests_cant": "Only diagonal matrices are tested.", "anchors": ["respy/method_of_simulated_moments.py:moment_errors"]}
{"id": "C63", "title": "Moments are compared by label", "statement": "The criterion does not change if the calculation functions return their moments in another order of rows or if moments are passed in dictionaries with another order of keys.", "quantifier": "all permutations of labels and keys, all weights", "why_tests_cant": "All permutations.", "anchors": ["respy/method_of_simulated_moments.py:moment_errors", "respy/method_of_simulated_moments.py:get_moment_errors_func", "respy/method_of_simulated_moments.py:_flatten_index", "respy/method_of_simulated_moments.py:get_diag_weighting_matrix"]}
{"id": "C64", "title": "List and dictionary inputs of moments are interchangeable", "statement": "Moments passed as a single object, a list or a dictionary give the same errors, the simulated moments are returned in the form in which moments were passed, and a single function for missing values can be given for all moments.", "quantifier": "all numbers of moments, all input forms", "why_tests_cant": "All shapes of inputs.", "anchors": ["respy/method_of_simulated_moments.py:_harmonize_input", "respy/method_of_simulated_moments.py:_reconstruct_input_from_dict", "respy/method_of_simulated_moments.py:get_moment_errors_func"]}
{"id": "C65", "title": "Present bias of one is exponential discounting", "statement": "With beta equal to one, simulation and likelihood use the same discount factor as the solution; otherwise the solution uses delta and current choices beta times delta.", "quantifier": "all parameters", "why_tests_cant": "Continuum.", "anchors": ["respy/pre_processing/model_processing.py:_parse_present_bias_parameter", "respy/simulate.py:_simulate_single_period", "respy/likelihood.py:_internal_log_like_obs", "respy/solve.py:_full_solution"]}
{"id": "C66", "title": "Downcasting never changes a value", "statement": "downcast_to_smallest_dtype returns a column with the same values.", "quantifier": "all integer columns", "why_tests_cant": "All integers, including boundaries of data types.", "anchors": ["respy/shared.py:downcast_to_smallest_dtype"]}
{"id": "C67", "title": "Experiences constructed from the raw data are consistent with the law of motion", "statement": "The experience columns constructed by create_kw_97 in a period equal the starting value plus the number of earlier periods of the individual with the choice.", "quantifier": "all individuals, all histories", "why_tests_cant": "Histories of any length.", "anchors": ["respy/data.py:_create_working_experience", "respy/data.py:create_kw_97"]}
{"id": "C68", "title": "Covariates are grouped by the state variables they depend on", "statement": "separate_covariates_into_core_dense_mixed puts every covariate into exactly one of three groups: covariates which reach no dense variable, only dense variables, or both, through any chain of formulas; the recorded dependencies are exactly the mentioned variables which are state variables or depend on them, and covariates of the core and dense group can be computed within their part of the state space.", "quantifier": "all covariate definitions, all chains of dependencies", "why_tests_cant": "Chains of any length.", "anchors": ["respy/pre_processing/process_covariates.py:separate_covariates_into_core_dense_mixed"]}
{"id": "C69", "title": "Consistent samples are accepted", "statement": "check_estimation_data accepts every sample of complete histories, ordered by identifier and period, in which all values are admissible and experiences and lagged choices follow from the choices before.", "quantifier": "all samples, all numbers of lagged choices", "why_tests_cant": "Samples of any size; the tests have models with at most two lagged choices.", "anchors": ["respy/pre_processing/data_checking.py:check_estimation_data"]}
{"id": "C70", "title": "The solution is the value function of the model", "statement": "For every model, creating the state space and solving it succeeds, and the number stored at the location of a core state and a dense combination is the value of the model's Bellman equation in that state: zero continuation after the last period, otherwise the (probability weighted) value of the state reached by the law of motion. The equation has only one solution, so dense keys, locations, the order of periods and the previous content of the arrays do not matter.", "quantifier": "all core state spaces, all dense dimensions, all choice restrictions, all parameters and draws, any state of the arrays before the call", "why_tests_cant": "Models of any size; the correctness of the composition of indexing, grouping, child indices and backward induction cannot be enumerated.", "anchors": ["respy/state_space.py:create_state_space_class", "respy/state_space.py:StateSpace", "respy/solve.py:solve", "respy/solve.py:_solve_with_backward_induction"]}
{"id": "C71", "title": "Rewards and shocks belong to their state, choice and period", "statement": "The arrays of wages, non-pecuniary rewards and shocks of every dense key have in the row of a state and the column of an admissible choice the exponential of the linear index of the wage, the linear index of the non-pecuniary reward, and the transformed draw of this choice; dense keys of a period with the same number of choices share their standard normal draws.", "quantifier": "all state spaces, all choice sets, all parameters, any order of the set of numbers of choices", "why_tests_cant": "Choice sets of any size and any restriction; continuum of parameters.", "anchors": ["respy/solve.py:_create_param_specific_objects", "respy/solve.py:_create_choice_rewards", "respy/shared.py:pandas_dot", "respy/state_space.py:StateSpace.create_draws", "respy/shared.py:transform_base_draws_with_cholesky_factor"]}
{"id": "C72", "title": "Accepted estimation data have admissible values and consistent experiences", "statement": "If check_estimation_data accepts a sample without negative periods which is sorted by period, all choices and lagged choices are choices of the model, periods are within the horizon, wages are positive, observables have at most as many values as levels, and the experience of an individual is the one of the first period plus the number of earlier periods in which the choice was made.", "quantifier": "all samples, all numbers of individuals and periods", "why_tests_cant": "All samples of all sizes.", "anchors": ["respy/pre_processing/data_checking.py:check_estimation_data"]}
{"id": "C73", "title": "Simulated samples follow the solved model", "statement": "For every model, solving and simulating succeed and return one row per individual and period. Every row is a state of the model, its recorded shocks and values are those of the model (wage times shock plus non-pecuniary reward plus the discounted expected value of the next state under the value function), the recorded wage belongs to the best alternative, the recorded choice is admissible and the best one whenever the codes are recovered, and the next row of the individual is the state to which the law of motion leads for the recorded choice with dense characteristics which have a positive probability.", "quantifier": "all models, all parameters, all draws and random numbers, all numbers of individuals and periods", "why_tests_cant": "The composition of sampling, locating states, indexing of values and transitions of exogenous processes for models of any size and all random numbers.", "anchors": ["respy/simulate.py:get_simulate_func", "respy/simulate.py:simulate", "respy/simulate.py:_simulate_single_period", "respy/simulate.py:_extend_data_with_sampled_characteristics", "respy/simulate.py:apply_law_of_motion_for_dense", "respy/solve.py:solve"]}
{"id": "C74", "title": "Names of observables and exogenous processes are recovered from the parameters", "statement": "For parameters with the categories observable_{name}_{level} (and the same for exogenous processes) the parsed names are exactly the names, and observables with fewer than two values are rejected.", "quantifier": "all names, all levels, all numbers of observables", "why_tests_cant": "Names are inferred from common beginnings of all pairs of categories; the tests have a handful of names.", "anchors": ["respy/pre_processing/model_processing.py:_parse_observable_or_exog_process_names"]}
{"id": "C75", "title": "Levels of observables and processes have one code", "statement": "The levels of an observable or process are exactly those in the parameters, with their own coefficients, and a level has the same code in the transition probabilities of the process, in the dense state space and in simulated initial values.", "quantifier": "all names, levels and coefficients", "why_tests_cant": "All texts and all numbers of levels.", "anchors": ["respy/pre_processing/model_processing.py:_parse_observables", "respy/pre_processing/model_processing.py:_parse_exogenous_processes", "respy/pre_processing/model_processing.py:_parse_probabilities_or_logit_coefficients"]}
{"id": "C76", "title": "Measurement errors are given for all choices with a wage or for none", "statement": "Without parameters for measurement errors all are zero; otherwise parameters are accepted if and only if every choice with a wage has a standard deviation, and each one gets its own.", "quantifier": "all choices, all parameters", "why_tests_cant": "All numbers of choices, all orders of parameters.", "anchors": ["respy/pre_processing/model_processing.py:_parse_measurement_errors"]}
{"id": "C77", "title": "The shock matrix is ordered as the choices", "statement": "If the parameters of shocks are accepted, exactly one of the three forms (standard deviations and correlations, covariances, Cholesky factor) is given, the names are those of the choices in the order of choices, and row and column i of the matrix are the entries named by choice i.", "quantifier": "all numbers of choices, all values", "why_tests_cant": "All numbers of choices; entries are assigned by position, not by name.", "anchors": ["respy/pre_processing/model_processing.py:_parse_shocks", "respy/pre_processing/model_checking.py:_validate_shocks", "respy/pre_processing/model_checking.py:validate_params"]}
{"id": "C78", "title": "Distributions of lagged choices cover the lags of the model and only choices", "statement": "The number of lags is the largest one mentioned in covariates; each lag has one weight per choice in the order of choices: equal ones without parameters, its own coefficients if there are some, and no probability for choices without parameters if others have some. All sampled codes are codes of choices.", "quantifier": "all covariates, choices and parameters", "why_tests_cant": "All numbers of lags; lag 1 is a prefix of lag 10.", "anchors": ["respy/pre_processing/model_processing.py:_parse_lagged_choices", "respy/simulate.py:_extend_data_with_sampled_characteristics"]}
{"id": "C79", "title": "The criterion function is the likelihood of the data in the model", "statement": "The value of the criterion function is the mean over individuals of the log of their likelihood: the mixture over types of the product over observations of the probability of the choice given the observed wage (average over draws of logit probabilities of the values of the model, whose shocks have the distribution given the wage) and the density of the wage, with logarithms bounded by the floats. Each observation and type has its own draws, which are the same for all parameters.", "quantifier": "all models, all parameters, all data sets, all draws", "why_tests_cant": "The composition of sorting, duplication for types, dense keys, draws by dense key, solution, conditional draws and aggregation for models and data of any size.", "anchors": ["respy/likelihood.py:get_log_like_func", "respy/likelihood.py:log_like", "respy/likelihood.py:_internal_log_like_obs", "respy/likelihood.py:_compute_wage_and_choice_log_likelihood_contributions", "respy/likelihood.py:_process_estimation_data", "respy/likelihood.py:_compute_x_beta_for_type_probabilities"]}
{"id": "C80", "title": "Solutions with interpolation and with a discount factor of zero", "statement": "For every number of interpolation points and every discount factor: solving the model succeeds if and only if no interpolated period has exactly two points per group of states with the same dense characteristics and choice set, or the discount factor is zero. After success simulated states satisfy the Bellman equation, all others have the value predicted by the regression of Keane and Wolpin (1994) estimated with the simulated states of their group, at least two states (or all) of each group are simulated, and continuation values are the stored values of the next period. With a discount factor of zero all stored values are zero. Samples and the criterion function use these values.", "quantifier": "all models, all parameters, all numbers of interpolation points, all random choices of points, all regression methods", "why_tests_cant": "The composition of distributing points to groups, predicting values and backward induction over all periods; the tests compare the results with and without interpolation for few models.", "anchors": ["respy/solve.py:solve", "respy/solve.py:_solve_with_backward_induction", "respy/interpolate.py:kw_94_interpolation", "respy/interpolate.py:_split_interpolation_points_evenly", "respy/interpolate.py:_get_not_interpolated_indicator", "respy/interpolate.py:_compute_rhs_variables"]}
{"id": "C81", "title": "Interpolation is least squares", "statement": "The coefficients of the regression in the interpolation minimize the sum of squared residuals over the simulated states of a group. If regressors are collinear, they are the minimizing coefficients with the smallest norm, so the result does not depend on how the pseudo-inverse is computed. Because of the constant, the prediction errors of the simulated states sum to zero.", "quantifier": "all arrays of regressors, all dependent variables, all models with interpolation", "why_tests_cant": "Holds for all arrays, in particular those with collinear columns or more regressors than states.", "anchors": ["respy/interpolate.py:ols", "respy/interpolate.py:_predict_with_linear_model"]}
{"id": "C82", "title": "Every accepted model is solved with the rewards and restrictions which its parameters and options name", "statement": "If process_params_and_options accepts params and options, the state space is created and the backward induction succeeds, and the stored values are the values of the model in which the wage of choice c is the exponential of the sum over the parameters in category wage_c times the covariates of their names, the non-pecuniary reward is the same sum for nonpec_c, and choice c is allowed if and only if no formula of the user for c holds and a binding maximum of experience in c is not reached.", "quantifier": "all params and options which are accepted: any number of choices, covariates, observables, types, periods, states and interpolation points", "why_tests_cant": "The composition of all parsing steps, covariates, restrictions, state space and solution; names are turned into positions in several places, and tests check a few models.", "anchors": ["respy/pre_processing/model_processing.py:process_params_and_options", "respy/pre_processing/model_processing.py:_parse_parameters", "respy/pre_processing/model_processing.py:_sync_optim_paras_and_options", "respy/pre_processing/model_processing.py:_add_type_covariates", "respy/pre_processing/model_processing.py:_parse_choice_parameters", "respy/pre_processing/model_processing.py:_add_default_is_inadmissible", "respy/state_space.py:create_state_space_class", "respy/solve.py:solve"]}
{"id": "C83", "title": "Samples of an accepted model follow its solution, and first periods have the distributions which the parameters name", "statement": "If process_params_and_options accepts params and options and the covariates used in the distributions of initial characteristics can be computed from characteristics which are known or sampled before, simulate returns a sample for every input: individuals make optimal choices in the solved model. The characteristics of the first period (observables, initial experiences, lagged choices, type) have logit probabilities in the coefficients of their parameters; probabilities of experiences and observables are those of the parameters, divided by their sum; known characteristics are kept.", "quantifier": "all accepted params and options, all inputs with any number of individuals and any missing characteristics, all draws", "why_tests_cant": "The composition of parsing, covariates with missing values, sampling and simulation for models of any size; tests simulate a few models.", "anchors": ["respy/simulate.py:simulate", "respy/simulate.py:_extend_data_with_sampled_characteristics", "respy/simulate.py:_sample_characteristic", "respy/pre_processing/model_processing.py:_parse_initial_and_max_experience", "respy/pre_processing/model_processing.py:_parse_observables", "respy/pre_processing/process_covariates.py:remove_irrelevant_covariates"]}
{"id": "C84", "title": "The criterion function of an accepted model is the likelihood of the data in the model which its parameters and options name", "statement": "If process_params_and_options accepts params and options and data fit to the model, the criterion function is the likelihood of C79 for the solution of C82: discount factors, standard deviations of measurement errors and the shock matrix are the parameters with these names. The index of a type is the sum over the parameters in the category type_t times the covariates of their names in the state of the observation, and every covariate has the value of its formula, with labels replaced by codes.", "quantifier": "all accepted params and options, all data sets in their state space", "why_tests_cant": "The composition of parsing, solution, data processing and aggregation; covariates of types are computed from a smaller set of formulas than those of rewards.", "anchors": ["respy/likelihood.py:get_log_like_func", "respy/likelihood.py:log_like", "respy/likelihood.py:_process_estimation_data", "respy/likelihood.py:_compute_x_beta_for_type_probabilities", "respy/pre_processing/model_processing.py:process_params_and_options", "respy/pre_processing/model_processing.py:_parse_types", "respy/pre_processing/process_covariates.py:identify_necessary_covariates"]}
{"id": "C85", "title": "The solve function can be called with any parameters", "statement": "get_solve_func(params, options) creates the state space and processes the options once; the returned function processes the processed options again with the parameters of each call. For all parameters with the same index, its result is the solution of the model with the parameters of the call, i.e. that of a function created at these parameters: processing options twice does not change the model, and states, choice sets and covariates do not depend on the values of parameters.", "quantifier": "all accepted params and options, all parameters with the same index", "why_tests_cant": "Every iteration of an estimation calls the function with new parameters; tests call it with the parameters with which it was created.", "anchors": ["respy/solve.py:get_solve_func", "respy/solve.py:solve", "respy/pre_processing/model_processing.py:process_params_and_options", "respy/pre_processing/model_processing.py:_sync_optim_paras_and_options", "respy/pre_processing/model_processing.py:_convert_labels_in_formulas_to_codes", "respy/state_space.py:create_state_space_class"]}
{"id": "C86", "title": "The state space can be created exactly when filters leave no admissible choice without a successor", "statement": "Creating the state space looks up the successor of every state for every admissible choice. It succeeds if and only if no admissible choice in a state before the last period leads to a state which filters have removed. In particular it succeeds for every accepted model without filters, for any number of lagged choices. Accepted models whose state space can be created are solved, simulated and estimated.", "quantifier": "all models: any number of choices, lagged choices, filters, restrictions, observables, exogenous processes and types", "why_tests_cant": "A missing successor raises an error or reads a wrong continuation value deep in compiled code; tests use filters which are known to work.", "anchors": ["respy/state_space.py:create_state_space_class", "respy/state_space.py:_create_core_state_space", "respy/state_space.py:_add_lagged_choice_to_core_state_space", "respy/state_space.py:_filter_core_state_space", "respy/state_space.py:_collect_child_indices"]}
{"id": "C87", "title": "The simulate function and the criterion function can be called with any parameters", "statement": "get_simulate_func and get_log_like_func process the options, create a solve function with the processed options and process them again in every call. For all parameters with the same index, the sample and the value of the criterion function are those of functions created at the parameters of the call, and those of the model with these parameters and its solution: neither processing options up to three times, nor the order of covariates, nor the data processed with other parameters change the result.", "quantifier": "all accepted params and options, all parameters with the same index, all data sets and all random draws", "why_tests_cant": "Estimation and counterfactual simulation call these functions with parameters which differ from those of their creation; tests call them with the same parameters.", "anchors": ["respy/simulate.py:get_simulate_func", "respy/simulate.py:simulate", "respy/likelihood.py:get_log_like_func", "respy/likelihood.py:log_like", "respy/pre_processing/model_processing.py:process_params_and_options", "respy/pre_processing/process_covariates.py:identify_necessary_covariates"]}
{"id": "C88", "title": "The check of a solution accepts what the model creates", "statement": "check_model_solution passes for the state space of every accepted model exactly if rewards and expected value functions are finite. If it passes, then periods, experiences and lagged choices are in their ranges, no state is listed twice and there are as many indices as states.", "quantifier": "all models whose state space can be created, all values", "why_tests_cant": "The tests run the check on a few random models; whether the assertions hold for all numbers of choices, starting values and periods cannot be seen from them.", "anchors": ["respy/pre_processing/model_checking.py:check_model_solution", "respy/pre_processing/model_checking.py:_apply_to_attribute_of_state_space", "respy/state_space.py:_create_core_state_space", "respy/state_space.py:_create_indexer"]}
{"id": "C89", "title": "Templates of parameters are read back as what they describe", "statement": "The parts of the templates for types, initial and maximum experiences, lagged choices and observables, put together, are parsed into the same number of types with their coefficients, the same starts with the logarithms of their shares, the same lagged choices and the same levels, whatever the numbers and draws. The base template itself gives the choices a, b, edu and home.", "quantifier": "all numbers of types, covariates, starts, shares, choices, observables and levels, all draws", "why_tests_cant": "Templates are written by string formatting and read by string matching; whether a name written for one part is taken for another depends on all numbers and names at once, e.g. only with eleven observables.", "anchors": ["respy/pre_processing/specification_helpers.py:csv_template", "respy/pre_processing/specification_helpers.py:initial_and_max_experience_template", "respy/pre_processing/specification_helpers.py:lagged_choices_probs_template", "respy/pre_processing/specification_helpers.py:observable_prob_template", "respy/pre_processing/specification_helpers.py:observable_coeffs_template", "respy/pre_processing/model_processing.py:_parse_types", "respy/pre_processing/model_processing.py:_parse_observables"]}
{"id": "C90", "title": "The function of moment errors at other parameters", "statement": "get_moment_errors_func can be created exactly if the numbers of functions fit and the state space can be created. At all parameters with the same index it compares the moments of the sample of the model with these parameters, as a function created there would do. At the parameters which generated the empirical moments the criterion is zero with zero errors, whatever the weights and whatever was drawn before. The scalar is the value of the dictionary.", "quantifier": "all models, parameters with the same index, functions of moments, weights and states of the random number generator", "why_tests_cant": "The tests evaluate the criterion at the parameters with which it was created for example models; that no part of the function still refers to these parameters or to the global random number generator concerns all calls.", "anchors": ["respy/method_of_simulated_moments.py:get_moment_errors_func", "respy/method_of_simulated_moments.py:moment_errors", "respy/method_of_simulated_moments.py:get_flat_moments"]}
{"id": "C91", "title": "Data for plots of moments", "statement": "In the data for plots, every moment appears exactly twice under its set, column and row: once as empirical moment and once as simulated moment. There are no other rows, whatever the order of the functions is.", "quantifier": "all sets of moments with distinct names and labels, all functions of moments and samples", "why_tests_cant": "The plot data are built by melting frames and series of different shapes; tests look at one shape of moments and do not count the rows.", "anchors": ["respy/method_of_simulated_moments.py:_create_comparison_plot_data_msm", "respy/method_of_simulated_moments.py:_create_tidy_data"]}
{"id": "C92", "title": "Data for plots of the likelihood", "statement": "With return_scalar=False the value is that of the scalar criterion function and the mean of the contributions. In the data for plots every observation has one log likelihood of its choice and one of its wage for each type, the latter unless the wage is missing for a choice with wages. Summed by individual, the log likelihoods in the data for plots give the contributions. Identifiers and periods are those of the data, and every log type probability appears once.", "quantifier": "all data, models, parameters and numbers of types", "why_tests_cant": "Tests only check the types of the parts of the dictionary; whether values are removed, repeated or assigned to other individuals depends on missing wages, the number of types and the size of identifiers.", "anchors": ["respy/likelihood.py:_create_comparison_plot_data", "respy/likelihood.py:log_like", "respy/likelihood.py:_internal_log_like_obs"]}
{"id": "C93", "title": "Options are accepted exactly if they are in range", "statement": "The options of a user are accepted if and only if the number of periods and the covariates are given and each option has a value in the range which its name demands: positive integers for periods, agents and draws, nonnegative seeds, a positive tau, lists of texts for filters and restrictions, one of three Monte Carlo sequences. In accepted options every option has the value of the user, or its default, and all of them are in range. Options with unknown names are rejected.", "quantifier": "all dictionaries of options", "why_tests_cant": "Rules by parts of names apply to all options together with defaults and internal ones; tests try single wrong values.", "anchors": ["respy/pre_processing/model_checking.py:validate_options", "respy/pre_processing/model_processing.py:process_params_and_options", "respy/pre_processing/model_processing.py:_create_internal_seeds_from_user_seeds", "respy/pre_processing/model_processing.py:_parse_cache_directory", "respy/config.py:DEFAULT_OPTIONS"]}
{"id": "C94", "title": "The order of the rows of the data does not matter", "statement": "The criterion function, its contributions and its data for plots are the same for every order of the rows of the data. check_estimation_data accepts the same observations in one order if and only if it accepts them in any other order, and rejects histories with inconsistent experiences in every order.", "quantifier": "all data without duplicated observations, all orders of rows, all models and parameters", "why_tests_cant": "Tests use data sorted by individual and period; there are factorially many orders of each sample, and only some reveal which steps sort the rows and which rely on their order.", "anchors": ["respy/pre_processing/data_checking.py:check_estimation_data", "respy/likelihood.py:_process_estimation_data", "respy/likelihood.py:get_log_like_func", "respy/likelihood.py:log_like"]}
{"id": "C95", "title": "The order of the rows of the parameters does not matter", "statement": "Parameters with the same rows in another order are accepted if the original ones are, as long as the rows of the shocks keep their order; otherwise they are rejected and never read as other shocks. Models with parameters in another order have the same choices, states and covariates; solve, simulate and the criterion function, created with one order and called with another, return the same solution, sample and value.", "quantifier": "all models and all orders of the rows of parameters with a unique index and positive probabilities", "why_tests_cant": "There are factorially many orders; some parts of the parameters are selected by name, others by position, and tests use one order per model.", "anchors": ["respy/pre_processing/model_processing.py:process_params_and_options", "respy/pre_processing/model_processing.py:_parse_probabilities_or_logit_coefficients", "respy/pre_processing/model_processing.py:_parse_shocks", "respy/pre_processing/model_checking.py:_validate_shocks", "respy/solve.py:get_solve_func", "respy/simulate.py:get_simulate_func", "respy/likelihood.py:get_log_like_func"]}
{"id": "C96", "title": "Better parameters never lower a value and small changes have small effects", "statement": "If one vector of parameters gives at least the utility of another one for every alternative in every state and draw, with a discount factor which is not smaller, then no value in the solution is smaller. In particular, raising the discount factor or the coefficients of covariates which are not negative never lowers a value. If utilities differ by at most eta, the values of a state with n remaining periods differ by at most eta (1 + delta + ... + delta^(n-1)).", "quantifier": "all accepted models, all pairs of parameters with the same index, all states and numbers of periods", "why_tests_cant": "Counterfactuals and optimizers compare solutions at different parameters; a test compares a few pairs and cannot bound the response for all states and numbers of periods.", "anchors": ["respy/solve.py:get_solve_func", "respy/solve.py:_solve_with_backward_induction", "respy/solve.py:_full_solution", "respy/shared.py:aggregate_keane_wolpin_utility", "respy/pre_processing/model_processing.py:_parse_choice_parameters"]}
{"id": "C97", "title": "Individuals are simulated independently", "statement": "Individuals who start in the same state and have the same shocks have the same rows in every period, whoever else is in the sample: any selection of individuals, in any order, is simulated as before. Simulating fewer periods returns the first periods of the longer sample. Simulating one step ahead from a simulated sample with its shocks returns the sample.", "quantifier": "all solutions, numbers of individuals and periods, selections of individuals, initial states and draws", "why_tests_cant": "Draws are assigned by position in an array of all individuals and periods and frames are updated jointly; tests simulate one sample and do not compare samples with different individuals.", "anchors": ["respy/simulate.py:simulate", "respy/simulate.py:_simulate_single_period", "respy/simulate.py:apply_law_of_motion_for_dense", "respy/simulate.py:draw_dense_key_next_period"]}
{"id": "C98", "title": "Only differences of rewards matter", "statement": "Two solutions whose rewards and continuation values differ, in each state, by a number which is the same for all alternatives lead to the same simulated choices, wages and shocks and to the same log likelihood. Raising the level of the non-pecuniary rewards of all alternatives by an amount that depends only on the period raises each value by the discounted sum of the amounts, so that parameters which differ only in this level cannot be told apart by the sample or the criterion function.", "quantifier": "all solutions, all accepted models, all amounts by period, numbers of periods, draws and data", "why_tests_cant": "Identification of the level of rewards is a statement on all parameters and data; a test compares two values for one model and cannot tell exact invariance from a small change.", "anchors": ["respy/solve.py:_full_solution", "respy/shared.py:calculate_expected_value_functions", "respy/shared.py:aggregate_keane_wolpin_utility", "respy/simulate.py:_simulate_single_period", "respy/likelihood.py:_simulate_log_probability_of_individuals_observed_choice", "respy/pre_processing/model_processing.py:_parse_choice_parameters"]}
{"id": "C99", "title": "Models can be estimated with their own samples", "statement": "The sample which simulate returns at some parameters is data with which the criterion function can be created and has a value, at these and at all other parameters: labels are read as the codes from which they were written, all states are found for all types, all choices are available and all wages can be explained.", "quantifier": "all accepted models, all parameters of the simulation and of the criterion function, all samples", "why_tests_cant": "Simulating and estimating again is the basis of every Monte Carlo study and bootstrap; a test tries some models with one seed, while the state space, the labels, the types and the ranges of wages have to fit for all samples.", "anchors": ["respy/simulate.py:_process_simulation_output", "respy/simulate.py:_convert_codes_to_original_labels", "respy/shared.py:convert_labeled_variables_to_codes", "respy/likelihood.py:_process_estimation_data", "respy/likelihood.py:get_log_like_func", "respy/likelihood.py:log_like", "respy/shared.py:map_observations_to_states"]}
{"id": "C100", "title": "The states which are simulated do not depend on the parameters", "statement": "In interpolated periods, solve simulates the values of some states and interpolates the others. Which states are simulated is the same in every call of the solve function, whatever the parameters: there is one selection of states by period, dense index and choice set such that the values returned at any parameters satisfy the Bellman equation in the selected states and follow the regression in the others.", "quantifier": "all accepted models, seeds, numbers of interpolation points and parameters with the same index", "why_tests_cant": "An optimizer compares criterion values at parameters which differ slightly; if the selection changed between calls, the criterion would jump. A test calls solve a few times; it cannot exclude that seeds are consumed in a way which depends on the parameters.", "anchors": ["respy/interpolate.py:kw_94_interpolation", "respy/interpolate.py:_get_seeds_to_create_not_interpolate_indicator", "respy/interpolate.py:_split_interpolation_points_evenly", "respy/interpolate.py:_get_not_interpolated_indicator", "respy/solve.py:solve", "respy/pre_processing/model_processing.py:_create_internal_seeds_from_user_seeds"]}
{"id": "C101", "title": "Characteristics which enter nothing have no effect", "statement": "Two dense indices (combinations of observables and types) for which, in every core state, the covariates with parameters of rewards have the same values and the same restrictions hold have the same values, so an observable which enters neither rewards nor restrictions, directly or through covariates, does not change any value. Individuals who differ only in such characteristics and have the same shocks have the same simulated rows in every period, apart from the characteristics themselves.", "quantifier": "all accepted models, pairs of dense indices, core states, formulas of covariates, draws and numbers of periods", "why_tests_cant": "Observables multiply the dense dimensions, and each dense index has its own keys, draws, seeds and solutions; a test compares some indices of one model and cannot establish that no path lets an unused characteristic matter.", "anchors": ["respy/solve.py:_solve_with_backward_induction", "respy/solve.py:_full_solution", "respy/state_space.py:create_state_space_class", "respy/shared.py:create_base_draws", "respy/shared.py:compute_covariates", "respy/simulate.py:_simulate_single_period", "respy/interpolate.py:kw_94_interpolation"]}
{"id": "C102", "title": "The order of the options does not matter", "statement": "Options with the same covariates, restrictions and filters in another order are accepted if the original ones are, and give the same states, choice sets and covariates. The solve, simulate and criterion functions created with them return the same solution, sample and value at all parameters, also if formulas of restrictions or filters are repeated.", "quantifier": "all models, all orders of covariates, of choices in negative_choice_set, of their formulas and of filters, all parameters with the same index", "why_tests_cant": "Options are written by hand or read from files in which the entries of a dictionary have no order; covariates are defined in terms of each other and computed in several passes over groups, and tests use one order per model.", "anchors": ["respy/pre_processing/process_covariates.py:remove_irrelevant_covariates", "respy/pre_processing/process_covariates.py:separate_covariates_into_core_dense_mixed", "respy/shared.py:compute_covariates", "respy/state_space.py:create_is_inadmissible", "respy/solve.py:get_solve_func", "respy/simulate.py:get_simulate_func", "respy/likelihood.py:get_log_like_func"]}
{"id": "C103", "title": "Accepted models can be solved", "statement": "A model which process_params_and_options accepts has a state space with states in each period and can be solved. This fails for models without experience, for models with a single choice and observables, types or exogenous processes, and for filters which remove all states of a period; conversely, solved models have a state in each period unless the discount factor is zero.", "quantifier": "all accepted models, all parameters", "why_tests_cant": "Degenerate models are where empty frames and empty dictionaries appear; tests use models with several choices and experience in each period, for which none of the branches is reached.", "anchors": ["respy/state_space.py:_create_core_from_choice_experiences", "respy/state_space.py:_create_dense_period_choice", "respy/state_space.py:_collect_child_indices", "respy/shared.py:_create_file_name_from_complex_index", "respy/parallelization.py:parallelize_across_dense_dimensions", "respy/solve.py:_create_param_specific_objects", "respy/solve.py:_full_solution"]}
{"id": "C104", "title": "One-step-ahead simulations use the data", "statement": "A one-step-ahead simulation returns one row for each observation of the data, in the order of the index. The row has the characteristics of the observation, labels being replaced by their codes, uses the draws at the position of the observation, and its choice is optimal in the solved model. All rows of an individual have the same type, which does not depend on other individuals; this holds if each individual is observed in the first period. Using a simulated sample and its draws returns the sample.", "quantifier": "all data frames, models, parameters, numbers of periods and draws", "why_tests_cant": "Panels are unbalanced and unsorted in arbitrary ways, and types are filled in by position; a test simulates from a balanced panel of the same model, for which previous rows belong to the same individual.", "anchors": ["respy/simulate.py:_process_input_df_for_simulation", "respy/simulate.py:_extend_data_with_sampled_characteristics", "respy/simulate.py:simulate", "respy/shared.py:convert_labeled_variables_to_codes", "respy/simulate.py:_harmonize_simulation_arguments"]}
{"id": "C105", "title": "The shipped state spaces consist of the reachable states", "statement": "With the filters of the shipped models of Keane and Wolpin (1994, 1997) the states of the core are exactly those which an individual can reach: starting with one of the initial experiences and a previous choice without wage, and making one choice per period as long as its experience is below the maximum. They are a permutation of the states of the former specialised implementations for these models. The same holds for the extended model of Robinson Crusoe with its restrictions. Models which are described this way can be solved, since no allowed choice leads to a filtered state.", "quantifier": "all numbers of periods, starting values, maxima, numbers of choices and wages, and all models with these filters", "why_tests_cant": "test_state_space_restrictions_by_traversing_forward and test_create_state_space_vs_specialized_kw94/kw97 compare the spaces for some models with few periods; filters are texts with placeholders which are expanded, converted and evaluated on experiences without starting values, and a missing case shows up only for particular histories.", "anchors": ["respy/state_space.py:create_state_space_class", "respy/state_space.py:_create_core_state_space", "respy/state_space.py:_filter_core_state_space", "respy/tests/_former_code.py:_create_state_space_kw94", "respy/tests/_former_code.py:_create_state_space_kw97_base", "respy/tests/_former_code.py:_create_state_space_kw97_extended", "respy/tests/resources/kw_94_one.yaml", "respy/tests/resources/kw_97_extended_respy.yaml", "respy/tests/resources/robinson_crusoe_extended.yaml", "respy/tests/test_solve.py:42-225"]}
{"id": "C106", "title": "With more draws the solution approaches the value function", "statement": "If the random numbers of the solution are independent and standard normal, then with n draws the probability that any of the expected values found by the backward induction differs by epsilon or more from the value function of the model, in which the maximum over choices is integrated over the joint normal distribution of the shocks, is at most C / (n epsilon^2) with a constant C which depends on the model and its parameters only. This value function exists and is unique.", "quantifier": "all accepted models with a positive discount factor and without interpolation, with or without exogenous processes, all numbers of draws, all probability spaces, all epsilon > 0", "why_tests_cant": "Tests compare solutions with a fixed number of draws with stored values or with other implementations which use the same draws; whether the integration is consistent, in spite of draws which are reused across states and errors which are carried backwards through all periods, cannot be seen from any one sequence of numbers.", "anchors": ["respy/shared.py:create_base_draws", "respy/shared.py:calculate_expected_value_functions", "respy/shared.py:transform_base_draws_with_cholesky_factor", "respy/solve.py:_solve_with_backward_induction", "respy/state_space.py:create_draws"]}
{"id": "C107", "title": "The likelihood of choices and wages is a probability distribution", "statement": "In each state, choice probabilities given wages times densities of wages, with the distribution of the draws in place of simulated draws, are a probability distribution over choices and wages: probabilities are unique, positive and at most one, integrating over the wages of a choice gives the probability of the choice without an observed wage, and everything sums to one. The simulated contributions of the likelihood function are unbiased estimates of the probabilities, differ by epsilon or more with probability at most 1 / (4 n epsilon^2), and their logarithms are too small on average.", "quantifier": "all states, choice sets, covariance matrices, measurement errors, smoothing parameters, wages, all numbers of draws and probability spaces", "why_tests_cant": "Tests evaluate the likelihood for given draws and data; whether conditional draws given a wage are consistent with the density of the wage is a statement about integrals over all wages and all draws.", "anchors": ["respy/likelihood.py:_internal_log_like_obs", "respy/likelihood.py:_simulate_log_probability_of_individuals_observed_choice", "respy/conditional_draws.py:create_draws_and_log_prob_wages", "respy/conditional_draws.py:update_mean_and_evaluate_likelihood", "respy/conditional_draws.py:calculate_conditional_draws"]}
{"id": "C108", "title": "Simulated choices and wages have the distribution of the likelihood", "statement": "In each state, the probability that an individual is simulated with a choice, and with a wage in some set, is the one which the likelihood function assigns to it, with the distribution of the draws in place of simulated draws: the difference is at most the probability that two alternatives are almost equally good or shocks exceed the bounds of the exponential function, plus a term for the smoothing. For nonsingular covariance matrices and positive wages it is arbitrarily small for small smoothing parameters, up to the variances of the shocks divided by the square of the bound.", "quantifier": "all states, choice sets in which recorded choices are the best ones, covariance matrices, measurement errors, wages, continuation values, probability spaces and measurable sets of wages", "why_tests_cant": "Simulation and likelihood are separate implementations of the same model; tests estimate parameters from simulated samples with tolerances, which cannot exclude small inconsistencies between conditional draws, measurement errors and wages.", "anchors": ["respy/simulate.py:_simulate_single_period", "respy/simulate.py:simulate", "respy/likelihood.py:_internal_log_like_obs", "respy/likelihood.py:_simulate_log_probability_of_individuals_observed_choice", "respy/conditional_draws.py:create_draws_and_log_prob_wages"]}
{"id": "C109", "title": "Individuals with a tiny discount factor behave like myopic individuals", "statement": "There is a constant such that for every positive discount factor up to one the sample simulated with this discount factor has the states, shocks, wages and choices of the sample simulated with a discount factor of zero, provided that in the latter every choice is better than all others by more than the constant times the discount factor, and the log likelihoods differ by at most the constant times the discount factor divided by the smoothing parameter for each row. So, without ties, samples are the same for all small discount factors and log likelihoods converge. More generally, solutions whose values differ by at most eta give the same samples if choices are clear by more than 2 eta, and log likelihoods which differ by at most 2 eta / tau for each row.", "quantifier": "all accepted models without interpolation, parameters, data, smoothing parameters, generators of random numbers and discount factors up to one; for the general statement all pairs of solutions", "why_tests_cant": "test_equality_for_myopic_agents_and_tiny_delta compares one discount factor for random models. For a discount factor of zero the code skips the backward induction, so the two computations share no intermediate result; a discontinuity would need a particular model or margin to be seen.", "anchors": ["respy/solve.py:_solve_with_backward_induction", "respy/simulate.py:simulate", "respy/simulate.py:_simulate_single_period", "respy/likelihood.py:log_like", "respy/likelihood.py:_internal_log_like_obs", "respy/tests/test_simulate.py:57-82"]}
{"id": "C110", "title": "The likelihood of a history is the probability with which it is simulated", "statement": "In a simulated sample each individual starts in a state which does not depend on the shocks. The probability that the individual then makes given choices and earns wages in given sets in all periods is the product over periods of the choice probabilities and densities of wages which the likelihood function uses in the states to which the choices lead. The difference is at most the sum over periods of the probabilities of shocks out of bounds or near ties and of the effects of smoothing; for nonsingular covariance matrices it is arbitrarily small for small smoothing parameters, up to the variances of the shocks divided by the square of the bound.", "quantifier": "all accepted models without exogenous processes, all individuals, histories of choices, sets of wages, numbers of periods and individuals, probability spaces and smoothing parameters", "why_tests_cant": "The likelihood multiplies contributions of observations as if they were independent given the states; that simulated histories are generated this way depends on which rows of the draws are used for which individual and period and on the transition of states, and a test with finitely many draws cannot distinguish independent rows from slightly dependent ones.", "anchors": ["respy/simulate.py:simulate", "respy/simulate.py:_simulate_single_period", "respy/simulate.py:_apply_law_of_motion", "respy/likelihood.py:_internal_log_like_obs", "respy/likelihood.py:log_like", "respy/shared.py:create_base_draws"]}
{"id": "C111", "title": "Initial characteristics have the distribution given by the parameters", "statement": "All individuals of a sample are given characteristics. The probability that any group of individuals has given characteristics is the product over these individuals of the products of conditional probabilities, one characteristic after the other: known characteristics are kept, and a missing one has each of its levels with the multinomial logit probability of its parameters and the covariates which depend on the characteristics known or sampled before. All combinations of levels which agree with the known characteristics are possible.", "quantifier": "all accepted models, all numbers of individuals and characteristics, all inputs with known or missing values, all groups of individuals and characteristics, all probability spaces with independent uniform numbers", "why_tests_cant": "Tests compare frequencies in large samples with tolerances for a few models (test_distribution_of_observables, test_distribution_of_lagged_choices); independence across individuals and the joint distribution of several characteristics which depend on each other are not compared at all.", "anchors": ["respy/simulate.py:_extend_data_with_sampled_characteristics", "respy/simulate.py:_sample_characteristic", "respy/simulate.py:_random_choice", "respy/shared.py:compute_covariates", "respy/simulate.py:_convert_codes_to_original_labels"]}
{"id": "C112", "title": "Samples have the distribution of the likelihood with unobserved types", "statement": "The probability that an individual in a simulated sample starts with given characteristics and then has a given history of choices and wages is the probability of the characteristics times the likelihood of the history, the product over periods of the choice probabilities and densities of wages. If the type is not observed, it is the probability of the observed characteristics times the average of the likelihoods over types, weighted with the multinomial logit probabilities of the types given the observed characteristics, which are the probabilities of types in the likelihood function. The differences are those of C110, weighted in the same way.", "quantifier": "all accepted models without exogenous processes, all individuals, characteristics, histories, sets of wages, numbers of periods and individuals, probability spaces and smoothing parameters", "why_tests_cant": "That simulated data come from the mixture over types which the likelihood assumes involves the joint distribution of initial characteristics, types and shocks; tests check that some estimates are close to the parameters of simulated samples.", "anchors": ["respy/simulate.py:simulate", "respy/simulate.py:_extend_data_with_sampled_characteristics", "respy/simulate.py:_simulate_single_period", "respy/likelihood.py:_internal_log_like_obs", "respy/likelihood.py:log_like"]}
{"id": "C113", "title": "The parameters which generated the data have the highest likelihood, up to chance", "statement": "For given parameters, the likelihoods of all histories of choices and wages of an individual, with or without unobserved types, are a probability distribution: they are positive exactly for the histories which are possible and integrate to one, and the probabilities of choices and sets of wages are the products which simulated samples approach (C110). If the histories of independent individuals have this distribution, the probability that other parameters have a log likelihood which is higher by k is at most exp(-k), and at most exp(-k / 2) times the product over individuals of a number which is one if and only if both parameters give the individual's history the same distribution, and otherwise smaller: parameters which can be distinguished are rejected with probability exponentially close to one in large samples.", "quantifier": "all accepted models without exogenous processes, all pairs of parameters with the same index, all numbers of individuals, periods and types, all initial states, probability spaces and margins k", "why_tests_cant": "Tests check that the criterion at the true parameters is below a number or that one optimisation moves towards them in one sample. Whether the criterion is a likelihood at all, that is, sums to one over all data, is a statement about all histories and all wages, and it is the reason why its maximisation makes sense.", "anchors": ["respy/likelihood.py:log_like", "respy/likelihood.py:_internal_log_like_obs", "respy/likelihood.py:_simulate_log_probability_of_individuals_observed_choice", "respy/conditional_draws.py:create_draws_and_log_prob_wages", "respy/simulate.py:simulate"]}
{"id": "C114", "title": "The likelihood with exogenous processes favours the parameters which generated the data", "statement": "In models with exogenous processes the likelihood of an individual is the product over periods of the choice probabilities and densities of wages in the states which the data show, with expected values over the levels of the processes in the next period. It does not contain the probabilities of the observed levels. It is nevertheless a valid criterion: for every path of the processes the likelihoods of all choices and wages are a probability distribution, and together with the probabilities of the levels they are a distribution of all histories. If the histories of independent individuals have this distribution, the probability that other parameters, also ones with wrong probabilities of the processes, have a log likelihood which is higher by k is at most exp(-k), and at most exp(-k / 2) times the product over individuals of numbers which are one only if both parameters give the individual's choices and wages the same distribution.", "quantifier": "all accepted models with exogenous processes and without types, all pairs of parameters with the same index, all numbers of processes, levels, individuals and periods, all initial states, probability spaces and margins k", "why_tests_cant": "No test estimates a model with exogenous processes. Whether leaving out the probabilities of the processes biases the criterion is a question about the distribution of all histories, not about a value of the criterion.", "anchors": ["respy/likelihood.py:log_like", "respy/likelihood.py:_internal_log_like_obs", "respy/exogenous_processes.py:compute_transition_probabilities", "respy/exogenous_processes.py:weight_continuation_values", "respy/state_space.py:get_continuation_values"]}
{"id": "C115", "title": "Maximum likelihood among finitely many candidates finds the parameters which generated the data", "statement": "Consider individuals of finitely many kinds, which differ in initial characteristics and in the number of observed periods, and finitely many candidates for the parameters, each of which gives the histories of some kind of individuals another distribution than the true parameters. The probability that any candidate has a likelihood as high as the true parameters is at most the sum over candidates of r to the power of the number of individuals of that kind, with the same r < 1 for all samples. As these numbers grow, the probability that the true parameters are the unique maximum converges to one. Parameters which imply a higher expected value of the following periods after one available choice, and of no other, are distinguished by individuals observed for one period. All of this also holds for models with exogenous processes, whose probabilities are not part of the likelihood and may be wrong for the candidates.", "quantifier": "all accepted models, with types or with exogenous processes, all finite sets of candidates with the same index, all numbers of kinds, individuals, periods and types, all probability spaces", "why_tests_cant": "Tests estimate a model once from one sample and check that the criterion is small near the true parameters. Convergence concerns all sample sizes, and that the rate is the same for all samples cannot be observed.", "anchors": ["respy/likelihood.py:log_like", "respy/likelihood.py:get_log_like_func", "respy/likelihood.py:_internal_log_like_obs", "respy/simulate.py:simulate"]}
{"id": "C116", "title": "With more draws the criterion function approaches the exact log likelihood of the data", "statement": "For a given solution of the model, the value of the criterion function with standard normal base draws is defined for all draws, and for every tolerance the probability that it differs by more from the mean of the exact log likelihoods of the individuals is at most a constant over the number of draws, where the constant depends on the model, the data and the tolerance, but not on the draws. The exact likelihood has the choice probabilities of C107, integrals over the distribution of the shocks given the wage, in place of averages over draws; densities of wages, probabilities of types and bounds on logarithms are the same. The draws of different observations need not be independent.", "quantifier": "all accepted models, with or without types, interpolation and exogenous processes, all data which fit to the model, all tolerances, numbers of draws and probability spaces with standard normal numbers", "why_tests_cant": "Tests compute the criterion with a fixed number of draws and a fixed seed. Whether the simulated criterion estimates a quantity which does not depend on the draws is a statement about all numbers of draws and the distribution of the random numbers.", "anchors": ["respy/likelihood.py:get_log_like_func", "respy/likelihood.py:log_like", "respy/likelihood.py:_internal_log_like_obs", "respy/likelihood.py:_simulate_log_probability_of_individuals_observed_choice", "respy/conditional_draws.py:create_draws_and_log_prob_wages", "respy/shared.py:create_base_draws"]}
{"id": "C117", "title": "With more draws for the solution and the likelihood the criterion function approaches its exact value", "statement": "A model is solved with draws of the shocks, and the criterion function of this solution uses draws of its own. For every tolerance, the probability that its value differs by more from the mean of the exact log likelihoods of the individuals is at most a constant over the number of draws of the solution plus a constant over the number of draws of the likelihood. The exact log likelihoods are those of C116 with the value function of the model in which expectations over the distribution of the shocks replace averages over draws. The two sets of draws may depend on each other, as they do if the seeds agree, and with enough draws of both any accuracy is reached with any probability below one.", "quantifier": "all accepted models without interpolation and with a discount factor of at least zero, with types or with exogenous processes, all data which fit to the model, all tolerances, numbers of draws and probability spaces with standard normal numbers", "why_tests_cant": "Tests compute the criterion with few draws and a fixed seed and compare it to stored values. That errors of the solution are not amplified by the likelihood, and that both kinds of errors vanish, concerns all numbers of draws.", "anchors": ["respy/likelihood.py:get_log_like_func", "respy/likelihood.py:log_like", "respy/likelihood.py:_internal_log_like_obs", "respy/solve.py:_solve_with_backward_induction", "respy/shared.py:create_base_draws"]}
{"id": "C118", "title": "Maximum simulated likelihood selects a maximum of the exact likelihood if there are enough draws", "statement": "Consider finitely many candidates for the parameters with the same index as those of an accepted model. All of them are accepted. For each candidate the model is solved with draws and the criterion function of the solution is computed with draws, all from the same random numbers. The probability that a candidate with the highest value of the criterion function does not have the highest exact log likelihood, the value of C117, is at most a constant over the number of draws of the solution plus a constant over the number of draws of the likelihood. The constants depend on the candidates and the data, but not on the draws.", "quantifier": "all accepted models without interpolation, with types or with exogenous processes, all finite sets of candidates with the same index and discount factors of at least zero, all data which fit to the candidates, all numbers of draws and probability spaces with standard normal numbers", "why_tests_cant": "Tests evaluate the criterion function at few parameters and with a fixed seed. Whether simulation error can change which parameters are best, and how likely this is, concerns all numbers of draws and the joint distribution of the values at all candidates.", "anchors": ["respy/likelihood.py:get_log_like_func", "respy/likelihood.py:log_like", "respy/likelihood.py:_internal_log_like_obs", "respy/solve.py:_solve_with_backward_induction", "respy/shared.py:create_base_draws"]}
{"id": "C119", "title": "With more draws for the solution simulated individuals choose nearly optimally", "statement": "A model is solved with draws of the shocks and simulated. In the model in which expectations over the distribution of the shocks replace averages over these draws, alternatives have slightly different values. The simulation returns a balanced panel in which states follow from recorded choices, and the probability that in any row of the sample a recorded value of an available alternative differs by more than a tolerance from the value in this model, or that the alternative whose wage is recorded falls short of the best one by more than twice the tolerance, is at most a constant over the number of draws times the squared tolerance. The bound holds for all individuals and periods at the same time and does not depend on the number of individuals.", "quantifier": "all accepted models without interpolation and with a discount factor of at least zero, with types or with exogenous processes, all samples of initial characteristics, all numbers of individuals, periods and draws, all tolerances and probability spaces with standard normal numbers", "why_tests_cant": "Tests simulate a model which is solved with a fixed number of draws. That errors of the solution have only a small effect on all choices which can be simulated concerns all states, draws and sample sizes.", "anchors": ["respy/simulate.py:simulate", "respy/simulate.py:_simulate_single_period", "respy/solve.py:_solve_with_backward_induction", "respy/shared.py:create_base_draws"]}
