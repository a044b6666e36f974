# Formal model of respy — design

Subject: OpenSourceEconomics/respy at the pinned commit in `/repo` (read only, never run).
Tool: Lean 4.33.0 + single Mathlib modules, project in `/verif/lean`.

## 1. Layout

| directory | content |
|---|---|
| `lean/Verif/Model/` | the model, function by function; every definition cites file and lines of `/repo/respy` and names its simplifications |
| `lean/Verif/Spec/`  | small independent specifications (sets, sums, histories) that do not use the helpers of the model |
| `lean/Verif/Lemmas/` | helper lemmas |
| `lean/Verif/Props/` | the property theorems, one file per topic, each followed by an `example` showing that its hypotheses are met by a concrete non-trivial case |

Theorem names start with the property id (`C01_...`). A theorem about a part of a property carries the suffix `_partial`. When the
code violates the property as stated, the negation is proved with a concrete witness (`Cxx_..._false` / `Cxx_..._counterexample`) and the strongest
true restriction is proved as `_partial`.

## 2. Modelling conventions (what a simplification means here)

* Exceptions are values (`Except`/`Option`); a `KeyError`, `IndexError`, `ValueError`, `NameError` of the code is an error result of the model.
* NumPy/pandas integers are unbounded `Nat`/`Int` except where a property is about a data type. Floats are real numbers (`ℝ`) or elements of
  an arbitrary linearly ordered field; rounding, NaN propagation and infinities are not modelled, except NaN as a *missing value* (`Option`).
* A DataFrame is a list of rows; an index is the list of its labels. `groupby` is modelled by first-occurrence order of sorted keys, `concat` by `++`,
  `sort_index` by a stable sort by label, dictionaries by association lists with Python's insertion order.
* `df.eval(formula)` is a parameter: a predicate or function on rows that may be undefined (`none` = `UndefinedVariableError`).
* Random number generators are parameters: a generator is a function of the seed or an explicit state threaded through the model.
* `np.linalg.qr`, `robust_cholesky`, `np.linalg.pinv` are parameters with their mathematical contract as hypotheses.
* `joblib.Parallel` is modelled by evaluating the keys in an arbitrary order (a permutation).

## 3. Properties and plan

See `properties.jsonl` for the full statements. `N` = negation expected (the code violates the statement as it stands), followed by the partial result that is proved.

| id | model | proof |
|---|---|---|
| C01 | `CoreStateSpace`: recursive generator, lags, filter, starts, drop_duplicates, sort; `EightBits`: periods counted with eight bits | induction over the positions of the generator; set equality with `Spec.Feasible`; N: more than 256 periods or a maximum above 255 |
| C02 | + `LawOfMotion`, default inadmissibility formula, child lookup | C01 + arithmetic on the maximum |
| C03 | indexer as association list over groups | injectivity of (group, position), round trip |
| C04 | `_add_lagged_choice_to_core_state_space` with missing values | N: with ≥ 2 lags no state has both lags; partial for ≤ 1 lag (any model) |
| C05 | filter before starting values are added | N: witness with start 1; partial: only start 0 |
| C06 | grid product vs. columns | N: witness with exogenous process; partial: without exogenous processes the grid is the full product, one entry per assignment |
| C07 | dense period choice dictionary | N: collision witness; partial: without collisions every (core key, dense index) has its dense key |
| C08 | `create_is_inadmissible`, grouping | groups partition the states, choice set = complement of restrictions, ValueError branch |
| C09 | file names as strings | injectivity of decimal and bit strings around separators |
| C10 | `apply_law_of_motion_for_core` iterated | induction over the choice list, count specification |
| C11 | backward induction over periods and keys | invariant over the reversed period loop |
| C12 | `calculate_expected_value_functions` with start value 0 | N: all values negative; exact characterisation `max 0`, partial for non-negative maxima |
| C13 | same | order theory, Lipschitz bound, lifted to backward induction |
| C14 | state = mutable arrays, `solve` = state transformer | result depends on parameters only; lifted to histories by induction |
| C15 | heap with one shared object | N: witness of two parameter vectors; partial: object equals the last solution |
| C16 | file system state machine with two models | N: same directory; partial: different directories, arbitrary interleavings |
| C17 | key inference, broadcasting, evaluation in arbitrary order | map over the intersection; N for an empty intersection (function is called unsplit) |
| C18 | split / map / concat / stable sort | permutation + sortedness |
| C19 | softmax, products over grid | sum over product = product of sums, induction over the processes |
| C20 | transit choice set, representation columns, weighting | column alignment for all boolean masks, convexity |
| C21 | point split loop with oracle draws | loop invariant; N at `points = 2 * keys` (unbound name) |
| C22 | rhs/lhs/prediction for arbitrary OLS coefficients | pointwise |
| C23 | both branches | pointwise |
| C24 | argmax and sequential position→code replacement | N: positions `[1,2]`; partial: exact condition under which the replacement is right |
| C25 | same | recorded choice ∈ choice set always; wage/label agreement under the condition of C24 |
| C26 | period loop over individuals | induction over periods |
| C27 | same | induction over periods |
| C28 | slices | injectivity of `N*t+i` |
| C29 | cumulative sums and first index | interval characterisation, Lebesgue length |
| C30 | generator state threaded through `simulate` | output independent of incoming state and history |
| C31 | argument harmonisation | N: a requested number is ignored; partial: the value used |
| C32 | dense law of motion | induction over periods |
| C33 | reindexing of the data | N: identifiers not starting at 0; partial: consecutive identifiers |
| C34, C35 | logsumexp, smoothed probabilities | real analysis |
| C36 | searchsorted on the valid positions | correct for valid codes; N for invalid codes |
| C37 | unsubset measurement errors | N; partial: choice set prefix |
| C38 | matrices | block/QR algebra over `Matrix` |
| C39 | lower-triangular sum with zero row | algebra |
| C40 | log density | Gaussian density of Mathlib |
| C41 | aggregation over rows and types | permutation invariance, mixture formula |
| C42 | index alignment of duplicated type rows | N: n_types entries per individual; mean equal |
| C43 | data levels vs. parsed levels | N; partial: levels agree |
| C44 | submatrix of the factor | N: 2×2 witness; partial: prefix choice sets / exact condition |
| C45 | column transformation | exact characterisation |
| C46 | sets and sorted lists of names | prefix/partition; N for disjointness |
| C47 | counters | arithmetic |
| C48 | clip/log/softmax | real analysis |
| C49 | string replacement in token formulas | N: label of two variables; partial: unique labels |
| C50 | string functions | N: "exp" inside a word; partial |
| C51 | code/label maps | round trip |
| C52 | closure loop | least fixpoint |
| C53 | fixpoint loop | order independence, termination; N for self-mentioning names and constants as dependencies |
| C54 | worklist loop | N: order-dependent `KeyError`, non-termination; partial |
| C55 | type inference | N for categories without names; partial |
| C56 | paths as lists of components | idempotence |
| C57 | options as formula lists | semantic idempotence |
| C58 | default maximum | corollary of C01/C02 |
| C59, C60 | data check as decidable predicate | pigeonhole; N for negative periods and for the last lag |
| C61–C64 | labelled vectors, quadratic form | algebra, permutations; N for non-diagonal weights, key order, one-element lists |
| C65 | discount factors | algebra |
| C66 | integer ranges of data types | range lemma |
| C67 | shift and cumulative sum | induction |
| C68 | loop of `separate_covariates_into_core_dense_mixed` over formulas with substring matches | loop invariant, least fixpoints of both parts; the `KeyError` for a name in both parts is a hypothesis |
| C69 | the checks of C59/C60 as one decidable predicate | every consistent sample with at most two lags passes; N: three or more lags are always rejected |
| C70 | `Build` (creation of the state space), `Solve`, `TransitionFrame` | the stored number at a location = unique solution of the Bellman equation; partial: no interpolation, δ ≠ 0 |
| C71 | `Rewards` (`_create_choice_rewards`, `create_draws`) | entries of the arrays = linear index of state, choice and period |
| C72 | the checks of C59 | accepted samples: admissible values, experience = first + number of choices |
| C73 | sampling of initial characteristics, `solve` and the loop over periods on the state space built from the model | totality of every step; invariant over periods (state in the core, dense columns in the grid); composition with C70 |
| C74 | `_parse_observable_or_exog_process_names` on lists of categories | common prefixes of all pairs of rows; the names are the fixed point of the last filter; counterexamples for names inside names, levels of several words and one level with two rows |
| C75 | levels of `_parse_observables` and `_parse_exogenous_processes`, codes as positions in the dictionaries | soundness and completeness of the regular expressions; sorted lists with the same members are equal; counterexamples for additional levels and upper-case letters |
| C76 | `_parse_measurement_errors` with the choices of `_parse_choices` | lookup in dictionaries |
| C77 | `_parse_shocks`, `_validate_shocks` and estimagic's functions from parameters to matrices | induction on rows of the triangle; the position of entry (i, j) is i (i + 1) / 2 + j |
| C78 | `_parse_lagged_choices` | soundness and completeness of the search for numbers; digits of a number determine it; counterexample for labels which are not choices |
| C79 | `get_log_like_func`, `log_like`, `_process_estimation_data` and all functions they call, with the solution of C70 | the row of a dense key finds its rewards, continuation values and base draws; conditional law of C38; rows are a permutation of the complete table, then C41 and C42 |
| C80 | `solve` with `kw_94_interpolation` as the interpolation of C70, all numbers of points, shortcut for a discount factor of zero | totality of each step of the interpolation under the contract of the random choices; induction on periods; groups are the dense keys of a period; counts of points per key |
| C81 | `ols` with `np.linalg.pinv` as a parameter, matrices of rows; solutions of C80 with these coefficients | normal equations from the equations of the pseudo-inverse; orthogonal decomposition of residuals; a pseudo-inverse exists by the spectral theorem |
| C82 | `process_params_and_options` as a composition of the parsers of C46, C48, C49, C52, C55, C57, C58 and C74-C78; frames with covariates of core and dense states; restrictions and rewards looked up by name; `df.eval` is a parameter (`FormulaEval`) | inversion of the composition; columns of the core keep their values in all frames, so choice sets are the same for all dense indices; the default restriction keeps the core closed; then C80 |
| C83 | the sampled characteristics in their order, frames of first periods with covariates (`compute_covariates` with missing values), probabilities of levels, `simulate` for processed parameters | variables which can be computed are computed by the loop of C53; then C73; probabilities by C46; the removal of `constant` by a witness |
| C84 | `get_log_like_func` and `log_like` for processed parameters: observation frames, frames with the covariates of types, the likelihood parameters (C79) | data which fit to a processed model fit to C79, then C82; values of formulas by C53 for core, dense and mixed covariates; frames with fewer covariates agree with them by C54 |
| C85 | `get_solve_func` and the function which it returns, with processed options as input of the second processing | all parsers give results of the same shape for the same index, step by step; relevant covariates of converted formulas by induction on dependencies (C52); permuted formulas by C68; then C82; names inside of labels and maximum experiences by witnesses |
| C86 | `create_state_space_class` as before; the groups of states (`Grouped`) without closedness | the lookups of C03 for all children, of which the admissible choices are a part (C20); for accepted models restrictions by C82; two lags from C04 by a general argument |
| C87 | `get_simulate_func` and `get_log_like_func` as functions of the parameters, with processed options as input of the solve function and of every call | covariates of permuted definitions agree (C53), also with missing values and for the search of C54; so frames, choice sets, solutions, samples and criterion values agree; then C85, C83, C84 |
| C88 | `check_model_solution` with all assertions (`Model/CheckSolution`); the sum of periods and initial experiences and `np.isfinite` are parameters | membership in the core (C05) gives the ranges, C03 the number of indices; converse for any core; fails with two lags |
| C89 | the functions of `specification_helpers.py` as text and numbers (`Model/Templates`), put together as in `tests/random_model.py`; the texts of comments and the random values of coefficients are not modelled | membership in the template by kind of row, names as words over `isNameChar`, digits of numbers are injective; then the parsers of C48-C52 are evaluated on the template; four negations with witnesses |
| C90 | `get_moment_errors_func` as a function of parameters and of the state of the global generator, and the whole result of `moment_errors` (`Model/MomentFunctions`) | C87 for the simulate function, C30 for reproducibility; reindexing moments like themselves is the identity, so that errors vanish; hypotheses of C85 remain |
| C91 | `_create_tidy_data` and `_create_comparison_plot_data_msm` with labels as texts (`Model/MomentFunctions`) | keys of tidy rows are distinct by induction over sets and columns; a filter on a distinct key is a singleton |
| C92 | `_create_comparison_plot_data` and the dictionary of `log_like` (`Model/LikelihoodPlots`), rows of the data paired with their log likelihoods; no column of the data contains `loglike` in its name | pairs share identifier, period and type (C79); distinct labels make the wide table a permutation of the rows; N: identifiers and periods wrap around, types are not named, type probabilities are repeated |
| C93 | `Options`: merge with defaults, internal seeds, cache path, `validate_options` on Python values | lookup in the merged dictionary, the check as a rule for each name; N: unknown names are accepted |
| C94 | the sorted data of C79 and the plot data of C92; the checks of C59 | sorting permuted lists with distinct keys; the row before as the latest earlier period for sorted individuals; N: other orders are rejected, and inconsistent histories are accepted in other orders |
| C95 | the whole of `processModel` and the functions of C85 and C87 at permuted parameters | each parser respects permutations of the rows up to the order of coefficients; linear indices are sums; sets of covariates by C54; N: other orders of the shocks are rejected |
| C96 | the value functions of C70 and the solve functions of C85 at two vectors of parameters | backward induction on the Bellman equations; rewards by name (C82), shocks of choices with a wage are positive |
| C97 | the loop over periods, the runs and the one-step-ahead simulation of C26-C33 | conditions on rows which are equivalent to the loop without exogenous processes, and which only refer to one individual at a time; N: with exogenous processes all individuals share one stream of random numbers |
| C98 | the simulation and the likelihood at two solutions, the value functions of C70 and the functions of C85 and C87 at two vectors of parameters | one number per state is added to all values, which neither changes a maximum nor differences of values (log-sum-exp); induction on the remaining periods; parsers do not read the changed rows; N: the running maximum starts at zero, so that levels matter in states with negative values |
| C99 | the rows of simulated samples with labels and as data of the criterion function of C84, the functions of C87 | what a row of a sample satisfies (C83) gives the conditions of the criterion function (C84) at all parameters with the same structure; labels without duplicates are inverted; N: restrictions which depend on the type |
| C100 | the backward induction with `kw_94_interpolation` at different parameters, the solve function of C85 | the seeds used before a period depend only on the state space: invariant of the loop over periods; masks are a function of the seeds; C80 with the selection as a function of state space and seed |
| C101 | the value functions of C70, the solutions and covariates of C82, the simulation of C83 for two dense indices | coupling: related indices have the same rewards, choice sets and related futures; induction on the remaining periods; covariates by induction on the definitions from which they are computed; N: the interpolated states are drawn for each dense index |
| C102 | the processed models of two options which differ in orders, the functions of C85 and C87 | relevant covariates and groups agree up to the order (C52, C68), covariates have the value given by their definitions (C53), so states, choice sets and rows are equal; C87 carries this to all parameters; N: covariates which use covariates without dependencies |
| C103 | the state space of C86 and the solve function of C85 for degenerate models | the keys of a period come from states of the core, so that a solution of all periods needs a state in each; N: without experience the core has no rows; with one choice and dense dimensions the groups have no file names; a filter which removes the first period |
| C104 | data frames with labels, their processing for the methods with data, sampling for the first period, filling of types, the one-step-ahead loop | rows of the loop are the sorted observations selected by period, sampling and filling keep known values, so rows are determined by the index; C73 for each row, C97 for samples; N: individuals who are not observed in the first period have the type of the observation before |
| C105 | the former implementations, the texts of the shipped filters, an inductive definition of reachable states, formulas and their meaning | the filters are characterised by inequalities (C05), reachability by induction in both directions, the former loops by membership; texts are expanded (C49) and read by `df.eval`; N: without filters or without a choice without experience there are states which cannot be reached |
| C106 | the solution as in C82 with random numbers on a probability space; the value function with integrals instead of averages | Chebyshev's inequality for the average of the best utility at the limit values in each state (second moments of normal and log-normal variables), the error is carried backwards by induction over periods (C96), union bound over the finitely many states |
| C107 | the likelihood contributions of an observation as in C79 with draws on a probability space; choice probabilities as integrals over standard normal numbers | linear images of standard normal vectors with equal covariances have the same distribution (characteristic functions), so the factor given a wage is exchanged for one on a larger space in which wage and shocks are jointly normal; Fubini; Chebyshev's and Jensen's inequality for the simulated probabilities |
| C108 | `simulateIndividual` with random shocks and measurement errors; the probabilities of C107 | the likelihood is written as an integral over the numbers of the simulation (C107); outside of the exceptional set the smoothed indicator of a choice is within `k exp(-kappa / tau)` of the indicator of the simulated choice; continuity of measures for `tau` to zero; ties are null sets because a line parallel to an axis meets them at most once |
| C109 | simulation and criterion as functions of the parameters (C87), `setDelta` changes the rows of the discount factor only | rewards are bounded over the finitely many states and draws, so values are bounded by the number of periods times this bound for all discount factors up to one; values of alternatives differ by at most the discount factor times the bound; induction over the loop of the simulation (choices stay the same as long as margins exceed twice the difference), log-sum-exp is Lipschitz for the likelihood |
| C110 | `Simulation.run` with random rows of draws; the product of the probabilities of C107 along `coreAlong`, the states to which a history of choices leads | by induction over periods a sample has a history iff each period's row of draws lies in an event which depends on that row only; rows are independent, so probabilities multiply; each factor is compared by C108 and products of numbers in [0, 1] differ by at most the sum of the differences; the smoothing parameter is chosen for the finitely many states |
| C111 | `sampleAll` with random uniform numbers; `initialProbability`, the chain of conditional probabilities of `CharacteristicLaw`s, and `Processed.initialLaw`, multinomial logit probabilities with covariates as a relation (`ColumnValue`) | characteristics of an individual are a function of its own uniform numbers (induction over characteristics), the set of numbers which leads to a level is an interval whose length is its probability (C29), numbers of individuals are independent; the laws of accepted models follow from invariants of `computeCovariates` |
| C112 | `Simulation.run` with random uniform numbers and random draws; the chain of C111 times the likelihood of C110, averaged over types | characteristics depend on uniform numbers, histories given the first state on the draws only, and both are independent; events of different types are disjoint, their probabilities factor because the type is sampled last; differences are bounded as in C110; covariates of types are computed before the type is known, so they have the values of the state with any type, by induction on the formulas |
| C113 | likelihood of a complete history (`IsHistoryLikelihood`, `IsMixtureLikelihood`): product over periods of the choice probabilities of C107 and densities of wages along the states to which choices lead, with counting measure for choices and length for wages as reference (`historyMeasure`) | the likelihood of an observation is a density by C107, that of a history by induction over periods with Tonelli's theorem; Markov's inequality for products of ratios and of square roots of ratios of likelihoods of independent individuals; the integral of the geometric mean of two densities is one only if they agree almost everywhere; C82 and C85 for accepted models |
| C114 | likelihood of histories of choices, wages and levels of exogenous processes (`IsLikelihoodAlong`): the product of C113 along the states to which choices and processes lead, with continuation values over `processFuture`; probabilities of the processes separately (`processesAlong`) | induction over periods with Tonelli's theorem for arbitrary weights of the levels, which may depend on period and state: indicators of a path give the conditional distribution, transition probabilities the joint one; the probabilities of the processes cancel in ratios of likelihoods almost surely, then as in C113; `isTransition_processes` for accepted models |
| C115 | finitely many candidates for the parameters and independent individuals of finitely many kinds (`countKind`), with the likelihoods of C113, and of C114 for exogenous processes | union over candidates of the bounds of C113: individuals of a kind share the integral of the geometric mean of two densities, which is below one if they differ; strict monotonicity of logit probabilities in the own value, integrated over the shocks, shows that distributions differ; with processes the common factor of their probabilities cancels; C82 and C85 for accepted models |
| C116 | the criterion function of C79 with base draws given by random numbers (`Estimation.withNumbers`, `EstimationNormals`); exact terms with the choice probabilities of C107 (`ExactTerm`, `CriterionApproaches`) | the factor of the shocks which is used does not depend on the draws (`factorUsed`), so that the simulated probabilities are averages; Chebyshev's inequality for each of finitely many probabilities, continuity of the criterion in them at positive probabilities, union bound; C84 for accepted models |
| C117 | the criterion function of C116 with the solution for random numbers of C106 (`SolvedCriterionApproaches`) | the criterion function with the exact values is that of C116; if the values of all states differ by at most η, each log probability differs by at most a multiple of η over the temperature (the bounds of C109), so the criterion differs by a multiple of η; the probability that values differ by more is that of C106; with a discount factor of zero neither side depends on values of later periods |
| C118 | the criterion functions of C117 for finitely many parameters with the same random numbers (`MaximumApproaches`) | C117 for each candidate with half of the smallest positive difference of exact values as tolerance, union bound; candidates with the same index have the same structure (C85), so their state spaces and random numbers agree |
| C119 | the samples of C83 for the solution with random numbers of C106 (`RowNearlyFollows`, `SampleApproaches`) | each row follows the model with the stored values (C73); if these differ by at most η from the exact ones, values of alternatives differ by at most βδη, so the best alternative for stored values is nearly optimal; the probability that they differ by more is that of C106; with a discount factor of zero stored values have no weight |

## 4. Trusted base

* Lean's kernel (Lean 4.33.0). No axioms are declared; no `sorry`, `admit`, `native_decide`, `bv_decide`, `implemented_by` or `unsafe` is used.
  Witnesses and examples are checked with `decide +kernel`, i.e. by evaluation in the kernel.
* The axioms of the property theorems, as printed by `#print axioms`:

* All property theorems not listed here (475) depend on `propext`, `Classical.choice` and `Quot.sound`.
* No axioms: `C06_types_and_exogenous_false`, `C47_bound_sharp`.
* `Quot.sound`, `propext` only: `C01_eight_bits`, `C01_large_maximum_false`, `C06_dense_grid_false`, `C12_emax_exact`, `C12_emax_mean_of_max_partial`, `C17_several_outputs`, `C26_labels_are_categories`, `C30_repeated_calls`, `C30_reproducible`, `C36_outside_rejected_partial`, `C36_rejected_iff`, `C43_data_levels_used_partial`, `C49_first_code`, `C49_unique_label_partial`, `C51_codes_partial`, `C51_labels_partial`, `C51_unknown_label`, `C56_only_cache_deleted`, `C57_choice_restrictions`, `C57_labels`, `C58_default_maximum_never_binds`, `C64_complete`, `C69_three_lags_false`, `C72_accepted_values`, `C80_no_interpolation_is_value_function`, `C88_passed_checks`, `C90_scalar_and_dictionary`, `C97_fewer_periods`, `C97_one_step_ahead_again`.
* `propext` only: `C07_dense_key_false`, `C18_empty_frame_false`, `C31_requested_periods_false`, `C33_starts_from_data_false`, `C36_outside_rejected_false`.

* Mathlib's definitions which occur in statements (`Matrix`, `List.Perm`, `gaussianReal`, `condDistrib`, `Real.exp`, `Real.log`, ...).
* The reading of the Python source which is recorded in the comments of `Verif/Model`: every definition cites the lines it stands for.
* The behaviour of NumPy, pandas, numba, SciPy, joblib, estimagic and the operating system as described in section 2 and in the
  contracts listed in section 5.

## 5. Parameters of the model and their contracts

Everything outside respy which the code calls is a parameter. The theorems assume only what is listed here.

| parameter | stands for | contract assumed by theorems | instance |
|---|---|---|---|
| formulas (`FrameFormula` and function parameters) | `df.eval` of user formulas | a function of the row, or undefined depending on the columns only | the examples |
| base draws | `create_base_draws` (NumPy or chaospy) | none in general; sizes where a theorem says so | the examples |
| `RandomSource` | `np.random.seed`, `rand`, `choice` in `simulate.py` | `RandomSource.Contract`: as many draws as requested, `rand` in [0, 1), `choice` returns elements with non-zero probability | `exampleSource_contract`, `halfSource_contract` |
| `InterpolationRandom` | `np.random.choice` in `interpolate.py` | `InterpolationRandom.Contract`: keys with an empty pool are never drawn, samples without replacement are distinct and in range | `firstRandom_contract` |
| `ols` | `ols`, in the theorems about interpolation | none, except `OLSContract` (an exact linear relation is fitted without error) in `C22_exact_for_linear_models`; C81 is about the definition `ols` itself | `exists_olsContract`, `ols` |
| `pinv` | `np.linalg.pinv` in `ols` | `IsPinv`: the four equations of the Moore-Penrose inverse for symmetric matrices | `exists_isPinv` |
| `LinearAlgebra` | `np.linalg.qr(mode="r")`, `robust_cholesky` | `QRContract`: `RᵀR = AᵀA`, `R` upper triangular; `CholeskyContract`: `LLᵀ = M`, `L` lower triangular, for positive semi-definite `M` | `exists_qrContract`, `exists_choleskyContract` |
| `exp`, `sqrt` in theorems over ordered fields | NumPy functions | none unless stated in the theorem | – |
| `FormulaEval` | `df.eval` of a text on a row of a frame (C82) | `FormulaEval.Contract`: `False` is false, `exp_c == m` compares the column with the number, whether a formula can be evaluated depends on the names of the columns and its value on the values in them | `textEval_contract` |
| `FormulaEval` | `df.eval` of the filters of the shipped models (C105) | `FormulaEval.Reads`: the value of a conjunction of comparisons | `formulasEval_reads` |
| `ProcessEnv` | `MAX_FLOAT`, `MIN_FLOAT`, `robust_cholesky` in `_parse_shocks` (C82) | `ProcessEnv.KeepsShape`: `robust_cholesky` returns a matrix of the same shape; `ProcessEnv.LowerTriangular` (C84) | `exampleEnv`, `unitEnv_contracts` |
| `SolveEnv` | base draws and numbers of alternatives (C82) | `SolveEnv.Fits`: arrays have the requested shape | `exampleSolveEnv_fits` |
| `StandardNormals` | random numbers of `create_base_draws` with `monte_carlo_sequence: random` (C106) | standard normal, independent across alternatives and pairwise independent across draws | `independentNormals_standard` |
| `NormalDraws`, `SimulationNumbers` | random numbers of the draws for one observation of the likelihood (C107) and of one individual and period in simulations (C108) | standard normal and independent across alternatives; pairwise independent across draws, shocks independent of measurement errors | `independentNormals_standard`, `exists_simulationNumbers` |
| `SimulateEnv` | random numbers, draws and data of the first period (C83) | `SimulateEnv.Fits`: draws for all individuals and periods, known characteristics are possible | `exampleSimulate_fits` |
| `EstimateEnv` | data, base draws, linear algebra and order of sets in the estimation (C84) | `EstimateEnv.Fits`: observations are in the state space, choices allowed, wages such that the likelihood is defined (`ObservationWF`) | example in `Props/ProcessEstimateExample.lean` |
| `order`, `schedule` | iteration over a set, `joblib.Parallel` | permutations | the examples |
| `valueCounts`, `keyOrder` in `SimSpace` | order of `value_counts` and of the dense keys in the simulation | the same elements as the list (`SimSpace.Orders`) | the examples of C73 |
| `cholParamsToMatrix`, `covParamsToMatrix`, `sdcorrParamsToMatrix` | estimagic's conversions of parameters to matrices (C77) | defined in the model: the lower triangle row by row, `sdcorr` with the standard deviations first; `robust_cholesky` is not applied there | the examples of C77 |
| `Characteristic` | sampling weights computed by `softmax` | `Characteristic.WF` in C73: one weight per level, sum one up to rounding | `C73_logit_weights` |

## 6. Where the code deviates from a property

Each of these is a theorem with a concrete witness (or a general negation). The properties concerned are `partial` in `MANIFEST.json`; the
theorems with the suffix `_partial` state the strongest true version which is proved.

| theorem | what the code does | code |
|---|---|---|
| `C01_large_maximum_false` | The maximum of experience is stored with eight bits. A maximum above 255 wraps around (or is an error in newer versions of NumPy) and feasible states are missing. | `respy/state_space.py:503-508` |
| `C01_many_periods_false` | Periods are counted with eight bits. In models with more than 256 periods no state is created for periods after the first 256. | `respy/state_space.py:514` |
| `C04_lag_combinations_false` | With two or more lags no core state has values in two lags: each copy of the frame gets the column of one lag only. | `respy/state_space.py:578-588` |
| `C04_witness_false` | A concrete model in which a state reached by two choices is not in the state space. | `respy/state_space.py:578-588` |
| `C05_filters_drop_unfiltered_false` | For the same reason a state which satisfies no filter can be missing. | `respy/state_space.py:475-479` |
| `C05_filters_false` | Filters are applied before starting values are added: a state which satisfies a filter stays. | `respy/state_space.py:475-479` |
| `C06_dense_grid_false` | Columns of the dense frame put exogenous processes last, the grid is in the order of observables: points are labelled wrongly. | `respy/state_space.py:652-696, respy/shared.py:405-418` |
| `C06_types_and_exogenous_false` | With types and an exogenous process the type gets the levels of the process. | `respy/state_space.py:652-696` |
| `C07_dense_key_false` | With dense information two core keys of a period can have the same choice set; the second overwrites the first in the dictionary. | `respy/state_space.py:792-808` |
| `C101_interpolation_false` | The simulated states are drawn separately for each dense index, so that the interpolated values of two dense indices with the same rewards, continuation values and draws differ. | `respy/interpolate.py:84-104, 204-228` |
| `C102_constant_false` | Covariates which use covariates without dependencies have no dependencies. Depending on the order of the options (and of a set) they are computed before the covariates which they use, which is an error. | `respy/pre_processing/process_covariates.py:41-47, 104-115, 121-126` |
| `C103_filtered_period_false` | Filters which remove all states of a period are accepted, but the model cannot be solved: decorated functions are called with an empty dictionary. | `respy/state_space.py:591-610, respy/parallelization.py:32-57, respy/solve.py:165-210` |
| `C103_no_experience_false` | Accepted models in which no choice has experience have a state space without rows (pandas makes no row from an empty record), and the solution raises an error. | `respy/state_space.py:512-527, respy/parallelization.py:32-57` |
| `C103_one_choice_false` | Accepted models with one choice and observables, types or exogenous processes cannot be solved: the keys of a group by a single column are no tuples, so that no file name can be created. | `respy/state_space.py:787-817, respy/shared.py:691-701` |
| `C104_types_false` | In one-step-ahead simulations an individual who is not observed in the first period gets the type of the previous observation in the data, which belongs to another individual. | `respy/simulate.py:365-366` |
| `C105_only_experience_false` | If all choices give experience and there are no lagged choices, the state space has states which nobody can reach: the second period has a state without any experience. | `respy/state_space.py:408-650` |
| `C105_without_filters_false` | Without filters the state space has states which nobody can reach: the previous choice gives experience, but the experience is zero. | `respy/state_space.py:408-650, respy/tests/resources/kw_94_one.yaml:11-24` |
| `C11_bellman_false` | With a discount factor of zero, zeros are stored. | `respy/solve.py:186-188` |
| `C12_emax_false` | The maximum over alternatives starts at zero. | `respy/shared.py:497-505` |
| `C12_emax_overstated_false` | In general: the value is too large as soon as all alternatives are negative for one draw. | `respy/shared.py:497-505` |
| `C15_returned_solution_false` | All calls of a solve function change and return the same object. | `respy/solve.py:48-51, 73-78` |
| `C16_nested_directory_false` | Creating a model deletes the caches below its own cache directory. | `respy/shared.py:704-716` |
| `C16_same_directory_false` | With the same cache directory, a model is evaluated on the states of the model created last. | `respy/shared.py:704-716` |
| `C18_empty_frame_false` | For a frame without rows the function is called with an empty dictionary. | `respy/parallelization.py:96-130, 157-159` |
| `C21_two_points_per_key_false` | With exactly two points per dense key the loop which binds `dense_key` is skipped, but the name is used afterwards (`NameError`). | `respy/interpolate.py:176-192` |
| `C24_choice_is_best_false` | Positions are replaced by codes one after the other in place, so that a code can be replaced again. | `respy/simulate.py:430-436` |
| `C25_wage_of_choice_false` | The wage belongs to the position, the recorded choice to another alternative. | `respy/simulate.py:425-450` |
| `C26_checks_false` | With three or more lags the compared series have different indices and the check raises. | `respy/pre_processing/data_checking.py:48-57` |
| `C29_zero_probability_false` | Probabilities may sum to one after rounding only; the last level is then drawn although its probability is zero. | `respy/simulate.py:643-656` |
| `C31_requested_periods_false` | A requested number of periods is replaced by the number of periods of the model. | `respy/simulate.py:669-672` |
| `C33_starts_from_data_false` | Individuals 0..n-1 are simulated whatever the identifiers in the data are. | `respy/simulate.py:698-707` |
| `C36_outside_rejected_false` | `searchsorted` maps an unavailable choice to the next available one. | `respy/likelihood.py:620-652` |
| `C37_own_measurement_error_false` | The standard deviations are not restricted to the choice set but indexed by the position in it. | `respy/likelihood.py:296-309` |
| `C38_singular_covariance_false` | With a singular Cholesky factor (parameters shocks_chol with a zero on the diagonal) and measurement error, the sign of a zero diagonal element is zero and removes a whole column: draws given a wage have no variance although the shock has. | `respy/conditional_draws.py:218-225, 328-341` |
| `C42_one_per_individual_false` | With several types the first observations are duplicated for each type: there is one contribution per individual and type. | `respy/likelihood.py:253-262, 529-546` |
| `C43_data_levels_used_false` | Levels of initial experience found in the data reach the data checks but not the state space. | `respy/likelihood.py:93-100, 553-576` |
| `C44_covariance_false` | Deleting rows and columns of the Cholesky factor is not the factor of the submatrix. | `respy/shared.py:530-542` |
| `C46_disjoint_false` | A choice with a wage and a non-pecuniary reward whose experience is not used is in both lists. | `respy/pre_processing/model_processing.py:245-272` |
| `C49_shared_label_false` | A label shared by an observable and a choice gets the code of the choice. | `respy/pre_processing/model_processing.py:817-834` |
| `C50_false` | `exp` inside a word becomes `Experience`, so that names do not survive the round trip. | `respy/shared.py:345-352` |
| `C51_many_labels_false` | Codes are stored as `uint8`: label 257 gets the code of the first. | `respy/shared.py:319-342` |
| `C53_constant_false` | A covariate which uses a constant covariate has no recorded dependency; the result depends on the order. | `respy/pre_processing/process_covariates.py:104-113` |
| `C53_substring_false` | A covariate whose name is part of a name in its formula depends on itself and is never computed. | `respy/pre_processing/process_covariates.py:105-113` |
| `C54_constant_false` | A covariate without dependencies is not returned although it is asked for. | `respy/pre_processing/process_covariates.py:141-167` |
| `C54_false` | `dependents.remove` raises a `KeyError` depending on the order of a set. | `respy/pre_processing/process_covariates.py:141-167` |
| `C55_entries_false` | A type which only occurs in the categories gets an entry in the type probabilities although it is not counted. | `respy/pre_processing/model_processing.py:376-385, 421-428` |
| `C59_false` | Negative periods are accepted, so that histories can have gaps. | `respy/pre_processing/data_checking.py:35-36, 81-84` |
| `C60_categories_false` | Codes of different categories are compared. | `respy/pre_processing/data_checking.py:53-57` |
| `C60_last_lag_false` | The last lagged choice is never compared. | `respy/pre_processing/data_checking.py:49-51` |
| `C62_false` | The root of the weighting matrix is taken element by element. | `respy/method_of_simulated_moments.py:242` |
| `C63_keys_false` | With another order of keys pandas sorts the labels while the weights keep their order. | `respy/method_of_simulated_moments.py:228-236` |
| `C64_one_element_list_false` | The moments of a list with one element come back as a single object. | `respy/method_of_simulated_moments.py:461-478` |
| `C64_replace_list_false` | A list with one function for missing values passes the checks but fails for several moments. | `respy/method_of_simulated_moments.py:127-143, 224-226` |
| `C69_false` | Consistent data with three lags are rejected. | `respy/pre_processing/data_checking.py:48-57` |
| `C69_three_lags_false` | In general: consistent data with three or more lags are rejected if an individual is observed twice. | `respy/pre_processing/data_checking.py:48-57` |
| `C70_zero_discount_false` | With a discount factor of zero the solution stops before the loop over periods and all stored expected values are zero, although the expected maximum of the rewards of the last period is not. | `respy/solve.py:185-189` |
| `C74_part_of_name_false` | Rows are counted by substrings, so that a name inside another name leads to a rejection. | `respy/pre_processing/model_processing.py:662-722` |
| `C74_two_values_false` | Rows are counted instead of levels: one level with two coefficients is accepted as an observable. | `respy/pre_processing/model_processing.py:662-722` |
| `C74_words_false` | Names are common beginnings of categories: levels of several words with the same first letters extend the name. | `respy/pre_processing/model_processing.py:662-722` |
| `C75_codes_false` | An observable of a process may have additional levels, which shift the codes: transitions and dense states then use different codes for the same level. | `respy/pre_processing/model_processing.py:185-198, 201-242` |
| `C75_upper_case_false` | Levels with upper-case letters are not matched and dropped without an error. | `respy/pre_processing/model_processing.py:185-242` |
| `C78_unknown_label_false` | A label which is not a choice is accepted and gets a code behind the choices. | `respy/pre_processing/model_processing.py:545-567` |
| `C83_missing_constant_false` | A model whose parameters do not use the covariate `constant` is accepted and solved but cannot be simulated: the covariate is removed, and the default distribution of initial experiences needs it. | `respy/pre_processing/process_covariates.py:5-51, respy/pre_processing/model_processing.py:286-301, respy/simulate.py:488-542` |
| `C85_maximum_experience_false` | The solve function keeps the state space of the maximum experiences with which it was created. | `respy/solve.py:46-56` |
| `C85_processed_twice_false` | A covariate which is mentioned only inside of a label counts as relevant when options are processed the first time, but not the second time, so that the number of lagged choices changes. | `respy/pre_processing/process_covariates.py:5-51, respy/solve.py:46-56` |
| `C86_two_lags_false` | No model with two or more lagged choices and periods can be solved: states have one known lag, their successors two. | `respy/state_space.py:578-588, 759-817` |
| `C88_two_lags_false` | With two or more lagged choices the check fails for every state space, as each state has a missing lagged choice. | `respy/state_space.py:578-588, respy/pre_processing/model_checking.py:105-112` |
| `C89_base_values_false` | Six rows of correlations in the base template have no value: the text in the column of values is a comment. | `respy/pre_processing/base_params.csv:48-52, respy/pre_processing/specification_helpers.py:38-41` |
| `C89_eleven_observables_false` | With eleven observables the rows of `observable_1` and `observable_10` have a common prefix, so that the template is rejected. | `respy/pre_processing/specification_helpers.py:135-148, respy/pre_processing/model_processing.py:662-722` |
| `C89_lagged_probabilities_false` | The probabilities of lagged choices in the template are read as logit coefficients of the constant, so that the lagged choices have other probabilities. | `respy/pre_processing/specification_helpers.py:102-112, respy/pre_processing/model_processing.py:545-564` |
| `C89_one_level_false` | The name of an observable with one level is not found, so that the template is rejected. | `respy/pre_processing/specification_helpers.py:135-148, respy/pre_processing/model_processing.py:662-722` |
| `C92_identifiers_false` | Identifiers in the data for plots are stored with 16 bits: individual 65536 becomes individual 0. | `respy/likelihood.py:598` |
| `C92_periods_false` | Periods in the data for plots are stored with 8 bits: period 256 becomes period 0. | `respy/likelihood.py:598` |
| `C92_type_probabilities_once_false` | Each log type probability appears as many times as there are types, because the first observations have been duplicated for each type. | `respy/likelihood.py:529-546, 604-615` |
| `C92_types_false` | The rows of all types are in the data for plots, but the column `type` is not kept for them: log likelihoods of types cannot be told apart. | `respy/likelihood.py:594-602` |
| `C93_unknown_names_false` | Options with unknown names are accepted with any value, so that a misspelled option is ignored and the default is used. | `respy/pre_processing/model_checking.py:6-31` |
| `C94_inconsistent_accepted_false` | Data whose rows are not in the order of periods are accepted although experience falls from one period to the next. | `respy/pre_processing/data_checking.py:71-79` |
| `C94_rejected_false` | Accepted data are rejected when the rows of an individual are in another order, as each row is compared with the row before it instead of the period before. | `respy/pre_processing/data_checking.py:51-79` |
| `C95_shocks_false` | Rows of the shocks in another order lead to an exception, although each row has a name. | `respy/pre_processing/model_checking.py:39-72` |
| `C96_interpolation_false` | The regression predicts the difference between the value and the largest value at mean shocks. Higher rewards in simulated states can make this difference smaller, which lowers the values of the other states. | `respy/interpolate.py:292-378` |
| `C97_individuals_of_samples_false` | With exogenous processes, next period's values are drawn for all individuals from one stream of random numbers, so that an individual's path depends on who else is simulated. | `respy/simulate.py:452-485` |
| `C98_levels_matter_false` | As the running maximum starts at zero, the value of a state in which all utilities are negative is zero; if all rewards rise by the same number, another alternative is chosen. | `respy/shared.py:490-505` |
| `C99_restrictions_on_types_false` | If restrictions depend on the type, the criterion function raises an error for data in which someone chooses an alternative whose code is larger than those of all alternatives available to another type. | `respy/likelihood.py:292-294, 528-534` |

Further remarks which are not negations of a property:

* `C12`/`C70`: the maximum over alternatives starts at zero, so the value function of the code is the one of a model with an additional
  alternative of value zero in every state. `C70` is stated for this Bellman operator.
* `C23`: with a discount factor of zero the stored expected value functions are zero; this changes no alternative-specific value.
* `C36`: the likelihood of an observed choice outside the choice set is the one of the next available alternative.
* `C54`: the loop of `identify_necessary_covariates` may not terminate for cyclic definitions (`C54_cycle`) and raises a `KeyError`
  depending on the order of a set (`C54_false`).
* `C67`: the cumulative sum of an `uint8` column is modelled without overflow; how pandas computes it was not checked.
* `C68`: a name which is a core and a dense state variable and no covariate leads to a `KeyError` in
  `separate_covariates_into_core_dense_mixed`; the theorems assume that names in both sets are covariates.

## 7. What is modelled and what is not

The table is generated from the citations in `Verif/Model` and `Verif/Spec`. A function in the second column is cited by at least one
definition; this can be a part of the function only (e.g. of `process_params_and_options`, `_read_options`, `validate_options`), the comment
of the definition gives the lines and the simplifications. Functions in the last column have no counterpart.

| file | modelled functions (module) | not modelled |
|---|---|---|
| `respy/__init__.py` | — | `test`: runs the test suite |
| `respy/_numba.py` | — | `array_to_tuple`: numba internals; a row of an array becomes a tuple; `codegen`: numba internals; `array_checker`: numba internals; `array_indexer`: numba internals; `sum_over_numba_boolean_unituple`: numba internals; the sum of a tuple of Booleans is written as a sum |
| `respy/conditional_draws.py` | `create_draws_and_log_prob_wages` (ConditionalDraws), `update_mean_and_evaluate_likelihood` (ConditionalDraws), `update_cholcov_with_measurement_error` (ConditionalDraws), `update_cholcov` (ConditionalDraws), `calculate_conditional_draws` (ConditionalDraws), `make_cholesky_unique` (ConditionalDraws) | — |
| `respy/data.py` | `_create_working_experience` (RawData), `create_kw_97` (RawData) | — |
| `respy/exogenous_processes.py` | `compute_transition_probabilities` (ProcessModel, Transition, TransitionFrame), `weight_continuation_values` (Cache, Exogenous), `create_transit_choice_set` (Exogenous), `_get_maximal_choice_set` (Exogenous), `_get_representation_cols` (Exogenous), `create_transition_objects` (Transition) | — |
| `respy/interface.py` | — | `get_example_model`: reads files; `get_parameter_constraints`: returns constants |
| `respy/interpolate.py` | `kw_94_interpolation` (Interpolate, Solve), `_split_interpolation_points_evenly` (Interpolate), `_get_not_interpolated_indicator` (Interpolate), `_compute_expected_shocks` (Interpolate), `_compute_rhs_variables` (Interpolate), `_compute_lhs_variable` (Interpolate), `_predict_with_linear_model` (Interpolate), `ols` (Ols) | `_get_seeds_to_create_not_interpolate_indicator`: one seed per key; the seeds are part of `InterpolationRandom` |
| `respy/likelihood.py` | `get_log_like_func` (DrawLimit, LikelihoodSetup, LogLike, SolveFunction), `log_like` (Likelihood, LikelihoodPlots, ParameterFunctions, SolveFunction), `_internal_log_like_obs` (Likelihood, LogLike, ProcessEstimate), `_compute_wage_and_choice_log_likelihood_contributions` (LikelihoodObs, LogLike, ProcessEstimate), `_compute_log_type_probabilities` (Likelihood), `_compute_x_beta_for_type_probabilities` (LogLike, ParameterFunctions, ProcessEstimate), `_logsumexp` (Likelihood), `_simulate_log_probability_of_individuals_observed_choice` (Likelihood), `_process_estimation_data` (ConditionalDraws, Likelihood, LogLike, ProcessEstimate, SampleAsData), `_update_optim_paras_with_initial_experience_levels` (LikelihoodSetup), `_create_comparison_plot_data` (LikelihoodPlots), `_map_choice_codes_to_indices_of_valid_choice_set` (Likelihood) | — |
| `respy/method_of_simulated_moments.py` | `get_moment_errors_func` (MomentFunctions, Moments), `moment_errors` (MomentFunctions, Moments), `get_diag_weighting_matrix` (Moments), `get_flat_moments` (MomentFunctions), `_harmonize_input` (Moments), `_flatten_index` (Moments), `_create_comparison_plot_data_msm` (MomentFunctions), `_create_tidy_data` (MomentFunctions), `_reconstruct_input_from_dict` (Moments) | `_return_input`: the identity, `some` in `getMomentErrorsFunc` |
| `respy/parallelization.py` | `parallelize_across_dense_dimensions` (Build, Parallel, Rewards, Simulate, Solve), `decorator_parallelize_across_dense_dimensions` (Build, Parallel, Rewards, Solve), `wrapper_parallelize_across_dense_dimensions` (Build, Parallel, Rewards, Solve), `split_and_combine_df` (Dict, Parallel), `wrapper_distribute_and_combine_df` (Dict), `_infer_dense_keys_from_arguments` (Dict, Parallel), `_is_dictionary_with_integer_keys` (Parallel), `_broadcast_arguments` (Parallel), `_is_dense_dictionary_argument` (Parallel), `_split_dataframe` (Parallel) | — |
| `respy/pre_processing/data_checking.py` | `check_estimation_data` (DataChecking), `check_simulated_data` (DataChecking, SimulatedSample) | — |
| `respy/pre_processing/model_checking.py` | `validate_options` (DefaultRestriction, Options), `_validate_shocks` (ParseParams), `_is_positive_nonzero_integer` (Options), `_is_nonnegative_integer` (Options), `check_model_solution` (CheckSolution), `_apply_to_attribute_of_state_space` (CheckSolution) | `validate_params`: only calls `_validate_shocks` |
| `respy/pre_processing/model_processing.py` | `process_params_and_options` (Dict, Options, ProcessModel, Processing), `_read_options` (Processing), `_create_internal_seeds_from_user_seeds` (Options, Processing), `_parse_parameters` (ProcessModel, Processing), `_parse_present_bias_parameter` (Processing), `_parse_exogenous_processes` (Names, ProcessModel), `_parse_observables` (Dense, Names, ProcessModel), `_parse_choices` (Choices), `_parse_choice_parameters` (ProcessModel), `_parse_initial_and_max_experience` (Core, CoreStateSpace, DefaultRestriction, ProcessModel), `_parse_shocks` (ParseParams, ProcessModel), `_parse_measurement_errors` (ParseParams), `_parse_types` (Dict, Processing), `_infer_number_of_types` (Processing, Text), `_infer_choices_with_experience` (Choices, Text), `_infer_choices_with_prefix` (Choices, Text), `_parse_lagged_choices` (ParseParams, ProcessModel), `_parse_probabilities_or_logit_coefficients` (Names, ParseParams, ProcessModel, Processing), `_parse_observable_or_exog_process_names` (Names), `_sync_optim_paras_and_options` (ProcessModel), `_add_type_covariates` (ProcessModel), `_add_default_is_inadmissible` (CoreStateSpace, DefaultRestriction, ProcessModel, Processing), `_convert_labels_in_formulas_to_codes` (Labels, Processing), `_replace_in_single_or_double_quotes` (Labels), `_replace_choices_and_observables_in_formula` (Labels, ProcessModel), `_convert_labels_in_filters_to_codes` (Labels), `_parse_cache_directory` (Cache, Options) | `_read_params`: reads files |
| `respy/pre_processing/process_covariates.py` | `remove_irrelevant_covariates` (Covariates), `separate_covariates_into_core_dense_mixed` (Covariates, ProcessModel, SolveFunction), `identify_necessary_covariates` (Covariates) | — |
| `respy/pre_processing/specification_helpers.py` | `csv_template` (Templates), `_base_template` (Templates), `_type_prob_template` (Templates), `_type_shift_template` (Templates), `initial_and_max_experience_template` (Templates), `lagged_choices_probs_template` (Templates), `lagged_choices_covariates_template` (Templates), `_base_row` (Templates), `observable_prob_template` (Templates), `observable_coeffs_template` (Templates), `generate_obs_labels` (Templates) | — |
| `respy/shared.py` | `aggregate_keane_wolpin_utility` (Emax), `create_base_draws` (MonteCarlo, ProcessModel), `transform_base_draws_with_cholesky_factor` (Shocks), `generate_column_dtype_dict_for_estimation` (DataChecking, SampleAsData), `downcast_to_smallest_dtype` (Dtypes), `compute_covariates` (Covariates, ProcessModel, ProcessSimulate), `convert_labeled_variables_to_codes` (InputFrame, Labels, Names, SampleAsData), `rename_labels_to_internal` (Labels), `rename_labels_from_internal` (Labels), `normalize_probabilities` (Processing), `calculate_value_functions_and_flow_utilities` (Emax), `create_core_state_space_columns` (LawOfMotion, ProcessModel), `create_dense_state_space_columns` (Dense, ProcessModel, SampleAsData, SimulatedSample), `create_dense_choice_state_space_columns` (InputFrame), `create_state_space_columns` (InputFrame, ProcessSimulate), `calculate_expected_value_functions` (Emax), `subset_cholesky_factor_to_choice_set` (Shocks), `return_core_dense_key` (Dense), `pandas_dot` (ProcessSimulate, Rewards), `map_observations_to_states` (SampleAsData), `map_states_to_core_key_and_core_index` (ChoiceSets), `_map_observations_to_dense_index` (Dense, Simulate), `dump_objects` (Cache), `load_objects` (Cache), `_create_file_name_from_complex_index` (Build, Dense), `prepare_cache_directory` (Cache), `select_valid_choices` (LikelihoodObs), `apply_law_of_motion_for_core` (LawOfMotion, Simulate), `get_exogenous_from_dense_covariates` (Transition) | `convert_dictionary_keys_to_dense_indices`: integer keys; `get_choice_set_from_complex`: a projection |
| `respy/simulate.py` | `get_simulate_func` (Histories, InitialHistories, InputFrame, ParameterFunctions, ProcessSimulate, Simulate, SimulatedShares, SolveFunction), `simulate` (InputFrame, ParameterFunctions, ProcessSimulate, Simulate, SimulateSpace, SolveFunction), `apply_law_of_motion_for_dense` (Simulate), `update_dense_state_variables` (Simulate), `_extend_data_with_sampled_characteristics` (InputFrame, ProcessSimulate, Simulate), `_simulate_single_period` (ProcessSimulate, Simulate), `draw_dense_key_next_period` (Simulate, SimulateSpace), `_sample_characteristic` (InitialDistribution, InitialHistories, ProcessSimulate, Simulate, SimulateSpace), `_convert_codes_to_original_labels` (Labels, Names, SimulatedSample), `_process_simulation_output` (Simulate, SimulatedSample), `_random_choice` (InitialDistribution, InitialHistories, ProcessSimulate, Simulate), `_harmonize_simulation_arguments` (InputFrame, Simulate), `_process_input_df_for_simulation` (InputFrame, Simulate) | — |
| `respy/solve.py` | `get_solve_func` (LikelihoodSetup, SolveHistory), `solve` (Cache, Rewards, Solve, SolveFunction, SolveHistory, TransitionFrame), `_create_param_specific_objects` (Cache, ProcessModel, Rewards, Solve, Transition, TransitionFrame), `_create_choice_rewards` (Rewards), `_solve_with_backward_induction` (Rewards, Solve), `_full_solution` (Solve, SolveFunction) | — |
| `respy/state_space.py` | `create_state_space_class` (Build, Cache, ChoiceSets, ProcessModel), `__init__` (Build, SolveHistory), `_create_conversion_dictionaries` (Build, Dense, Dict, Transition, TransitionFrame), `create_arrays_for_expected_value_functions` (Solve), `create_objects_for_exogenous_processes` (Build, Names, Transition), `get_continuation_values` (SimulateSpace, Solve), `collect_child_indices` (Build, Dict), `create_draws` (Dict, Emax), `get_dense_keys_from_period` (Solve), `get_attribute_from_period` (Solve), `set_attribute_from_keys` (Solve), `_create_core_state_space` (ChoiceSets, CoreStateSpace, EightBits, FormerCode, LawOfMotion), `_create_core_from_choice_experiences` (CoreStateSpace, EightBits, ProcessModel), `_create_core_state_space_per_period` (CoreStateSpace), `_add_lagged_choice_to_core_state_space` (CoreStateSpace, ProcessModel), `_filter_core_state_space` (CoreStateSpace, Formula, ProcessModel), `_add_initial_experiences_to_core_state_space` (CoreStateSpace), `_create_dense_state_space_grid` (CoreStateSpace, Dense, Names, ProcessModel), `_create_dense_state_space_covariates` (Dense, ProcessModel), `create_is_inadmissible` (ChoiceSets, Formula, ProcessModel), `_create_indexer` (ChoiceSets), `_create_core_period_choice` (ChoiceSets), `_create_dense_period_choice` (Build, Cache, Dense, ProcessModel), `_get_continuation_values` (Solve), `_collect_child_indices` (ChoiceSets) | — |

Not modelled anywhere: floating point rounding and overflow (except where a property is about data types), infinities, numba compilation, the
parquet encoding of cache files, warnings (except where a warning decides the outcome), the content of the resources in
`respy/tests/resources` except the filters and the extended model of Robinson Crusoe (C105), running time and memory, limits of NumPy (`np.choose` in `respy/simulate.py:430` and in
`respy/conditional_draws.py` accepts at most 31 or 32 alternatives).
