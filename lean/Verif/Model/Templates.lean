import Verif.Model.ParseParams
import Verif.Model.Names
import Verif.Model.Transition

/-!
# Templates of parameters

Model of `respy/pre_processing/specification_helpers.py`, which writes parameters for models with types, initial
experiences, lagged choices and observables. A template is a list of rows with category, name and value. Comments are
not modelled, and the number of a type, lag, level is written with `Nat.toDigits 10`.
-/

namespace Respy

/-- The rows of a template (`_base_row`, `respy/pre_processing/specification_helpers.py:127-132`). -/
abbrev Template := List ((Str × Str) × ℝ)

/-- The index of `respy/pre_processing/base_params.csv:1-54`, read by `_base_template`
(`respy/pre_processing/specification_helpers.py:38-41`). -/
def baseIndex : List (String × String) := [
    ("delta", "delta"), ("wage_a", "constant"), ("wage_a", "exp_edu"), ("wage_a", "exp_a"),
    ("wage_a", "exp_a_square"), ("wage_a", "exp_b"), ("wage_a", "exp_b_square"), ("wage_a", "hs_graduate"),
    ("wage_a", "co_graduate"), ("wage_a", "period"), ("wage_a", "is_minor"), ("wage_a", "any_exp_a"),
    ("nonpec_a", "constant"), ("nonpec_a", "not_any_exp_a"), ("nonpec_a", "hs_graduate"),
    ("nonpec_a", "co_graduate"), ("wage_b", "constant"), ("wage_b", "exp_edu"), ("wage_b", "exp_a"),
    ("wage_b", "exp_a_square"), ("wage_b", "exp_b"), ("wage_b", "exp_b_square"), ("wage_b", "hs_graduate"),
    ("wage_b", "co_graduate"), ("wage_b", "period"), ("wage_b", "is_minor"), ("wage_b", "any_exp_b"),
    ("nonpec_b", "constant"), ("nonpec_b", "not_any_exp_b"), ("nonpec_b", "hs_graduate"),
    ("nonpec_b", "co_graduate"), ("nonpec_edu", "constant"), ("nonpec_edu", "period"), ("nonpec_edu", "is_minor"),
    ("nonpec_edu", "hs_graduate"), ("nonpec_edu", "co_graduate"), ("nonpec_home", "constant"),
    ("nonpec_home", "is_young_adult"), ("nonpec_home", "is_adult"), ("nonpec_home", "hs_graduate"),
    ("nonpec_home", "co_graduate"), ("shocks_sdcorr", "sd_a"), ("shocks_sdcorr", "sd_b"),
    ("shocks_sdcorr", "sd_edu"), ("shocks_sdcorr", "sd_home"), ("shocks_sdcorr", "corr_b_a"),
    ("shocks_sdcorr", "corr_edu_a"), ("shocks_sdcorr", "corr_edu_b"), ("shocks_sdcorr", "corr_home_a"),
    ("shocks_sdcorr", "corr_home_b"), ("shocks_sdcorr", "corr_home_edu"), ("meas_error", "sd_a"),
    ("meas_error", "sd_b")]

/-- `_base_template` (`respy/pre_processing/specification_helpers.py:38-41`). Simplification: the values are a
parameter; the column `value` of the file contains texts for some correlations, see `csvFields`. -/
def baseTemplate (values : Str × Str → ℝ) : Template :=
  baseIndex.map fun r => ((r.1.toList, r.2.toList), values (r.1.toList, r.2.toList))

/-- `_type_prob_template` (`respy/pre_processing/specification_helpers.py:44-71`). -/
noncomputable def typeProbTemplate (nTypes nTypeCovariates : Nat) : Template :=
  (List.range' 1 (nTypes - 1)).flatMap fun i =>
    let category := "type_".toList ++ Nat.toDigits 10 i
    (if nTypeCovariates = 3 then [((category, "constant".toList), 0)] else []) ++
      [((category, "up_to_nine_years_edu".toList), 1 / (nTypes : ℝ)),
       ((category, "at_least_ten_years_edu".toList), 0)]

/-- `_type_shift_template` (`respy/pre_processing/specification_helpers.py:74-85`). -/
def typeShiftTemplate (nTypes : Nat) : Template :=
  (List.range' 1 (nTypes - 1)).flatMap fun i =>
    ["a", "b", "edu", "home"].map fun choice =>
      if choice ∈ ["a", "b"] then
        (("wage_".toList ++ choice.toList, "type_".toList ++ Nat.toDigits 10 i), 0)
      else (("nonpec_".toList ++ choice.toList, "type_".toList ++ Nat.toDigits 10 i), 0)

/-- `csv_template` (`respy/pre_processing/specification_helpers.py:10-35`). The values are those of the user if
`initialize_coeffs` is `False`, so that this argument is not modelled. -/
noncomputable def csvTemplate (base : Template) (nTypes nTypeCovariates : Nat) : Template :=
  if nTypes > 1 then base ++ typeProbTemplate nTypes nTypeCovariates ++ typeShiftTemplate nTypes else base

/-- `initial_and_max_experience_template` (`respy/pre_processing/specification_helpers.py:88-99`). -/
def initialAndMaxTemplate (starts : List Nat) (shares : List ℝ) (max : Nat) : Template :=
  List.zipWith (fun start share =>
    (("initial_exp_edu_".toList ++ Nat.toDigits 10 start, "probability".toList), share)) starts shares ++
  [(("maximum_exp".toList, "edu".toList), (max : ℝ))]

/-- `lagged_choices_probs_template` (`respy/pre_processing/specification_helpers.py:102-112`); `draws` are the
uniform draws of all lags, as many as there are choices for each of them. -/
noncomputable def laggedChoicesTemplate (choices : List Str) (draws : List (List ℝ)) : Template :=
  draws.zipIdx.flatMap fun di =>
    List.zipWith (fun choice prob =>
      (("lagged_choice_".toList ++ Nat.toDigits 10 (di.2 + 1) ++ ['_'] ++ choice, "constant".toList), prob))
      choices (normalizeProbabilities di.1)

/-- `lagged_choices_covariates_template` (`respy/pre_processing/specification_helpers.py:115-124`). -/
def laggedChoicesCovariates : Dict Str Str :=
  [("not_exp_a_lagged", "exp_a > 0 and lagged_choice_1 != 'a'"),
   ("not_exp_b_lagged", "exp_b > 0 and lagged_choice_1 != 'b'"),
   ("work_a_lagged", "lagged_choice_1 == 'a'"),
   ("work_b_lagged", "lagged_choice_1 == 'b'"),
   ("edu_lagged", "lagged_choice_1 == 'edu'"),
   ("returns_to_high_school", "~edu_lagged and ~hs_graduate"),
   ("returns_to_college", "~edu_lagged and hs_graduate")].map fun p => (p.1.toList, p.2.toList)

/-- `observable_prob_template` (`respy/pre_processing/specification_helpers.py:135-148`); `draws` are the uniform
draws of all observables, as many as there are levels for each of them. -/
noncomputable def observableProbTemplate (draws : List (List ℝ)) : Template :=
  draws.zipIdx.flatMap fun di =>
    (normalizeProbabilities di.1).zipIdx.map fun pj =>
      (("observable_observable_".toList ++ Nat.toDigits 10 di.2 ++ ['_'] ++ Nat.toDigits 10 pj.2,
        "probability".toList), pj.1)

/-- `generate_obs_labels` (`respy/pre_processing/specification_helpers.py:167-175`); `observables` are the numbers of
levels, `index` is a set of categories in any order. -/
def generateObsLabels (observables : List Nat) (index : List Str) : List (Str × Str) :=
  let names := observables.zipIdx.flatMap fun nx => (List.range nx.1).map fun y =>
    "observable_".toList ++ Nat.toDigits 10 nx.2 ++ ['_'] ++ Nat.toDigits 10 y
  index.flatMap fun c => names.map fun name => (c, name)

/-- The index of `observable_coeffs_template` (`respy/pre_processing/specification_helpers.py:151-164`): the values
are random. The set of categories is a list without repetitions in any order. -/
def observableCoeffsIndex (observables : List Nat) (template : List (Str × Str)) : List (Str × Str) :=
  generateObsLabels observables ((template.map Prod.fst).filter fun c =>
    "nonpec".toList <:+: c ∨ "wage".toList <:+: c).dedup

/-- The arguments of the templates and their draws (`respy/tests/random_model.py:94-152`). -/
structure TemplateSpec where
  values : Str × Str → ℝ
  nTypes : Nat
  nTypeCovariates : Nat
  starts : List Nat
  shares : List ℝ
  max : Nat
  choices : List Str
  lagDraws : List (List ℝ)
  obsDraws : List (List ℝ)

/-- The templates put together as in `respy/tests/random_model.py:94-152`. -/
noncomputable def TemplateSpec.template (t : TemplateSpec) : Template :=
  csvTemplate (baseTemplate t.values) t.nTypes t.nTypeCovariates ++
    (initialAndMaxTemplate t.starts t.shares t.max ++
      (laggedChoicesTemplate t.choices t.lagDraws ++ observableProbTemplate t.obsDraws))

/-- The fields of a line of a file without quotation marks, as read by `pd.read_csv`
(`respy/pre_processing/specification_helpers.py:39`). -/
def csvFields (line : Str) : List Str := line.splitOn ','

end Respy
