import Verif.Model.Labels

/-!
# The filters of the shipped models

Texts as they are written in the resources.
-/

namespace Respy

/-- `core_state_space_filters` of Keane and Wolpin (1994) (`respy/tests/resources/kw_94_one.yaml:11-24`; those of
`kw_94_two.yaml` and `kw_94_three.yaml` are the same). -/
def kw94Filters : List Str :=
  ["period > 0 and exp_{choices_w_exp} == period and lagged_choice_1 != '{choices_w_exp}'".toList,
    "period > 0 and exp_a + exp_b + exp_edu == period and lagged_choice_1 == '{choices_wo_exp}'".toList,
    "period > 0 and lagged_choice_1 == 'edu' and exp_edu == 0".toList,
    "lagged_choice_1 == '{choices_w_wage}' and exp_{choices_w_wage} == 0".toList,
    "period == 0 and lagged_choice_1 == '{choices_w_wage}'".toList]

/-- `core_state_space_filters` of the extended model of Keane and Wolpin (1997)
(`respy/tests/resources/kw_97_extended.yaml:11-24`; those of `kw_97_extended_respy.yaml` and `kw_2000.yaml` are the
same). -/
def kw97Filters : List Str :=
  ["period > 0 and exp_{choices_w_exp} == period and lagged_choice_1 != '{choices_w_exp}'".toList,
    ("period > 0 and exp_white_collar + exp_blue_collar + exp_military + exp_school == period and " ++
      "lagged_choice_1 == '{choices_wo_exp}'").toList,
    "period > 0 and lagged_choice_1 == 'school' and exp_school == 0".toList,
    "lagged_choice_1 == '{choices_w_wage}' and exp_{choices_w_wage} == 0".toList,
    "period == 0 and lagged_choice_1 == '{choices_w_wage}'".toList]

/-- `core_state_space_filters` of the extended model of Robinson Crusoe
(`respy/tests/resources/robinson_crusoe_extended.yaml:19-37`). -/
def robinsonTexts : List Str :=
  ["period > 0 and exp_fishing + exp_friday == period and lagged_choice_1 == 'hammock'".toList,
    "period <= 2 and exp_friday != 0".toList,
    "period >= 3 and period - exp_friday < 2".toList,
    "exp_friday > 0 and exp_fishing == 0".toList,
    "exp_friday > 0 and exp_fishing == 1 and lagged_choice_1 == 'fishing'".toList,
    "period - exp_friday == 2 and lagged_choice_1 != 'friday' and period > 2".toList,
    "exp_{choices_w_exp} == 0 and lagged_choice_1 == '{choices_w_exp}'".toList]

end Respy
