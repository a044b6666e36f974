import Verif.Model.CoreStateSpace

/-!
# State spaces of Keane and Wolpin

The filters which are shipped with the models of Keane and Wolpin (`respy/tests/resources/kw_94_one.yaml:11-24`,
`respy/tests/resources/kw_97_extended.yaml:11-24`), and the specialised implementations of their state spaces with
which `create_state_space` is compared in the tests (`respy/tests/_former_code.py`).
-/

namespace Respy

/-- The first lagged choice is `code` (`respy/tests/resources/kw_94_one.yaml:14`). -/
def CoreState.lagIs (s : CoreState) (code : Nat) : Bool := decide (s.lags[0]? = some (some code))

/-- The shipped filters with labels replaced by codes (`respy/tests/resources/kw_94_one.yaml:11-24`,
`respy/tests/resources/kw_97_extended.yaml:11-24`). Codes below `nWage` are choices with a wage, those below `nExp`
choices with experience (C46). The third filter is written for the only choice with experience and without a wage; here
it is repeated for all of them. Experiences are the additional ones, as filters are applied before starting values are
added (`respy/state_space.py:455-481`). -/
def keaneWolpinFilters (nWage nExp nChoices : Nat) : List (CoreState → Bool) :=
  ((List.range nExp).map fun c s =>
    decide (0 < s.period) && decide (s.exp[c]? = some s.period) && !s.lagIs c) ++
  ((List.range' nExp (nChoices - nExp)).map fun c s =>
    decide (0 < s.period) && decide (s.exp.sum = s.period) && s.lagIs c) ++
  ((List.range' nWage (nExp - nWage)).map fun c s =>
    decide (0 < s.period) && s.lagIs c && decide (s.exp[c]? = some 0)) ++
  ((List.range nWage).map fun c s => s.lagIs c && decide (s.exp[c]? = some 0)) ++
  (List.range nWage).map fun c s => decide (s.period = 0) && s.lagIs c

/-- The filters of the extended model of Robinson Crusoe with labels replaced by codes
(`respy/tests/resources/robinson_crusoe_extended.yaml:19-37`): `fishing` is 0, `friday` is 1, `hammock` is 2. The
difference of the period and the experience with Friday is written as a sum; it is not negative, as the experiences of a
state add up to at most the period. -/
def robinsonFilters : List (CoreState → Bool) :=
  [fun s => decide (0 < s.period) && decide (s.exp.getD 0 0 + s.exp.getD 1 0 = s.period) && s.lagIs 2,
    fun s => decide (s.period ≤ 2) && decide (s.exp.getD 1 0 ≠ 0),
    fun s => decide (3 ≤ s.period) && decide (s.period < s.exp.getD 1 0 + 2),
    fun s => decide (0 < s.exp.getD 1 0) && decide (s.exp.getD 0 0 = 0),
    fun s => decide (0 < s.exp.getD 1 0) && decide (s.exp.getD 0 0 = 1) && s.lagIs 0,
    fun s => decide (s.period = s.exp.getD 1 0 + 2) && !s.lagIs 1 && decide (2 < s.period),
    fun s => decide (s.exp.getD 0 0 = 0) && s.lagIs 0,
    fun s => decide (s.exp.getD 1 0 = 0) && s.lagIs 1]

/-- The negative choice set of the extended model of Robinson Crusoe
(`respy/tests/resources/robinson_crusoe_extended.yaml:14-18`). -/
def robinsonForbidden (s : CoreState) (code : Nat) : Bool :=
  decide (code = 1) && (decide (s.period < 2) || decide (s.exp.getD 0 0 = 0))

/-- A state is stored unless its entry of the indexer is taken (`respy/tests/_former_code.py:167-200`). -/
def storeNew (data : List CoreState) (row : CoreState) : List CoreState := if row ∈ data then data else data ++ [row]

/-- The conditions with which states are skipped in `_create_state_space_kw94`
(`respy/tests/_former_code.py:112-165`). -/
def skippedKw94 (period a b add lag : Nat) : Bool :=
  (decide (0 < period) &&
    (decide (lag ≠ 0 ∧ a = period) || decide (lag ≠ 1 ∧ b = period) || decide (lag ≠ 2 ∧ add = period) ||
      decide (lag = 2 ∧ add = 0) || decide (lag = 3 ∧ a + b + add = period))) ||
  decide (lag = 0 ∧ a = 0) || decide (lag = 1 ∧ b = 0) ||
  (decide (period = 0) && decide (lag = 0 ∨ lag = 1))

/-- The states of `_create_state_space_kw94` (`respy/tests/_former_code.py:9-203`) for one type. The columns are the
period, the experience in the occupations, the years of schooling and the lagged choice. -/
def formerKw94 (nPeriods : Nat) (eduStarts : List Nat) (eduMax : Nat) : List CoreState :=
  ((List.range nPeriods).flatMap fun period => eduStarts.flatMap fun start =>
    (List.range (period + 1)).flatMap fun a => (List.range (period + 1 - a)).flatMap fun b =>
      (List.range (min (period + 1 - a - b) (eduMax + 1 - start))).flatMap fun add =>
        (List.range 4).filterMap fun lag =>
          if skippedKw94 period a b add lag then none
          else some ⟨period, [a, b, start + add], [some lag]⟩).foldl storeNew []

/-- The states of `_create_state_space_kw97_base` (`respy/tests/_former_code.py:207-308`) for one type. -/
def formerKw97Base (nPeriods : Nat) (eduStarts : List Nat) (eduMax : Nat) : List CoreState :=
  ((List.range nPeriods).flatMap fun period => eduStarts.flatMap fun start =>
    (List.range (period + 1)).flatMap fun a => (List.range (period + 1 - a)).flatMap fun b =>
      (List.range (period + 1 - a - b)).flatMap fun mil =>
        (List.range (min (period + 1 - a - b - mil) (eduMax + 1 - start))).map fun add =>
          ⟨period, [a, b, mil, start + add], []⟩).foldl storeNew []

/-- The conditions with which states are skipped in `_create_state_space_kw97_extended`
(`respy/tests/_former_code.py:382-445`). -/
def skippedKw97 (period a b mil add lag : Nat) : Bool :=
  (decide (0 < period) &&
    (decide (lag ≠ 0 ∧ a = period) || decide (lag ≠ 1 ∧ b = period) || decide (lag ≠ 2 ∧ mil = period) ||
      decide (lag ≠ 3 ∧ add = period) || decide (lag = 3 ∧ add = 0) ||
      decide (lag = 4 ∧ a + b + mil + add = period))) ||
  decide (lag = 0 ∧ a = 0) || decide (lag = 1 ∧ b = 0) || decide (lag = 2 ∧ mil = 0) ||
  (decide (period = 0) && decide (lag = 0 ∨ lag = 1 ∨ lag = 2))

/-- The states of `_create_state_space_kw97_extended` (`respy/tests/_former_code.py:312-490`) for one type. -/
def formerKw97Extended (nPeriods : Nat) (eduStarts : List Nat) (eduMax : Nat) : List CoreState :=
  ((List.range nPeriods).flatMap fun period => eduStarts.flatMap fun start =>
    (List.range (period + 1)).flatMap fun a => (List.range (period + 1 - a)).flatMap fun b =>
      (List.range (period + 1 - a - b)).flatMap fun mil =>
        (List.range (min (period + 1 - a - b - mil) (eduMax + 1 - start))).flatMap fun add =>
          (List.range 5).filterMap fun lag =>
            if skippedKw97 period a b mil add lag then none
            else some ⟨period, [a, b, mil, start + add], [some lag]⟩).foldl storeNew []

end Respy
