import Mathlib.Data.List.Sort
import Verif.Model.LawOfMotion

/-!
# Creation of the core state space

Model of `respy/state_space.py:408-649`.
-/

namespace Respy

/-- The parts of `optim_paras` and `options` used by `_create_core_state_space`
(`respy/state_space.py:408-483`).

* `starts`: for each choice in `choices_w_exp` the keys of `choices[choice]["start"]`.
* `maxExp`: for each choice in `choices_w_exp` the value `choices[choice]["max"]`.
* `filters`: the conditions in `options["core_state_space_filters"]`; `df.eval` of a condition
  is modelled by a Boolean function of the row. -/
structure CoreSpec where
  nPeriods : Nat
  nChoices : Nat
  starts : List (List Nat)
  maxExp : List Nat
  nLags : Nat
  filters : List (CoreState → Bool)

/-- Subtraction of two `np.uint8` numbers with wrap-around, used in
`additional_exp = maximum_exp - minimal_initial_experience` (`respy/state_space.py:508`). -/
def uint8Sub (a b : Nat) : Nat := (a % 256 + 256 - b % 256) % 256

/-- `min(iterable)`; `none` stands for the `ValueError` of an empty iterable
(`respy/state_space.py:500`). -/
def pyMin : List Nat → Option Nat
  | [] => none
  | x :: xs => some (xs.foldl min x)

/-- `max(iterable)`; `none` stands for the `ValueError` of an empty iterable
(`respy/pre_processing/model_processing.py:297,772`). -/
def pyMax : List Nat → Option Nat
  | [] => none
  | x :: xs => some (xs.foldl max x)

/-- `additional_exp` (`respy/state_space.py:498-508`). `none` is the error for a choice without
starting values. -/
def additionalExp (spec : CoreSpec) : Option (List Nat) :=
  (spec.starts.mapM pyMin).map fun mins => List.zipWith uint8Sub spec.maxExp mins

/-- `_create_core_state_space_per_period` (`respy/state_space.py:530-575`). The generator is the
list of the yielded arrays. `fuel` bounds the recursion depth; it is
`experiences.shape[0] - pos` in every call, so that it is exhausted exactly when
`pos < experiences.shape[0]` fails. An `IndexError` of `additional_exp[pos]` is not possible as the
arrays have the same length; the model then yields nothing. -/
def genPerPeriodAux (period : Nat) (additional : List Nat) : (fuel : Nat) →
    (experiences : List Nat) → (pos : Nat) → List (List Nat)
  | 0, experiences, _ => [experiences]
  | fuel + 1, experiences, pos =>
    experiences ::
      match experiences[pos]?, additional[pos]? with
      | some current, some maxExperience =>
        (List.range (min (period - experiences.sum) maxExperience + 1)).flatMap fun i =>
          genPerPeriodAux period additional fuel (experiences.set pos (current + i)) (pos + 1)
      | _, _ => []

/-- `_create_core_state_space_per_period` called at position `pos` (`respy/state_space.py:530`). -/
def genPerPeriod (period : Nat) (additional : List Nat) (experiences : List Nat) (pos : Nat) :
    List (List Nat) :=
  genPerPeriodAux period additional (experiences.length - pos) experiences pos

/-- `_create_core_from_choice_experiences` (`respy/state_space.py:486-527`) given
`additional_exp`. `pd.DataFrame.from_records` of arrays without elements has no rows, so that the frame is empty if
no choice has experience. -/
def coreFromExperiences (nPeriods : Nat) (additional : List Nat) : List CoreState :=
  if additional = [] then []
  else (List.range nPeriods).flatMap fun period =>
    (genPerPeriod period additional (List.replicate additional.length 0) 0).map fun e =>
      { period := period, exp := e, lags := [] }

/-- `_add_lagged_choice_to_core_state_space` (`respy/state_space.py:578-588`). Each frame in the
container has only the column of one lag; `pd.concat` fills the columns of the other lags with
missing values. If the container is empty, the frame is returned unchanged. -/
def addLaggedChoices (nLags nChoices : Nat) (df : List CoreState) : List CoreState :=
  if nLags = 0 ∨ nChoices = 0 then df
  else
    (List.range nLags).flatMap fun lag =>
      (List.range nChoices).flatMap fun code =>
        df.map fun s => { s with lags := (List.replicate nLags none).set lag (some code) }

/-- `_filter_core_state_space` (`respy/state_space.py:591-610`). -/
def filterCore (filters : List (CoreState → Bool)) (df : List CoreState) : List CoreState :=
  filters.foldl (fun df f => df.filter fun s => !f s) df

/-- `itertools.product(*lists)`: the last list varies fastest (`respy/state_space.py:624-626,
671`). -/
def product {α : Type _} : List (List α) → List (List α)
  | [] => [[]]
  | l :: ls => l.flatMap fun x => (product ls).map fun y => x :: y

/-- `df_[exp_cols] += initial_exp` on one row (`respy/state_space.py:640`). -/
def addInitial (init : List Nat) (s : CoreState) : CoreState :=
  { s with exp := List.zipWith (· + ·) s.exp init }

/-- `df_[exp_cols].le(maximum_exp).all(axis="columns")` on one row (`respy/state_space.py:643`). -/
def withinMax (maxExp : List Nat) (s : CoreState) : Bool :=
  (List.zipWith (fun e m => decide (e ≤ m)) s.exp maxExp).all id

/-- `_add_initial_experiences_to_core_state_space` (`respy/state_space.py:613-649`).
`drop_duplicates` keeps the first of equal rows. -/
def addInitialExperiences (starts : List (List Nat)) (maxExp : List Nat) (df : List CoreState) :
    List CoreState :=
  ((product starts).flatMap fun init =>
    (df.map (addInitial init)).filter (withinMax maxExp)).eraseDups

/-- `_create_core_state_space` (`respy/state_space.py:408-483`). `sort_values("period")` is
modelled by a stable sort; pandas does not promise an order of rows inside a period. -/
def createCore (spec : CoreSpec) : Option (List CoreState) :=
  (additionalExp spec).map fun additional =>
    (addInitialExperiences spec.starts spec.maxExp
      (filterCore spec.filters
        (addLaggedChoices spec.nLags spec.nChoices
          (coreFromExperiences spec.nPeriods additional)))).insertionSort
      fun a b => a.period ≤ b.period

end Respy
