import Verif.Model.Text
import Mathlib.Algebra.Field.Basic
import Mathlib.Order.Defs.LinearOrder

/-!
# Checks of data

Model of `respy/pre_processing/data_checking.py`. An exception and a failing assertion both reject the
data, so that a check is a Boolean value.
-/

namespace Respy

/-- A row of the frame `df.reset_index()[col_dtype]` (`respy/pre_processing/data_checking.py:24-25`) with
the columns of `generate_column_dtype_dict_for_estimation` (`respy/shared.py:172-190`); `none` is a missing
value. Simplification: integer columns have no missing values and do not overflow. -/
structure DataRow (K : Type _) where
  id : Int
  period : Int
  choice : Option Str
  wage : Option K
  exps : List Int
  lags : List (Option Str)
  observables : List (Option Str)
deriving DecidableEq

/-- A frame. The columns `Choice` (number `0`) and `Lagged_Choice_j` (number `j`) are categorical and each
has its own list of categories (`respy/pre_processing/data_checking.py:23-25, 54-57`). -/
structure Sample (K : Type _) where
  rows : List (DataRow K)
  categories : Nat → List Str

/-- The entries of `optim_paras` which are used by the checks: `choices`, `choices_w_wage`,
`choices_w_exp`, `n_periods`, `n_lagged_choices` and for each of the `observables` the number of levels
(`respy/pre_processing/data_checking.py:24-75`). -/
structure CheckParas where
  choices : List Str
  choicesWage : List Str
  choicesExp : List Str
  nPeriods : Nat
  nLags : Nat
  levels : List Nat

variable {K : Type _} [Field K] [LinearOrder K]

/-- The column `Choice` or `Lagged_Choice_j` (`respy/pre_processing/data_checking.py:45-51`). -/
def DataRow.choiceVar (r : DataRow K) (j : Nat) : Option Str :=
  if j = 0 then r.choice else (r.lags[j - 1]?).getD none

/-- `cat.codes` for one value: the position in the categories, `-1` if it is missing
(`respy/pre_processing/data_checking.py:56`). -/
def categoryCode (categories : List Str) : Option Str → Int
  | none => -1
  | some s => categories.idxOf s

/-- The last row of an individual before position `p` (`respy/pre_processing/data_checking.py:54, 72`). -/
def lastBefore (rows : List (DataRow K)) (p : Nat) (id : Int) : Option (DataRow K) :=
  (rows.take p).reverse.find? fun r => decide (r.id = id)

/-- `df.groupby("Identifier")[column].transform("shift").dropna()`: labels of the index and values
(`respy/pre_processing/data_checking.py:54`). -/
def shiftColumn {α : Type _} (rows : List (DataRow K)) (column : DataRow K → Option α) : List (Nat × α) :=
  rows.zipIdx.filterMap fun rp => ((lastBefore rows rp.2 rp.1.id).bind column).map fun x => (rp.2, x)

/-- All columns are available (`respy/pre_processing/data_checking.py:24-25`), otherwise there is a
`KeyError`. -/
def checkColumns (m : CheckParas) (rows : List (DataRow K)) : Bool :=
  rows.all fun r => decide (r.exps.length = m.choicesExp.length ∧ r.lags.length = m.nLags ∧
    r.observables.length = m.levels.length)

/-- `unique == np.arange(len(unique))` (`respy/pre_processing/data_checking.py:32-33`). -/
def checkIdentifier (rows : List (DataRow K)) : Bool :=
  let unique := (rows.map (·.id)).eraseDups
  decide (unique = (List.range unique.length).map fun i : Nat => (i : Int))

/-- `df[column].isin(optim_paras["choices"])` for one value (`respy/pre_processing/data_checking.py:39, 46`). -/
def isChoice (m : CheckParas) (x : Option Str) : Bool :=
  match x with
  | none => false
  | some s => decide (s ∈ m.choices)

/-- Period, choice, wage and lagged choices (`respy/pre_processing/data_checking.py:36-46`). -/
def checkValues (m : CheckParas) (rows : List (DataRow K)) : Bool :=
  rows.all fun r => decide (r.period ≤ (m.nPeriods : Int) - 1) && isChoice m r.choice &&
    decide (0 < r.wage.getD 1) && r.lags.all (isChoice m)

/-- The comparison of one lagged choice with the shifted column
(`respy/pre_processing/data_checking.py:54-57`): both series must have the same index, otherwise the
comparison is a `ValueError`, and the same codes. -/
def checkLag (s : Sample K) (i : Nat) : Bool :=
  let lc := (shiftColumn s.rows fun r => r.choiceVar i).map fun x =>
    (x.1, categoryCode (s.categories i) (some x.2))
  let own := s.rows.zipIdx.filterMap fun rp =>
    if rp.1.period ≤ (i : Int) then none
    else some (rp.2, categoryCode (s.categories (i + 1)) (rp.1.choiceVar (i + 1)))
  decide (own = lc)

/-- The loop over lagged choices (`respy/pre_processing/data_checking.py:48-57`): `choices` has one
element for `Choice` and all lagged choices but the last one. -/
def checkLags (m : CheckParas) (s : Sample K) : Bool :=
  if 1 < m.nPeriods ∧ 0 < m.nLags then (List.range (m.nLags - 1)).all (checkLag s) else true

/-- Number of levels of observables (`respy/pre_processing/data_checking.py:60-63`); missing values are not
counted by `nunique`. -/
def checkObservables (m : CheckParas) (rows : List (DataRow K)) : Bool :=
  m.levels.zipIdx.all fun ni =>
    decide ((rows.filterMap fun r => (r.observables[ni.2]?).getD none).eraseDups.length ≤ ni.1)

/-- No missing values but wages (`respy/pre_processing/data_checking.py:66`). -/
def checkMissing (rows : List (DataRow K)) : Bool :=
  rows.all fun r => r.choice.isSome && r.lags.all (·.isSome) && r.observables.all (·.isSome)

/-- Experience in one choice is the one of the row before plus one if this was the choice
(`respy/pre_processing/data_checking.py:69-76`). -/
def checkExperience (rows : List (DataRow K)) (choice : Str) (e : Nat) : Bool :=
  (shiftColumn rows fun r =>
      (r.exps[e]?).map fun x => x + (if r.choice = some choice then 1 else 0)).all fun px =>
    decide ((rows[px.1]?).bind (fun r => r.exps[e]?) = some px.2)

/-- No duplicated observations (`respy/pre_processing/data_checking.py:79`). -/
def checkDuplicates (rows : List (DataRow K)) : Bool :=
  decide ((rows.map fun r => (r.id, r.period)).Nodup)

/-- The last period plus one is the number of observations
(`respy/pre_processing/data_checking.py:82-84`). -/
def checkSequence (rows : List (DataRow K)) : Bool :=
  (rows.map (·.id)).all fun id =>
    let periods := (rows.filter fun r => decide (r.id = id)).map (·.period)
    decide (periods.max?.map (· + 1) = some (periods.length : Int))

/-- `check_estimation_data` (`respy/pre_processing/data_checking.py:7-84`). -/
def checkEstimationData (m : CheckParas) (s : Sample K) : Bool :=
  checkColumns m s.rows && checkIdentifier s.rows && checkValues m s.rows && checkLags m s &&
    checkObservables m s.rows && checkMissing s.rows &&
    (m.choicesExp.zipIdx.all fun ce => checkExperience s.rows ce.1 ce.2) &&
    checkDuplicates s.rows && checkSequence s.rows

/-- `check_simulated_data` (`respy/pre_processing/data_checking.py:87-112`); `types` is the column `Type`
if there are at least two types. -/
def checkSimulatedData (m : CheckParas) (nTypes : Nat) (types : List (Option Nat)) (s : Sample K) : Bool :=
  checkEstimationData m s &&
    (if 2 ≤ nTypes then
      types.all (fun t => t.any fun t => decide (t ≤ nTypes - 1)) &&
        (s.rows.zip types).all fun a => (s.rows.zip types).all fun b =>
          decide (a.1.id = b.1.id → a.2 = b.2)
    else true) &&
    s.rows.all fun r =>
      if r.choice.any (fun c => decide (c ∈ m.choicesWage)) then r.wage.isSome else r.wage.isNone

end Respy
