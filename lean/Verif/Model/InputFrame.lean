import Verif.Model.Labels
import Verif.Model.ProcessSimulate

/-!
# Data frames as arguments of a simulation

Model of `_process_input_df_for_simulation` (`respy/simulate.py:691-748`) and of one-step-ahead simulations
(`respy/simulate.py:168-244, 301-370`). Names of columns are internal names (C50).
-/

namespace Respy

/-- A row of a data frame: its index and the values of its columns; a value which is not given is NaN
(`respy/simulate.py:712-718`). -/
structure InputRow where
  id : Nat
  period : Nat
  cells : Dict Str Label

/-- The argument `df` of `get_simulate_func` (`respy/simulate.py:32-38`). -/
structure InputFrame where
  columns : List Str
  rows : List InputRow

/-- The index of a row (`respy/simulate.py:699-706`). -/
def InputRow.key (r : InputRow) : Nat × Nat := (r.id, r.period)

/-- State space columns contain numbers (experiences and the type) or the codes of labels (lagged choices and
observables) (`respy/shared.py:319-342, 432-436`). -/
inductive ColumnKind
  | number
  | labels (levels : List Label)

/-- The value of a row in a state space column (`respy/shared.py:326-340`, `respy/simulate.py:726-727`): columns which
do not exist are missing, columns with labels are converted to codes, which is not possible for missing values. The
outer `none` is an exception. Simplification: numbers are natural numbers below 256, other values raise an exception
here. -/
def ColumnKind.convert (exists_ : Bool) (x : Option Label) : ColumnKind → Option (Option Nat)
  | .number =>
    match x with
    | none => some none
    | some (.text _) => none
    | some (.int n) => if 0 ≤ n ∧ n < 256 then some (some n.toNat) else none
  | .labels levels =>
    if exists_ then x.bind fun x => (toUint8 (replaceValue (Dict.ofItems levels.zipIdx) x)).map some
    else some none

/-- The value of a column (`respy/simulate.py:712-718`). -/
def InputRow.value (columns : List Str) (r : InputRow) (c : Str) : Option Label :=
  if c ∈ columns then Dict.get? r.cells c else none

/-- `convert_labeled_variables_to_codes` (`respy/shared.py:319-342`) and `df.reindex(columns=state_space_columns)`
(`respy/simulate.py:726-727`). `kinds` are the state space columns. The column of choices is converted, too. -/
def convertFrame (choices : List Label) (kinds : List (Str × ColumnKind)) (columns : List Str)
    (rows : List InputRow) : Option (List ((Nat × Nat) × CharRow)) :=
  if rows.all fun r => ((ColumnKind.labels choices).convert (decide ("choice".toList ∈ columns))
      (r.value columns "choice".toList)).isSome then
    rows.mapM fun r => do
      let row ← kinds.mapM fun k => k.2.convert (decide (k.1 ∈ columns)) (r.value columns k.1)
      pure (r.key, row)
  else none

/-- The order of the index (`respy/simulate.py:707, 717`). -/
def InputRow.le (a b : InputRow) : Prop := a.id < b.id ∨ a.id = b.id ∧ a.period ≤ b.period

instance : DecidableRel InputRow.le := fun _ _ => inferInstanceAs (Decidable (_ ∨ _))

/-- `df.index.get_level_values("Identifier").nunique()` (`respy/simulate.py:677`). -/
def InputFrame.agents (f : InputFrame) : Nat := (f.rows.map (·.id)).eraseDups.length

/-- `reindex(index=index)` for `n_step_ahead_with_data` (`respy/simulate.py:699-706`): the identifiers `0, ..., n - 1`
in period `0`; rows which do not exist are NaN. -/
def InputFrame.firstPeriods (f : InputFrame) : List InputRow :=
  (List.range f.agents).map fun i => (f.rows.find? fun r => r.key == (i, 0)).getD ⟨i, 0, []⟩

/-- There are missing values in columns other than the type (`respy/simulate.py:742`). -/
def hasNans (kinds : List (Str × ColumnKind)) (df : List ((Nat × Nat) × CharRow)) : Bool :=
  df.any fun r => (kinds.zip r.2).any fun kx => decide (kx.1.1 ≠ "type".toList) && kx.2.isNone

/-- `_process_input_df_for_simulation` (`respy/simulate.py:691-748`) for the methods with data. `none` is an exception.
An index with duplicates cannot be reindexed (`respy/simulate.py:706`) or combined (`respy/simulate.py:362`). -/
def processInputFrame (oneStepAhead : Bool) (choices : List Label) (kinds : List (Str × ColumnKind)) (f : InputFrame) :
    Option (List ((Nat × Nat) × CharRow)) :=
  if (f.rows.map InputRow.key).Nodup then
    if oneStepAhead then do
      let df ← convertFrame choices kinds f.columns (f.rows.insertionSort InputRow.le)
      if hasNans kinds df then none else some df
    else convertFrame choices kinds f.columns f.firstPeriods
  else none

/-! ## One-step-ahead simulations -/

/-- `df.combine_first(fp)` (`respy/simulate.py:362`): the rows of the first period get the sampled characteristics. -/
def combineFirst : List ((Nat × Nat) × CharRow) → List CharRow → List ((Nat × Nat) × CharRow)
  | [], _ => []
  | r :: df, [] => r :: df
  | r :: df, x :: fp => if r.1.2 = 0 then (r.1, x) :: combineFirst df fp else r :: combineFirst df (x :: fp)

/-- `df["type"].fillna(method="ffill")` (`respy/simulate.py:365-366`): the last value before a missing one, whoever it
belongs to. `last` is this value. -/
def forwardFill (column : Nat) : Option Nat → List ((Nat × Nat) × CharRow) → List ((Nat × Nat) × CharRow)
  | _, [] => []
  | last, r :: df =>
    let value := (r.2[column]?).join.or last
    (r.1, r.2.set column value) :: forwardFill column value df

/-- The states of the observations (`respy/simulate.py:368-370`). -/
def frameStates (nExp nLags : Nat) (df : List ((Nat × Nat) × CharRow)) : Option (List (Nat × SimState)) :=
  df.mapM fun r => (rowToState nExp nLags r.2).map fun s => (r.1.1, ⟨{ s.core with period := r.1.2 }, s.dense⟩)

section
variable {K : Type _} [Field K] [LinearOrder K] {G P : Type _}

/-- `_extend_data_with_sampled_characteristics` for panel data (`respy/simulate.py:301-370`): all characteristics are
sampled for the first period; `typeColumn` is the column of the type, if there are at least two types. -/
def extendPanel (rs : RandomSource K G) (chars : List (Characteristic K)) (seed : Nat) (typeColumn : Option Nat)
    (df : List ((Nat × Nat) × CharRow)) (g : G) : Option (List ((Nat × Nat) × CharRow)) := do
  let (fp, _) ← sampleAll rs chars seed ((df.filter fun r => decide (r.1.2 = 0)).map Prod.snd) g
  let df := combineFirst df fp
  match typeColumn with
  | none => pure df
  | some c => pure (forwardFill c none df)

/-- `simulate(params)` with `method="one_step_ahead"` (`respy/simulate.py:114-244`) for the processed data `df`; the
number of periods is `sim.nPeriods`. -/
def Simulation.oneStepAhead (sim : Simulation K G P) (typeColumn : Option Nat) (df : List ((Nat × Nat) × CharRow))
    (params : P) (g : G) : Option (List (SimRow K)) := do
  let sp ← sim.solve params
  let df ← extendPanel sim.rs (sim.chars params) sim.seed typeColumn df g
  let states ← frameStates sim.nExp sim.nLags df
  let data ← simulateOneStep (sim.rewards params) sp sim.draws sim.drawsWage states sim.nPeriods
  pure (processOutput data)

end

/-- A level as it is written in data (`respy/shared.py:339`). -/
def Level.label (l : Level) : Label :=
  match ofLex l with
  | .inl n => .int n
  | .inr t => .text t

/-- The kinds of the state space columns (`respy/shared.py:319-342, 398-436`). -/
def Processed.columnKinds (p : Processed) : List (Str × ColumnKind) :=
  p.stateColumns.map fun c =>
    (c, if c ∈ (List.range p.lags.length).map fun i => "lagged_choice_".toList ++ codeText (i + 1) then
        .labels (p.choices.choices.map Label.text)
      else match Dict.get? p.observables c with
        | some levels => .labels ((Dict.keys levels).map Level.label)
        | none => .number)

end Respy
