import Verif.Model.InputFrame
import Mathlib.Data.Finset.Card
import Mathlib.Data.Finset.Dedup

/-!
# What it means that a simulation uses data
-/

namespace Respy

/-- The number `v` in a state space column stands for the value `x` of the data: numbers are kept, labels are replaced
by their position. A number in a column of labels which is no label is kept as an eight bit number. -/
def ColumnKind.Means : ColumnKind → Label → Nat → Prop
  | .number, x, v => x = .int v
  | .labels levels, x, v =>
    (x ∈ levels → levels[v]? = some x) ∧ (x ∉ levels → ∃ n : Int, x = .int n ∧ (v : Int) = n % 256)

/-- Labels are distinct and have codes which are eight bit numbers. -/
def ColumnKind.Distinct : ColumnKind → Prop
  | .number => True
  | .labels levels => levels.Nodup ∧ levels.length ≤ 256

/-- The values of all state space columns. -/
def SimState.values (s : SimState) : List Nat := s.core.exp ++ s.core.lags.filterMap id ++ s.dense

/-- The values of the state space columns are those of a row of the data wherever the data have a value. -/
def InputRow.KeptIn (columns : List Str) (kinds : List (Str × ColumnKind)) (r : InputRow) (values : List Nat) : Prop :=
  values.length = kinds.length ∧ ∀ (j : Nat) (c : Str) (kind : ColumnKind) (x : Label), kinds[j]? = some (c, kind) →
    r.value columns c = some x → ∃ v, values[j]? = some v ∧ kind.Means x v

/-- The number of individuals in the data. -/
def InputFrame.individuals (f : InputFrame) : Nat := (f.rows.map (·.id)).toFinset.card

/-- Values of the data which are expected in a column: numbers below 256 or nothing, respectively labels. A column of
labels does not exist or has no missing values. -/
def ColumnKind.Expects (columns : List Str) (c : Str) (x : Option Label) : ColumnKind → Prop
  | .number => ∀ y, x = some y → ∃ n < 256, y = .int (n : Nat)
  | .labels levels => c ∈ columns → ∃ y ∈ levels, x = some y

end Respy
