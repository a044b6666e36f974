import Verif.Model.DataChecking
import Verif.Model.Dict

/-!
# Construction of the data of Keane and Wolpin (1997)

Model of `respy/data.py`.
-/

namespace Respy

/-- A row of the file `kw_97_data.csv`; the choice is a code (`respy/data.py:36-45`). -/
structure RawRow (K : Type _) where
  id : Int
  age : Int
  school : Int
  code : Option Str
  wage : Option K
deriving DecidableEq

variable {K : Type _}

/-- The codes of choices (`respy/data.py:49-55`). -/
def codesToChoices : Dict Str Str :=
  [("3".toList, "white_collar".toList), ("4".toList, "blue_collar".toList), ("5".toList, "military".toList),
    ("1".toList, "school".toList), ("2".toList, "home".toList)]

/-- The choice (`respy/data.py:56-58`); other codes become missing. -/
def RawRow.choice (r : RawRow K) : Option Str := r.code.bind (Dict.get? codesToChoices)

/-- The last row of an individual before position `p`; used by `groupby("Identifier").shift()`
(`respy/data.py:12-18, 62`). -/
def rawBefore (rows : List (RawRow K)) (p : Nat) (id : Int) : Option (RawRow K) :=
  (rows.take p).reverse.find? fun r => decide (r.id = id)

/-- `df.groupby("Identifier")[column].shift().fillna(0)` at position `p` for the indicator of a choice
(`respy/data.py:12-18`). -/
def shiftedIndicator (rows : List (RawRow K)) (choice : Str) (p : Nat) (id : Int) : Nat :=
  ((rawBefore rows p id).map fun r => if r.choice = some choice then 1 else 0).getD 0

/-- `df.groupby("Identifier")[column].cumsum()` at position `p` (`respy/data.py:19-21`). Simplification:
the sum does not overflow. -/
def groupCumsum (rows : List (RawRow K)) (column : Nat → Int → Nat) (p : Nat) (id : Int) : Nat :=
  (((rows.take (p + 1)).zipIdx.filter fun rj => decide (rj.1.id = id)).map fun rj => column rj.2 rj.1.id).sum

/-- `_create_working_experience` for one choice and row (`respy/data.py:10-23`). -/
def workExperience (rows : List (RawRow K)) (choice : Str) (p : Nat) (r : RawRow K) : Nat :=
  groupCumsum rows (shiftedIndicator rows choice) p r.id

/-- `df.groupby("Identifier").ngroup()` (`respy/data.py:47`): the number of smaller identifiers. -/
def groupNumber (rows : List (RawRow K)) (id : Int) : Nat :=
  ((rows.map (·.id)).eraseDups.filter fun x => decide (x < id)).length

/-- The column `Experience_{choice}`: constructed for choices with a wage, from the file for schooling,
otherwise not available (`respy/data.py:36-42, 60, 66-68`). -/
def rawExperience (choicesWage : List Str) (rows : List (RawRow K)) (choice : Str) (p : Nat) (r : RawRow K) :
    Option Int :=
  if choice ∈ choicesWage then some (workExperience rows choice p r)
  else if choice = "school".toList then some r.school else none

/-- The row in the result for a row of the file; `none` is a `KeyError`. There is one lagged choice and there are
no observables (`respy/data.py:47-68`). -/
def createRow (m : CheckParas) (rows : List (RawRow K)) (p : Nat) (r : RawRow K) : Option (DataRow K) := do
  let exps ← m.choicesExp.mapM fun c => rawExperience m.choicesWage rows c p r
  if m.nLags ≤ 1 ∧ m.levels = [] then
    pure {
      id := groupNumber rows r.id
      period := r.age - 16
      choice := r.choice
      wage := r.wage
      exps := exps
      lags := [(rawBefore rows p r.id).bind RawRow.choice].take m.nLags
      observables := [] }
  else none

/-- `create_kw_97` (`respy/data.py:26-71`) for the content of the file. -/
def createKw97 (m : CheckParas) (rows : List (RawRow K)) : Option (List (DataRow K)) :=
  (rows.zipIdx.filter fun rp => decide (16 ≤ rp.1.age)).mapM fun rp => createRow m rows rp.2 rp.1

end Respy
