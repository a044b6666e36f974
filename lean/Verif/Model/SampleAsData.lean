import Verif.Model.LogLike
import Verif.Model.SimulatedSample

/-!
# Simulated samples as data for the estimation

Model of the way from the frame which `simulate` returns to the frame which `log_like` uses: the columns of the
estimation are selected, which do not include the type, and labels are replaced by codes.
-/

namespace Respy

/-- A row of a simulated sample with the columns which are used in the estimation
(`respy/likelihood.py:521-526`, `respy/shared.py:172-190`): `df.sort_index()[list(col_dtype)[2:]]` drops the column
`Type`, which stands behind the `nStatic` observables which are no exogenous process (`respy/shared.py:405-418`).
Simplification: codes instead of labels, see `LabelParas.observation`. -/
def SimRow.observation (nTypes nStatic : Nat) (r : SimRow ℝ) : EstimationRow where
  id := r.id
  state := ⟨r.state.core, if 2 ≤ nTypes then r.state.dense.eraseIdx nStatic else r.state.dense⟩
  choice := r.outcome.choice
  wage := r.outcome.wage

/-- The code of a label (`respy/shared.py:326-334, 339-340`): its position; `none` is an exception of `astype` for
missing values and labels which are not replaced. Simplification: labels which are numbers, and `np.uint8`, see C51. -/
def codeOf (labels : List Str) (x : Option Str) : Option Nat := x.bind fun s => labels.idxOf? s

/-- The dense columns without the type of a row with the labels `values` of the observables: the columns are selected by
name (`respy/shared.py:608-610`), here by their position. -/
def LabelParas.denseCodes (l : LabelParas) (values : List (Option Str)) : Option (List Nat) :=
  ((List.range (l.observables.length + if l.typePosition.isSome then 1 else 0)).filter
    fun p => decide (some p ≠ l.typePosition)).mapM fun p =>
      ((l.observables.zip values).find? fun ov => ov.1.1 == p).bind fun ov => codeOf ov.1.2 ov.2

/-- `_process_estimation_data` up to the duplication for types, for one row (`respy/likelihood.py:521-526`), and
`convert_labeled_variables_to_codes` (`respy/shared.py:319-342`). Simplification: identifiers, periods and experiences
are natural numbers, as in all data which are accepted (C59, C72). -/
noncomputable def LabelParas.observation (l : LabelParas) (d : DataRow ℝ) : Option EstimationRow := do
  let choice ← codeOf l.choices d.choice
  let lags ← d.lags.mapM (codeOf l.choices)
  let dense ← l.denseCodes d.observables
  pure ⟨d.id.toNat, ⟨⟨d.period.toNat, d.exps.map Int.toNat, lags.map some⟩, dense⟩, choice, d.wage⟩

end Respy
