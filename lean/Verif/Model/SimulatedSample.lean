import Verif.Model.DataChecking
import Verif.Model.Simulate

/-! # The simulated sample with labels -/

namespace Respy

variable {K : Type _} [Field K] [LinearOrder K]

/-- Entries of `optim_paras` used for labels: the choices (those with wage first, then the other choices
with experience), for each observable its position in the dense columns (`respy/shared.py:405-417`) and
its labels, the position of the type if there are at least two types. -/
structure LabelParas where
  choices : List Str
  nWages : Nat
  nExp : Nat
  nPeriods : Nat
  nLags : Nat
  observables : List (Nat × List Str)
  typePosition : Option Nat
  nTypes : Nat

/-- The corresponding parameters of the checks (`respy/pre_processing/data_checking.py:87-112`). -/
def LabelParas.checks (l : LabelParas) : CheckParas where
  choices := l.choices
  choicesWage := l.choices.take l.nWages
  choicesExp := l.choices.take l.nExp
  nPeriods := l.nPeriods
  nLags := l.nLags
  levels := l.observables.map fun o => o.2.length

/-- The label of a choice (`respy/simulate.py:547-557`): codes outside of the categories are missing. -/
def LabelParas.choiceLabel (l : LabelParas) (code : Nat) : Option Str := l.choices[code]?

/-- `_convert_codes_to_original_labels` (`respy/simulate.py:545-563`) for one row and the columns which are
used by the checks. Simplification: a code of an observable which is not one of its codes becomes missing,
in the code it stays a number. -/
def LabelParas.row (l : LabelParas) (r : SimRow K) : DataRow K where
  id := r.id
  period := r.state.core.period
  choice := l.choiceLabel r.outcome.choice
  wage := r.outcome.wage
  exps := r.state.core.exp.map fun e : Nat => (e : Int)
  lags := r.state.core.lags.map fun c => c.bind l.choiceLabel
  observables := l.observables.map fun o => (r.state.dense[o.1]?).bind fun c => o.2[c]?

/-- The sample returned by `_process_simulation_output` (`respy/simulate.py:566-595`): all columns with
choices have the choices as categories. -/
def LabelParas.sample (l : LabelParas) (out : List (SimRow K)) : Sample K where
  rows := out.map l.row
  categories := fun _ => l.choices

/-- The column `Type` (`respy/simulate.py:545-595`). -/
def LabelParas.types (l : LabelParas) (out : List (SimRow K)) : List (Option Nat) :=
  out.map fun r => l.typePosition.bind fun p => r.state.dense[p]?

end Respy
