import Verif.Model.CoreStateSpace

/-!
# Maximum experience and the default choice restriction

Model of `respy/pre_processing/model_processing.py:286-301` and `:761-784`.
-/

namespace Respy

/-- `default_max = max(parsed_parameters) + options["n_periods"] - 1`
(`respy/pre_processing/model_processing.py:297`). `n_periods` is positive
(`respy/pre_processing/model_checking.py:8`). -/
def defaultMax (nPeriods : Nat) (start : List Nat) : Option Nat :=
  (pyMax start).map fun m => m + nPeriods - 1

/-- `max_ = int(params.get(("maximum_exp", choice), default_max))`
(`respy/pre_processing/model_processing.py:298`); `given` is the entry of `params`. -/
def parseMax (nPeriods : Nat) (start : List Nat) (given : Option Nat) : Option Nat :=
  match given with
  | some m => some m
  | none => defaultMax nPeriods start

/-- The two formulas which are added as default restriction
(`respy/pre_processing/model_processing.py:774-778`). -/
inductive DefaultFormula where
  | expEq (m : Nat)  -- `exp_{choice} == {max_exp}`
  | never            -- `False`
deriving DecidableEq, Repr

/-- Selection of the formula (`respy/pre_processing/model_processing.py:772-778`). -/
def defaultFormula (nPeriods : Nat) (start : List Nat) (maxExp : Nat) : Option DefaultFormula :=
  (pyMax start).map fun maxInit =>
    if maxExp < nPeriods - 1 + maxInit then .expEq maxExp else .never

/-- `df.eval` of the formula for a state whose experience in the choice is `e`
(`respy/pre_processing/model_processing.py:761-784`). -/
def DefaultFormula.eval : DefaultFormula → Nat → Bool
  | .expEq m, e => decide (e = m)
  | .never, _ => false

/-- The choice `code` is inadmissible in `s` because of the default formulas
(`respy/pre_processing/model_processing.py:769-782`): choices with experience have codes
`0, ..., n_choices_w_exp - 1`; choices without experience are not restricted. -/
def defaultInadmissible (spec : CoreSpec) (s : CoreState) (code : Nat) : Bool :=
  match spec.starts[code]?, spec.maxExp[code]?, s.exp[code]? with
  | some start, some m, some e =>
    match defaultFormula spec.nPeriods start m with
    | some f => f.eval e
    | none => false
  | _, _, _ => false

end Respy
