/-!
# Core states and the law of motion

Model of `respy/shared.py`, `apply_law_of_motion_for_core`.
-/

namespace Respy

/-- One row of the core state space (`respy/state_space.py:408-483`), restricted to the
columns `["period"] + create_core_state_space_columns` (`respy/shared.py:398-402`).

* `exp` lists the columns `exp_<choice>` in the order of `optim_paras["choices_w_exp"]`.
* `lags` lists the columns `lagged_choice_1, ..., lagged_choice_n`; `none` is a missing value (NaN).

Simplification: integers are unbounded naturals, columns are addressed by their position. -/
structure CoreState where
  period : Nat
  exp : List Nat
  lags : List (Option Nat)
deriving DecidableEq, Repr

/-- `df[f"exp_{choice}"] += df["choice"] == i` for each `i, choice` in
`enumerate(choices_w_exp)` (`respy/shared.py:758-759`). -/
def updateExp (exp : List Nat) (choice : Nat) : List Nat :=
  exp.mapIdx fun i e => e + (if choice = i then 1 else 0)

/-- Update of the lagged choices (`respy/shared.py:763-778`): if there are lagged choices, drop the
oldest one, rename the others to the next number and insert the current choice as first lag. -/
def updateLags (lags : List (Option Nat)) (choice : Nat) : List (Option Nat) :=
  if lags.length = 0 then lags else some choice :: lags.dropLast

/-- `apply_law_of_motion_for_core` (`respy/shared.py:733-782`) on one row whose column `choice` is
the integer code `choice`. -/
def lawOfMotion (s : CoreState) (choice : Nat) : CoreState where
  period := s.period + 1
  exp := updateExp s.exp choice
  lags := updateLags s.lags choice

end Respy
