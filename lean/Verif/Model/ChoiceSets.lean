import Verif.Model.CoreStateSpace
import Verif.Model.Dict

/-!
# Choice sets, period-choice cores, indexer

Model of `respy/state_space.py:699-756`, `respy/shared.py:624-652` and
`respy/state_space.py:866-912`.
-/

namespace Respy

/-- A formula evaluated on the rows of a frame. `none` stands for
`pd.errors.UndefinedVariableError`, which depends on the columns of the frame only
(`respy/state_space.py:699-711`). -/
abbrev FrameFormula (ρ : Type _) := Option (ρ → Bool)

/-- `df[f"_{choice}"]` computed by `create_is_inadmissible` for one choice and one row
(`respy/state_space.py:703-709`): start with `False`, `|=` the value of each evaluable formula, skip
the formulas with undefined variables. -/
def isInadmissible {ρ : Type _} (formulas : List (FrameFormula ρ)) (row : ρ) : Bool :=
  formulas.foldl (fun acc f => match f with
    | some p => acc || p row
    | none => acc) false

/-- The admissible choice set of a row: `df[choices] = ~df[choices]` after `create_is_inadmissible`
(`respy/state_space.py:749-750`). `restr` lists `options["negative_choice_set"][choice]` in the
order of `optim_paras["choices"]`. -/
def choiceSet {ρ : Type _} (restr : List (List (FrameFormula ρ))) (row : ρ) : List Bool :=
  restr.map fun formulas => !isInadmissible formulas row

/-- Order of Boolean tuples in `groupby` (`False < True`, first position first) (`respy/state_space.py:754`). -/
def boolsLe : List Bool → List Bool → Bool
  | [], _ => true
  | _ :: _, [] => false
  | a :: as, b :: bs => if a = b then boolsLe as bs else !a

/-- Order of the keys of the period-choice groups (`respy/state_space.py:754`). -/
def periodChoiceLe (a b : Nat × List Bool) : Bool :=
  if a.1 = b.1 then boolsLe a.2 b.2 else decide (a.1 < b.1)

/-- The group key of a core state, `["period"] + choices` (`respy/state_space.py:753`). -/
def periodChoiceKey (restr : List (List (FrameFormula CoreState))) (s : CoreState) :
    Nat × List Bool := (s.period, choiceSet restr s)

/-- Positions of the rows whose key is `k`, in increasing order (`groupby(...).groups`)
(`respy/state_space.py:751-756`). -/
def groupIndices {ρ κ : Type _} [DecidableEq κ] (key : ρ → κ) (rows : List ρ) (k : κ) : List Nat :=
  (List.range rows.length).filter fun i => decide (rows[i]?.map key = some k)

/-- `_create_core_period_choice` (`respy/state_space.py:739-756`): the dictionary
`(period, choice_set) -> core_indices`. Keys are sorted. -/
def corePeriodChoice (restr : List (List (FrameFormula CoreState))) (core : List CoreState) :
    List ((Nat × List Bool) × List Nat) :=
  (((core.map (periodChoiceKey restr)).eraseDups).insertionSort fun a b => periodChoiceLe a b).map fun k =>
    (k, groupIndices (periodChoiceKey restr) core k)

/-- `core.loc[indices]`: the labels are the row numbers since `reset_index(drop=True)`
(`respy/state_space.py:481`). -/
def locRows {ρ : Type _} (rows : List ρ) (indices : List Nat) : List ρ :=
  indices.filterMap fun i => rows[i]?

/-- `_create_indexer` (`respy/state_space.py:714-736`): for each core key, in order, insert each of
its states with `(core_key, position)`. The core key is the position of the group
(`respy/state_space.py:41`). -/
def createIndexer (core : List CoreState) (groups : List (List Nat)) :
    Dict CoreState (Nat × Nat) :=
  Dict.ofItems <|
    (groups.mapIdx fun coreKey indices =>
      (locRows core indices).mapIdx fun i s => (s, (coreKey, i))).flatten

/-- `[i for i, is_valid in enumerate(choice_set) if is_valid]` (`respy/state_space.py:899`). -/
def validChoices (choiceSet : List Bool) : List Nat :=
  (List.range choiceSet.length).filter fun i => choiceSet[i]? = some true

/-- `_collect_child_indices` for one dense key (`respy/state_space.py:866-912`): for each state and
each valid choice the location of the child state; `none` is the `KeyError` of the indexer
(`respy/shared.py:647`). -/
def collectChildIndices (indexer : Dict CoreState (Nat × Nat)) (states : List CoreState)
    (cs : List Bool) : Option (List (List (Nat × Nat))) :=
  states.mapM fun s => (validChoices cs).mapM fun c => indexer.get? (lawOfMotion s c)

end Respy
