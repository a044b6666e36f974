import Verif.Model.DefaultRestriction
import Verif.Model.Solve
import Verif.Model.Transition

/-!
# Creation of the state space object

Model of `create_state_space_class` and `StateSpace.__init__`: `respy/state_space.py:28-62, 112-220,
293-336`. The steps are modelled in `CoreStateSpace`, `ChoiceSets`, `Dense`, `Transition` and
`Exogenous`; here they are put together.
-/

namespace Respy

/-- The inputs of `create_state_space_class`.

* `core`: see `CoreSpec`
* `restrCore`: `options["negative_choice_set"]` evaluated on the core with its covariates, one list of
  formulas per choice
* `restr d`: the same formulas evaluated with the covariates of the dense index `d` added
* `grid`: `_create_dense_state_space_grid(optim_paras)`; `none` is `False`
* `exogLevels`: numbers of levels of `optim_paras["exogenous_processes"]`
* `points`: `options["interpolation_points"]` (`respy/state_space.py:28-63`) -/
structure BuildSpec where
  core : CoreSpec
  restrCore : List (List (FrameFormula CoreState))
  restr : Nat → List (List (FrameFormula CoreState))
  grid : Option (List (List Nat))
  exogLevels : List Nat
  points : Nat

/-- The attributes of the state space object. `states` are the frames of core states which are dumped
in `_create_dense_period_choice` and loaded with `load_objects("states", complex_, options)`, in the
order of the dense keys. If two core keys have the same complex, the frame of the second one overwrites
the frame of the first one just as the entry of the dictionary does, so that the frame of a dense key
always consists of the states of its core key (`respy/state_space.py:66-130`). -/
structure Built where
  core : List CoreState
  groups : List ((Nat × List Bool) × List Nat)
  indexer : Dict CoreState (Nat × Nat)
  dpc : Dict Complex Nat
  states : List (List CoreState)
  space : SolveSpace

/-- `_create_dense_period_choice` (`respy/state_space.py:759-817`); `none` is the `ValueError` or, for a model with
dense dimensions and only one choice, a `TypeError`: the keys of `df.groupby(choices).groups` are then Booleans instead
of tuples of Booleans (in pandas before version 3), and the name of the cache file cannot be created from a Boolean
(`respy/shared.py:691-701`). -/
def BuildSpec.densePeriodCores (b : BuildSpec) (core : List CoreState)
    (groups : List ((Nat × List Bool) × List Nat)) : Option (Dict Complex Nat) :=
  match b.grid with
  | none => some (densePeriodChoiceNoDense groups)
  | some grid =>
    if b.restrCore.length = 1 ∧ groups ≠ [] ∧ grid ≠ [] then none
    else (densePeriodChoice core groups b.restr grid.length).toOption

/-- `dense_key_to_transit_keys` for the dense key `x.2` with the item `x.1` of `dense_period_cores`
(`respy/state_space.py:184-187, 208-217`). -/
def BuildSpec.transitKeysOf (b : BuildSpec) (dpc : Dict Complex Nat) (grid : List (List Nat))
    (x : (Complex × Nat) × Nat) : Option (Nat × List Nat) := do
  let d ← x.1.1.dense
  let covariates ← grid[d]?
  let keys ← transitKeys grid (denseKeyLookup dpc) b.exogLevels covariates x.1.2
  pure (x.2, keys)

/-- `create_objects_for_exogenous_processes` (`respy/state_space.py:128-129, 197-220`). The inner
`none` means that the attribute does not exist. -/
def BuildSpec.transitSets (b : BuildSpec) (dpc : Dict Complex Nat) :
    Option (Option (Dict Nat (List Bool))) :=
  match b.exogLevels with
  | [] => some none
  | _ :: _ => do
    let grid ← b.grid
    let keys ← dpc.zipIdx.mapM (b.transitKeysOf dpc grid)
    let sets ← transitChoiceSets keys (dpc.mapIdx fun i kv => (i, kv.1.choiceSet))
    pure (some sets)

/-- The choice set whose children are collected for a dense key (`respy/state_space.py:316-325`). -/
def childChoiceSet (transit : Option (Dict Nat (List Bool))) (x : Complex × Nat) : Option (List Bool) :=
  match transit with
  | none => some x.1.choiceSet
  | some sets => sets.get? x.2

/-- `collect_child_indices` (`respy/state_space.py:293-336`). For one period the code stores `None`,
which is never read; the model has an empty dictionary. `xs` lists for each dense key its complex, its
number and its states. If no dense key belongs to a period before the last one, `_collect_child_indices` is called with
empty dictionaries instead of being called for each dense key (`respy/parallelization.py:32-57`) and raises an exception
in `load_objects`. -/
def collectChildren (nPeriods : Nat) (indexer : Dict CoreState (Nat × Nat))
    (transit : Option (Dict Nat (List Bool))) (xs : List ((Complex × Nat) × List CoreState)) :
    Option (Dict Nat (List (List (Nat × Nat)))) :=
  let early := xs.filter fun x => decide (x.1.1.period < nPeriods - 1)
  if nPeriods ≠ 1 ∧ early = [] then none
  else early.mapM fun x => do
    let cs ← childChoiceSet transit x.1
    let children ← collectChildIndices indexer x.2 cs
    pure (x.1.2, children)

/-- `create_state_space_class` (`respy/state_space.py:28-62`). -/
def buildSpace (b : BuildSpec) : Option Built := do
  let core ← createCore b.core
  let groups := corePeriodChoice b.restrCore core
  let indexer := createIndexer core (groups.map Prod.snd)
  let dpc ← b.densePeriodCores core groups
  let indices ← dpc.mapM fun kv => groups[kv.2]?.map Prod.snd
  let states := indices.map (locRows core)
  let transit ← b.transitSets dpc
  let children ← collectChildren b.core.nPeriods indexer transit
    ((dpc.map Prod.fst).zipIdx.zip states)
  pure {
    core, groups, indexer, dpc, states
    space := {
      nPeriods := b.core.nPeriods
      complexes := dpc.map Prod.fst
      nStates := indices.map List.length
      childIndices := children
      lookup := denseKeyLookup dpc
      transit
      interpolationPoints := b.points } }

end Respy
