import Verif.Model.ChoiceSets

/-!
# Dense state space, dense keys, cache file names

Model of `respy/state_space.py:132-187, 652-696, 759-817` and `respy/shared.py:405-418, 545-550,
655-701`.
-/

namespace Respy

/-- The parts of `optim_paras` which define the dense dimensions.

* `observables`: names and numbers of levels in `optim_paras["observables"]` (sorted by name,
  including the exogenous processes, `respy/pre_processing/model_processing.py:236-240`).
* `exogenous`: names and numbers of levels in `optim_paras["exogenous_processes"]`. -/
structure DenseSpec where
  observables : List (String × Nat)
  exogenous : List (String × Nat)
  nTypes : Nat

/-- `_create_dense_state_space_grid` (`respy/state_space.py:652-676`); `none` is `False`. -/
def denseGrid (spec : DenseSpec) : Option (List (List Nat)) :=
  let levels := spec.observables.map fun o => List.range o.2
  let types := if 2 ≤ spec.nTypes then [List.range spec.nTypes] else []
  let grid := product (levels ++ types)
  if grid = [[]] then none else some grid

/-- `create_dense_state_space_columns` (`respy/shared.py:405-418`). -/
def denseColumns (spec : DenseSpec) : List String :=
  ((spec.observables.map Prod.fst).filter fun x => !(spec.exogenous.map Prod.fst).contains x) ++
    (if 2 ≤ spec.nTypes then ["type"] else []) ++ spec.exogenous.map Prod.fst

/-- The value of a characteristic in a dense state: the frame is created with
`pd.DataFrame(data=dense_grid, columns=columns)` (`respy/state_space.py:684-686`). -/
def denseValue (spec : DenseSpec) (point : List Nat) (name : String) : Option Nat :=
  Dict.get? ((denseColumns spec).zip point) name

/-- Location of a part of the state space: period, choice set, and dense index if there are dense
dimensions (`respy/state_space.py:759-817`). -/
structure Complex where
  period : Nat
  choiceSet : List Bool
  dense : Option Nat
deriving DecidableEq, Repr

/-- Choice sets occurring among the states of a core key given the restrictions evaluated with the
dense covariates: the keys of `df.groupby(choices).groups` (`respy/state_space.py:792-796`). -/
def setsInGroup (restr : List (List (FrameFormula CoreState))) (core : List CoreState)
    (indices : List Nat) : List (List Bool) :=
  ((locRows core indices).map (choiceSet restr)).eraseDups

/-- `_create_dense_period_choice` with dense dimensions (`respy/state_space.py:786-815`).
`restr d` are the restrictions evaluated on the frame of the dense index `d`. The dictionary
`(period, choice_set, dense_index) -> core_key` is updated for each dense index and core key;
`error` is the `ValueError`. -/
def densePeriodChoice (core : List CoreState) (groups : List ((Nat × List Bool) × List Nat))
    (restr : Nat → List (List (FrameFormula CoreState))) (nDense : Nat) :
    Except String (Dict Complex Nat) :=
  (List.range nDense).foldlM (init := []) fun d denseIdx =>
    (groups.zipIdx).foldlM (init := d) fun d g =>
      match setsInGroup (restr denseIdx) core g.1.2 with
      | [cs] => .ok (d.insert ⟨g.1.1.1, cs, some denseIdx⟩ g.2)
      | _ => .error "Choice restrictions cannot interact between core and dense information"

/-- `_create_dense_period_choice` without dense dimensions (`respy/state_space.py:780-785`). -/
def densePeriodChoiceNoDense (groups : List ((Nat × List Bool) × List Nat)) : Dict Complex Nat :=
  Dict.ofItems (groups.zipIdx.map fun g => (⟨g.1.1.1, g.1.1.2, none⟩, g.2))

/-- `return_core_dense_key` (`respy/shared.py:545-550`). -/
def coreDenseKey (coreKey : Nat) (dense : Option Nat) : Nat × Nat :=
  match dense with
  | none => (coreKey, 0)
  | some d => (coreKey, d)

/-- `core_key_and_dense_index_to_dense_key` (`respy/state_space.py:157-168`): enumerate the items
of `dense_period_cores`; the position is the dense key (`respy/state_space.py:138-145`). -/
def denseKeyLookup (dpc : Dict Complex Nat) : Dict (Nat × Nat) Nat :=
  Dict.ofItems (dpc.mapIdx fun i kv => (coreDenseKey kv.2 kv.1.dense, i))

/-- `str(n)` for a non-negative integer. Strings are lists of characters (`respy/shared.py:695-697`). -/
def strNat (n : Nat) : List Char := Nat.toDigits 10 n

/-- `str(int(x))` of a Boolean (`respy/shared.py:693`). -/
def bit (b : Bool) : Char := if b then '1' else '0'

/-- `_create_file_name_from_complex_index` (`respy/shared.py:691-701`). -/
def fileName (topic : List Char) (c : Complex) : List Char :=
  match c.dense with
  | some d =>
    topic ++ '_' :: (strNat c.period ++ '_' :: (c.choiceSet.map bit ++
      '_' :: (strNat d ++ ".parquet".toList)))
  | none =>
    topic ++ '_' :: (strNat c.period ++ '_' :: (c.choiceSet.map bit ++ ".parquet".toList))

end Respy
