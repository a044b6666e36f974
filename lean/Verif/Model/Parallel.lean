import Verif.Model.Dict
import Mathlib.Order.Defs.LinearOrder

/-!
# Parallelization across dense dimensions

Model of `respy/parallelization.py`.
-/

namespace Respy

/-- Keys of dictionaries passed as arguments (`respy/parallelization.py:86-117`). -/
inductive PyKey
  | int (n : Nat)
  | str (s : List Char)
deriving DecidableEq

/-- Arguments: dictionaries and all other objects (`respy/parallelization.py:86-154`). -/
inductive PyVal (α : Type)
  | atom (a : α)
  | dict (items : List (PyKey × PyVal α))

variable {α : Type}

/-- The integer of a key (`respy/parallelization.py:111-117`). -/
def PyKey.toNat? : PyKey → Option Nat
  | .int n => some n
  | .str _ => none

/-- `_is_dictionary_with_integer_keys` together with `set(arg.keys())`
(`respy/parallelization.py:96-102, 111-117`). -/
def integerKeys : PyVal α → Option (List Nat)
  | .atom _ => none
  | .dict items =>
    if items.isEmpty then none else items.mapM fun kv => kv.1.toNat?

/-- `_infer_dense_keys_from_arguments` (`respy/parallelization.py:86-108`): the intersection of the
key sets. Positional and keyword arguments are one list. -/
def inferDenseKeys (args : List (PyVal α)) : List Nat :=
  match args.filterMap integerKeys with
  | [] => []
  | ks :: rest => ks.filter fun k => rest.all fun ks' => ks'.contains k

/-- `_is_dense_dictionary_argument` (`respy/parallelization.py:147-154`). -/
def isDenseDictionary (keys : List Nat) : PyVal α → Bool
  | .atom _ => false
  | .dict items => keys.all fun k => (items.map Prod.fst).contains (.int k)

/-- `_broadcast_arguments` for one argument and one key (`respy/parallelization.py:120-144`); `none`
is a `KeyError`. -/
def broadcastArgument (keys : List Nat) (k : Nat) : PyVal α → Option (PyVal α)
  | .atom a => some (.atom a)
  | .dict items =>
    if isDenseDictionary keys (.dict items) then Dict.get? items (.int k) else some (.dict items)

/-- What a parallelized function returns: the value of the plain function or a dictionary
(`respy/parallelization.py:31-57`). -/
inductive ParallelOutput (R : Type)
  | whole (r : R)
  | split (d : Dict Nat R)

/-- `joblib.Parallel`: the tasks are executed in the order of `schedule`, each result is written to the
slot of its task (`respy/parallelization.py:38-41`). -/
def runTasks {R : Type} (tasks : List R) (schedule : List Nat) : List (Option R) :=
  schedule.foldl (fun out i => out.set i tasks[i]?) (tasks.map fun _ => none)

/-- `parallelize_across_dense_dimensions` (`respy/parallelization.py:8-65`) for functions with one
return value. `order` is the iteration order of the set of dense keys and `schedule` the order in
which `joblib` executes the tasks; both are arbitrary. The arguments in `bypass` are part of `func`.
`none` is an exception, or a task which has not been executed. -/
def parallelize {R : Type} (order : List Nat → List Nat) (schedule : List Nat)
    (func : List (PyVal α) → Option R) (args : List (PyVal α)) : Option (ParallelOutput R) :=
  let keys := order (inferDenseKeys args)
  if keys.isEmpty then (func args).map .whole
  else do
    let tasks ← keys.mapM fun k => args.mapM (broadcastArgument keys k)
    let out ← (runTasks (tasks.map func) schedule).mapM fun r => r.bind id
    pure (.split (Dict.ofItems (keys.zip out)))

/-- Several return values (`respy/parallelization.py:44-53`): a list of tuples becomes a tuple of
dictionaries; `none` if a tuple is shorter than the first. -/
def tupleOfDicts {R : Type} (keys : List Nat) (out : List (List R)) : Option (List (Dict Nat R)) :=
  match out with
  | [] => none
  | first :: _ => (List.range first.length).mapM fun i => do
    let l ← out.mapM fun o => o[i]?
    pure (Dict.ofItems (keys.zip l))

/-- A row of a data frame: label, dense key, content (`respy/parallelization.py:68-83, 157-159`). -/
structure FrameRow (ι ρ : Type) where
  label : ι
  key : Nat
  content : ρ

/-- `_split_dataframe` (`respy/parallelization.py:157-159`): `groupby` sorts the keys (`sortedKeys` is
the sorted list of the distinct keys) and keeps the order of the rows within groups. -/
def splitFrame {ι ρ : Type} (sortedKeys : List Nat) (df : List (FrameRow ι ρ)) :
    List (Nat × List (FrameRow ι ρ)) :=
  sortedKeys.map fun k => (k, df.filter fun r => r.key = k)

/-- `split_and_combine_df` (`respy/parallelization.py:68-83`) around a parallelized function of the
group and further arguments; `sortIndex` is `sort_index` of pandas. -/
def splitAndCombine {ι ρ σ : Type} (sortedKeys : List Nat)
    (order : List Nat → List Nat) (schedule : List Nat)
    (sortIndex : List (ι × σ) → List (ι × σ))
    (func : List (PyVal (List (FrameRow ι ρ) ⊕ α)) → Option (List (ι × σ)))
    (df : List (FrameRow ι ρ)) (others : List (PyVal (List (FrameRow ι ρ) ⊕ α))) :
    Option (List (ι × σ)) := do
  let splitted : PyVal (List (FrameRow ι ρ) ⊕ α) :=
    .dict ((splitFrame sortedKeys df).map fun kg => (.int kg.1, .atom (.inl kg.2)))
  let out ← parallelize order schedule func (splitted :: others)
  match out with
  | .whole r => pure r
  | .split d => pure (sortIndex (Dict.values d).flatten)

end Respy
