import Verif.Model.Text
import Verif.Model.Dict
import Mathlib.Analysis.SpecialFunctions.Log.Basic
import Mathlib.Data.List.Sort
import Mathlib.Data.List.Dedup

/-!
# Processing of parameters and options

Model of parts of `respy/pre_processing/model_processing.py` and `respy/shared.py:355-370`.
-/

namespace Respy

/-! ### Seeds -/

/-- The six sequences of seeds (`respy/pre_processing/model_processing.py:106-113`). -/
inductive SeedSource where
  | solutionStartup
  | solutionIteration
  | simulationStartup
  | simulationIteration
  | estimationStartup
  | estimationIteration
  deriving DecidableEq

/-- `SEED_STARTUP_ITERATION_GAP` (`respy/config.py`) (`respy/config.py:56`). -/
def seedGap : Nat := 1000000

/-- The user's seeds (`respy/pre_processing/model_processing.py:100`). -/
structure UserSeeds where
  solution : Nat
  simulation : Nat
  estimation : Nat

/-- The first elements of the sequences created by `_create_internal_seeds_from_user_seeds`
(`respy/pre_processing/model_processing.py:67-115`). `randint seed low high` is the result of `np.random.seed(seed)` followed by
`np.random.randint(low, high)`. The warning about equal seeds is not modelled. -/
def seedStart (randint : Nat → Nat → Nat → Nat) (user : UserSeeds) : SeedSource → Nat
  | .solutionStartup => randint user.solution 1000000 2000000
  | .solutionIteration => randint user.solution 1000000 2000000 + seedGap
  | .simulationStartup => randint user.simulation 4000000 5000000
  | .simulationIteration => randint user.simulation 4000000 5000000 + seedGap
  | .estimationStartup => randint user.estimation 7000000 8000000
  | .estimationIteration => randint user.estimation 7000000 8000000 + seedGap

/-- A program which calls `next` on the counters (`itertools.count`) in the given order; the list of the
seeds obtained. `state` holds the next element of every counter
(`respy/pre_processing/model_processing.py:111-113`). -/
def takeSeeds : (SeedSource → Nat) → List SeedSource → List Nat
  | _, [] => []
  | state, s :: ops =>
    state s :: takeSeeds (fun s' => if s' = s then state s + 1 else state s') ops

/-! ### Probabilities and logit coefficients -/

/-- Exceptions while parsing (`respy/pre_processing/model_processing.py:365-374, 570-659`). -/
inductive ParseError where
  | mixedProbabilities
  | typeZero
  | noTypeProbabilities
  deriving DecidableEq

/-- `normalize_probabilities` (`respy/shared.py:355-370`); the last element is replaced. -/
noncomputable def normalizeProbabilities (ps : List ℝ) : List ℝ :=
  let qs := ps.map fun p => p / ps.sum
  qs.dropLast ++ [1 - qs.dropLast.sum]

/-- One parameter of a group: level, name and value (`respy/pre_processing/model_processing.py:605-645`). -/
structure GroupParam (L : Type _) where
  level : L
  name : Str
  value : ℝ

/-- `_parse_probabilities_or_logit_coefficients` (`respy/pre_processing/model_processing.py:570-659`) for the parameters which
match the regular expression, with their levels. The warning is not modelled. -/
noncomputable def parseGroup {L : Type _} [LinearOrder L] (maxFloat : ℝ) (rows : List (GroupParam L)) :
    Except ParseError (Option (Dict L (List (Str × ℝ)))) :=
  if rows.length = 0 then .ok none
  else
    let levels := (rows.map GroupParam.level).dedup.insertionSort (· ≤ ·)
    let nProbabilities := rows.countP fun r => r.name = "probability".toList
    let container (rs : List (GroupParam L)) : Dict L (List (Str × ℝ)) :=
      levels.map fun l => (l, (rs.filter fun r => r.level = l).map fun r => (r.name, r.value))
    if nProbabilities = levels.length ∧ levels.length = rows.length then
      let values := rows.map GroupParam.value
      let probs := if values.sum ≠ 1 then normalizeProbabilities values else values
      let logs := probs.map fun p => Real.log (max p (1 / maxFloat))
      .ok (some (container (List.zipWith (fun r b => ⟨r.level, "constant".toList, b⟩) rows logs)))
    else if nProbabilities > 0 then .error .mixedProbabilities
    else .ok (some (container rows))

/-! ### Types -/

/-- `int(...)` of a text of digits (`respy/pre_processing/model_processing.py:381, 423-425`). -/
def digitsValue (s : Str) : Nat := s.foldl (fun n c => 10 * n + (c.toNat - '0'.toNat)) 0

/-- The index in a text like `type_3` (`respy/pre_processing/model_processing.py:381, 423`). -/
def typeIndex (s : Str) : Option Nat := (extract "type_".toList Char.isDigit s).map digitsValue

/-- `_infer_number_of_types` (`respy/pre_processing/model_processing.py:399-430`); only the level `name` of the index is used.
The maximum of an index without elements is not modelled. -/
def inferNumberOfTypes (params : List (Str × Str)) : Nat :=
  ((params.map Prod.snd).map fun name => (typeIndex name).getD 0).foldl max 0 + 1

/-- `_parse_types` (`respy/pre_processing/model_processing.py:358-396`): the number of types and `type_prob`. -/
noncomputable def parseTypes (maxFloat : ℝ) (params : List ((Str × Str) × ℝ)) :
    Except ParseError (Nat × Dict Nat (List (Str × ℝ))) :=
  if params.any (fun p => p.1.1 = "type_0".toList) ∨ params.any (fun p => p.1.2 = "type_0".toList) then
    .error .typeZero
  else
    let nTypes := inferNumberOfTypes (params.map Prod.fst)
    if nTypes ≥ 2 then
      let rows : List (GroupParam Nat) := params.filterMap fun p =>
        (typeIndex p.1.1).map fun i => ⟨i, p.1.2, p.2⟩
      match parseGroup maxFloat rows with
      | .error e => .error e
      | .ok none => .error .noTypeProbabilities
      | .ok (some parsed) =>
        let default := (List.range nTypes).map fun i => (i, [("constant".toList, (0 : ℝ))])
        .ok (nTypes, (Dict.ofItems default).update parsed)
    else .ok (nTypes, [])

/-! ### Discount factors -/

/-- The discount factors in `optim_paras` (`respy/pre_processing/model_processing.py:155-182`). -/
structure Discount (K : Type _) where
  delta : K
  beta : K
  betaDelta : K

/-- `_parse_parameters` and `_parse_present_bias_parameter` (`respy/pre_processing/model_processing.py:140, 155-182`); `none`
is a `KeyError`. -/
def parseDiscount {K : Type _} [Mul K] [One K] (params : Dict (Str × Str) K) : Option (Discount K) := do
  let delta ← params.get? ("delta".toList, "delta".toList)
  let beta := (params.get? ("beta".toList, "beta".toList)).getD 1
  pure ⟨delta, beta, beta * delta⟩

/-! ### Choice restrictions -/

/-- `_add_default_is_inadmissible` (`respy/pre_processing/model_processing.py:761-784`). `maxExp c` is the formula for choice
`c` based on maximum experience (or `"False"`), `false_` is the formula `"False"`. -/
def addDefaultIsInadmissible {F : Type _} (wExp woExp : List Str) (maxExp : Str → F) (false_ : F)
    (negativeChoiceSet : Dict Str (List F)) : Dict Str (List F) :=
  let d := wExp.foldl (fun d c => d.insert c ((d.get? c).getD [] ++ [maxExp c])) negativeChoiceSet
  woExp.foldl (fun d c => d.insert c ((d.get? c).getD [false_])) d

/-! ### Sharing of objects -/

/-- A program state: mutable objects with their addresses as indices
(`respy/pre_processing/model_processing.py:38-60`). -/
abbrev ObjectHeap (O : Type _) := List O

/-- `copy.deepcopy` of a dictionary with values at addresses: every value is copied to a new address
(`respy/pre_processing/model_processing.py:60`). -/
def deepcopy {O : Type _} (heap : ObjectHeap O) (d : Dict Str Nat) : Option (ObjectHeap O × Dict Str Nat) := do
  let objects ← d.mapM fun kv => heap[kv.2]?
  pure (heap ++ objects, d.mapIdx fun i kv => (kv.1, heap.length + i))

/-- Replace the objects at the addresses of a dictionary (`respy/pre_processing/model_processing.py:725-809`). -/
def mutate {O : Type _} (f : Str → O → O) (heap : ObjectHeap O) (d : Dict Str Nat) : ObjectHeap O :=
  d.foldl (fun h kv => h.modify kv.2 (f kv.1)) heap

/-- The treatment of the mutable values of options in `process_params_and_options`
(`respy/pre_processing/model_processing.py:38-49`, `process_covariates.py:26`): `_read_options` makes a deep copy of the user's
options, `{**DEFAULT_OPTIONS, **options}` shares the objects of both, `remove_irrelevant_covariates`
makes a deep copy again, and everything afterwards may change (`f`) the values in place. -/
def processSharing {O : Type _} (f : Str → O → O) (heap : ObjectHeap O) (defaults user : Dict Str Nat) :
    Option (ObjectHeap O × Dict Str Nat) := do
  let (heap₁, options₁) ← deepcopy heap user
  let options₂ := Dict.update defaults options₁
  let (heap₂, options₃) ← deepcopy heap₁ options₂
  pure (mutate f heap₂ options₃, options₃)

end Respy
