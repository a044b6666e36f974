import Verif.Model.Dict
import Verif.Model.Text
import Mathlib.Data.List.Infix
import Mathlib.Data.List.Dedup

/-!
# Covariates

Model of `respy/pre_processing/process_covariates.py` and of `compute_covariates` in `respy/shared.py`.
-/

namespace Respy

/-- `name in formula` for texts (`respy/pre_processing/process_covariates.py:43, 105, 109`). -/
def mentioned (name formula : Str) : Bool := decide (name <:+: formula)

/-! ### Relevant covariates -/

/-- `{cov: covariates[cov], **relevant_covs}` (`process_covariates.py:47`). -/
def prependCovariate (cov formula : Str) (relevant : Dict Str Str) : Dict Str Str :=
  Dict.update [(cov, formula)] relevant

/-- The loop over the relevant covariates for one covariate (`process_covariates.py:43-47`). The keys are
those of the dictionary at the start of the loop, whereas formulas are read from the current dictionary;
`none` is a `KeyError`. -/
def addMentioned (relevant : Dict Str Str) (item : Str × Str) : Option (Dict Str Str) :=
  relevant.keys.foldlM (fun r relevantCov =>
    (r.get? relevantCov).map fun formula =>
      if mentioned item.1 formula then prependCovariate item.1 item.2 r else r) relevant

/-- The `while` loop (`process_covariates.py:38-49`); `none` if the fuel does not suffice or after a
`KeyError`. -/
def relevantLoop (covariates : Dict Str Str) : Nat → Dict Str Str → Option (Dict Str Str)
  | 0, _ => none
  | fuel + 1, relevant =>
    (covariates.foldlM addMentioned relevant).bind fun new =>
      if relevant.length ≠ new.length then relevantLoop covariates fuel new else some new

/-- `remove_irrelevant_covariates` (`process_covariates.py:5-52`), `names` is the level `"name"` of the
index of the parameters. -/
def removeIrrelevant (covariates : Dict Str Str) (names : List Str) : Option (Dict Str Str) :=
  relevantLoop covariates (covariates.length + 1) (covariates.filter fun kv => decide (kv.1 ∈ names))

/-! ### Groups of covariates -/

/-- An entry of `detailed_covariates`; the set of dependencies is a list
(`respy/pre_processing/process_covariates.py:92-94`). -/
structure CovariateDef where
  formula : Str
  dependsOn : List Str
deriving DecidableEq, Repr

/-- The variables of the loop in `separate_covariates_into_core_dense_mixed`
(`respy/pre_processing/process_covariates.py:80-116`). -/
structure Groups where
  core : List Str
  dense : List Str
  detailed : Dict Str CovariateDef

/-- The body of the `for` loop (`process_covariates.py:106-115`). Sets are lists in arbitrary order. -/
def groupStep (g : Groups) (item : Str × Str) : Groups :=
  let matchesCore := g.core.filter fun i => mentioned i item.2
  let core := if matchesCore ≠ [] then g.core.insert item.1 else g.core
  let matchesDense := g.dense.filter fun i => mentioned i item.2
  let dense := if matchesDense ≠ [] then g.dense.insert item.1 else g.dense
  let old := ((g.detailed.get? item.1).map CovariateDef.dependsOn).getD []
  ⟨core, dense, g.detailed.insert item.1 ⟨item.2, old ∪ (matchesCore ∪ matchesDense)⟩⟩

/-- The `while` loop (`process_covariates.py:102-118`). -/
def groupLoop (covariates : Dict Str Str) : Nat → Groups → Option Groups
  | 0, _ => none
  | fuel + 1, g =>
    let new := covariates.foldl groupStep g
    if g.core.length ≠ new.core.length ∨ g.dense.length ≠ new.dense.length then
      groupLoop covariates fuel new
    else some new

/-- The groups of covariates written to the options (`respy/pre_processing/process_covariates.py:118-136`). -/
structure CovariateGroups where
  core : Dict Str CovariateDef
  dense : Dict Str CovariateDef
  mixed : Dict Str CovariateDef
  all : Dict Str CovariateDef
deriving DecidableEq, Repr

/-- `separate_covariates_into_core_dense_mixed` (`process_covariates.py:55-138`); `coreBase` and `denseBase`
are the names of the state variables (lines 80-90). The order of the groups is arbitrary in Python, here
it is the order of the covariates. `none` if a name is a variable of both kinds without being a covariate
(a `KeyError` in line 133). -/
def separateCovariates (covariates : Dict Str Str) (coreBase denseBase : List Str) :
    Option CovariateGroups :=
  let detailed : Dict Str CovariateDef := covariates.map fun kv => (kv.1, ⟨kv.2, []⟩)
  (groupLoop covariates (2 * covariates.length + 1)
    ⟨coreBase.dedup, denseBase.dedup, detailed⟩).bind fun g =>
    let inCore (c : Str) := decide (c ∈ g.core)
    let inDense (c : Str) := decide (c ∈ g.dense)
    if (g.core.filter inDense).all fun c => decide (c ∈ g.detailed.keys) then
      some
        { core := g.detailed.filter fun kv => !inDense kv.1
          dense := g.detailed.filter fun kv => inDense kv.1 && !inCore kv.1
          mixed := g.detailed.filter fun kv => inDense kv.1 && inCore kv.1
          all := g.detailed }
    else none

/-! ### Necessary covariates -/

/-- The errors of `identify_necessary_covariates` (`respy/pre_processing/process_covariates.py:155-165`). -/
inductive NecessaryError
  | keyError
  | outOfFuel
deriving DecidableEq, Repr

/-- The body of the `for` loop (`process_covariates.py:157-162`): the pair of `dependents` and
`new_dependents`. `dependents.remove` raises a `KeyError` if the element is missing. -/
def necessaryStep (definitions : Dict Str CovariateDef) (state : List Str × List Str) (dependent : Str) :
    Except NecessaryError (List Str × List Str) :=
  match definitions.get? dependent with
  | some ⟨_, dep :: deps⟩ => .ok (state.1 ∪ (dep :: deps), state.2 ∪ (dep :: deps))
  | _ => if dependent ∈ state.1 then .ok (state.1.erase dependent, state.2) else .error .keyError

/-- The `while` loop (`process_covariates.py:154-162`). `order` is the order in which the elements of a set
are visited, which Python does not specify. -/
def necessaryLoop (definitions : Dict Str CovariateDef) (order : Nat → List Str → List Str) :
    Nat → Nat → List Str × List Str → Except NecessaryError (List Str)
  | 0, _, _ => .error .outOfFuel
  | fuel + 1, pass, (dependents, newDependents) =>
    if newDependents = [] then .ok dependents
    else
      match (order pass newDependents).foldlM (necessaryStep definitions) (dependents, []) with
      | .error e => .error e
      | .ok state => necessaryLoop definitions order fuel (pass + 1) state

/-- `identify_necessary_covariates` (`process_covariates.py:141-167`), `none` in the result is a definition
which does not exist. -/
def identifyNecessary (definitions : Dict Str CovariateDef) (order : Nat → List Str → List Str)
    (fuel : Nat) (dependents : List Str) :
    Except NecessaryError (List (Str × Option CovariateDef)) :=
  match necessaryLoop definitions order fuel 0 (dependents.dedup, dependents.dedup) with
  | .error e => .error e
  | .ok result => .ok (result.map fun dep => (dep, definitions.get? dep))

/-! ### Computing covariates -/

/-- A data frame: its columns and the levels of its index. A column is one value of `V`
(`respy/shared.py:240-316`). -/
structure Frame (V : Type _) where
  columns : Dict Str V
  index : Dict Str V
deriving DecidableEq, Repr

/-- The variables visible in `df.eval`: columns come before levels of the index (`respy/shared.py:291, 308`). -/
def Frame.lookup {V : Type _} (df : Frame V) (name : Str) : Option V :=
  (df.columns.get? name).or (df.index.get? name)

/-- The errors of `compute_covariates`: `df.eval` fails or covariates are left (`respy/shared.py:308-314`). -/
inductive ComputeError
  | eval (covariate : Str)
  | left (covariates : List Str)
  | outOfFuel
deriving DecidableEq, Repr

/-- The conditions for computing a covariate (`shared.py:287-303`). -/
def isReady {V : Type _} (notna : V → Bool) (checkNans : Bool) (df : Frame V) (d : CovariateDef) : Bool :=
  d.dependsOn.all (fun dep => (df.lookup dep).isSome) &&
    (!checkNans || d.dependsOn.all fun dep => (df.lookup dep).any notna)

/-- One pass over the covariates left (`shared.py:279-307`): the frame and the covariates which are still
left. `eval` is `df.eval` with `none` for an error. Simplified: the covariates left are kept with their
definitions, and instead of removing elements from a list of distinct names those which are not removed
are returned. -/
def computePass {V : Type _} (eval : (Str → Option V) → Str → Option V) (notna : V → Bool)
    (checkNans : Bool) : Frame V → List (Str × CovariateDef) →
      Except ComputeError (Frame V × List (Str × CovariateDef))
  | df, [] => .ok (df, [])
  | df, (covariate, d) :: rest =>
    if covariate ∈ df.columns.keys then computePass eval notna checkNans df rest
    else if isReady notna checkNans df d then
      match eval df.lookup d.formula with
      | none => .error (.eval covariate)
      | some v => computePass eval notna checkNans ⟨df.columns.insert covariate v, df.index⟩ rest
    else
      match computePass eval notna checkNans df rest with
      | .error e => .error e
      | .ok (df', left) => .ok (df', (covariate, d) :: left)

/-- The `while` loop (`shared.py:275-309`). -/
def computeLoop {V : Type _} (eval : (Str → Option V) → Str → Option V) (notna : V → Bool)
    (checkNans : Bool) : Nat → Frame V → List (Str × CovariateDef) →
      Except ComputeError (Frame V × List (Str × CovariateDef))
  | 0, _, _ => .error .outOfFuel
  | fuel + 1, df, left =>
    match computePass eval notna checkNans df left with
    | .error e => .error e
    | .ok (df', left') =>
      if left.length ≠ left'.length then computeLoop eval notna checkNans fuel df' left'
      else .ok (df', left')

/-- `compute_covariates` (`shared.py:240-314`). -/
def computeCovariates {V : Type _} (eval : (Str → Option V) → Str → Option V) (notna : V → Bool)
    (checkNans raiseErrors : Bool) (df : Frame V) (definitions : Dict Str CovariateDef) :
    Except ComputeError (Frame V) :=
  match computeLoop eval notna checkNans (definitions.length + 1) df definitions with
  | .error e => .error e
  | .ok (df', left) =>
    if left ≠ [] ∧ raiseErrors then .error (.left (left.map Prod.fst)) else .ok df'

end Respy
