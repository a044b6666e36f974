import Verif.Model.Build
import Verif.Model.CoreStateSpace
import Verif.Spec.Core

/-!
# Specification of well-formed inputs of the state space creation
-/

namespace Respy

/-- The dense indices of a model; a model without dense dimensions has the only index `none`. -/
def BuildSpec.denseIndices (b : BuildSpec) : List (Option Nat) :=
  match b.grid with
  | none => [none]
  | some grid => (List.range grid.length).map some

/-- The admissible choice set of a core state together with a dense index. -/
def BuildSpec.choiceSetAt (b : BuildSpec) (d : Option Nat) (s : CoreState) : List Bool :=
  match d with
  | none => choiceSet b.restrCore s
  | some d => choiceSet (b.restr d) s

/-- Inputs for which the state space is sound.

* `covered`: every period has a state. It is a theorem for models without filters (`C01_periods_covered`).
* `several`: models with dense dimensions have a dense index and at least two choices (`C103_one_choice_false`).
* `compatible`: restrictions with dense information do not split the states of a period which have the
  same choice set on the core; otherwise the code raises a `ValueError`.
* `distinct`: restrictions with dense information do not unify choice sets of a period; otherwise states
  are lost (`C07_dense_key_false`).
* `closed`: admissible choices do not lead out of the core. It is a theorem for models without
  filters (`C02_closed_under_admissible_choices`). -/
structure BuildSpec.WF (b : BuildSpec) (core : List CoreState) : Prop where
  spec : b.core.WF
  created : createCore b.core = some core
  periods : 0 < b.core.nPeriods
  covered : ∀ t < b.core.nPeriods, ∃ s ∈ core, s.period = t
  several : ∀ grid, b.grid = some grid → grid ≠ [] ∧ b.restrCore.length ≠ 1
  compatible : ∀ grid, b.grid = some grid → ∀ d < grid.length, ∀ s ∈ core, ∀ s' ∈ core,
    s.period = s'.period → choiceSet b.restrCore s = choiceSet b.restrCore s' →
    choiceSet (b.restr d) s = choiceSet (b.restr d) s'
  distinct : ∀ grid, b.grid = some grid → ∀ d < grid.length, ∀ s ∈ core, ∀ s' ∈ core,
    s.period = s'.period → choiceSet (b.restr d) s = choiceSet (b.restr d) s' →
    choiceSet b.restrCore s = choiceSet b.restrCore s'
  closed : ∀ s ∈ core, s.period + 1 < b.core.nPeriods → ∀ d ∈ b.denseIndices, ∀ a : Nat,
    (b.choiceSetAt d s)[a]? = some true → lawOfMotion s a ∈ core

/-- Inputs for which every state has a dense key: as `BuildSpec.WF`, but admissible choices may lead out of the
core. -/
structure BuildSpec.Grouped (b : BuildSpec) (core : List CoreState) : Prop where
  spec : b.core.WF
  created : createCore b.core = some core
  periods : 0 < b.core.nPeriods
  covered : ∀ t < b.core.nPeriods, ∃ s ∈ core, s.period = t
  several : ∀ grid, b.grid = some grid → grid ≠ [] ∧ b.restrCore.length ≠ 1
  compatible : ∀ grid, b.grid = some grid → ∀ d < grid.length, ∀ s ∈ core, ∀ s' ∈ core,
    s.period = s'.period → choiceSet b.restrCore s = choiceSet b.restrCore s' →
    choiceSet (b.restr d) s = choiceSet (b.restr d) s'
  distinct : ∀ grid, b.grid = some grid → ∀ d < grid.length, ∀ s ∈ core, ∀ s' ∈ core,
    s.period = s'.period → choiceSet (b.restr d) s = choiceSet (b.restr d) s' →
    choiceSet b.restrCore s = choiceSet b.restrCore s'

theorem BuildSpec.WF.grouped {b : BuildSpec} {core : List CoreState} (wf : b.WF core) : b.Grouped core :=
  ⟨wf.spec, wf.created, wf.periods, wf.covered, wf.several, wf.compatible, wf.distinct⟩

theorem BuildSpec.Grouped.denseIndices_ne_nil {b : BuildSpec} {core : List CoreState} (h : b.Grouped core) :
    b.denseIndices ≠ [] := by
  unfold BuildSpec.denseIndices
  cases hg : b.grid with
  | none => simp
  | some grid =>
    have := (h.several grid hg).1
    cases grid with
    | nil => exact absurd rfl this
    | cons x xs => simp [List.range_succ_eq_map]

/-- The dense index with the same static characteristics as `d` and the levels `e` of the exogenous
processes. -/
def BuildSpec.successor (b : BuildSpec) (d : Option Nat) (e : List Nat) : Option Nat := do
  let grid ← b.grid
  let i ← d
  let point ← grid[i]?
  pure (grid.idxOf (point.take (point.length - b.exogLevels.length) ++ e))

/-- Models with exogenous processes for which the dense grid is the product of static characteristics and
of the levels of the processes, the processes being the last dimensions (see `C06_dense_grid_false` for
what happens otherwise), and with one restriction per choice. -/
structure BuildSpec.ExogWF (b : BuildSpec) (static : List (List Nat)) : Prop where
  processes : b.exogLevels ≠ []
  grid : b.grid = some (product (static ++ b.exogLevels.map List.range))
  nodup : ∀ l ∈ static, l.Nodup
  lengths : ∀ d, (b.restr d).length = b.restrCore.length

/-- The value stored for the core state `s` and the dense index `d`: the location of `s` is looked up in
the indexer, the dense key in `core_key_and_dense_index_to_dense_key`. -/
def Built.ValueAt {K : Type _} (bt : Built) (ev : Dict Nat (List K)) (d : Option Nat) (s : CoreState)
    (v : K) : Prop :=
  ∃ coreKey position denseKey stored, bt.indexer.get? s = some (coreKey, position) ∧
    bt.space.lookup.get? (coreKey, d.getD 0) = some denseKey ∧ Dict.get? ev denseKey = some stored ∧
    stored[position]? = some v

end Respy
