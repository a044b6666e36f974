import Verif.Spec.Simulation
import Verif.Lemmas.Simulate
import Verif.Props.Sampling

/-!
# Specification of the inputs of a simulation

What the arguments of a simulation have to satisfy to belong to a model.
-/

namespace Respy

variable {K : Type} [Field K] [LinearOrder K] [IsStrictOrderedRing K] {G P : Type}

/-- The weights of a characteristic: one row per individual, one weight per level, sum one. -/
structure Characteristic.WF (ch : Characteristic K) : Prop where
  rows : ∀ fp, (ch.probs fp).length = fp.length
  weights : ∀ fp, ∀ ps ∈ ch.probs fp, ps.length = ch.levels.length ∧ SumsToOne ps

/-- Known values of the row are among the allowed ones. -/
def RowAllowed (allowed : List (List Nat)) (row : CharRow) : Prop :=
  List.Forall₂ (fun x l => ∀ v, x = some v → v ∈ l) row allowed

/-- The dense grid consists of all combinations of the levels. -/
def BuildSpec.DenseLevels (b : BuildSpec) (levels : List (List Nat)) : Prop :=
  match b.grid with
  | none => levels = []
  | some grid => grid = product levels

/-- The values which an individual can have in the first period: starting values of experiences, choices
as lagged choices and levels of the dense columns. -/
def BuildSpec.initialLevels (b : BuildSpec) (levels : List (List Nat)) : List (List Nat) :=
  b.core.starts ++ List.replicate b.core.nLags (List.range b.core.nChoices) ++ levels

/-- The first period belongs to the model: there is a period, starting values do not exceed the maximum of
experience, there is at most one lagged choice (see `C04_lag_combinations_false` for more lags), and no filter
removes the first period. Filters see experiences without the starting values (`C05_core_mem_iff`). -/
structure BuildSpec.StartsInCore (b : BuildSpec) : Prop where
  lags : b.core.nLags ≤ 1
  filters : ∀ f ∈ b.core.filters, ∀ lags : List (Option Nat), lags.length = b.core.nLags →
    (∀ l ∈ lags, ∃ c, c < b.core.nChoices ∧ l = some c) →
    f ⟨0, List.replicate b.core.starts.length 0, lags⟩ = false
  periods : 0 < b.core.nPeriods
  max : List.Forall₂ (fun l m => ∀ x ∈ l, x ≤ m) b.core.starts b.core.maxExp

/-- The arguments of a simulation fit to the model. -/
structure Simulation.Fits (sim : Simulation K G P) (b : BuildSpec) (core : List CoreState)
    (levels : List (List Nat)) (params : P) : Prop where
  source : sim.rs.Contract
  individuals : sim.input ≠ []
  nExp : sim.nExp = b.core.starts.length
  nLags : sim.nLags = b.core.nLags
  periods : sim.nPeriods ≤ b.core.nPeriods
  rewards : (sim.rewards params).WF b core
  draws : sim.input.length * sim.nPeriods ≤ sim.draws.length
  drawsWage : sim.input.length * sim.nPeriods ≤ sim.drawsWage.length
  drawsRow : ∀ row ∈ sim.draws, row.length = (sim.rewards params).measError.length
  drawsWageRow : ∀ row ∈ sim.drawsWage, row.length = (sim.rewards params).measError.length
  input : ∀ row ∈ sim.input, RowAllowed (b.initialLevels levels) row
  chars : ∀ ch ∈ sim.chars params, ch.WF ∧
    ∀ l, (b.initialLevels levels)[ch.column]? = some l → ∀ v ∈ ch.levels, v ∈ l
  complete : ∀ row ∈ sim.input, ∀ c < (b.initialLevels levels).length, row[c]? = some none →
    ∃ ch ∈ sim.chars params, ch.column = c

end Respy
