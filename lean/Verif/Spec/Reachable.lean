import Verif.Model.FormerCode

/-!
# States which can be reached
-/

namespace Respy

/-- An individual with one of the starting values, whose previous choice is one of those which are possible in the first
period, makes choices until the last period. Choices are allowed, and none is made whose experience has reached its
maximum. There is at most one lagged choice. -/
inductive ReachableState (spec : CoreSpec) (initial : List (Option Nat) → Prop) (allowed : CoreState → Nat → Prop) :
    CoreState → Prop
  | start (init : List Nat) (lags : List (Option Nat)) : 0 < spec.nPeriods → List.Forall₂ (· ∈ ·) init spec.starts →
      List.Forall₂ (· ≤ ·) init spec.maxExp → initial lags → ReachableState spec initial allowed ⟨0, init, lags⟩
  | step (s : CoreState) (choice : Nat) : ReachableState spec initial allowed s → s.period + 1 < spec.nPeriods →
      choice < spec.nChoices → allowed s choice →
      (∀ e m, s.exp[choice]? = some e → spec.maxExp[choice]? = some m → e < m) →
      ReachableState spec initial allowed ⟨s.period + 1, s.exp.mapIdx fun i e => if i = choice then e + 1 else e,
        s.lags.mapIdx fun i l => if i = 0 then some choice else l⟩

/-- All choices are allowed. -/
def AllAllowed (_ : CoreState) (_ : Nat) : Prop := True

/-- In the first period individuals have not worked (`respy/tests/resources/kw_94_one.yaml:23-24`). -/
def NotWorked (nWage nChoices : Nat) (lags : List (Option Nat)) : Prop :=
  ∃ c, nWage ≤ c ∧ c < nChoices ∧ lags = [some c]

/-- A state space with one lagged choice, a choice without experience and filters which exclude the same states as the
filters of Keane and Wolpin. The first `nWage` choices have a wage. -/
structure CoreSpec.KeaneWolpin (spec : CoreSpec) (nWage : Nat) : Prop where
  lags : spec.nLags = 1
  wage : nWage ≤ spec.starts.length
  home : spec.starts.length < spec.nChoices
  filters : ∀ (t : Nat) (extra : List Nat) (lag : Nat), extra.length = spec.starts.length → lag < spec.nChoices →
    ((∀ f ∈ spec.filters, f ⟨t, extra, [some lag]⟩ = false) ↔
      ∀ f ∈ keaneWolpinFilters nWage spec.starts.length spec.nChoices, f ⟨t, extra, [some lag]⟩ = false)

/-- The state space of the extended model of Robinson Crusoe: no starting values and maxima are given, and the filters
exclude the same states as those of the model. -/
structure CoreSpec.Robinson (spec : CoreSpec) : Prop where
  choices : spec.nChoices = 3
  starts : spec.starts = [[0], [0]]
  maxima : spec.maxExp = [spec.nPeriods - 1, spec.nPeriods - 1]
  lags : spec.nLags = 1
  filters : ∀ t fish friday lag : Nat, lag < 3 →
    ((∀ f ∈ spec.filters, f ⟨t, [fish, friday], [some lag]⟩ = false) ↔
      ∀ f ∈ robinsonFilters, f ⟨t, [fish, friday], [some lag]⟩ = false)

/-- Robinson may talk to Friday only from the third period on and after they have fished
(`respy/tests/resources/robinson_crusoe_extended.yaml:14-18`). -/
def RobinsonMay (s : CoreState) (choice : Nat) : Prop :=
  choice = 1 → 2 ≤ s.period ∧ s.exp[0]? ≠ some 0

end Respy
