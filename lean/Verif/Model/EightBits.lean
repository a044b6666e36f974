import Verif.Model.CoreStateSpace

/-!
# Periods with eight bits

`createCore` of `Model/CoreStateSpace` counts periods without bound. The code counts them with eight bits.
-/

namespace Respy

/-- `np.arange(n, dtype=np.uint8)`: the numbers wrap around (`respy/state_space.py:514`). -/
def arange8 (n : Nat) : List Nat := (List.range n).map (· % 256)

/-- `_create_core_from_choice_experiences` with periods of eight bits (`respy/state_space.py:486-527`) given
`additional_exp`. -/
def coreFromExperiences8 (nPeriods : Nat) (additional : List Nat) : List CoreState :=
  if additional = [] then []
  else (arange8 nPeriods).flatMap fun period =>
    (genPerPeriod period additional (List.replicate additional.length 0) 0).map fun e =>
      { period := period, exp := e, lags := [] }

/-- `_create_core_state_space` with periods of eight bits (`respy/state_space.py:408-483`). -/
def createCore8 (spec : CoreSpec) : Option (List CoreState) :=
  (additionalExp spec).map fun additional =>
    (addInitialExperiences spec.starts spec.maxExp
      (filterCore spec.filters
        (addLaggedChoices spec.nLags spec.nChoices
          (coreFromExperiences8 spec.nPeriods additional)))).insertionSort
      fun a b => a.period ≤ b.period

end Respy
