import Verif.Model.Shocks
import Mathlib.Analysis.SpecialFunctions.Log.Basic

/-!
# The likelihood function

Model of `respy/likelihood.py:179-269, 333-477, 620-652`. Floats are real numbers; overflow and
rounding are not modelled. `np.exp` and `np.log` are `Real.exp` and `Real.log`.
-/

namespace Respy

noncomputable section

/-! ### Log-sum-exp -/

/-- The loop searching the maximum (`respy/likelihood.py:382-386`); `none` is Python's `None`. -/
def runningMax : Option ℝ → List ℝ → Option ℝ
  | m, [] => m
  | none, x :: xs => runningMax (some x) xs
  | some m, x :: xs => runningMax (some (if x > m then x else m)) xs

/-- The numbers `diff` to which `np.exp` is applied (`respy/likelihood.py:390-391`). -/
def expDiffs (m : ℝ) (xs : List ℝ) : List ℝ := xs.map fun x => x - m

/-- The loop accumulating `sum_exp` (`respy/likelihood.py:389-392`). -/
def sumExp (diffs : List ℝ) : ℝ := diffs.foldl (fun acc d => acc + Real.exp d) 0

/-- `_logsumexp` (`respy/likelihood.py:367-396`); `none` is the `TypeError` for an empty array. The
function `scipy.special.logsumexp` used for type probabilities and mixtures is modelled by the same
function. -/
def logSumExp (xs : List ℝ) : Option ℝ :=
  (runningMax none xs).map fun m => m + Real.log (sumExp (expDiffs m xs))

/-! ### Simulated choice probabilities -/

/-- The body of the loop over the draws in
`_simulate_log_probability_of_individuals_observed_choice` (`respy/likelihood.py:461-473`): the
smoothed log probability of the choice for one draw. -/
def drawLogProb (delta tau : ℝ) (wages nonpecs cvs draw : List ℝ) (choice : Nat) : Option ℝ := do
  let smoothed := (valueFunctions delta wages nonpecs cvs draw).map fun v => v / tau
  let v ← smoothed[choice]?
  let total ← logSumExp smoothed
  pure (v - total)

/-- `_simulate_log_probability_of_individuals_observed_choice` (`respy/likelihood.py:399-477`). -/
def simulatedLogProb (delta tau : ℝ) (wages nonpecs cvs : List ℝ) (draws : List (List ℝ))
    (choice : Nat) : Option ℝ := do
  let logProbs ← draws.mapM fun draw => drawLogProb delta tau wages nonpecs cvs draw choice
  let total ← logSumExp logProbs
  pure (total - Real.log draws.length)

end

/-! ### Choice codes -/

/-- `np.searchsorted(a, v)` for sorted `a`: the number of entries before the first entry which is at
least `v` (`respy/likelihood.py:649`). -/
def searchsortedLeft (keys : List Nat) (v : Nat) : Nat := (keys.takeWhile fun k => k < v).length

/-- `_map_choice_codes_to_indices_of_valid_choice_set` for one choice
(`respy/likelihood.py:620-652`). `list(mapper)` are the valid choices, which are sorted, and
`list(mapper.values())` is `0, 1, …`. `none` is the `IndexError` of the last line. -/
def mapChoiceCode (cs : List Bool) (choice : Nat) : Option Nat :=
  (List.range (validChoices cs).length)[searchsortedLeft (validChoices cs) choice]?

/-! ### Aggregation over periods and types -/

/-- A row of the data frame with the log likelihood of an individual, a period and a type
(`respy/likelihood.py:242-249`). -/
structure LoglikeRow where
  identifier : Nat
  period : Nat
  type : Nat
  choice : ℝ
  wage : ℝ

/-- `groupby(["identifier", "period", "type"]).first().unstack("type")`
(`respy/likelihood.py:236-240`): the entry of the wide table for an observation and a type; `none` is a
missing value. -/
def wideEntry (rows : List LoglikeRow) (identifier period type : Nat) : Option LoglikeRow :=
  rows.find? fun r => r.identifier = identifier ∧ r.period = period ∧ r.type = type

/-- The index of the wide table: the observations, sorted and without repetition. Sorting is
irrelevant for sums and is not modelled (`respy/likelihood.py:242-249`). -/
def wideIndex (rows : List LoglikeRow) : List (Nat × Nat) :=
  (rows.map fun r => (r.identifier, r.period)).dedup

noncomputable section

/-- `per_individual_loglikes` (`respy/likelihood.py:244-245`): the sum over the observations of an
individual; missing values are skipped by `sum`. -/
def perIndividual (rows : List LoglikeRow) (type identifier : Nat) : ℝ :=
  (((wideIndex rows).filter fun o => o.1 = identifier).filterMap fun o =>
    (wideEntry rows o.1 o.2 type).map fun r => r.choice + r.wage).sum

/-- `_compute_log_type_probabilities` for one individual (`respy/likelihood.py:333-342`). -/
def logTypeProbabilities (lo hi : ℝ) (xBetas : List ℝ) : Option (List ℝ) :=
  (logSumExp xBetas).map fun total => xBetas.map fun x => clip lo hi (x - total)

/-- The contribution of an individual for at least two types (`respy/likelihood.py:247-263`).
`xBetas` are the dot products of the type covariates of the individual. -/
def mixtureContribution (lo hi : ℝ) (rows : List LoglikeRow) (xBetas : List ℝ)
    (identifier : Nat) : Option ℝ := do
  let logProbs ← logTypeProbabilities lo hi xBetas
  let weighted := logProbs.mapIdx fun type p => perIndividual rows type identifier + p
  let total ← logSumExp weighted
  pure (clip lo hi total)

/-- The rows of `type_covariates` (`respy/likelihood.py:541-546`): the data have been duplicated for
each type before, hence each individual with an observation in period zero has one row per type. -/
def typeCovariateRows (nTypes : Nat) (identifiers : List Nat) : List Nat :=
  identifiers.flatMap fun i => List.replicate nTypes i

/-- `contribs` (`respy/likelihood.py:247-265`). With at least two types, pandas aligns
`per_individual_loglikes`, indexed by the identifier, and `log_type_probabilities`, indexed by
identifier and period with one row for each row of `type_covariates`; the result has one row for each
row of the latter. `identifiers` are the sorted identifiers, `xBetas` the dot products by identifier. -/
def contributions (lo hi : ℝ) (nTypes : Nat) (rows : List LoglikeRow) (identifiers : List Nat)
    (xBetas : Nat → List ℝ) : Option (List ℝ) :=
  if nTypes ≥ 2 then
    (typeCovariateRows nTypes identifiers).mapM fun i => mixtureContribution lo hi rows (xBetas i) i
  else some (identifiers.map fun i => clip lo hi (perIndividual rows 0 i))

/-- `contribs.mean()` (`respy/likelihood.py:167`). -/
def meanOf (xs : List ℝ) : ℝ := xs.sum / xs.length

end

end Respy
