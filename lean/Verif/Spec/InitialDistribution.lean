import Verif.Model.Simulate
import Mathlib.MeasureTheory.Constructions.Pi
import Mathlib.MeasureTheory.Measure.Lebesgue.Basic
import Mathlib.Probability.Independence.Basic

/-!
# Specification of the distribution of initial characteristics

C111: characteristics are sampled one after the other, with probabilities which depend on the ones already known.
-/

open MeasureTheory ProbabilityTheory

namespace Respy

noncomputable section

/-- The distribution of a characteristic: its column, its levels and their probabilities for individual `j` whose
characteristics so far are `row`. -/
structure CharacteristicLaw where
  column : Nat
  levels : List Nat
  weights : (j : Nat) → (row : CharRow) → List ℝ

/-- The probability that individual `j` with the known characteristics `row` ends up with the characteristics `target`:
known characteristics are kept, missing ones have the levels with the given probabilities. -/
def initialProbability (j : Nat) (target : CharRow) : List CharacteristicLaw → CharRow → ℝ
  | [], row => if row = target then 1 else 0
  | l :: laws, row => ((l.levels.zip (l.weights j row)).map fun x =>
      x.2 * initialProbability j target laws (fillColumn l.column row x.1)).sum

/-- Nonnegative numbers, one for each level, which sum to one. -/
def IsDistribution (levels : List Nat) (ps : List ℝ) : Prop :=
  ps.length = levels.length ∧ (∀ q ∈ ps, 0 ≤ q) ∧ ps.sum = 1

/-- The characteristics have the distributions `laws`: probabilities of an individual do not depend on the others.
`R j` are the characteristics which individual `j` out of `n` can have so far. -/
def FollowLaws (n : Nat) : List (Characteristic ℝ) → List CharacteristicLaw → (R : Nat → CharRow → Prop) → Prop
  | [], [], _ => True
  | ch :: chars, l :: laws, R =>
    ch.column = l.column ∧ ch.levels = l.levels ∧ l.levels.Nodup ∧
    (∀ fp : List CharRow, fp.length = n → (∀ j row, fp[j]? = some row → R j row) → ch.probs fp = fp.mapIdx l.weights) ∧
    (∀ j < n, ∀ row, R j row → IsDistribution l.levels (l.weights j row)) ∧
    FollowLaws n chars laws fun j row' => ∃ row, R j row ∧ ∃ v ∈ l.levels, row' = fillColumn l.column row v
  | _, _, _ => False

/-- The uniform numbers for `k` characteristics of `n` individuals (`respy/simulate.py:537, 649`): the generator is
seeded for each characteristic with the next seed; all numbers are independent. -/
structure InitialNumbers {Ω : Type} [MeasurableSpace Ω] (Q : Measure Ω) {G : Type} (rs : Ω → RandomSource ℝ G)
    (seed : Nat) {n k : Nat} (U : Fin n → Ω → Fin k → ℝ) : Prop where
  draws : ∀ ω (i : Fin k), ((rs ω).uniform ((rs ω).seed (seed + i)) n).1 = List.ofFn fun j => U j ω i
  measurable : ∀ j, Measurable (U j)
  law : ∀ j, Q.map (U j) = Measure.pi fun _ => volume.restrict (Set.Ico 0 1)
  independent : iIndepFun U Q

end

end Respy
