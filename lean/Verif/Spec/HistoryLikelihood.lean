import Verif.Spec.Histories
import Verif.Spec.LogLikeModel

/-!
# Specification of the likelihood of complete histories

For C113: the likelihood of the choices and wages of an individual in all periods, as a function of the history.
-/

namespace Respy

open MeasureTheory

noncomputable section

/-- What is observed of an individual in a period is one of `n` choices and a wage. A wage of zero stands for a missing
wage. Densities are meant with respect to the counting measure for the choices and, for the wages, the length on the
positive numbers and a unit mass at zero. -/
def observedMeasure (n : Nat) : Measure (Fin n × ℝ) :=
  Measure.count.prod (volume.restrict (Set.Ioi 0) + Measure.dirac 0)

/-- The histories over `T` periods, with independent reference measures. -/
def historyMeasure (n T : Nat) : Measure (Fin T → Fin n × ℝ) := Measure.pi fun _ => observedMeasure n

/-- The choices of a history. -/
def choicesOf {n T : Nat} (h : Fin T → Fin n × ℝ) (t : Nat) : Nat := if ht : t < T then (h ⟨t, ht⟩).1 else 0

/-- The choice is available, and a wage is observed exactly for the choices with a wage. -/
def PossibleObservation (nWages : Nat) (cs : List Bool) (a : Nat) (x : ℝ) : Prop :=
  cs[a]? = some true ∧ (a < nWages → 0 < x) ∧ (nWages ≤ a → x = 0)

/-- All observations of a history are possible. -/
def PossibleHistory (nWages : Nat) (b : BuildSpec) (d : Option Nat) (s : CoreState) {n T : Nat}
    (h : Fin T → Fin n × ℝ) : Prop :=
  ∀ t : Fin T, PossibleObservation nWages (b.choiceSetAt d (coreAlong s (choicesOf h) t)) (h t).1 (h t).2

/-- `l` is the likelihood of the history of an individual who starts in state `s`: the product over periods of the
probability of the choice given the wage and the density of the wage, and zero for impossible histories. -/
def IsHistoryLikelihood (p : RewardParams ℝ) (tau : ℝ) (b : BuildSpec) (w m : Option Nat → CoreState → Nat → ℝ)
    (V : Option Nat → CoreState → ℝ) (d : Option Nat) (s : CoreState) {n T : Nat} (h : Fin T → Fin n × ℝ)
    (l : ℝ) : Prop :=
  (PossibleHistory p.nWagesRaw b d s h ∧ ∃ prob : Fin T → ℝ,
      (∀ t : Fin T, IsExpectedChoiceProbability p.hi tau p.betaDelta p.nWagesRaw p.cholesky
        (b.choiceSetAt d (coreAlong s (choicesOf h) t)) (fun a => p.measError.getD a 0)
        (w d (coreAlong s (choicesOf h) t)) (m d (coreAlong s (choicesOf h) t))
        (expectedNext b V d (coreAlong s (choicesOf h) t)) (h t).1
        (if ((h t).1 : Nat) < p.nWagesRaw then some (h t).2 else none) (prob t)) ∧
      l = ∏ t, prob t * densityOf p.cholesky (b.choiceSetAt d (coreAlong s (choicesOf h) t))
        (fun a => p.measError.getD a 0) (w d (coreAlong s (choicesOf h) t)) (h t).1
        (if ((h t).1 : Nat) < p.nWagesRaw then some (h t).2 else none)) ∨
    (¬ PossibleHistory p.nWagesRaw b d s h ∧ l = 0)

/-- `l` is the likelihood of the history of an individual whose type is unknown: the average over the types `k` with
their probabilities; `d k` is the index of the characteristics with type `k`. -/
def IsMixtureLikelihood (p : RewardParams ℝ) (tau : ℝ) (b : BuildSpec) (w m : Option Nat → CoreState → Nat → ℝ)
    (V : Option Nat → CoreState → ℝ) {K : Nat} (d : Fin K → Option Nat) (weight : Fin K → ℝ) (s : CoreState)
    {n T : Nat} (h : Fin T → Fin n × ℝ) (l : ℝ) : Prop :=
  ∃ q : Fin K → ℝ, (∀ k, IsHistoryLikelihood p tau b w m V (d k) s h (q k)) ∧ l = ∑ k, weight k * q k

/-- What is known about an individual before the first period: the state, the indices of the characteristics with each
type and the number of periods in the data. -/
structure Individual (K : Nat) where
  start : CoreState
  dense : Fin K → Option Nat
  periods : Nat

/-- The individual starts in the first period in a state of the model. -/
structure Individual.Valid {K : Nat} (i : Individual K) (b : BuildSpec) (core : List CoreState) : Prop where
  start : i.start ∈ core
  first : i.start.period = 0
  dense : ∀ k, i.dense k ∈ b.denseIndices
  periods : i.periods ≤ b.core.nPeriods

/-- What parameters mean for the likelihood: parameters of rewards and shocks, smoothing, wages, nonpecuniary rewards,
expected values of states and the probabilities of types for each individual. -/
structure Hypothesis (N K : Nat) where
  rewards : RewardParams ℝ
  tau : ℝ
  wage : Option Nat → CoreState → Nat → ℝ
  nonpec : Option Nat → CoreState → Nat → ℝ
  value : Option Nat → CoreState → ℝ
  weight : Fin N → Fin K → ℝ

/-- The parameters fit the model: wages are uncertain and all types have positive probability. -/
structure Hypothesis.Valid {N K : Nat} (θ : Hypothesis N K) (b : BuildSpec) (core : List CoreState) : Prop where
  rewards : θ.rewards.WF b core
  uncertain : b.UncertainWages core θ.rewards
  positive : ∀ i k, 0 < θ.weight i k
  total : ∀ i, ∑ k, θ.weight i k = 1

/-- `f` is the likelihood of the histories of individual `i`. -/
def Hypothesis.Likelihood {N K : Nat} (θ : Hypothesis N K) (b : BuildSpec) (ind : Fin N → Individual K) (i : Fin N)
    {n : Nat} (f : (Fin (ind i).periods → Fin n × ℝ) → ℝ) : Prop :=
  ∀ h, IsMixtureLikelihood θ.rewards θ.tau b θ.wage θ.nonpec θ.value (ind i).dense (θ.weight i) (ind i).start h (f h)

end

end Respy
