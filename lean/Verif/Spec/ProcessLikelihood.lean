import Verif.Spec.Comparative
import Verif.Spec.HistoryLikelihood
import Verif.Spec.ValueFunction

/-!
# Specification of the likelihood with exogenous processes

For C114: histories of choices, wages and exogenous processes. The lists `future d s` contain the dense indices which
can follow the index `d` in state `s`, one for each combination of levels of the processes, with their probabilities.
-/

namespace Respy

open MeasureTheory

noncomputable section

/-- What is observed in a period: one of `n` choices, the levels of the exogenous processes in the following period,
which are one of `E` combinations, and a wage, as in `observedMeasure`. -/
abbrev ProcessHistory (n E T : Nat) := Fin T → (Fin n × Fin E) × ℝ

/-- The reference measure for histories with exogenous processes. -/
def processMeasure (n E T : Nat) : Measure (ProcessHistory n E T) :=
  Measure.pi fun _ => Measure.count.prod (volume.restrict (Set.Ioi 0) + Measure.dirac 0)

/-- The dense index which follows with the levels `e`. -/
def nextIndex (future : Option Nat → CoreState → List (Option Nat × ℝ)) (d : Option Nat) (s : CoreState) (e : Nat) :
    Option Nat :=
  ((future d s)[e]?.map Prod.fst).getD d

/-- The probability of the levels `e` in the following period. -/
def levelsProbability (future : Option Nat → CoreState → List (Option Nat × ℝ)) (d : Option Nat) (s : CoreState)
    (e : Nat) : ℝ :=
  ((future d s)[e]?.map Prod.snd).getD 0

/-- The dense index and the core state of an individual in period `t` of a history. -/
def stateAlong (future : Option Nat → CoreState → List (Option Nat × ℝ)) (x : Option Nat × CoreState) {n E T : Nat}
    (h : ProcessHistory n E T) : Nat → Option Nat × CoreState
  | 0 => x
  | t + 1 => if ht : t < T then
      (nextIndex future (stateAlong future x h t).1 (stateAlong future x h t).2 (h ⟨t, ht⟩).1.2,
        lawOfMotion (stateAlong future x h t).2 (h ⟨t, ht⟩).1.1)
    else stateAlong future x h t

/-- All choices are available and wages are observed exactly for the choices with a wage. -/
def PossibleAlong (nWages : Nat) (b : BuildSpec) (future : Option Nat → CoreState → List (Option Nat × ℝ))
    (x : Option Nat × CoreState) {n E T : Nat} (h : ProcessHistory n E T) : Prop :=
  ∀ t : Fin T, PossibleObservation nWages
    (b.choiceSetAt (stateAlong future x h t).1 (stateAlong future x h t).2) (h t).1.1 (h t).2

/-- `l` is the likelihood of the choices and wages of an individual in the states of the history: the product over
periods of choice probabilities and densities of wages, and zero for impossible choices and wages. -/
def IsLikelihoodAlong (p : RewardParams ℝ) (tau : ℝ) (b : BuildSpec) (w m : Option Nat → CoreState → Nat → ℝ)
    (future : Option Nat → CoreState → List (Option Nat × ℝ)) (V : Option Nat → CoreState → ℝ)
    (x : Option Nat × CoreState) {n E T : Nat} (h : ProcessHistory n E T) (l : ℝ) : Prop :=
  let d := fun t => (stateAlong future x h t).1
  let s := fun t => (stateAlong future x h t).2
  (PossibleAlong p.nWagesRaw b future x h ∧ ∃ prob : Fin T → ℝ,
      (∀ t : Fin T, IsExpectedChoiceProbability p.hi tau p.betaDelta p.nWagesRaw p.cholesky (b.choiceSetAt (d t) (s t))
        (fun a => p.measError.getD a 0) (w (d t) (s t)) (m (d t) (s t)) (continuationOf b future V (d t) (s t))
        (h t).1.1 (if ((h t).1.1 : Nat) < p.nWagesRaw then some (h t).2 else none) (prob t)) ∧
      l = ∏ t, prob t * densityOf p.cholesky (b.choiceSetAt (d t) (s t)) (fun a => p.measError.getD a 0) (w (d t) (s t))
        (h t).1.1 (if ((h t).1.1 : Nat) < p.nWagesRaw then some (h t).2 else none)) ∨
    (¬ PossibleAlong p.nWagesRaw b future x h ∧ l = 0)

/-- The probability of the exogenous processes in the states of the history. -/
def processesAlong (future : Option Nat → CoreState → List (Option Nat × ℝ)) (x : Option Nat × CoreState)
    {n E T : Nat} (h : ProcessHistory n E T) : ℝ :=
  ∏ t : Fin T, levelsProbability future (stateAlong future x h t).1 (stateAlong future x h t).2 (h t).1.2

/-- What parameters mean for the likelihood with exogenous processes. -/
structure ProcessHypothesis where
  rewards : RewardParams ℝ
  tau : ℝ
  wage : Option Nat → CoreState → Nat → ℝ
  nonpec : Option Nat → CoreState → Nat → ℝ
  value : Option Nat → CoreState → ℝ
  future : Option Nat → CoreState → List (Option Nat × ℝ)

/-- The parameters fit the model: wages are uncertain, and the processes have `E` combinations of levels, whose
probabilities sum to one. -/
structure ProcessHypothesis.Valid (θ : ProcessHypothesis) (b : BuildSpec) (core : List CoreState) (E : Nat) : Prop where
  rewards : θ.rewards.WF b core
  uncertain : b.UncertainWages core θ.rewards
  transition : IsTransition b core θ.future
  levels : ∀ d ∈ b.denseIndices, ∀ s ∈ core, (θ.future d s).length = E

/-- `f` is the likelihood of the histories of an individual who starts in `x`. -/
def ProcessHypothesis.Likelihood (θ : ProcessHypothesis) (b : BuildSpec) (x : Option Nat × CoreState) {n E T : Nat}
    (f : ProcessHistory n E T → ℝ) : Prop :=
  ∀ h, IsLikelihoodAlong θ.rewards θ.tau b θ.wage θ.nonpec θ.future θ.value x h (f h)

end

end Respy
