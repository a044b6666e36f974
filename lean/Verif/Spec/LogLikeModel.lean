import Verif.Model.LogLike
import Verif.Spec.LogLike
import Verif.Lemmas.ConditionalDraws
import Mathlib.Algebra.BigOperators.Group.Finset.Basic
import Mathlib.Order.Interval.Set.Defs

/-!
# Specification of the criterion function

What it means that the value of the criterion function is the likelihood of the data in a model with the
rewards `w`, `m`, the value function `V` and the possible changes of the dense index `future`. Independent
of dense keys, locations and arrays of the state space.
-/

namespace Respy

noncomputable section

variable {P : Type}

/-- The number of types; models without types are those with a single type. -/
def Estimation.typeCount (e : Estimation P) : Nat := if e.nTypes ≥ 2 then e.nTypes else 1

/-- The state of an observation if the individual is of type `t`. -/
def Estimation.stateOf (e : Estimation P) (r : EstimationRow) (t : Nat) : SimState :=
  if e.nTypes ≥ 2 then
    ⟨r.state.core, r.state.dense.take e.nStatic ++ t :: r.state.dense.drop e.nStatic⟩
  else r.state

/-- A number whose logarithm is bounded by `lo` and `hi`. -/
def bounded (lo hi x : ℝ) : ℝ := Real.exp (min (max (Real.log x) lo) hi)

/-- What enters the likelihood for an observation and a type: choice probability, wage density and the
draws with which the former is simulated. -/
structure LikelihoodTerm where
  prob : ℝ
  density : ℝ
  draws : List (List ℝ)

/-- The term of an observation and a type follows the model. The draws are row `source.2` of the array of base
draws with seed `source.1`; `size seed` are the numbers of rows and alternatives of this array. -/
def TermFollows (b : BuildSpec) (w m : Option Nat → CoreState → Nat → ℝ)
    (future : Option Nat → CoreState → List (Option Nat × ℝ)) (V : Option Nat → CoreState → ℝ)
    (e : Estimation P) (p : LikelihoodParams) (size : Nat → Nat × Nat) (source : Nat × Nat)
    (r : EstimationRow) (t : Nat) (x : LikelihoodTerm) : Prop :=
  ∃ d, b.HasIndex (e.stateOf r t).dense d ∧
    IsChoiceProbability e.maxLog e.tau p.betaDelta p.nWagesRaw p.cholesky (b.choiceSetAt d r.state.core)
      (fun a => p.measError.getD a 0) (w d r.state.core) (m d r.state.core)
      (continuationOf b future V d r.state.core) r.choice r.wage
      (x.draws.map (shocksOf (b.choiceSetAt d r.state.core))) x.prob ∧
    0 < x.prob ∧
    x.density = densityOf p.cholesky (b.choiceSetAt d r.state.core) (fun a => p.measError.getD a 0)
      (w d r.state.core) r.choice r.wage ∧
    0 < x.density ∧
    (size source.1).2 = (b.choiceSetAt d r.state.core).count true ∧
    (e.base (size source.1).1 (size source.1).2 source.1)[source.2]? = some x.draws

/-- The probability of type `t` in a multinomial logit model. -/
def typeWeight (T : Nat) (x : Nat → ℝ) (t : Nat) : ℝ :=
  Real.exp (x t) / ∑ s ∈ Finset.range T, Real.exp (x s)

/-- The likelihood of the observations of individual `i`: the mixture over types of the product over periods.
`f` is applied to all probabilities and densities. -/
def individualLikelihood (f : ℝ → ℝ) (T : Nat) (data : List EstimationRow)
    (term : Nat → Nat → Nat → LikelihoodTerm) (x : Nat → Nat → ℝ) (i : Nat) : ℝ :=
  ∑ t ∈ Finset.range T, f (typeWeight T (x i) t) * ((data.filter fun r => r.id = i).map fun r =>
    f (term r.id r.state.core.period t).prob * f (term r.id r.state.core.period t).density).prod

/-- The individuals in the data. -/
def individuals (data : List EstimationRow) : List Nat := (data.map (·.id)).dedup

/-- The linear index of type `t` for the covariates in the row `r`. -/
def typeScore (e : Estimation P) (p : LikelihoodParams) (r : EstimationRow) (t : Nat) : ℝ :=
  ((p.typeProb.getD t []).map fun item => item.2 * (e.covariates r t item.1).getD 0).sum

/-- No bound on a logarithm has an effect. -/
def WithinBounds (lo hi : ℝ) (T : Nat) (data : List EstimationRow)
    (term : Nat → Nat → Nat → LikelihoodTerm) (x : Nat → Nat → ℝ) : Prop :=
  (∀ r ∈ data, ∀ t < T, Real.log (term r.id r.state.core.period t).prob ∈ Set.Icc lo hi ∧
    Real.log (term r.id r.state.core.period t).density ∈ Set.Icc lo hi) ∧
  ∀ i ∈ individuals data, Real.log (individualLikelihood id T data term x i) ∈ Set.Icc lo hi ∧
    ∀ t < T, Real.log (typeWeight T (x i) t) ∈ Set.Icc lo hi

/-- What C79 says about the criterion function: its value is the mean over individuals of the logarithms of
their likelihoods, where all logarithms are bounded by `lo` and `hi`.

* the terms of all observations and types follow the model
* the draws of two observations or types are different rows of arrays of base draws
* the indices of the types are those for the covariates in the first period
* the bounds can be ignored if they have no effect -/
def CriterionFollows (b : BuildSpec) (w m : Option Nat → CoreState → Nat → ℝ)
    (future : Option Nat → CoreState → List (Option Nat × ℝ)) (V : Option Nat → CoreState → ℝ)
    (size : Nat → Nat × Nat) (source : Nat → Nat → Nat → Nat × Nat) (e : Estimation P) (params : P) : Prop :=
  (∀ r ∈ e.data, ∀ t < e.typeCount, ∀ r' ∈ e.data, ∀ t' < e.typeCount,
    source r.id r.state.core.period t = source r'.id r'.state.core.period t' → r = r' ∧ t = t') ∧
  ∃ (term : Nat → Nat → Nat → LikelihoodTerm) (x : Nat → Nat → ℝ),
    (∀ r ∈ e.data, ∀ t < e.typeCount, TermFollows b w m future V e (e.params params) size
      (source r.id r.state.core.period t) r t (term r.id r.state.core.period t)) ∧
    (2 ≤ e.nTypes → ∀ r ∈ e.data, r.state.core.period = 0 → ∀ t < e.typeCount,
      x r.id t = typeScore e (e.params params) r t) ∧
    e.logLike params = some (((individuals e.data).map fun i => min (max (Real.log
      (individualLikelihood (bounded e.lo e.hi) e.typeCount e.data term x i)) e.lo) e.hi).sum /
        (individuals e.data).length) ∧
    (WithinBounds e.lo e.hi e.typeCount e.data term x →
      e.logLike params = some (((individuals e.data).map fun i => Real.log
        (individualLikelihood id e.typeCount e.data term x i)).sum / (individuals e.data).length))

/-- Data and parameters fit to the model.

* linear algebra: the routines of numpy do what they are supposed to do
* `base`: arrays of base draws have the requested shape and at least one draw
* parameters: one measurement error per choice, a lower triangular factor with at least as many rows and
  columns
* data: identifier and period are unique, with types all individuals are observed in the first period,
  states are in the state space, choices are admissible and wages such that the likelihood is defined -/
structure Estimation.Fits (e : Estimation P) (b : BuildSpec) (core : List CoreState)
    (w : Option Nat → CoreState → Nat → ℝ) (params : P) : Prop where
  qr : ∀ n, QRContract (e.la n).qr
  cholesky : ∀ n, CholeskyContract (e.la n).cholesky
  lo : e.lo ≤ 0
  hi : 0 < e.hi
  base : ∀ n k s, (e.base n k s).length = n ∧ ∀ row ∈ e.base n k s, row ≠ [] ∧ ∀ z ∈ row, z.length = k
  periods : e.nPeriods = b.core.nPeriods
  rows : (e.params params).measError.length ≤ (e.params params).cholesky.length
  cols : ∀ row ∈ (e.params params).cholesky, (e.params params).measError.length ≤ row.length
  lower : ∀ i j, i < j → entry (e.params params).cholesky i j = 0
  choices : ∀ d ∈ b.denseIndices, ∀ s ∈ core, (b.choiceSetAt d s).length = (e.params params).measError.length
  wages : (e.params params).nWagesRaw ≤ (e.params params).measError.length
  index : (e.data.map fun r => (r.id, r.state.core.period)).Nodup
  first : 2 ≤ e.nTypes → ∀ r ∈ e.data, ∃ r' ∈ e.data, r'.id = r.id ∧ r'.state.core.period = 0
  states : ∀ r ∈ e.data, r.state.core ∈ core ∧ ∀ t < e.typeCount, ∃ d,
    b.HasIndex (e.stateOf r t).dense d ∧ b.Admissible d r.state.core r.choice ∧
    ∀ y, r.wage = some y → ObservationWF e.hi (e.params params).hasMeasError (e.params params).nWagesRaw
      (e.params params).cholesky (b.choiceSetAt d r.state.core) (e.params params).measError
      (w d r.state.core) r.choice y

end

end Respy
