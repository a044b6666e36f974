import Mathlib.MeasureTheory.Constructions.Pi
import Mathlib.MeasureTheory.Integral.Bochner.Basic
import Mathlib.Probability.Distributions.Gaussian.Real
import Mathlib.Probability.Independence.Basic
import Verif.Model.ProcessModel
import Verif.Spec.Rewards
import Verif.Spec.ValueFunction

/-!
# Specification of the value function with distributions of shocks

Draws are replaced by distributions.
-/

namespace Respy

open MeasureTheory ProbabilityTheory

/-- `v` is the expectation of the maximum of zero and the values of the admissible alternatives, for shocks with the
distribution `law`. -/
def IsExpectedBellman (law : Measure (Nat → ℝ)) (delta : ℝ) (admissible : Nat → Prop) (w m c : Nat → ℝ) (v : ℝ) : Prop :=
  ∃ best : (Nat → ℝ) → ℝ, (∀ e, IsGreatest
      {x | x = 0 ∨ ∃ a, admissible a ∧ x = w a * e a + m a + delta * c a} (best e)) ∧
    Integrable best law ∧ v = ∫ e, best e ∂law

/-- `V d s` is the value of being in the core state `s` with dense index `d`, if the shocks of a period and choice set
have the distribution `law`; compare `IsValueFunction`, in which there are draws. -/
def IsExpectedValueFunction (b : BuildSpec) (core : List CoreState) (delta : ℝ)
    (w m : Option Nat → CoreState → Nat → ℝ) (law : Nat → List Bool → Measure (Nat → ℝ))
    (future : Option Nat → CoreState → List (Option Nat × ℝ)) (V : Option Nat → CoreState → ℝ) : Prop :=
  ∀ d ∈ b.denseIndices, ∀ s ∈ core,
    IsExpectedBellman (law s.period (b.choiceSetAt d s)) delta (fun a => (b.choiceSetAt d s)[a]? = some true) (w d s)
      (m d s) (fun a => if s.period + 1 = b.core.nPeriods then 0 else
        ((future d s).map fun fp => fp.2 * V fp.1 (lawOfMotion s a)).sum) (V d s)

/-- The draws of the shocks of a period and choice set: `n` random vectors, pairwise independent and with the
distribution `law`. -/
structure IndependentDraws {Ω : Type} [MeasurableSpace Ω] (P : Measure Ω) (law : Nat → List Bool → Measure (Nat → ℝ))
    (n : Nat) (X : Nat → List Bool → Fin n → Ω → Nat → ℝ) : Prop where
  measurable : ∀ t cs i, Measurable (X t cs i)
  law : ∀ t cs i, P.map (X t cs i) = law t cs
  independent : ∀ t cs, Pairwise fun i j => X t cs i ⟂ᵢ[P] X t cs j

/-- `n` draws of `size` independent standard normal numbers; the draws are pairwise independent. -/
structure NormalDraws {Ω : Type} [MeasurableSpace Ω] (P : Measure Ω) {n size : Nat} (Z : Fin n → Ω → Fin size → ℝ) :
    Prop where
  measurable : ∀ i, Measurable (Z i)
  law : ∀ i, P.map (Z i) = Measure.pi fun _ => gaussianReal 0 1
  independent : Pairwise fun i j => Z i ⟂ᵢ[P] Z j

/-- The random numbers of `np.random.standard_normal` (`respy/shared.py:114-116`): `Z size seed t i` are the numbers of
draw `i` for period `t`, one for each of `size` alternatives. -/
def StandardNormals {Ω : Type} [MeasurableSpace Ω] (P : Measure Ω) (n : Nat)
    (Z : (size seed t : Nat) → Fin n → Ω → Fin size → ℝ) : Prop :=
  ∀ size seed t, NormalDraws P (Z size seed t)

/-- The environment of a solution with given random numbers, arranged by period, draw and alternative
(`respy/state_space.py:338-358`). -/
def SolveEnv.withNumbers (senv : SolveEnv) (nPeriods n : Nat) (z : (size seed t : Nat) → Fin n → Fin size → ℝ) :
    SolveEnv :=
  { senv with base := fun size seed => (List.range nPeriods).map fun t => List.ofFn fun i => List.ofFn (z size seed t i) }

/-- The shocks of the alternatives, given the standard normal numbers of the alternatives of the choice set. -/
noncomputable def SolveInput.shockVector (inp : SolveInput ℝ) (cs : List Bool) (z : Fin (cs.count true) → ℝ) : Nat → ℝ :=
  shockOf inp.exp inp.lo inp.hi inp.cholesky inp.nWages cs (shocksOf cs (List.ofFn z))

/-- The distribution of the shocks of a choice set. -/
noncomputable def SolveInput.shockLaw (inp : SolveInput ℝ) (cs : List Bool) : Measure (Nat → ℝ) :=
  (Measure.pi fun _ : Fin (cs.count true) => gaussianReal 0 1).map (inp.shockVector cs)

end Respy
