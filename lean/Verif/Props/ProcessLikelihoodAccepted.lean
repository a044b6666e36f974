import Verif.Props.Comparative
import Verif.Props.HistoryLikelihoodExample
import Verif.Props.OwnSamplesExample
import Verif.Props.ProcessLikelihood

/-!
# The likelihood of accepted models with exogenous processes

C114 for models given by parameters and options, and an example.
-/

open MeasureTheory ProbabilityTheory

namespace Respy

noncomputable section

variable {env : ProcessEnv} {m : UserModel} {p q : Processed} {ev : FormulaEval} {core : List CoreState}

/-- What the parameters of the accepted model `q` with the state space of `p` mean for the likelihood
(`respy/likelihood.py:130-271`, `respy/exogenous_processes.py:14-112`). -/
def Processed.processHypothesis (p q : Processed) (ev : FormulaEval) (senv : SolveEnv) (tau : ℝ)
    (V : Option Nat → CoreState → ℝ) : ProcessHypothesis where
  rewards := q.rewardParams senv
  tau := tau
  wage := (q.solveInput ev senv).wageOf
  nonpec := (q.solveInput ev senv).nonpecOf
  value := V
  future := processFuture ev p q

/-- The number of combinations of levels of the exogenous processes. -/
def Processed.combinations (p : Processed) : Nat := (exogenousGrid (p.exogenous.map fun e => e.2.length)).length

theorem process_hypothesis_valid {θ : Dict (Str × Str) ℝ} (hq : processModel env { m with params := θ } = some q)
    (hst : SameStructure p q) (hexo : p.exogenous ≠ []) (static : List (Str × Nat)) (htypes : p.nTypes < 2)
    (hobs : p.observables.map (fun o => (o.1, o.2.length)) = static ++ p.exogenous.map fun o => (o.1, o.2.length))
    (hkeep : env.KeepsShape) (hnd : (Dict.keys θ).Nodup)
    (hother : ∀ q ∈ θ, mentionsShocks q.1 = true → ∃ c ∈ shockCategories, q.1.1 = c.toList)
    (hcs : ∀ d ∈ (p.buildSpec ev).denseIndices, ∀ s ∈ core,
      ∃ a : Nat, ((p.buildSpec ev).choiceSetAt d s)[a]? = some true)
    (hdiag : ∀ a < p.choices.choices.length, entry q.cholesky a a ≠ 0) (senv : SolveEnv) (tau : ℝ)
    (V : Option Nat → CoreState → ℝ) :
    (p.processHypothesis q ev senv tau V).Valid (p.buildSpec ev) core p.combinations := by
  have hb := hst.buildSpec ev
  have h := processed_hypothesis_valid (N := 0) (core := core) (ev := ev) hq hkeep hnd hother
    (by rw [← hb]; exact hcs) (fun a ha => hdiag a (by rw [hst.choices]; exact ha)) senv tau V (Nat.succ_pos 0)
    (fun i => i.elim0)
  rw [← hb] at h
  exact ⟨h.rewards, h.uncertain, isTransition_processes hq hst hexo static htypes hobs, fun d _ s _ => by
    show (List.map _ _).length = _
    rw [List.length_map]
    rfl⟩

/-- **C114 (partial).** Every supported model with exogenous processes which is accepted, and other parameters with the
same index and the same maximum experiences, also for the processes: the likelihoods of all histories are defined at
both parameters. They are distributions of choices and wages for all levels of the processes. If independent individuals
have histories with the distribution of the first parameters, the probability that the log likelihood of the other
parameters is higher by `k` is at most `exp (-k)`, and it vanishes exponentially in the number of individuals whose
choices and wages have different distributions. Missing: types, models whose creation fails (C86), more than one
lag, shocks without variance. -/
theorem C114_accepted_models_with_processes_partial (hp : processModel env m = some p) {θ : Dict (Str × Str) ℝ}
    (hθ : m.SameIndex θ) (hev : ev.Contract) (hs : p.Supported m ev core)
    (hcore : createCore (p.buildSpec ev).core = some core)
    (hexo : p.exogenous ≠ []) (static : List (Str × Nat)) (htypes : p.nTypes < 2)
    (hobs : p.observables.map (fun o => (o.1, o.2.length)) = static ++ p.exogenous.map fun o => (o.1, o.2.length))
    (hkeep : env.KeepsShape) (hnd : (Dict.keys m.params).Nodup)
    (hother : ∀ q ∈ m.params, mentionsShocks q.1 = true → ∃ c ∈ shockCategories, q.1.1 = c.toList)
    (hallowed : ∀ d ∈ (p.buildSpec ev).denseIndices, ∀ s ∈ core, ∃ c ∈ p.choices.choices, p.Allowed m ev d s c)
    (senv : SolveEnv) (tau₀ tau₁ : ℝ) (V₀ V₁ : Option Nat → CoreState → ℝ) {N : Nat}
    (x : Fin N → Option Nat × CoreState) (T : Fin N → Nat)
    (hx : ∀ i, (x i).1 ∈ (p.buildSpec ev).denseIndices ∧ (x i).2 ∈ core ∧ (x i).2.period = 0 ∧
      T i ≤ (p.buildSpec ev).core.nPeriods) :
    ∃ q, processModel env { m with params := θ } = some q ∧
      ((∀ a < p.choices.choices.length, entry p.cholesky a a ≠ 0 ∧ entry q.cholesky a a ≠ 0) →
      ∃ f g : ∀ i, ProcessHistory p.choices.choices.length p.combinations (T i) → ℝ,
        (∀ i, (p.processHypothesis p ev senv tau₀ V₀).Likelihood (p.buildSpec ev) (x i) (f i) ∧
          (∀ levels : Fin (T i) → Fin p.combinations, ∫⁻ h in {h | ∀ t, (h t).1.2 = levels t}, ENNReal.ofReal (f i h)
            ∂processMeasure p.choices.choices.length p.combinations (T i) = 1) ∧
          (∫⁻ h, ENNReal.ofReal (f i h * processesAlong (processFuture ev p p) (x i) h)
            ∂processMeasure p.choices.choices.length p.combinations (T i)) = 1) ∧
        (∀ i, (p.processHypothesis q ev senv tau₁ V₁).Likelihood (p.buildSpec ev) (x i) (g i)) ∧
        ∀ {Ω : Type} [MeasurableSpace Ω] (Q : Measure Ω)
          (X : ∀ i, Ω → ProcessHistory p.choices.choices.length p.combinations (T i)), (∀ i, Measurable (X i)) →
          iIndepFun X Q → (∀ i, Q.map (X i) = (processMeasure _ _ (T i)).withDensity
            fun h => ENNReal.ofReal (f i h * processesAlong (processFuture ev p p) (x i) h)) →
          ∃ ρ : Fin N → ℝ, (∀ i, 0 ≤ ρ i ∧ ρ i ≤ 1 ∧ (ρ i = 1 ↔
            (fun h => f i h * processesAlong (processFuture ev p p) (x i) h) =ᵐ[processMeasure _ _ (T i)]
              fun h => g i h * processesAlong (processFuture ev p p) (x i) h)) ∧
          ∀ k : ℝ, Q.real {ω | ∑ i, Real.log (f i (X i ω)) + k ≤ ∑ i, Real.log (g i (X i ω))} ≤
            min (Real.exp (-k)) (Real.exp (-k / 2) * ∏ i, ρ i)) := by
  have h := processModel_sameIndex env m θ hθ.index hθ.max
  have h' := processModel_sameIndex env m m.params rfl fun _ => rfl
  rw [hp] at h
  rw [show ({ m with params := m.params } : UserModel) = m from rfl, hp] at h'
  generalize hq : processModel env { m with params := θ } = oq at h
  cases h' with
  | some hst₀ =>
  cases h with
  | @some _ q hst =>
  refine ⟨q, rfl, fun hdiag => ?_⟩
  have wf := C82_processed_models_well_formed hp hev hs hcore
  have hcs : ∀ d ∈ (p.buildSpec ev).denseIndices, ∀ s ∈ core,
      ∃ a : Nat, ((p.buildSpec ev).choiceSetAt d s)[a]? = some true := by
    intro d hd s hmem
    obtain ⟨c, hc, hall⟩ := hallowed d hd s hmem
    obtain ⟨a, ha⟩ := List.mem_iff_getElem?.1 hc
    exact ⟨a, (C82_choice_sets_by_name hp hev hs.toDescribed hcore d hd s hmem a c ha).2 hall⟩
  have h₀ := process_hypothesis_valid (ev := ev) (core := core) (m := m) (θ := m.params) hp hst₀ hexo static htypes hobs
    hkeep hnd hother hcs (fun a ha => (hdiag a ha).1) senv tau₀ V₀
  have h₁ := process_hypothesis_valid (ev := ev) (core := core) hq hst hexo static htypes hobs hkeep
    (by unfold Dict.keys at hnd ⊢; exact hθ.index ▸ hnd) (fun y hy => by
      have hm : y.1 ∈ m.params.map Prod.fst := hθ.index ▸ List.mem_map_of_mem (f := Prod.fst) hy
      obtain ⟨z, hz, he⟩ := List.mem_map.1 hm
      exact he ▸ hother z hz) hcs (fun a ha => (hdiag a ha).2) senv tau₁ V₁
  obtain ⟨c₀, hc₀⟩ := processModel_from env m p hp
  obtain ⟨c₁, hc₁⟩ := processModel_from env _ q hq
  have hn₀ : (p.processHypothesis p ev senv tau₀ V₀).rewards.measError.length = p.choices.choices.length :=
    hc₀.measurement_length
  have hn₁ : (p.processHypothesis q ev senv tau₁ V₁).rewards.measError.length = p.choices.choices.length := by
    rw [hst.choices]
    exact hc₁.measurement_length
  have hf := fun i => C114_distribution_with_processes wf _ h₀.rewards h₀.uncertain tau₀
    (p.solveInput ev senv).wageOf (p.solveInput ev senv).nonpecOf V₀ _ h₀.transition h₀.levels (hx i).1 (hx i).2.1
    (hx i).2.2.1 (T i) (hx i).2.2.2
  have hg := fun i => C114_distribution_with_processes wf _ h₁.rewards h₁.uncertain tau₁
    (q.solveInput ev senv).wageOf (q.solveInput ev senv).nonpecOf V₁ _ h₁.transition h₁.levels (hx i).1 (hx i).2.1
    (hx i).2.2.1 (T i) (hx i).2.2.2
  rw [hn₀] at hf
  rw [hn₁] at hg
  choose f f1 f2 f3 f4 f5 f6 using hf
  choose g g1 g2 g3 g4 g5 g6 using hg
  have hfl : ∀ i, (p.processHypothesis p ev senv tau₀ V₀).Likelihood (p.buildSpec ev) (x i) (f i) :=
    fun i h => (f1 i h _).2 rfl
  have hgl : ∀ i, (p.processHypothesis q ev senv tau₁ V₁).Likelihood (p.buildSpec ev) (x i) (g i) :=
    fun i h => (g1 i h _).2 rfl
  refine ⟨f, g, fun i => ⟨hfl i, f5 i, f6 i⟩, hgl, fun Q X hX hindep hlaw => ?_⟩
  refine C114_true_parameters_are_likely wf x T (fun i => (hx i).1) (fun i => (hx i).2.1) (fun i => (hx i).2.2.1)
    (fun i => (hx i).2.2.2) _ _ h₀ h₁ (fun d s => ?_) hn₀ hn₁ ?_ f g hfl hgl Q X hX hindep hlaw
  · show List.map Prod.fst (List.map _ _) = List.map Prod.fst (List.map _ _)
    rw [List.map_map, List.map_map]
    rfl
  · show p.choices.wWage.length = q.choices.wWage.length
    rw [hst.choices]

/-- A hundred individuals in a model with an exogenous process: the probability that halving all parameters, also those
of the process, gives a log likelihood which is higher by ten is at most `exp (-10)`. All hypotheses hold. -/
example : ∃ (p q : Processed) (core : List CoreState) (x : Fin 100 → Option Nat × CoreState),
    processModel unitEnv exogenousUser = some p ∧ processModel unitEnv exogenousUser.halved = some q ∧
    p.combinations = 2 ∧ (∀ i, (x i).2 ∈ core) ∧
    ∃ f g : ∀ _ : Fin 100, ProcessHistory p.choices.choices.length p.combinations 3 → ℝ,
      (∀ i, (p.processHypothesis p textEval exampleSolveEnv 1 fun _ _ => 0).Likelihood (p.buildSpec textEval) (x i)
        (f i)) ∧
      (∀ i, (p.processHypothesis q textEval exampleSolveEnv 1 fun _ _ => 1).Likelihood (p.buildSpec textEval) (x i)
        (g i)) ∧
      ∃ (Q : Measure (Fin 100 → ProcessHistory p.choices.choices.length p.combinations 3))
        (X : Fin 100 → (Fin 100 → ProcessHistory p.choices.choices.length p.combinations 3) →
          ProcessHistory p.choices.choices.length p.combinations 3), IsProbabilityMeasure Q ∧
        Q.real {ω | ∑ i, Real.log (f i (X i ω)) + 10 ≤ ∑ i, Real.log (g i (X i ω))} ≤ Real.exp (-10) := by
  obtain ⟨p, core, hp, h1, h2, h3, h4, h5, h6, h7, h8, h9, h10, h11, h12, h13, _⟩ := exogenousUser_hypotheses
  have hc := exogenousUser_estimate_check
  rw [hp] at hc
  simp only [Option.any_some, Bool.and_eq_true] at hc
  obtain ⟨⟨⟨⟨⟨⟨g1, g2⟩, g3⟩, g4⟩, g5⟩, g6⟩, g7⟩ := hc
  unfold exampleCheck at g1
  simp only [Bool.and_eq_true, decide_eq_true_eq] at g1
  obtain ⟨⟨⟨⟨⟨⟨_, b2⟩, b3⟩, b4⟩, b5⟩, b6⟩, _⟩ := g1
  have hmax : ∀ k ∈ exogenousUser.params.map Prod.fst, k.1 ≠ "maximum_exp".toList := by decide +kernel
  have hindex : exogenousUser.SameIndex exogenousUser.halved.params :=
    ⟨(halved_index _ hmax).index.symm, fun c => ((halved_index _ hmax).max c).symm⟩
  have wf := C82_processed_models_well_formed hp textEval_contract h2 h1
  obtain ⟨s, hs, hs0⟩ := wf.covered 0 wf.periods
  have hg : (p.buildSpec textEval).grid = some [[0, 0], [0, 1], [1, 0], [1, 1]] := of_decide_eq_true g6
  have hd : some 0 ∈ (p.buildSpec textEval).denseIndices := (mem_denseIndices hg _).2 ⟨0, rfl, by decide⟩
  have hper : (p.buildSpec textEval).core.nPeriods = 3 := b6
  have hcomb : p.combinations = 2 := by
    have hany : (processModel unitEnv exogenousUser).any (fun p => decide (p.combinations = 2)) = true := by
      decide +kernel
    rw [hp] at hany
    exact of_decide_eq_true hany
  obtain ⟨q, hq, k1⟩ := C114_accepted_models_with_processes_partial hp hindex textEval_contract h2 h1 h3
    [("able".toList, 2)] h4 h5 h7 h9 h10 h12 exampleSolveEnv 1 1 (fun _ _ => 0) (fun _ _ => 1)
    (fun _ : Fin 100 => (some 0, s)) (fun _ => 3) (fun _ => ⟨hd, hs, hs0, hper.ge⟩)
  have hqch : q.choices = p.choices :=
    (((C85_state_space_of_index unitEnv exogenousUser _ hindex).2 p q hp hq).1).symm
  obtain ⟨f, g, hf, hgl, k2⟩ := k1 fun a ha =>
    ⟨own_cholesky hp h9 h10 (by decide +kernel) b2 a (by rwa [b2] at ha),
      own_cholesky hq (by decide +kernel) (exampleShocks _ (by decide +kernel)) (by decide +kernel)
        (by rw [hqch]; exact b2) a (by rwa [b2] at ha)⟩
  obtain ⟨Q, X, hQ, hX, hXi, hlaw⟩ := observations_exist
    (fun _ : Fin 100 => processMeasure p.choices.choices.length p.combinations 3)
    (fun i h => f i h * processesAlong (processFuture textEval p p) (some 0, s) h) fun i => (hf i).2.2
  obtain ⟨ρ, _, k3⟩ := k2 Q X hX hXi hlaw
  exact ⟨p, q, core, fun _ => (some 0, s), hp, hq, hcomb, fun _ => hs, f, g, fun i => (hf i).1, hgl, Q, X, hQ,
    (k3 10).trans (min_le_left _ _)⟩

end

end Respy
