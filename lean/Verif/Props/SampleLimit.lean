import Verif.Lemmas.ExactLimit
import Verif.Props.ExactLimit
import Verif.Props.MonteCarlo
import Verif.Props.ProcessSimulate
import Verif.Spec.SampleLimit

/-!
# C119: simulated samples of models which are solved with many draws

With more draws for the solution, simulated individuals choose nearly optimal in the model which is solved with the
distribution of the shocks.
-/

open MeasureTheory ProbabilityTheory

namespace Respy

noncomputable section

variable {env : ProcessEnv} {m : UserModel} {p : Processed} {ev : FormulaEval} {core : List CoreState}

theorem RowFollows.nearly {b : BuildSpec} (wf : b.WF core) {rp : RewardParams ℝ}
    {w m : Option Nat → CoreState → Nat → ℝ} {future : Option Nat → CoreState → List (Option Nat × ℝ)}
    (hfut : IsTransition b core future) {V V' : Option Nat → CoreState → ℝ} {η ε : ℝ} (hη : 0 ≤ η)
    (hV : ∀ d ∈ b.denseIndices, ∀ s ∈ core, |V' d s - V d s| ≤ η) (hε : |rp.betaDelta| * η ≤ ε) {row : SimRow ℝ}
    (h : RowFollows b core rp w m future V' row) : RowNearlyFollows b core rp w m future V ε row := by
  obtain ⟨hs, d, hd, hi, hval, hadm, a, ha, hbest, hrest⟩ := h
  have hclose : ∀ a, b.Admissible d row.state.core a →
      |simulatedValue b rp w m future V' d row.state.core row.base a -
        simulatedValue b rp w m future V d row.state.core row.base a| ≤ ε := by
    intro a ha
    have h := continuationOf_close wf hfut hη hV d hd row.state.core hs a ha
    have heq : simulatedValue b rp w m future V' d row.state.core row.base a -
        simulatedValue b rp w m future V d row.state.core row.base a = rp.betaDelta *
          (continuationOf b future V' d row.state.core a - continuationOf b future V d row.state.core a) := by
      unfold simulatedValue continuationOf
      ring
    rw [heq, abs_mul]
    exact (mul_le_mul_of_nonneg_left h (abs_nonneg _)).trans hε
  refine ⟨hs, d, hd, hi, fun a ha => ⟨_, (hval a ha).2, hclose a ha⟩, hadm, a, ha, fun a' ha' => ?_, hrest⟩
  have h1 := abs_le.1 (hclose a ha)
  have h2 := abs_le.1 (hclose a' ha')
  have h3 := (hbest a' ha').1
  linarith

/-- Without a weight on the future, the values of later periods have no effect. -/
theorem RowFollows.nearly_of_zero {b : BuildSpec} {rp : RewardParams ℝ} {w m : Option Nat → CoreState → Nat → ℝ}
    {future : Option Nat → CoreState → List (Option Nat × ℝ)} {V V' : Option Nat → CoreState → ℝ} {ε : ℝ}
    (h0 : rp.betaDelta = 0) (hε : 0 ≤ ε) {row : SimRow ℝ}
    (h : RowFollows b core rp w m future V' row) : RowNearlyFollows b core rp w m future V ε row := by
  have heq : ∀ d s base a, simulatedValue b rp w m future V' d s base a =
      simulatedValue b rp w m future V d s base a := by
    intro d s base a
    unfold simulatedValue
    rw [h0, zero_mul, zero_mul]
  obtain ⟨hs, d, hd, hi, hval, hadm, a, ha, hbest, hrest⟩ := h
  refine ⟨hs, d, hd, hi, fun a ha => ⟨_, (hval a ha).2, ?_⟩, hadm, a, ha, fun a' ha' => ?_, hrest⟩
  · rw [heq, sub_self, abs_zero]
    exact hε
  · have h3 := (hbest a' ha').1
    rw [heq, heq] at h3
    linarith

/-- **C119.** If the error is at most `ε` and an alternative is better than all others by more than `2 ε` in the model
which is solved with the distribution of the shocks, then it is the one whose wage is recorded, and the recorded choice
under the conditions of C24: the error has no effect on the row except for the values. -/
theorem C119_clear_alternatives {b : BuildSpec} {rp : RewardParams ℝ} {w m : Option Nat → CoreState → Nat → ℝ}
    {future : Option Nat → CoreState → List (Option Nat × ℝ)} {V : Option Nat → CoreState → ℝ} {ε : ℝ} {row : SimRow ℝ}
    (h : RowNearlyFollows b core rp w m future V ε row) :
    ∃ d ∈ b.denseIndices, b.HasIndex row.state.dense d ∧ ∀ a, b.Admissible d row.state.core a →
      (∀ a', b.Admissible d row.state.core a' → a' ≠ a →
        simulatedValue b rp w m future V d row.state.core row.base a' + 2 * ε <
          simulatedValue b rp w m future V d row.state.core row.base a) →
      (row.outcome.choice = a ↔ (∀ a' < a, b.Admissible d row.state.core a') ∨
        (b.choiceSetAt d row.state.core).count true ≤ a) ∧
      row.outcome.wage = if a < rp.nWagesRaw then
          some (w d row.state.core a * simulatedShock b rp d row.state.core row.base a *
            rp.exp ((row.baseWage[a]?).getD 0 * (rp.measError[a]?).getD 0))
        else none := by
  obtain ⟨_, d, hd, hi, _, _, a, ha, hbest, hchoice, hwage⟩ := h
  refine ⟨d, hd, hi, fun a' ha' hclear => ?_⟩
  obtain rfl : a = a' := by
    by_contra hne
    exact absurd (hclear a ha hne) (not_lt.2 (hbest a' ha'))
  exact ⟨hchoice, hwage⟩

theorem sample_approaches (wf : (p.buildSpec ev).WF core) (senv : SolveEnv) (hdelta : 0 ≤ p.discount.delta)
    (hzero : p.discount.delta = 0 → p.discount.betaDelta = 0)
    {future : Option Nat → CoreState → List (Option Nat × ℝ)} (hfut : IsTransition (p.buildSpec ev) core future)
    (solution : (n : Nat) → ((size seed t : Nat) → Fin n → Fin size → ℝ) → Option (SimSpace ℝ)) :
    ∃ V C, IsExpectedValueFunction (p.buildSpec ev) core p.discount.delta (p.solveInput ev senv).wageOf
        (p.solveInput ev senv).nonpecOf (fun _ => (p.solveInput ev senv).shockLaw) future V ∧
      ∀ {G : Type} (e : SimulateEnv G) (g : G),
        (∀ n z, ∃ sp V', solution n z = some sp ∧
          (p.discount.delta ≠ 0 → IsValueFunction (p.buildSpec ev) core p.discount.delta (p.solveInput ev senv).wageOf
            (p.solveInput ev senv).nonpecOf (p.solveInput ev (senv.withNumbers p.nPeriods n z)).shocks future V') ∧
          SampleFollows (p.buildSpec ev) core (p.solveInput ev senv).wageOf (p.solveInput ev senv).nonpecOf future V'
            (p.simulation ev senv e (some sp)) () g) →
        SampleApproaches (p.buildSpec ev) core (p.solveInput ev senv).wageOf (p.solveInput ev senv).nonpecOf future V
          solution (fun sp => p.simulation ev senv e (some sp)) g C := by
  obtain ⟨V, C, hV, hC, hmain⟩ := more_draws (p.buildSpec ev) core wf p ev senv p.discount.delta hdelta future hfut
  refine ⟨V, C * (|p.discount.betaDelta| + 1) ^ 2, hV, fun e g hsol => ?_⟩
  intro Ω _ Q _ n hn Z hZ
  choose sp V' h1 h2 h3 using fun ω => hsol n fun size seed t i => Z size seed t i ω
  choose out g' h4 h5 h6 h7 using h3
  refine ⟨sp, out, fun ω => ⟨h1 ω, ⟨g' ω, h4 ω⟩, h5 ω, h7 ω⟩, fun ε hε => ?_⟩
  by_cases h0 : p.discount.delta = 0
  · refine (measure_mono_null (t := ∅) ?_ measure_empty).le.trans bot_le
    rintro ω ⟨row, hrow, hnot⟩
    exact hnot ((h6 ω row hrow).nearly_of_zero (hzero h0) hε.le)
  have hb : 0 < |p.discount.betaDelta| + 1 := by positivity
  set η := ε / (|p.discount.betaDelta| + 1) with hη
  have hηpos : 0 < η := div_pos hε hb
  refine (measure_mono ?_).trans ((hmain Ω Q n hn Z hZ V' (fun ω => h2 ω h0) η hηpos).trans (le_of_eq ?_))
  · intro ω hω
    by_contra hcon
    obtain ⟨row, hrow, hnot⟩ := hω
    refine hnot ((h6 ω row hrow).nearly wf hfut hηpos.le (fun d hd s hs => ?_) ?_)
    · by_contra hlt
      exact hcon ⟨d, hd, s, hs, (not_le.1 hlt).le⟩
    · have h7 : (|p.discount.betaDelta| + 1) * η = ε := mul_div_cancel₀ _ hb.ne'
      have h8 : |p.discount.betaDelta| * η ≤ (|p.discount.betaDelta| + 1) * η := by nlinarith
      exact h8.trans h7.le
  · congr 1
    rw [hη]
    field_simp

/-- **C119 (partial).** A supported model without exogenous processes and interpolation and with a discount factor
of at least zero is accepted. It is solved with `n` draws and simulated. Then in all rows of the sample the recorded
values of alternatives differ by at most `ε` from those of the model which is solved with the distribution of the shocks, and the
alternative whose wage is recorded is optimal up to `2 ε`, except with a probability of at most `C / (n ε²)`,
where `C` does not depend on the sample. Missing: as in `C106_accepted_models_partial` and
`C83_samples_of_accepted_models_partial`, except that the discount factor may be zero. -/
theorem C119_accepted_models_partial (hp : processModel env m = some p) (hev : ev.Contract)
    (hs : p.Supported m ev core) (hcore : createCore (p.buildSpec ev).core = some core)
    (hexo : p.exogenous = []) (hkeep : env.KeepsShape) (hnd : (Dict.keys m.params).Nodup)
    (hother : ∀ q ∈ m.params, mentionsShocks q.1 = true → ∃ c ∈ shockCategories, q.1.1 = c.toList)
    (senv : SolveEnv)
    (hsizes : ∀ d ∈ (p.buildSpec ev).denseIndices, ∀ s ∈ core, ((p.buildSpec ev).choiceSetAt d s).count true ∈ senv.sizes)
    (hallowed : ∀ d ∈ (p.buildSpec ev).denseIndices, ∀ s ∈ core, ∃ c ∈ p.choices.choices, p.Allowed m ev d s c)
    (hdelta : 0 ≤ p.discount.delta) (hno : ∀ t, ¬ (p.buildSpec ev).Interpolates core t)
    (rng : InterpolationRandom) (hrng : rng.Contract) (sqrt : ℝ → ℝ) (ols : List ℝ → List (List ℝ) → List ℝ)
    (maxLog : ℝ) (seed : Nat)
    (ev0 : Built → Dict Nat (List ℝ)) (hev0 : ∀ bt, SameShape (initialValues bt.space) (ev0 bt))
    (vc ko : List Nat → List Nat) (hvc : ∀ l x, x ∈ vc l ↔ x ∈ l) (hko : ∀ l x, x ∈ ko l ↔ x ∈ l) :
    ∃ bt V C, buildSpace (p.buildSpec ev) = some bt ∧
      IsExpectedValueFunction (p.buildSpec ev) core p.discount.delta (p.solveInput ev senv).wageOf
        (p.solveInput ev senv).nonpecOf (fun _ => (p.solveInput ev senv).shockLaw) (fun d _ => [(d, 1)]) V ∧
      ∀ {G : Type} (e : SimulateEnv G), p.Samplable ev e.input → e.Fits p (p.buildSpec ev) → ∀ g,
        SampleApproaches (p.buildSpec ev) core (p.solveInput ev senv).wageOf (p.solveInput ev senv).nonpecOf
          (fun d _ => [(d, 1)]) V
          (fun n z => (p.solveInput ev (senv.withNumbers p.nPeriods n z)).solveModel (p.buildSpec ev) (fun _ => some [])
            (kw94 bt.space rng sqrt ols (expShocks Real.exp maxLog p.choices.wWage.length p.cholesky)) seed ev0 vc ko)
          (fun sp => p.simulation ev senv e (some sp)) g C := by
  have wf := C82_processed_models_well_formed hp hev hs hcore
  have hzero := discount_zero ev hp hnd hother senv
  obtain ⟨bt, hbuild, _⟩ := buildSpace_noExogenous _ core wf (by simp [Processed.buildSpec, hexo])
  obtain ⟨V, C, hV, h⟩ := sample_approaches wf senv hdelta hzero (future := fun d _ => [(d, 1)]) (isTransition_static _ _)
    (fun n z => (p.solveInput ev (senv.withNumbers p.nPeriods n z)).solveModel (p.buildSpec ev) (fun _ => some [])
      (kw94 bt.space rng sqrt ols (expShocks Real.exp maxLog p.choices.wWage.length p.cholesky)) seed ev0 vc ko)
  refine ⟨bt, V, C, hbuild, hV, fun {G} e hsam he g => h e g fun n z => ?_⟩
  obtain ⟨bt', sp, V', h1, h2, h3, h4⟩ := C83_samples_of_accepted_models_partial (G := G) hp hev hs hcore hexo hkeep hnd
    hother (senv.withNumbers p.nPeriods n z) (withNumbers_fits hsizes n z) hallowed
    (fun _ t _ ht => absurd ht (hno t)) rng hrng sqrt ols maxLog seed ev0 hev0 vc ko hvc hko
  rw [hbuild] at h1; cases h1
  exact ⟨sp, V', h2, fun h0 => (C80_no_interpolation_is_value_function _ _ hno _ _ _ _ _ _ _ _ _).1 (h3.1 h0), h4 e hsam he g⟩

/-- **C119 (partial)** for models with exogenous processes, if these come last among the observables and there are no
types. -/
theorem C119_models_with_processes_partial (hp : processModel env m = some p) (hev : ev.Contract)
    (hs : p.Supported m ev core) (hcore : createCore (p.buildSpec ev).core = some core)
    (hexo : p.exogenous ≠ []) (static : List (Str × Nat)) (htypes : p.nTypes < 2)
    (hobs : p.observables.map (fun o => (o.1, o.2.length)) = static ++ p.exogenous.map fun o => (o.1, o.2.length))
    (hnames : ∀ e ∈ p.exogenous, ∀ level ∈ e.2, ∀ item ∈ level.2, item.1 ∈ p.columns true)
    (hkeep : env.KeepsShape) (hnd : (Dict.keys m.params).Nodup)
    (hother : ∀ q ∈ m.params, mentionsShocks q.1 = true → ∃ c ∈ shockCategories, q.1.1 = c.toList)
    (senv : SolveEnv)
    (hsizes : ∀ d ∈ (p.buildSpec ev).denseIndices, ∀ s ∈ core, ((p.buildSpec ev).choiceSetAt d s).count true ∈ senv.sizes)
    (hallowed : ∀ d ∈ (p.buildSpec ev).denseIndices, ∀ s ∈ core, ∃ c ∈ p.choices.choices, p.Allowed m ev d s c)
    (hdelta : 0 ≤ p.discount.delta) (hno : ∀ t, ¬ (p.buildSpec ev).Interpolates core t)
    (rng : InterpolationRandom) (hrng : rng.Contract) (sqrt : ℝ → ℝ) (ols : List ℝ → List (List ℝ) → List ℝ)
    (maxLog : ℝ) (seed : Nat)
    (ev0 : Built → Dict Nat (List ℝ)) (hev0 : ∀ bt, SameShape (initialValues bt.space) (ev0 bt))
    (vc ko : List Nat → List Nat) (hvc : ∀ l x, x ∈ vc l ↔ x ∈ l) (hko : ∀ l x, x ∈ ko l ↔ x ∈ l) :
    let future := fun d s => (exogenousGrid (p.exogenous.map fun e => e.2.length)).map fun e =>
      ((p.buildSpec ev).successor d e, levelProbability p.exogenousParams (p.covariates ev d s) e)
    ∃ bt V C, buildSpace (p.buildSpec ev) = some bt ∧
      IsExpectedValueFunction (p.buildSpec ev) core p.discount.delta (p.solveInput ev senv).wageOf
        (p.solveInput ev senv).nonpecOf (fun _ => (p.solveInput ev senv).shockLaw) future V ∧
      ∀ {G : Type} (e : SimulateEnv G), p.Samplable ev e.input → e.Fits p (p.buildSpec ev) → ∀ g,
        SampleApproaches (p.buildSpec ev) core (p.solveInput ev senv).wageOf (p.solveInput ev senv).nonpecOf future V
          (fun n z => (p.solveInput ev (senv.withNumbers p.nPeriods n z)).solveModel (p.buildSpec ev)
            ((p.solveInput ev (senv.withNumbers p.nPeriods n z)).transitions p.exogenousParams (p.buildSpec ev))
            (kw94 bt.space rng sqrt ols (expShocks Real.exp maxLog p.choices.wWage.length p.cholesky)) seed ev0 vc ko)
          (fun sp => p.simulation ev senv e (some sp)) g C := by
  intro future
  have wf := C82_processed_models_well_formed hp hev hs hcore
  have hzero := discount_zero ev hp hnd hother senv
  obtain ⟨covs, h⟩ := processModel_from env m p hp
  have hx := exogenous_wf p ev hexo static htypes hobs
  have hep : p.exogenousParams.map List.length = (p.buildSpec ev).exogLevels := by
    simp [Processed.exogenousParams, Processed.buildSpec, Function.comp_def]
  have hlev : ∀ levels ∈ p.exogenousParams, levels ≠ [] := by
    intro levels hl
    obtain ⟨e, he, rfl⟩ := List.mem_map.1 hl
    intro hne
    exact h.exogenous_ne e he (List.map_eq_nil_iff.1 hne)
  have hfut : IsTransition (p.buildSpec ev) core future :=
    isTransition_exogenous _ _ _ hx p.exogenousParams hep hlev (p.covariates ev)
  obtain ⟨bt, _, hbuild, _⟩ := buildSpace_exogenous _ core wf _ hx
  obtain ⟨V, C, hV, h⟩ := sample_approaches wf senv hdelta hzero hfut
    (fun n z => (p.solveInput ev (senv.withNumbers p.nPeriods n z)).solveModel (p.buildSpec ev)
      ((p.solveInput ev (senv.withNumbers p.nPeriods n z)).transitions p.exogenousParams (p.buildSpec ev))
      (kw94 bt.space rng sqrt ols (expShocks Real.exp maxLog p.choices.wWage.length p.cholesky)) seed ev0 vc ko)
  refine ⟨bt, V, C, hbuild, hV, fun {G} e hsam he g => h e g fun n z => ?_⟩
  obtain ⟨bt', sp, V', h1, h2, h3, h4⟩ := C83_samples_of_exogenous_models_partial (G := G) hp hev hs hcore hexo static
    htypes hobs hnames hkeep hnd hother (senv.withNumbers p.nPeriods n z) (withNumbers_fits hsizes n z) hallowed
    (fun _ t _ ht => absurd ht (hno t)) rng hrng sqrt ols maxLog seed ev0 hev0 vc ko hvc hko e hsam he
  rw [hbuild] at h1; cases h1
  exact ⟨sp, V', h2, fun h0 => (C80_no_interpolation_is_value_function _ _ hno _ _ _ _ _ _ _ _ _).1 (h3.1 h0), h4 g⟩

end

end Respy
