import Verif.Props.ExactLimit
import Verif.Props.SolveFunction
import Verif.Spec.SimulatedMaximum

/-!
# C118: maximum simulated likelihood

Among finitely many candidates for the parameters, the maximum of the criterion function with draws is a maximum of the
exact likelihood with a probability which converges to one.
-/

open MeasureTheory ProbabilityTheory

namespace Respy

noncomputable section

theorem exists_gap {ι : Type} [Fintype ι] (x : ι → ℝ) : ∃ γ > 0, ∀ i j, x i < x j → x i + γ ≤ x j := by
  classical
  obtain ⟨a, _, ha⟩ := exists_uniform (K := ℝ) (Finset.univ : Finset (ι × ι)).toList
    (fun q a => x q.1 < x q.2 → 1 ≤ a * (x q.2 - x q.1))
    (fun q a c hac h hq => (h hq).trans (mul_le_mul_of_nonneg_right hac (by linarith)))
    (fun q _ => ⟨(x q.2 - x q.1)⁻¹, fun hq => by rw [inv_mul_cancel₀ (by linarith)]⟩)
  refine ⟨1 / (|a| + 1), by positivity, fun i j hij => ?_⟩
  have h := ha (i, j) (by simp) hij
  have h1 : 1 / (|a| + 1) ≤ x j - x i := by
    rw [div_le_iff₀ (by positivity)]
    dsimp only at h
    nlinarith [le_abs_self a]
  linarith

/-- Criterion functions which approach their exact values have the same maximum with high probability. -/
theorem maximum_approaches {ι : Type} [Fintype ι] {b : ι → BuildSpec} {w m : ι → Option Nat → CoreState → Nat → ℝ}
    {future : ι → Option Nat → CoreState → List (Option Nat × ℝ)} {V : ι → Option Nat → CoreState → ℝ}
    {solution : ι → (n : Nat) → ((size seed t : Nat) → Fin n → Fin size → ℝ) → Option (SimSpace ℝ)}
    {estimation : ι → SimSpace ℝ → Estimation Unit}
    (h : ∀ i, SolvedCriterionApproaches (b i) (w i) (m i) (future i) (V i) (solution i) (estimation i)) :
    MaximumApproaches b w m future V solution estimation := by
  choose exact hexact hlim using h
  refine ⟨exact, hexact, ?_⟩
  obtain ⟨γ, hγ, hgap⟩ := exists_gap exact
  choose K K' hK using fun i => hlim i (γ / 2) (by linarith)
  refine ⟨∑ i, |K i|, ∑ i, |K' i|, ?_⟩
  intro Ω _ Q _ n n' hn hn' Z hZ Z' hZ'
  choose value hvalue hQ using fun i => hK i Ω Q n n' hn hn' Z hZ Z' hZ'
  refine ⟨value, hvalue, ?_⟩
  have hsub : {ω | ∃ i, (∀ j, value j ω ≤ value i ω) ∧ ∃ j, exact i < exact j} ⊆
      ⋃ i ∈ Finset.univ, {ω | γ / 2 ≤ |value i ω - exact i|} := by
    rintro ω ⟨i, hmax, j, hij⟩
    by_contra hcon
    simp only [Set.mem_iUnion, Set.mem_ofPred_eq, not_exists, not_le] at hcon
    have h1 := abs_lt.1 (hcon i (Finset.mem_univ i))
    have h2 := abs_lt.1 (hcon j (Finset.mem_univ j))
    have h3 := hmax j
    have h4 := hgap i j hij
    linarith [h1.2, h2.1]
  have hsum : ∀ (c : ι → ℝ) (k : Nat), ∑ i, ENNReal.ofReal (c i / k) ≤ ENNReal.ofReal ((∑ i, |c i|) / k) := by
    intro c k
    rw [Finset.sum_div, ENNReal.ofReal_sum_of_nonneg fun i _ => by positivity]
    exact Finset.sum_le_sum fun i _ =>
      ENNReal.ofReal_le_ofReal (div_le_div_of_nonneg_right (le_abs_self _) (Nat.cast_nonneg k))
  calc Q {ω | ∃ i, (∀ j, value j ω ≤ value i ω) ∧ ∃ j, exact i < exact j}
      ≤ ∑ i, Q {ω | γ / 2 ≤ |value i ω - exact i|} := (measure_mono hsub).trans (measure_biUnion_finset_le _ _)
    _ ≤ ∑ i, (ENNReal.ofReal (K i / n) + ENNReal.ofReal (K' i / n')) := Finset.sum_le_sum fun i _ => hQ i
    _ ≤ ENNReal.ofReal ((∑ i, |K i|) / n) + ENNReal.ofReal ((∑ i, |K' i|) / n') := by
        rw [Finset.sum_add_distrib]
        exact add_le_add (hsum K n) (hsum K' n')

variable {env : ProcessEnv} {m : UserModel} {p q : Processed} {ev : FormulaEval} {core : List CoreState}

/-- Data without wages which fit to a model fit to it for all parameters with the same structure. -/
theorem EstimateEnv.Fits.other {m m' : UserModel} (h : SameStructure p q)
    (hn : m.negativeChoiceSet = m'.negativeChoiceSet) {e : EstimateEnv} {w w' : Option Nat → CoreState → Nat → ℝ}
    (he : e.Fits p m ev core w) (hw : ∀ r ∈ e.data, r.wage = none) : e.Fits q m' ev core w' where
  qr := he.qr
  cholesky := he.cholesky
  lo := he.lo
  hi := he.hi
  base := he.base
  index := he.index
  first := h.nTypes ▸ he.first
  states := by
    intro r hr
    obtain ⟨h1, h2⟩ := he.states r hr
    refine ⟨h1, fun t ht => ?_⟩
    have hcount : p.typeCount = q.typeCount := by
      unfold Processed.typeCount
      rw [h.nTypes]
    have hdense : p.denseOf r t = q.denseOf r t := by
      unfold Processed.denseOf Processed.nStatic
      rw [h.nTypes, h.denseSpec]
    obtain ⟨d, c, h3, h4, h5, _⟩ := h2 t (hcount ▸ ht)
    refine ⟨d, c, ?_, h.choices ▸ h4, h.allowed hn h5, fun y hy => ?_⟩
    · rw [← hdense, ← h.buildSpec ev]
      exact h3
    · rw [hw r hr] at hy
      cases hy

/-- **C118 (partial).** A supported model without exogenous processes and interpolation is accepted, and there are
finitely many candidates for the parameters with the same index and the same maximum experiences: all of them are
accepted. If discount factors are not negative and the data fit to the candidates, then a candidate with the highest value of
the criterion function, computed with the same random numbers for all of them, has the highest exact log likelihood,
except with a probability of at most `K / n + K' / n'` for `n` draws of the solution and `n'` draws of the likelihood.
Missing: as in `C117_accepted_models_partial`. -/
theorem C118_accepted_models_partial (hp : processModel env m = some p) {J : Nat} {Θ : Fin J → Dict (Str × Str) ℝ}
    (hΘ : ∀ j, m.SameIndex (Θ j)) (hev : ev.Contract) (hs : p.Supported m ev core)
    (hcore : createCore (p.buildSpec ev).core = some core) (hexo : p.exogenous = []) (hkeep : env.KeepsShape)
    (hlow : env.LowerTriangular) (hnd : (Dict.keys m.params).Nodup)
    (hother : ∀ q ∈ m.params, mentionsShocks q.1 = true → ∃ c ∈ shockCategories, q.1.1 = c.toList)
    (senv : SolveEnv)
    (hsizes : ∀ d ∈ (p.buildSpec ev).denseIndices, ∀ s ∈ core, ((p.buildSpec ev).choiceSetAt d s).count true ∈ senv.sizes)
    (hallowed : ∀ d ∈ (p.buildSpec ev).denseIndices, ∀ s ∈ core, ∃ c ∈ p.choices.choices, p.Allowed m ev d s c)
    (hno : ∀ t, ¬ (p.buildSpec ev).Interpolates core t)
    (rng : InterpolationRandom) (hrng : rng.Contract) (sqrt : ℝ → ℝ) (ols : List ℝ → List (List ℝ) → List ℝ)
    (maxLog : ℝ) (seed : Nat)
    (ev0 : Built → Dict Nat (List ℝ)) (hev0 : ∀ bt, SameShape (initialValues bt.space) (ev0 bt))
    (vc ko : List Nat → List Nat) (e : EstimateEnv) :
    ∃ bt, buildSpace (p.buildSpec ev) = some bt ∧ ∃ q : Fin J → Processed,
      (∀ j, processModel env { m with params := Θ j } = some (q j)) ∧
      ((∀ j, 0 ≤ (q j).discount.delta) →
        (∀ j, e.Fits (q j) { m with params := Θ j } ev core ((q j).solveInput ev senv).wageOf) →
        ∃ V : Fin J → Option Nat → CoreState → ℝ,
          (∀ j, IsExpectedValueFunction (p.buildSpec ev) core (q j).discount.delta ((q j).solveInput ev senv).wageOf
            ((q j).solveInput ev senv).nonpecOf (fun _ => ((q j).solveInput ev senv).shockLaw) (fun d _ => [(d, 1)])
            (V j)) ∧
          MaximumApproaches (fun _ => p.buildSpec ev) (fun j => ((q j).solveInput ev senv).wageOf)
            (fun j => ((q j).solveInput ev senv).nonpecOf) (fun _ d _ => [(d, 1)]) V
            (fun j n z => ((q j).solveInput ev (senv.withNumbers p.nPeriods n z)).solveModel (p.buildSpec ev)
              (fun _ => some []) (kw94 bt.space rng sqrt ols
                (expShocks Real.exp maxLog (q j).choices.wWage.length (q j).cholesky)) seed ev0 vc ko)
            (fun j sp => (q j).estimation ev e (some sp))) := by
  have hexo' : (p.buildSpec ev).exogLevels = [] := by simp [Processed.buildSpec, hexo]
  obtain ⟨bt, hbuild, _⟩ := buildSpace_noExogenous _ core (C82_processed_models_well_formed hp hev hs hcore) hexo'
  have hall : ∀ j, ∃ q, processModel env { m with params := Θ j } = some q ∧ SameStructure p q := by
    intro j
    have h := processModel_sameIndex env m (Θ j) (hΘ j).index (hΘ j).max
    rw [hp] at h
    generalize hq : processModel env { m with params := Θ j } = oq at h
    cases h with
    | @some _ q hst => exact ⟨q, rfl, hst⟩
  choose q hq hst using hall
  refine ⟨bt, hbuild, q, hq, fun hdelta he => ?_⟩
  have hcand : ∀ j, ∃ V, IsExpectedValueFunction (p.buildSpec ev) core (q j).discount.delta
        ((q j).solveInput ev senv).wageOf ((q j).solveInput ev senv).nonpecOf
        (fun _ => ((q j).solveInput ev senv).shockLaw) (fun d _ => [(d, 1)]) V ∧
      SolvedCriterionApproaches (p.buildSpec ev) ((q j).solveInput ev senv).wageOf ((q j).solveInput ev senv).nonpecOf
        (fun d _ => [(d, 1)]) V
        (fun n z => ((q j).solveInput ev (senv.withNumbers p.nPeriods n z)).solveModel (p.buildSpec ev)
          (fun _ => some []) (kw94 bt.space rng sqrt ols
            (expShocks Real.exp maxLog (q j).choices.wWage.length (q j).cholesky)) seed ev0 vc ko)
        fun sp => (q j).estimation ev e (some sp) := by
    intro j
    have hb := (hst j).buildSpec ev
    have hexoq : (q j).exogenous = [] := by
      have := congrArg List.length (groupsShape_lengths (hst j).exogenous)
      simp only [List.length_map, hexo, List.length_nil] at this
      exact List.length_eq_zero_iff.1 this.symm
    have hotherq : ∀ x ∈ Θ j, mentionsShocks x.1 = true → ∃ c ∈ shockCategories, x.1.1 = c.toList := by
      intro x hx
      have hm : x.1 ∈ m.params.map Prod.fst := (hΘ j).index ▸ List.mem_map_of_mem (f := Prod.fst) hx
      obtain ⟨y, hy, heq⟩ := List.mem_map.1 hm
      exact heq ▸ hother y hy
    rw [hb] at hcore hsizes hallowed hno hbuild
    obtain ⟨bt', V, h1, h2, h3⟩ := C117_accepted_models_partial (hq j) hev
      ((hst j).supported (m := m) (m' := { m with params := Θ j }) rfl hs) hcore hexoq hkeep hlow
      (by unfold Dict.keys at hnd ⊢; exact (hΘ j).index ▸ hnd) hotherq senv hsizes
      (fun d hd s hm => by
        obtain ⟨c, hc, ha⟩ := hallowed d hd s hm
        exact ⟨c, (hst j).choices ▸ hc, (hst j).allowed (m := m) (m' := { m with params := Θ j }) rfl ha⟩)
      (hdelta j) hno rng hrng sqrt ols maxLog seed ev0 hev0 vc ko e (he j)
    rw [hbuild] at h1
    cases h1
    rw [hb, (hst j).nPeriods]
    exact ⟨V, h2, h3⟩
  choose V hV hlim using hcand
  exact ⟨V, hV, maximum_approaches hlim⟩

/-- **C118 (partial)** for models with exogenous processes, if these come last among the observables and there are no
types. Missing: as in `C117_models_with_processes_partial`. -/
theorem C118_models_with_processes_partial (hp : processModel env m = some p) {J : Nat}
    {Θ : Fin J → Dict (Str × Str) ℝ} (hΘ : ∀ j, m.SameIndex (Θ j)) (hev : ev.Contract) (hs : p.Supported m ev core)
    (hcore : createCore (p.buildSpec ev).core = some core)
    (hexo : p.exogenous ≠ []) (static : List (Str × Nat)) (htypes : p.nTypes < 2)
    (hobs : p.observables.map (fun o => (o.1, o.2.length)) = static ++ p.exogenous.map fun o => (o.1, o.2.length))
    (hnames : ∀ e ∈ p.exogenous, ∀ level ∈ e.2, ∀ item ∈ level.2, item.1 ∈ p.columns true)
    (hkeep : env.KeepsShape) (hlow : env.LowerTriangular) (hnd : (Dict.keys m.params).Nodup)
    (hother : ∀ q ∈ m.params, mentionsShocks q.1 = true → ∃ c ∈ shockCategories, q.1.1 = c.toList)
    (senv : SolveEnv)
    (hsizes : ∀ d ∈ (p.buildSpec ev).denseIndices, ∀ s ∈ core, ((p.buildSpec ev).choiceSetAt d s).count true ∈ senv.sizes)
    (hallowed : ∀ d ∈ (p.buildSpec ev).denseIndices, ∀ s ∈ core, ∃ c ∈ p.choices.choices, p.Allowed m ev d s c)
    (hno : ∀ t, ¬ (p.buildSpec ev).Interpolates core t)
    (rng : InterpolationRandom) (hrng : rng.Contract) (sqrt : ℝ → ℝ) (ols : List ℝ → List (List ℝ) → List ℝ)
    (maxLog : ℝ) (seed : Nat)
    (ev0 : Built → Dict Nat (List ℝ)) (hev0 : ∀ bt, SameShape (initialValues bt.space) (ev0 bt))
    (vc ko : List Nat → List Nat) (e : EstimateEnv) :
    ∃ bt, buildSpace (p.buildSpec ev) = some bt ∧ ∃ q : Fin J → Processed,
      (∀ j, processModel env { m with params := Θ j } = some (q j)) ∧
      ((∀ j, 0 ≤ (q j).discount.delta) →
        (∀ j, e.Fits (q j) { m with params := Θ j } ev core ((q j).solveInput ev senv).wageOf) →
        let future := fun (j : Fin J) d s => (exogenousGrid (p.exogenous.map fun e => e.2.length)).map fun e =>
          ((p.buildSpec ev).successor d e, levelProbability (q j).exogenousParams (p.covariates ev d s) e)
        ∃ V : Fin J → Option Nat → CoreState → ℝ,
          (∀ j, IsExpectedValueFunction (p.buildSpec ev) core (q j).discount.delta ((q j).solveInput ev senv).wageOf
            ((q j).solveInput ev senv).nonpecOf (fun _ => ((q j).solveInput ev senv).shockLaw) (future j) (V j)) ∧
          MaximumApproaches (fun _ => p.buildSpec ev) (fun j => ((q j).solveInput ev senv).wageOf)
            (fun j => ((q j).solveInput ev senv).nonpecOf) future V
            (fun j n z => ((q j).solveInput ev (senv.withNumbers p.nPeriods n z)).solveModel (p.buildSpec ev)
              (((q j).solveInput ev (senv.withNumbers p.nPeriods n z)).transitions (q j).exogenousParams (p.buildSpec ev))
              (kw94 bt.space rng sqrt ols
                (expShocks Real.exp maxLog (q j).choices.wWage.length (q j).cholesky)) seed ev0 vc ko)
            (fun j sp => (q j).estimation ev e (some sp))) := by
  have hall : ∀ j, ∃ q, processModel env { m with params := Θ j } = some q ∧ SameStructure p q := by
    intro j
    have h := processModel_sameIndex env m (Θ j) (hΘ j).index (hΘ j).max
    rw [hp] at h
    generalize hq : processModel env { m with params := Θ j } = oq at h
    cases h with
    | @some _ q hst => exact ⟨q, rfl, hst⟩
  choose q hq hst using hall
  obtain ⟨bt, _, hbuild, _⟩ := buildSpace_exogenous _ core (C82_processed_models_well_formed hp hev hs hcore) _
    (exogenous_wf p ev hexo static htypes hobs)
  refine ⟨bt, hbuild, q, hq, fun hdelta he => ?_⟩
  intro future
  have hcand : ∀ j, ∃ V, IsExpectedValueFunction (p.buildSpec ev) core (q j).discount.delta
        ((q j).solveInput ev senv).wageOf ((q j).solveInput ev senv).nonpecOf
        (fun _ => ((q j).solveInput ev senv).shockLaw) (future j) V ∧
      SolvedCriterionApproaches (p.buildSpec ev) ((q j).solveInput ev senv).wageOf ((q j).solveInput ev senv).nonpecOf
        (future j) V
        (fun n z => ((q j).solveInput ev (senv.withNumbers p.nPeriods n z)).solveModel (p.buildSpec ev)
          (((q j).solveInput ev (senv.withNumbers p.nPeriods n z)).transitions (q j).exogenousParams (p.buildSpec ev))
          (kw94 bt.space rng sqrt ols
            (expShocks Real.exp maxLog (q j).choices.wWage.length (q j).cholesky)) seed ev0 vc ko)
        fun sp => (q j).estimation ev e (some sp) := by
    intro j
    have hb := (hst j).buildSpec ev
    have hlen : (p.exogenous.map fun e => e.2.length) = (q j).exogenous.map fun e => e.2.length := by
      have := congrArg (List.map Prod.snd) (groupsShape_lengths (hst j).exogenous)
      rwa [List.map_map, List.map_map] at this
    obtain ⟨hexo', htypes', hobs', hnames'⟩ := (hst j).processes hexo htypes hobs hnames
    have hotherq : ∀ x ∈ Θ j, mentionsShocks x.1 = true → ∃ c ∈ shockCategories, x.1.1 = c.toList := by
      intro x hx
      have hm : x.1 ∈ m.params.map Prod.fst := (hΘ j).index ▸ List.mem_map_of_mem (f := Prod.fst) hx
      obtain ⟨y, hy, heq⟩ := List.mem_map.1 hm
      exact heq ▸ hother y hy
    simp only [future]
    rw [hb] at hcore hsizes hallowed hno hbuild
    obtain ⟨bt', V, h1, h2, h3⟩ := C117_models_with_processes_partial (hq j) hev
      ((hst j).supported (m := m) (m' := { m with params := Θ j }) rfl hs) hcore hexo' static htypes' hobs' hnames'
      hkeep hlow (by unfold Dict.keys at hnd ⊢; exact (hΘ j).index ▸ hnd) hotherq senv hsizes
      (fun d hd s hm => by
        obtain ⟨c, hc, ha⟩ := hallowed d hd s hm
        exact ⟨c, (hst j).choices ▸ hc, (hst j).allowed (m := m) (m' := { m with params := Θ j }) rfl ha⟩)
      (hdelta j) hno rng hrng sqrt ols maxLog seed ev0 hev0 vc ko e (he j)
    rw [hbuild] at h1
    cases h1
    rw [hb, (hst j).nPeriods, hlen, (hst j).covariates]
    exact ⟨V, h2, h3⟩
  choose V hV hlim using hcand
  exact ⟨V, hV, maximum_approaches hlim⟩

end

end Respy
