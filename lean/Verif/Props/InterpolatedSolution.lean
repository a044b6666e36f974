import Verif.Lemmas.InterpolatedSolution
import Verif.Props.EndToEndExogenous

/-!
# C80: solutions with interpolation and with a discount factor of zero

From the parameters to the stored values for all numbers of interpolation points and all discount factors.
-/

set_option linter.unusedSectionVars false

namespace Respy

variable {K : Type _} [Field K] [LinearOrder K] [IsStrictOrderedRing K]

theorem isBellman_of_rows {inp : SolveInput K} {delta : K} (t : Nat) (cs : List Bool) (w m c : Nat → K) (v : K)
    (h : IsBellman delta (fun a => cs[a]? = some true) w m c ((inp.transformedRows t cs).map (shocksOf cs)) v) :
    IsBellman delta (fun a => cs[a]? = some true) w m c (inp.shocks t cs) v := by
  simp only [SolveInput.transformedRows, List.map_map] at h
  exact h.congr_shocks fun z _ a ha => shocksOf_map_validChoices _ _ a ha

theorem IsInterpolatedSolutionAt.of_rows {b : BuildSpec} {core : List CoreState} {inp : SolveInput K}
    {delta : K} {w m : Option Nat → CoreState → Nat → K}
    {future : Option Nat → CoreState → List (Option Nat × K)} {mean : Nat → K} {sqrt : K → K}
    {ols : List K → List (List K) → List K} {states : Nat → Option Nat × List Bool → List CoreState}
    {simulated : Nat → Option Nat × List Bool → CoreState → Bool} {V : Option Nat → CoreState → K}
    (h : IsInterpolatedSolutionAt b core delta w m
      (fun t cs => (inp.transformedRows t cs).map (shocksOf cs)) future mean sqrt ols states simulated V) :
    IsInterpolatedSolutionAt b core delta w m inp.shocks future mean sqrt ols states simulated V := by
  refine ⟨fun d hd s hs hni => isBellman_of_rows _ _ _ _ _ _ (h.1 d hd s hs hni), fun t ht g hg => ?_⟩
  obtain ⟨mx, x, h1, h2, h3, h4, h5⟩ := h.2 t ht g hg
  exact ⟨mx, x, h1, h2, h3, fun s hs hsim => isBellman_of_rows _ _ _ _ _ _ (h4 s hs hsim), h5⟩

theorem IsInterpolatedSolution.of_rows {b : BuildSpec} {core : List CoreState} {inp : SolveInput K}
    {delta : K} {w m : Option Nat → CoreState → Nat → K}
    {future : Option Nat → CoreState → List (Option Nat × K)} {mean : Nat → K} {sqrt : K → K}
    {ols : List K → List (List K) → List K} {V : Option Nat → CoreState → K}
    (h : IsInterpolatedSolution b core delta w m
      (fun t cs => (inp.transformedRows t cs).map (shocksOf cs)) future mean sqrt ols V) :
    IsInterpolatedSolution b core delta w m inp.shocks future mean sqrt ols V := by
  refine ⟨fun d hd s hs hni => isBellman_of_rows _ _ _ _ _ _ (h.1 d hd s hs hni), fun t ht g hg => ?_⟩
  obtain ⟨states, simulated, mx, x, h1, h2, h3, h4, h5⟩ := h.2 t ht g hg
  exact ⟨states, simulated, mx, x, h1, h2, h3, fun s hs hsim => isBellman_of_rows _ _ _ _ _ _ (h4 s hs hsim), h5⟩

/-- A solution for given simulated states is a solution. -/
theorem IsInterpolatedSolutionAt.isInterpolatedSolution {b : BuildSpec} {core : List CoreState} {delta : K}
    {w m : Option Nat → CoreState → Nat → K} {shocks : Nat → List Bool → List (Nat → K)}
    {future : Option Nat → CoreState → List (Option Nat × K)} {mean : Nat → K} {sqrt : K → K}
    {ols : List K → List (List K) → List K} {states : Nat → Option Nat × List Bool → List CoreState}
    {simulated : Nat → Option Nat × List Bool → CoreState → Bool} {V : Option Nat → CoreState → K}
    (h : IsInterpolatedSolutionAt b core delta w m shocks future mean sqrt ols states simulated V) :
    IsInterpolatedSolution b core delta w m shocks future mean sqrt ols V :=
  ⟨h.1, fun t ht g hg => ⟨_, _, h.2 t ht g hg⟩⟩

/-- **C80.** The solution of a well-formed model without exogenous processes for every number of
interpolation points, every random number generator which fulfils its contract, every square root and
every regression method. The state space and the objects are created. The backward induction succeeds if
and only if no interpolated period has exactly two points per group of states (then the code raises, see
`C21_two_points_per_key_false`). After success the stored values solve the model with interpolation:
simulated states satisfy the Bellman equation, all others have the value of the regression of Keane and
Wolpin (1994) within their group, and continuation values are the stored values themselves. -/
theorem C80_solution_with_interpolation (b : BuildSpec) (core : List CoreState) (wf : b.WF core)
    (hexo : b.exogLevels = []) (inp : SolveInput K) (hinp : inp.WF b core) (hdelta : inp.delta ≠ 0)
    (hcs : ∀ d ∈ b.denseIndices, ∀ s ∈ core, ∃ a : Nat, (b.choiceSetAt d s)[a]? = some true)
    (rng : InterpolationRandom) (hrng : rng.Contract) (sqrt : K → K)
    (ols : List K → List (List K) → List K) (maxLog : K) :
    ∃ bt par, buildSpace b = some bt ∧ inp.paramObjects bt [] = some par ∧
      ∀ (seed : Nat) (ev0 : Dict Nat (List K)), SameShape (initialValues bt.space) ev0 →
        let result := solveBackward bt.space (kw94 bt.space rng sqrt ols
          (expShocks inp.exp maxLog inp.nWages inp.cholesky)) par seed ev0
        (result.2 = true ↔ ∀ t < b.core.nPeriods, b.Interpolates core t →
          b.points ≠ 2 * (b.groupsOfPeriod core t).length) ∧
        (result.2 = true → ∃ V, IsInterpolatedSolution b core inp.delta inp.wageOf inp.nonpecOf inp.shocks
            (fun d _ => [(d, 1)]) (expectedShock inp.exp maxLog inp.nWages inp.cholesky) sqrt ols V ∧
          ∀ d ∈ b.denseIndices, ∀ s ∈ core, bt.ValueAt result.1 d s (V d s)) := by
  obtain ⟨bt, hbuild, hsnd⟩ := buildSpace_noExogenous b core wf hexo
  obtain ⟨par, h1, h2, h3, hfit⟩ := hinp.paramsFit wf hsnd []
  refine ⟨bt, par, hbuild, h1, ?_⟩
  intro seed ev0 hs result
  have hd : par.delta ≠ 0 := by rw [h2]; exact hdelta
  refine ⟨hsnd.interpolated_ok_iff wf rng hrng sqrt ols _ par _ _ _ _ hfit (hsnd.continuationIs par) hd
    (by simpa [expShocks] using hinp.choices) hcs seed ev0 hs, fun hok => ?_⟩
  obtain ⟨V, hV, hval⟩ := hsnd.interpolatedSolution wf rng hrng inp.exp sqrt ols maxLog inp.nWages
    inp.cholesky par _ _ _ (fun d _ => [(d, (1 : K))]) (by
      intro d hd s _ fp hfp
      simp only [List.mem_singleton] at hfp
      subst hfp; exact hd) hfit (hsnd.continuationIs par) hd hinp.choices seed ev0 hs hok
  rw [h2] at hV
  exact ⟨V, hV.of_rows, hval⟩

/-- **C80** with exogenous processes: continuation values are averages over the levels of the processes. -/
theorem C80_exogenous_solution_with_interpolation (b : BuildSpec) (core : List CoreState) (wf : b.WF core)
    (static : List (List Nat)) (hx : b.ExogWF static) (inp : SolveInput ℝ) (hinp : inp.WF b core)
    (hdelta : inp.delta ≠ 0)
    (ep : ExogenousParams) (hep : ep.map List.length = b.exogLevels) (hlev : ∀ levels ∈ ep, levels ≠ [])
    (hcov : ∀ levels ∈ ep, ∀ beta ∈ levels, ∀ item ∈ beta, ∀ d ∈ b.denseIndices, ∀ s ∈ core,
      (inp.covariates d s item.1).isSome)
    (hcs : ∀ d ∈ b.denseIndices, ∀ s ∈ core, ∃ a : Nat, (b.choiceSetAt d s)[a]? = some true)
    (rng : InterpolationRandom) (hrng : rng.Contract) (sqrt : ℝ → ℝ)
    (ols : List ℝ → List (List ℝ) → List ℝ) (maxLog : ℝ) :
    ∃ bt transition par, buildSpace b = some bt ∧ inp.transitions ep b bt = some transition ∧
      inp.paramObjects bt transition = some par ∧
      ∀ (seed : Nat) (ev0 : Dict Nat (List ℝ)), SameShape (initialValues bt.space) ev0 →
        let result := solveBackward bt.space (kw94 bt.space rng sqrt ols
          (expShocks inp.exp maxLog inp.nWages inp.cholesky)) par seed ev0
        (result.2 = true ↔ ∀ t < b.core.nPeriods, b.Interpolates core t →
          b.points ≠ 2 * (b.groupsOfPeriod core t).length) ∧
        (result.2 = true → ∃ V, IsInterpolatedSolution b core inp.delta inp.wageOf inp.nonpecOf inp.shocks
            (fun d s => (exogenousGrid b.exogLevels).map fun e =>
              (b.successor d e, levelProbability ep (inp.covariates d s) e))
            (expectedShock inp.exp maxLog inp.nWages inp.cholesky) sqrt ols V ∧
          ∀ d ∈ b.denseIndices, ∀ s ∈ core, bt.ValueAt result.1 d s (V d s)) := by
  obtain ⟨bt, reps, hbuild, hsnd, htr, hdpc⟩ := buildSpace_exogenous b core wf static hx
  obtain ⟨transition, ht, hfit⟩ := inp.transitions_fit ep b core wf static hx hep hcov bt reps hsnd hdpc
  obtain ⟨par, h1, h2, h3, hpf⟩ := hinp.paramsFit wf hsnd transition
  refine ⟨bt, transition, par, hbuild, ht, h1, ?_⟩
  intro seed ev0 hs result
  have hne : exogenousGrid b.exogLevels ≠ [] := by
    intro h0
    have := (C19_level_probabilities ep hlev fun _ => none).2
    rw [hep, h0] at this
    simp at this
  have hcont := hsnd.continuationIs_exogenous htr hne par
    (fun d s e => levelProbability ep (inp.covariates d s) e) (by rw [h3]; exact hfit)
  obtain ⟨grid, hg⟩ : ∃ grid, b.grid = some grid := ⟨_, hx.grid⟩
  have hd : par.delta ≠ 0 := by rw [h2]; exact hdelta
  refine ⟨hsnd.interpolated_ok_iff wf rng hrng sqrt ols _ par _ _ _ _ hpf hcont hd
    (by simpa [expShocks] using hinp.choices) hcs seed ev0 hs, fun hok => ?_⟩
  obtain ⟨V, hV, hval⟩ := hsnd.interpolatedSolution wf rng hrng inp.exp sqrt ols maxLog inp.nWages
    inp.cholesky par _ _ _ _ (by
      intro d hd s _ fp hfp
      obtain ⟨e, he, rfl⟩ := List.mem_map.1 hfp
      obtain ⟨i, rfl, hlt⟩ := (mem_denseIndices hg _).1 hd
      obtain ⟨d', q1, q2, _⟩ := hx.successor_spec hg i _ (List.getElem?_eq_getElem hlt) e he
      simp only [q1]
      exact (mem_denseIndices hg _).2 ⟨d', rfl, q2⟩) hpf hcont hd hinp.choices seed ev0 hs hok
  rw [h2] at hV
  exact ⟨V, hV.of_rows, hval⟩

/-- A solution with interpolation in a model without interpolated periods is the value function. -/
theorem C80_no_interpolation_is_value_function (b : BuildSpec) (core : List CoreState)
    (hno : ∀ t, ¬ b.Interpolates core t) (delta : K) (w m : Option Nat → CoreState → Nat → K)
    (shocks : Nat → List Bool → List (Nat → K))
    (future : Option Nat → CoreState → List (Option Nat × K)) (mean : Nat → K) (sqrt : K → K)
    (ols : List K → List (List K) → List K) (V : Option Nat → CoreState → K) :
    IsInterpolatedSolution b core delta w m shocks future mean sqrt ols V ↔
      IsValueFunction b core delta w m shocks future V :=
  ⟨fun h d hd s hs => h.1 d hd s hs (hno s.period),
    fun h => ⟨fun d hd s hs _ => h d hd s hs, fun t ht => absurd ht (hno t)⟩⟩

/-- **C80** for a discount factor of zero: the solution succeeds for every number of interpolation points
and stores zero for all states. -/
theorem C80_zero_discount_factor (b : BuildSpec) (core : List CoreState) (wf : b.WF core)
    (hexo : b.exogLevels = []) (inp : SolveInput K) (hinp : inp.WF b core) (hdelta : inp.delta = 0) :
    ∃ bt par, buildSpace b = some bt ∧ inp.paramObjects bt [] = some par ∧
      ∀ (interp : Interpolation K) (seed : Nat) (ev0 : Dict Nat (List K)),
        SameShape (initialValues bt.space) ev0 →
        (solveBackward bt.space interp par seed ev0).2 = true ∧
        ∀ d ∈ b.denseIndices, ∀ s ∈ core,
          bt.ValueAt (solveBackward bt.space interp par seed ev0).1 d s 0 := by
  obtain ⟨bt, hbuild, hsnd⟩ := buildSpace_noExogenous b core wf hexo
  obtain ⟨par, h1, h2, _⟩ := hinp.paramsFit wf hsnd []
  exact ⟨bt, par, hbuild, h1, fun interp seed ev0 hs =>
    hsnd.zero_discount wf interp par (by rw [h2]; exact hdelta) seed ev0 hs⟩

/-- The same with exogenous processes. -/
theorem C80_exogenous_zero_discount_factor (b : BuildSpec) (core : List CoreState) (wf : b.WF core)
    (static : List (List Nat)) (hx : b.ExogWF static) (inp : SolveInput ℝ) (hinp : inp.WF b core)
    (hdelta : inp.delta = 0) (ep : ExogenousParams) (hep : ep.map List.length = b.exogLevels)
    (hcov : ∀ levels ∈ ep, ∀ beta ∈ levels, ∀ item ∈ beta, ∀ d ∈ b.denseIndices, ∀ s ∈ core,
      (inp.covariates d s item.1).isSome) :
    ∃ bt transition par, buildSpace b = some bt ∧ inp.transitions ep b bt = some transition ∧
      inp.paramObjects bt transition = some par ∧
      ∀ (interp : Interpolation ℝ) (seed : Nat) (ev0 : Dict Nat (List ℝ)),
        SameShape (initialValues bt.space) ev0 →
        (solveBackward bt.space interp par seed ev0).2 = true ∧
        ∀ d ∈ b.denseIndices, ∀ s ∈ core,
          bt.ValueAt (solveBackward bt.space interp par seed ev0).1 d s 0 := by
  obtain ⟨bt, reps, hbuild, hsnd, htr, hdpc⟩ := buildSpace_exogenous b core wf static hx
  obtain ⟨transition, ht, hfit⟩ := inp.transitions_fit ep b core wf static hx hep hcov bt reps hsnd hdpc
  obtain ⟨par, h1, h2, h3, hpf⟩ := hinp.paramsFit wf hsnd transition
  exact ⟨bt, transition, par, hbuild, ht, h1, fun interp seed ev0 hs =>
    hsnd.zero_discount wf interp par (by rw [h2]; exact hdelta) seed ev0 hs⟩

/-- All discount factors together. -/
theorem solution_all (b : BuildSpec) (core : List CoreState) (wf : b.WF core)
    (hexo : b.exogLevels = []) (inp : SolveInput K) (hinp : inp.WF b core)
    (hcs : ∀ d ∈ b.denseIndices, ∀ s ∈ core, ∃ a : Nat, (b.choiceSetAt d s)[a]? = some true)
    (hpts : b.PointsSuffice core inp.delta) (rng : InterpolationRandom) (hrng : rng.Contract) (sqrt : K → K)
    (ols : List K → List (List K) → List K) (maxLog : K) :
    ∃ bt par, buildSpace b = some bt ∧ inp.paramObjects bt [] = some par ∧
      ∀ (seed : Nat) (ev0 : Dict Nat (List K)), SameShape (initialValues bt.space) ev0 →
        let result := solveBackward bt.space (kw94 bt.space rng sqrt ols
          (expShocks inp.exp maxLog inp.nWages inp.cholesky)) par seed ev0
        result.2 = true ∧ ∃ V, IsSolution b core inp.delta inp.wageOf inp.nonpecOf inp.shocks
            (fun d _ => [(d, 1)]) (expectedShock inp.exp maxLog inp.nWages inp.cholesky) sqrt ols V ∧
          ∀ d ∈ b.denseIndices, ∀ s ∈ core, bt.ValueAt result.1 d s (V d s) := by
  by_cases hd : inp.delta = 0
  · obtain ⟨bt, par, h1, h2, h3⟩ := C80_zero_discount_factor b core wf hexo inp hinp hd
    refine ⟨bt, par, h1, h2, fun seed ev0 hs => ?_⟩
    obtain ⟨g1, g2⟩ := h3 (kw94 bt.space rng sqrt ols
      (expShocks inp.exp maxLog inp.nWages inp.cholesky)) seed ev0 hs
    exact ⟨g1, fun _ _ => 0, ⟨fun h => absurd hd h, fun _ _ _ _ _ => rfl⟩, g2⟩
  · obtain ⟨bt, par, h1, h2, h3⟩ := C80_solution_with_interpolation b core wf hexo inp hinp hd hcs rng hrng
      sqrt ols maxLog
    refine ⟨bt, par, h1, h2, fun seed ev0 hs => ?_⟩
    obtain ⟨g1, g2⟩ := h3 seed ev0 hs
    have hok := g1.2 (hpts hd)
    obtain ⟨V, hV, hval⟩ := g2 hok
    exact ⟨hok, V, ⟨fun _ => hV, fun h => absurd h hd⟩, hval⟩

/-- All discount factors together, with exogenous processes. -/
theorem solution_all_exogenous (b : BuildSpec) (core : List CoreState) (wf : b.WF core)
    (static : List (List Nat)) (hx : b.ExogWF static) (inp : SolveInput ℝ) (hinp : inp.WF b core)
    (ep : ExogenousParams) (hep : ep.map List.length = b.exogLevels) (hlev : ∀ levels ∈ ep, levels ≠ [])
    (hcov : ∀ levels ∈ ep, ∀ beta ∈ levels, ∀ item ∈ beta, ∀ d ∈ b.denseIndices, ∀ s ∈ core,
      (inp.covariates d s item.1).isSome)
    (hcs : ∀ d ∈ b.denseIndices, ∀ s ∈ core, ∃ a : Nat, (b.choiceSetAt d s)[a]? = some true)
    (hpts : b.PointsSuffice core inp.delta) (rng : InterpolationRandom) (hrng : rng.Contract)
    (sqrt : ℝ → ℝ) (ols : List ℝ → List (List ℝ) → List ℝ) (maxLog : ℝ) :
    ∃ bt transition par, buildSpace b = some bt ∧ inp.transitions ep b bt = some transition ∧
      inp.paramObjects bt transition = some par ∧
      ∀ (seed : Nat) (ev0 : Dict Nat (List ℝ)), SameShape (initialValues bt.space) ev0 →
        let result := solveBackward bt.space (kw94 bt.space rng sqrt ols
          (expShocks inp.exp maxLog inp.nWages inp.cholesky)) par seed ev0
        result.2 = true ∧ ∃ V, IsSolution b core inp.delta inp.wageOf inp.nonpecOf inp.shocks
            (fun d s => (exogenousGrid b.exogLevels).map fun e =>
              (b.successor d e, levelProbability ep (inp.covariates d s) e))
            (expectedShock inp.exp maxLog inp.nWages inp.cholesky) sqrt ols V ∧
          ∀ d ∈ b.denseIndices, ∀ s ∈ core, bt.ValueAt result.1 d s (V d s) := by
  by_cases hd : inp.delta = 0
  · obtain ⟨bt, tr, par, h1, ht, h2, h3⟩ := C80_exogenous_zero_discount_factor b core wf static hx inp hinp hd
      ep hep hcov
    refine ⟨bt, tr, par, h1, ht, h2, fun seed ev0 hs => ?_⟩
    obtain ⟨g1, g2⟩ := h3 (kw94 bt.space rng sqrt ols
      (expShocks inp.exp maxLog inp.nWages inp.cholesky)) seed ev0 hs
    exact ⟨g1, fun _ _ => 0, ⟨fun h => absurd hd h, fun _ _ _ _ _ => rfl⟩, g2⟩
  · obtain ⟨bt, tr, par, h1, ht, h2, h3⟩ := C80_exogenous_solution_with_interpolation b core wf static hx inp
      hinp hd ep hep hlev hcov hcs rng hrng sqrt ols maxLog
    refine ⟨bt, tr, par, h1, ht, h2, fun seed ev0 hs => ?_⟩
    obtain ⟨g1, g2⟩ := h3 seed ev0 hs
    have hok := g1.2 (hpts hd)
    obtain ⟨V, hV, hval⟩ := g2 hok
    exact ⟨hok, V, ⟨fun _ => hV, fun h => absurd h hd⟩, hval⟩

/-! Concrete cases: the model of `exampleBuild` with fewer interpolation points. -/

/-- The example model with `n` interpolation points. -/
def pointsBuild (n : Nat) : BuildSpec := { exampleBuild with points := n }

theorem pointsBuild_wf (n : Nat) (core : List CoreState) (h : exampleBuild.WF core) :
    (pointsBuild n).WF core :=
  ⟨h.spec, h.created, h.periods, h.covered, h.several, h.compatible, h.distinct, h.closed⟩

/-- The numbers of states and groups of the three periods. -/
theorem pointsBuild_sizes (n : Nat) (core : List CoreState) (h : exampleBuild.WF core) :
    (List.range 3).map (fun t => (((pointsBuild n).statesOfPeriod core t).length,
      ((pointsBuild n).groupsOfPeriod core t).length)) = [(12, 2), (36, 4), (60, 4)] := by
  have hall : (createCore exampleSpec).all (fun core => decide ((List.range 3).map (fun t =>
      ((exampleBuild.statesOfPeriod core t).length, (exampleBuild.groupsOfPeriod core t).length)) =
      [(12, 2), (36, 4), (60, 4)])) = true := by decide +kernel
  have hc : createCore exampleSpec = some core := h.created
  rw [hc] at hall
  exact of_decide_eq_true hall

/-- With thirty points the hypotheses are met, the first period is not interpolated, the other two are,
and there are not exactly two points per group: the solution succeeds. -/
example : ∃ core, (pointsBuild 30).WF core ∧ (pointsBuild 30).exogLevels = [] ∧
    exampleInput.WF (pointsBuild 30) core ∧ exampleInput.delta ≠ 0 ∧
    (∀ d ∈ (pointsBuild 30).denseIndices, ∀ s ∈ core,
      ∃ a : Nat, ((pointsBuild 30).choiceSetAt d s)[a]? = some true) ∧ firstRandom.Contract ∧
    ¬ (pointsBuild 30).Interpolates core 0 ∧ (pointsBuild 30).Interpolates core 1 ∧
    (pointsBuild 30).Interpolates core 2 ∧
    ∀ t < (pointsBuild 30).core.nPeriods, (pointsBuild 30).Interpolates core t →
      (pointsBuild 30).points ≠ 2 * ((pointsBuild 30).groupsOfPeriod core t).length := by
  obtain ⟨core, wf, hl⟩ := exampleBuild_wf
  have hsz := pointsBuild_sizes 30 core wf
  simp only [List.range_succ, List.range_zero, List.nil_append, List.cons_append, List.map_cons,
    List.map_nil, List.cons.injEq, Prod.mk.injEq, and_true] at hsz
  obtain ⟨⟨a1, a2⟩, ⟨b1, b2⟩, c1, c2⟩ := hsz
  have hcs : ∀ d s, (pointsBuild 30).choiceSetAt d s = choiceSet exampleRestr s := by
    intro d s; cases d <;> rfl
  have hp : (pointsBuild 30).points = 30 := rfl
  refine ⟨core, pointsBuild_wf 30 core wf, rfl, exampleInputOf_wf _ _ core rfl hcs, by decide +kernel,
    ?_, firstRandom_contract, ?_, ?_, ?_, ?_⟩
  · intro d _ s _
    exact ⟨2, by rw [hcs]; rfl⟩
  · unfold BuildSpec.Interpolates; rw [a1, hp]; omega
  · unfold BuildSpec.Interpolates; rw [b1, b2, hp]; omega
  · unfold BuildSpec.Interpolates; rw [c1, c2, hp]; omega
  · intro t ht _
    have ht : t < 3 := ht
    rw [hp]
    match t with
    | 0 => omega
    | 1 => omega
    | 2 => omega

/-- With four points the first period is interpolated with exactly two points per group: the solution
raises. -/
example : ∃ core, (pointsBuild 4).WF core ∧ (pointsBuild 4).Interpolates core 0 ∧
    (pointsBuild 4).points = 2 * ((pointsBuild 4).groupsOfPeriod core 0).length := by
  obtain ⟨core, wf, hl⟩ := exampleBuild_wf
  have hsz := pointsBuild_sizes 4 core wf
  simp only [List.range_succ, List.range_zero, List.nil_append, List.cons_append, List.map_cons,
    List.map_nil, List.cons.injEq, Prod.mk.injEq, and_true] at hsz
  obtain ⟨⟨a1, a2⟩, _⟩ := hsz
  have hp : (pointsBuild 4).points = 4 := rfl
  refine ⟨core, pointsBuild_wf 4 core wf, ?_, by rw [hp]; omega⟩
  unfold BuildSpec.Interpolates; rw [a1, a2, hp]; omega

/-- The example model with two types, a process with two levels and thirty interpolation points. -/
def exogenousPointsBuild : BuildSpec := { exogenousBuild with points := 30 }

theorem exogenousPointsBuild_sizes (core : List CoreState) (h : exogenousBuild.WF core) :
    (List.range 3).map (fun t => ((exogenousPointsBuild.statesOfPeriod core t).length,
      (exogenousPointsBuild.groupsOfPeriod core t).length)) = [(24, 4), (72, 8), (120, 8)] := by
  have hall : (createCore exampleSpec).all (fun core => decide ((List.range 3).map (fun t =>
      ((exogenousPointsBuild.statesOfPeriod core t).length,
        (exogenousPointsBuild.groupsOfPeriod core t).length)) =
      [(24, 4), (72, 8), (120, 8)])) = true := by decide +kernel
  have hc : createCore exampleSpec = some core := h.created
  rw [hc] at hall
  exact of_decide_eq_true hall

/-- The hypotheses of `C80_exogenous_solution_with_interpolation` are met and the last two periods are
interpolated with more than two points per group. -/
example : ∃ core, exogenousPointsBuild.WF core ∧ exogenousPointsBuild.ExogWF [[0, 1]] ∧
    (exampleInputOf Real.exp).WF exogenousPointsBuild core ∧ (exampleInputOf Real.exp).delta ≠ 0 ∧
    exampleLevels.map List.length = exogenousPointsBuild.exogLevels ∧
    (∀ levels ∈ exampleLevels, levels ≠ []) ∧
    (∀ levels ∈ exampleLevels, ∀ beta ∈ levels, ∀ item ∈ beta, ∀ d ∈ exogenousPointsBuild.denseIndices,
      ∀ s ∈ core, ((exampleInputOf Real.exp).covariates d s item.1).isSome) ∧
    (∀ d ∈ exogenousPointsBuild.denseIndices, ∀ s ∈ core,
      ∃ a : Nat, (exogenousPointsBuild.choiceSetAt d s)[a]? = some true) ∧
    exogenousPointsBuild.Interpolates core 1 ∧ exogenousPointsBuild.Interpolates core 2 ∧
    ∀ t < exogenousPointsBuild.core.nPeriods, exogenousPointsBuild.Interpolates core t →
      exogenousPointsBuild.points ≠ 2 * (exogenousPointsBuild.groupsOfPeriod core t).length := by
  obtain ⟨core, wf, hl⟩ := exogenousBuild_wf
  have hcs : ∀ d s, exogenousPointsBuild.choiceSetAt d s = choiceSet exampleRestr s := by
    intro d s; cases d <;> rfl
  have hsz := exogenousPointsBuild_sizes core wf
  simp only [List.range_succ, List.range_zero, List.nil_append, List.cons_append, List.map_cons,
    List.map_nil, List.cons.injEq, Prod.mk.injEq, and_true] at hsz
  obtain ⟨⟨a1, a2⟩, ⟨b1, b2⟩, c1, c2⟩ := hsz
  have hp : exogenousPointsBuild.points = 30 := rfl
  refine ⟨core, ⟨wf.spec, wf.created, wf.periods, wf.covered, wf.several, wf.compatible, wf.distinct, wf.closed⟩,
    ⟨by simp [exogenousPointsBuild, exogenousBuild], rfl, by simp, fun _ => rfl⟩,
    exampleInputOf_wf _ _ core rfl hcs, ?_, rfl, by simp [exampleLevels],
    fun _ _ _ _ _ _ _ _ _ _ => rfl, fun d _ s _ => ⟨2, by rw [hcs]; rfl⟩, ?_, ?_, ?_⟩
  · simp only [exampleInputOf]; norm_num
  · unfold BuildSpec.Interpolates; rw [b1, b2, hp]; omega
  · unfold BuildSpec.Interpolates; rw [c1, c2, hp]; omega
  · intro t ht _
    have ht : t < 3 := ht
    rw [hp]
    match t with
    | 0 => omega
    | 1 => omega
    | 2 => omega

/-- The inputs of the example with a discount factor of zero meet the hypotheses of
`C80_zero_discount_factor`. -/
example : ∃ core, exampleBuild.WF core ∧ exampleBuild.exogLevels = [] ∧
    ({ exampleInput with delta := 0 } : SolveInput ℚ).WF exampleBuild core ∧
    ({ exampleInput with delta := 0 } : SolveInput ℚ).delta = 0 := by
  obtain ⟨core, wf, hl⟩ := exampleBuild_wf
  have hcs : ∀ d s, exampleBuild.choiceSetAt d s = choiceSet exampleRestr s := by
    intro d s; cases d <;> rfl
  have h := exampleInputOf_wf (fun x : ℚ => 1 + x) exampleBuild core rfl hcs
  exact ⟨core, wf, rfl, ⟨h.wages, h.nonpecs, h.sizes, h.base, h.cholesky, h.choices⟩, rfl⟩

/-! ## The value function with a discount factor of zero -/

/-- The value of a state in which some alternative has a positive value is positive. -/
theorem IsBellman.pos {delta : K} {admissible : Nat → Prop} {w m c : Nat → K} {draws : List (Nat → K)} {v : K}
    (h : IsBellman delta admissible w m c draws v) (e : Nat → K) (he : e ∈ draws) (a : Nat) (ha : admissible a)
    (hpos : 0 < w a * e a + m a + delta * c a) : 0 < v := by
  obtain ⟨best, hb, rfl⟩ := h
  have hnn : ∀ x ∈ draws.map best, 0 ≤ x := by
    intro x hx
    obtain ⟨e', he', rfl⟩ := List.mem_map.1 hx
    exact (hb e' he').2 (Or.inl rfl)
  have h1 : 0 < best e := lt_of_lt_of_le hpos ((hb e he).2 (Or.inr ⟨a, ha, rfl⟩))
  have h2 : best e ≤ (draws.map best).sum := List.single_le_sum hnn _ (List.mem_map.2 ⟨e, he, rfl⟩)
  have h3 : 0 < draws.length := List.length_pos_of_mem he
  exact div_pos (lt_of_lt_of_le h1 h2) (Nat.cast_pos.2 h3)

/-- **C70 fails** for a discount factor of zero: whenever some alternative has a positive reward in some state, the
stored values are not those of the Bellman equation. -/
theorem C70_zero_discount (b : BuildSpec) (core : List CoreState) (wf : b.WF core) (hexo : b.exogLevels = [])
    (inp : SolveInput K) (hinp : inp.WF b core) (hdelta : inp.delta = 0) (d : Option Nat) (hd : d ∈ b.denseIndices)
    (s : CoreState) (hs : s ∈ core) (e : Nat → K) (he : e ∈ inp.shocks s.period (b.choiceSetAt d s)) (a : Nat)
    (ha : (b.choiceSetAt d s)[a]? = some true) (hpos : 0 < inp.wageOf d s a * e a + inp.nonpecOf d s a) :
    ∃ bt par, buildSpace b = some bt ∧ inp.paramObjects bt [] = some par ∧
      ∀ (interp : Interpolation K) (seed : Nat) (ev0 : Dict Nat (List K)),
        SameShape (initialValues bt.space) ev0 →
        ¬ ∃ V, IsValueFunction b core inp.delta inp.wageOf inp.nonpecOf inp.shocks (fun d _ => [(d, 1)]) V ∧
          bt.ValueAt (solveBackward bt.space interp par seed ev0).1 d s (V d s) := by
  obtain ⟨bt, par, h1, h2, h3⟩ := C80_zero_discount_factor b core wf hexo inp hinp hdelta
  refine ⟨bt, par, h1, h2, fun interp seed ev0 hsh => ?_⟩
  rintro ⟨V, hV, hat⟩
  have h0 : V d s = 0 := hat.unique ((h3 interp seed ev0 hsh).2 d hd s hs)
  have := (hV d hd s hs).pos e he a ha (by rw [hdelta, zero_mul, add_zero]; exact hpos)
  exact absurd this (by rw [h0]; exact lt_irrefl _)

/-- **C70 fails** for a discount factor of zero: in the example, the third alternative has a reward of three in each
state, but all stored values are zero. -/
theorem C70_zero_discount_false : ¬ ∀ (b : BuildSpec) (core : List CoreState), b.WF core → b.exogLevels = [] →
    (∀ t, (core.filter fun s => decide (s.period = t)).length * b.denseIndices.length ≤ b.points) →
    ∀ inp : SolveInput ℚ, inp.WF b core →
    ∃ bt par, buildSpace b = some bt ∧ inp.paramObjects bt [] = some par ∧
      ∀ (interp : Interpolation ℚ) (seed : Nat) (ev0 : Dict Nat (List ℚ)),
        SameShape (initialValues bt.space) ev0 →
        (solveBackward bt.space interp par seed ev0).2 = true ∧
        ∃ V, IsValueFunction b core inp.delta inp.wageOf inp.nonpecOf inp.shocks (fun d _ => [(d, 1)]) V ∧
          ∀ d ∈ b.denseIndices, ∀ s ∈ core,
            bt.ValueAt (solveBackward bt.space interp par seed ev0).1 d s (V d s) := by
  intro hall
  obtain ⟨core, wf, hl⟩ := exampleBuild_wf
  have hcs : ∀ d s, exampleBuild.choiceSetAt d s = choiceSet exampleRestr s := by
    intro d s; cases d <;> rfl
  have h := exampleInputOf_wf (fun x : ℚ => 1 + x) exampleBuild core rfl hcs
  have hwf : ({ exampleInput with delta := 0 } : SolveInput ℚ).WF exampleBuild core :=
    ⟨h.wages, h.nonpecs, h.sizes, h.base, h.cholesky, h.choices⟩
  have hs : (⟨0, [2, 0], [some 2]⟩ : CoreState) ∈ core := by
    have h1 : ((createCore exampleSpec).map fun c => decide ((⟨0, [2, 0], [some 2]⟩ : CoreState) ∈ c)) = some true := by
      decide +kernel
    have h2 : createCore exampleSpec = some core := wf.created
    rw [h2] at h1
    simpa using h1
  obtain ⟨bt, par, h1, h2, h3⟩ := C70_zero_discount exampleBuild core wf rfl
    ({ exampleInput with delta := 0 } : SolveInput ℚ) hwf rfl (some 0) (by decide) _ hs
    (shockOf exampleInput.exp (-100) 100 exampleInput.cholesky 2
      (exampleBuild.choiceSetAt (some 0) ⟨0, [2, 0], [some 2]⟩)
      (shocksOf (exampleBuild.choiceSetAt (some 0) ⟨0, [2, 0], [some 2]⟩) [0, 0, 0])) (by
      refine List.mem_map.2 ⟨[0, 0, 0], ?_, rfl⟩
      decide +kernel) 2 (by decide +kernel) (by decide +kernel)
  obtain ⟨bt', par', g1, g2, g3⟩ := hall exampleBuild core wf rfl (by
    intro t
    have h4 : (core.filter fun s => decide (s.period = t)).length ≤ 100 := (List.length_filter_le _ _).trans hl
    have h5 : exampleBuild.denseIndices.length = 2 := rfl
    have h6 : exampleBuild.points = 1000 := rfl
    rw [h5, h6]
    omega) _ hwf
  rw [h1] at g1
  cases g1
  rw [h2] at g2
  cases g2
  obtain ⟨_, V, hV, hat⟩ := g3 (fun _ _ _ _ => none) 0 (initialValues bt.space) (SameShape.refl _)
  exact h3 (fun _ _ _ _ => none) 0 (initialValues bt.space) (SameShape.refl _) ⟨V, hV, hat _ (by decide) _ hs⟩

end Respy
