import Verif.Lemmas.SimulateRun

/-!
# C73: simulated samples follow the model

From the parameters of the model to the simulated panel. `SolveInput.solveModel` is the model of `solve`,
`Simulation.run` the model of `simulate`.
-/

set_option linter.unusedSectionVars false

namespace Respy

section General

variable {K : Type} [Field K] [LinearOrder K] [IsStrictOrderedRing K] {G P : Type}

theorem BuildSpec.DenseLevels.nodup {b : BuildSpec} {levels : List (List Nat)} (h : b.DenseLevels levels)
    (hnd : ∀ l ∈ levels, l.Nodup) : b.GridNodup := by
  intro grid hg
  unfold BuildSpec.DenseLevels at h
  rw [hg] at h
  simp only at h
  rw [h]
  exact product_nodup _ hnd

/-- What C73 says about a simulation: it returns a balanced panel, sorted by individual and period, whose
rows and steps follow the model with value function `V`. -/
def SampleFollows (b : BuildSpec) (core : List CoreState) (w m : Option Nat → CoreState → Nat → K)
    (future : Option Nat → CoreState → List (Option Nat × K)) (V : Option Nat → CoreState → K)
    (sim : Simulation K G P) (params : P) (g : G) : Prop :=
  ∃ out g', sim.run params g = (some out, g') ∧
    (out.map fun r => (r.id, r.state.core.period)) = panelIndex sim.input.length sim.nPeriods ∧
    (∀ row ∈ out, RowFollows b core (sim.rewards params) w m future V row) ∧
    ∀ row ∈ out, ∀ row' ∈ out, row'.id = row.id →
      row'.state.core.period = row.state.core.period + 1 → StepFollows b future row row'

theorem Built.Solved.sampleFollows {b : BuildSpec} {core : List CoreState} {bt : Built}
    {par : ParamObjects K} {w m : Option Nat → CoreState → Nat → K}
    {future : Option Nat → CoreState → List (Option Nat × K)}
    (hs : bt.Solved b core par w m future) (hb : b.StartsInCore)
    (levels : List (List Nat)) (hlev : b.DenseLevels levels) {ev : Dict Nat (List K)}
    (hev : SameShape (initialValues bt.space) ev) {V : Option Nat → CoreState → K}
    (hV : ∀ d ∈ b.denseIndices, ∀ s ∈ core, bt.ValueAt ev d s (V d s)) (vc ko : List Nat → List Nat)
    (hvc : ∀ l x, x ∈ vc l ↔ x ∈ l) (hko : ∀ l x, x ∈ ko l ↔ x ∈ l)
    (sim : Simulation K G P) (params : P)
    (hsolve : sim.solve params = some (bt.simSpace b par ev vc ko))
    (hfits : sim.Fits b core levels params) (g : G) :
    SampleFollows b core w m future V sim params g := by
  obtain ⟨out, g', h1, h2, h3⟩ := hs.run hs.wf.spec hb levels hlev hev hV vc ko ⟨hvc, hko⟩ sim params hsolve
    hfits g
  exact ⟨out, g', h1, (C26_balanced_panel sim hfits.source params g g' out h1).1, h2, h3⟩

/-- **C73.** Models without exogenous processes, with or without interpolation and for any discount
factor: if the model is solved, the simulation returns a balanced panel which follows the model with the
stored expected values `V`. -/
theorem C73_sample_follows_stored_values (b : BuildSpec) (core : List CoreState) (wf : b.WF core)
    (hexo : b.exogLevels = []) (hb : b.StartsInCore) (levels : List (List Nat))
    (hlev : b.DenseLevels levels) (hnd : ∀ l ∈ levels, l.Nodup) (inp : SolveInput K)
    (hinp : inp.WF b core) (interp : Interpolation K) (seed : Nat) (ev0 : Built → Dict Nat (List K))
    (hev0 : ∀ bt, SameShape (initialValues bt.space) (ev0 bt)) (vc ko : List Nat → List Nat)
    (hvc : ∀ l x, x ∈ vc l ↔ x ∈ l) (hko : ∀ l x, x ∈ ko l ↔ x ∈ l) (sim : Simulation K G P) (params : P)
    (sp : SimSpace K) (hsp : inp.solveModel b (fun _ => some []) interp seed ev0 vc ko = some sp)
    (hsolve : sim.solve params = some sp) (hfits : sim.Fits b core levels params) (g : G) :
    ∃ bt par V, buildSpace b = some bt ∧ inp.paramObjects bt [] = some par ∧
      (∀ d ∈ b.denseIndices, ∀ s ∈ core,
        bt.ValueAt (solveBackward bt.space interp par seed (ev0 bt)).1 d s (V d s)) ∧
      SampleFollows b core inp.wageOf inp.nonpecOf (fun d _ => [(d, 1)]) V sim params g := by
  obtain ⟨bt, hbuild, hsnd⟩ := buildSpace_noExogenous b core wf hexo
  obtain ⟨par, h1, h2, h3, hfit⟩ := hinp.paramsFit wf hsnd []
  have hev : SameShape (initialValues bt.space) (solveBackward bt.space interp par seed (ev0 bt)).1 :=
    (hev0 bt).trans (backwardLoop_shape _ _ _ _ _ _)
  classical
  have hex : ∀ d s, ∃ v, d ∈ b.denseIndices → s ∈ core →
      bt.ValueAt (solveBackward bt.space interp par seed (ev0 bt)).1 d s v := by
    intro d s
    by_cases h : d ∈ b.denseIndices ∧ s ∈ core
    · obtain ⟨v, hv⟩ := hsnd.valueAt_exists _ hev s h.2 d h.1
      exact ⟨v, fun _ _ => hv⟩
    · exact ⟨0, fun h1 h2 => absurd ⟨h1, h2⟩ h⟩
  choose V hV using hex
  refine ⟨bt, par, V, hbuild, h1, fun d hd s hs => hV d s hd hs, ?_⟩
  have hsp' : sp = bt.simSpace b par (solveBackward bt.space interp par seed (ev0 bt)).1 vc ko := by
    unfold SolveInput.solveModel at hsp
    simp only [hbuild, h1, Option.bind_eq_bind, Option.bind_some] at hsp
    split at hsp
    · exact (Option.some.inj hsp).symm
    · cases hsp
  exact (hsnd.solved_noExogenous wf hexo hbuild (hlev.nodup hnd) hfit).sampleFollows hb levels hlev hev
    (fun d hd s hs => hV d s hd hs) vc ko hvc hko sim params (by rw [hsolve, hsp']) hfits g

/-- **C73 (partial).** Models without exogenous processes: solving and simulating succeed, and the sample
is a balanced panel which follows the model with its value function. Missing: interpolation, a discount
factor of zero (both are covered by `C73_sample_of_any_solution` with the solution of C80 instead of the
value function) and more than one lagged choice (`C86_two_lags_false`). -/
theorem C73_simulated_sample_partial (b : BuildSpec) (core : List CoreState) (wf : b.WF core)
    (hexo : b.exogLevels = []) (hb : b.StartsInCore) (levels : List (List Nat))
    (hlev : b.DenseLevels levels) (hnd : ∀ l ∈ levels, l.Nodup)
    (hpts : ∀ t, (core.filter fun s => decide (s.period = t)).length * b.denseIndices.length ≤
      b.points) (inp : SolveInput K) (hinp : inp.WF b core) (hdelta : inp.delta ≠ 0)
    (interp : Interpolation K) (seed : Nat) (ev0 : Built → Dict Nat (List K))
    (hev0 : ∀ bt, SameShape (initialValues bt.space) (ev0 bt)) (vc ko : List Nat → List Nat)
    (hvc : ∀ l x, x ∈ vc l ↔ x ∈ l) (hko : ∀ l x, x ∈ ko l ↔ x ∈ l) :
    ∃ sp V, inp.solveModel b (fun _ => some []) interp seed ev0 vc ko = some sp ∧
      IsValueFunction b core inp.delta inp.wageOf inp.nonpecOf inp.shocks (fun d _ => [(d, 1)]) V ∧
      ∀ (sim : Simulation K G P) (params : P), sim.solve params = some sp →
        sim.Fits b core levels params → ∀ g,
        SampleFollows b core inp.wageOf inp.nonpecOf (fun d _ => [(d, 1)]) V sim params g := by
  obtain ⟨bt, par, hbuild, h1, hsol⟩ := C70_solution_from_parameters_partial b core wf hexo hpts inp hinp hdelta
  obtain ⟨hok, V, hVF, hV⟩ := hsol interp seed (ev0 bt) (hev0 bt)
  obtain ⟨bt', hbuild', hsnd⟩ := buildSpace_noExogenous b core wf hexo
  rw [hbuild] at hbuild'; cases hbuild'
  obtain ⟨par', h1', _, _, hfit⟩ := hinp.paramsFit wf hsnd []
  rw [h1] at h1'; cases h1'
  refine ⟨bt.simSpace b par (solveBackward bt.space interp par seed (ev0 bt)).1 vc ko, V, ?_, hVF, ?_⟩
  · unfold SolveInput.solveModel
    simp only [hbuild, h1, Option.bind_eq_bind, Option.bind_some, hok, if_true]
  · intro sim params hsolve hfits g
    exact (hsnd.solved_noExogenous wf hexo hbuild (hlev.nodup hnd) hfit).sampleFollows hb levels hlev
      ((hev0 bt).trans (backwardLoop_shape _ _ _ _ _ _)) hV vc ko hvc hko sim params hsolve hfits g

end General

section Exogenous

variable {G P : Type}

/-- **C73 (partial).** Models with exogenous processes: solving and simulating succeed, and the sample is a
balanced panel which follows the model with its value function; in each step the static characteristics
stay the same and the levels of the processes are some with a positive multinomial logit probability.
Missing: as in `C73_simulated_sample_partial`. -/
theorem C73_exogenous_sample_partial (b : BuildSpec) (core : List CoreState) (wf : b.WF core)
    (static : List (List Nat)) (hx : b.ExogWF static) (hb : b.StartsInCore)
    (hpts : ∀ t, (core.filter fun s => decide (s.period = t)).length * b.denseIndices.length ≤
      b.points) (inp : SolveInput ℝ) (hinp : inp.WF b core) (hdelta : inp.delta ≠ 0)
    (ep : ExogenousParams) (hep : ep.map List.length = b.exogLevels) (hlev : ∀ levels ∈ ep, levels ≠ [])
    (hcov : ∀ levels ∈ ep, ∀ beta ∈ levels, ∀ item ∈ beta, ∀ d ∈ b.denseIndices, ∀ s ∈ core,
      (inp.covariates d s item.1).isSome)
    (interp : Interpolation ℝ) (seed : Nat) (ev0 : Built → Dict Nat (List ℝ))
    (hev0 : ∀ bt, SameShape (initialValues bt.space) (ev0 bt)) (vc ko : List Nat → List Nat)
    (hvc : ∀ l x, x ∈ vc l ↔ x ∈ l) (hko : ∀ l x, x ∈ ko l ↔ x ∈ l) :
    ∃ sp V, inp.solveModel b (inp.transitions ep b) interp seed ev0 vc ko = some sp ∧
      IsValueFunction b core inp.delta inp.wageOf inp.nonpecOf inp.shocks
        (fun d s => (exogenousGrid b.exogLevels).map fun e =>
          (b.successor d e, levelProbability ep (inp.covariates d s) e)) V ∧
      ∀ (sim : Simulation ℝ G P) (params : P), sim.solve params = some sp →
        sim.Fits b core (static ++ b.exogLevels.map List.range) params → ∀ g,
        SampleFollows b core inp.wageOf inp.nonpecOf
          (fun d s => (exogenousGrid b.exogLevels).map fun e =>
            (b.successor d e, levelProbability ep (inp.covariates d s) e)) V sim params g := by
  obtain ⟨bt0, tr0, par0, hbuild0, ht0, hp0, hsol⟩ := C70_exogenous_solution_partial b core wf static hx
    hpts inp hinp hdelta ep hep hlev hcov
  obtain ⟨bt, reps, hbuild, hsnd, htr, hdpc⟩ := buildSpace_exogenous b core wf static hx
  rw [hbuild0] at hbuild; cases hbuild
  obtain ⟨transition, ht, hfit⟩ := inp.transitions_fit ep b core wf static hx hep hcov bt0 reps hsnd hdpc
  rw [ht0] at ht; cases ht
  obtain ⟨par, h1, h2, h3, hpf⟩ := hinp.paramsFit wf hsnd tr0
  rw [hp0] at h1; cases h1
  obtain ⟨hok, V, hVF, hV⟩ := hsol interp seed (ev0 bt0) (hev0 bt0)
  refine ⟨bt0.simSpace b par0 (solveBackward bt0.space interp par0 seed (ev0 bt0)).1 vc ko, V, ?_, hVF, ?_⟩
  · unfold SolveInput.solveModel
    simp only [hbuild0, ht0, hp0, Option.bind_eq_bind, Option.bind_some, hok, if_true]
  · intro sim params hsolve hfits g
    have hprob := fun d s => (C19_level_probabilities ep hlev (inp.covariates d s)).2
    have hne : exogenousGrid b.exogLevels ≠ [] := by
      intro h0
      have := hprob none ⟨0, [], []⟩
      rw [hep, h0] at this
      simp at this
    refine (hsnd.solved_exogenous wf hx htr hdpc hpf
      (fun d s e => levelProbability ep (inp.covariates d s) e) (by rw [h3]; exact hfit) hne ?_).sampleFollows
      hb _ ?_ ((hev0 bt0).trans (backwardLoop_shape _ _ _ _ _ _)) hV vc ko hvc hko sim params hsolve hfits g
    · intro d _ s _
      by_contra hcon
      push Not at hcon
      have := hprob d s
      rw [hep, List.map_congr_left (g := fun _ => (0 : ℝ)) (fun e he => hcon e he)] at this
      simp at this
    · unfold BuildSpec.DenseLevels
      rw [hx.grid]

/-- **C73.** The weights computed from logit coefficients satisfy the requirements of a simulation. -/
theorem C73_logit_weights (column : Nat) (levels : List Nat) (betas : List (List (Str × ℝ)))
    (hne : betas ≠ []) (hl : betas.length = levels.length) (covariates : CharRow → StateRow ℝ) :
    (logitCharacteristic column levels betas covariates).WF where
  rows := by intro fp; simp [logitCharacteristic]
  weights := by
    intro fp ps hps
    simp only [logitCharacteristic, List.mem_map] at hps
    obtain ⟨row, _, rfl⟩ := hps
    refine ⟨by simp [softmax, hl, logitCharacteristic], ?_, ?_, ?_⟩
    · intro h
      have := congrArg List.length h
      simp [softmax] at this
      exact hne this
    all_goals
      rw [softmax_sum _ (by simpa using hne)]
      norm_num

end Exogenous

/-! ## Concrete cases -/

section Examples

variable {K : Type} [Field K] [LinearOrder K] [IsStrictOrderedRing K]

/-- A generator which always returns one half and the first column with non-zero probability. -/
def halfSource (K : Type) [Field K] [LinearOrder K] : RandomSource K Nat where
  seed := fun s => s
  uniform := fun g n => (List.replicate n (1 / 2), g + n)
  choice := fun g cols probs n =>
    match (cols.zip probs).find? fun x => decide (x.2 ≠ 0) with
    | some x => (List.replicate n x.1, g + n)
    | none => ([], g)

theorem halfSource_contract : (halfSource K).Contract where
  uniform_length := by intro g n; simp [halfSource]
  uniform_mem := by
    intro g n u hu
    simp only [halfSource, List.mem_replicate] at hu
    rw [hu.2]
    constructor <;> norm_num
  choice_length := by
    rintro g cols probs n ⟨j, k, q, hj, hq, hne⟩
    simp only [halfSource]
    cases hf : (cols.zip probs).find? fun x => decide (x.2 ≠ 0) with
    | some x => simp
    | none =>
      have hm : (k, q) ∈ cols.zip probs :=
        List.mem_of_getElem? (i := j) (List.getElem?_zip_eq_some.2 ⟨hj, hq⟩)
      have := List.find?_eq_none.1 hf (k, q) hm
      simp [hne] at this
  choice_mem := by
    intro g cols probs n k hk
    simp only [halfSource] at hk
    cases hf : (cols.zip probs).find? fun x => decide (x.2 ≠ 0) with
    | none => rw [hf] at hk; simp at hk
    | some x =>
      rw [hf] at hk
      simp only [List.mem_replicate] at hk
      have h1 := List.find?_some hf
      obtain ⟨j, hj⟩ := List.mem_iff_getElem?.1 (List.mem_of_find?_eq_some hf)
      obtain ⟨h2, h3⟩ := List.getElem?_zip_eq_some.1 hj
      exact ⟨j, x.2, by rw [hk.2]; exact h2, h3, by simpa using h1⟩

/-- Two individuals in three periods. The first one is known to start with two years of experience in the
first occupation, everything else is sampled. -/
def exampleRun (exp : K → K) (nDense : Nat) (chars : List (Characteristic K)) (sp : Option (SimSpace K)) :
    Simulation K Nat Unit where
  rs := halfSource K
  nPeriods := 3
  nExp := 2
  nLags := 1
  seed := 100
  input := [some 2 :: List.replicate (2 + nDense) none, List.replicate (3 + nDense) none]
  draws := List.replicate 6 [1, 0, -1]
  drawsWage := List.replicate 6 [0, 0, 0]
  chars := fun _ => chars
  rewards := fun _ => ⟨exp, -100, 100, [[1, 0, 0], [1 / 2, 1, 0], [0, 0, 1]], 2, [0, 1 / 10, 0], 95 / 100⟩
  solve := fun _ => sp

theorem exampleSpec_starts (b : BuildSpec) (h : b.core = exampleSpec) : b.StartsInCore := by
  refine ⟨?_, ?_, ?_, ?_⟩ <;> rw [h]
  · decide
  · intro f hf; cases hf
  · decide
  · simp [exampleSpec]

/-- One characteristic for each column with equal weights of all levels. -/
def equalWeights (levels : List (List Nat)) : List (Characteristic K) :=
  levels.mapIdx fun c ls => ⟨c, ls, fun fp => fp.map fun _ => ls.map fun _ => 1 / (ls.length : K)⟩

theorem rowAllowed_unknown (levels : List (List Nat)) :
    RowAllowed levels (List.replicate levels.length none) := by
  induction levels with
  | nil => exact .nil
  | cons l ls ih =>
    rw [List.length_cons, List.replicate_succ]
    exact .cons (by intro v hv; cases hv) ih

theorem exampleRun_fits (exp : K → K) (b : BuildSpec) (core : List CoreState) (h : b.core = exampleSpec)
    (hcs : ∀ d s, b.choiceSetAt d s = choiceSet exampleRestr s) (levels : List (List Nat))
    (hne : ∀ l ∈ levels, l ≠ []) (sp : Option (SimSpace K)) :
    (exampleRun exp levels.length (equalWeights (b.initialLevels levels)) sp).Fits b core levels () where
  source := halfSource_contract
  individuals := by simp [exampleRun]
  nExp := by rw [h]; rfl
  nLags := by rw [h]; rfl
  periods := by rw [h]; exact le_refl 3
  rewards := by
    refine ⟨by simp [exampleRun], ?_, ?_, ?_⟩
    · simp [exampleRun]
    · intro d _ s _
      rw [hcs]
      simp [exampleRun, exampleRestr, choiceSet]
    · intro d _ s _
      refine ⟨2, ?_⟩
      unfold BuildSpec.Admissible
      rw [hcs]
      simp [exampleRestr, choiceSet, isInadmissible]
  draws := by simp [exampleRun]
  drawsWage := by simp [exampleRun]
  drawsRow := by simp [exampleRun]
  drawsWageRow := by simp [exampleRun]
  input := by
    have hinit : b.initialLevels levels = [0, 2] :: [0] :: [0, 1, 2] :: levels := by
      unfold BuildSpec.initialLevels; rw [h]; rfl
    intro row hrow
    rw [hinit]
    simp only [exampleRun, List.mem_cons, List.not_mem_nil, or_false] at hrow
    rcases hrow with rfl | rfl
    · refine .cons (by intro v hv; cases hv; simp) ?_
      have := rowAllowed_unknown ([0] :: [0, 1, 2] :: levels)
      rw [show ([0] :: [0, 1, 2] :: levels).length = 2 + levels.length by simp; omega] at this
      exact this
    · have := rowAllowed_unknown ([0, 2] :: [0] :: [0, 1, 2] :: levels)
      rw [show ([0, 2] :: [0] :: [0, 1, 2] :: levels).length = 3 + levels.length by simp; omega] at this
      exact this
  chars := by
    have hinit : b.initialLevels levels = [0, 2] :: [0] :: [0, 1, 2] :: levels := by
      unfold BuildSpec.initialLevels; rw [h]; rfl
    intro ch hch
    simp only [exampleRun, equalWeights, List.mem_mapIdx] at hch
    obtain ⟨c, hc, rfl⟩ := hch
    have hcne : (b.initialLevels levels)[c] ≠ [] := by
      have hall : ∀ l ∈ b.initialLevels levels, l ≠ [] := by
        rw [hinit]
        intro l hl
        simp only [List.mem_cons] at hl
        rcases hl with rfl | rfl | rfl | hl
        · simp
        · simp
        · simp
        · exact hne l hl
      exact hall _ (List.getElem_mem hc)
    refine ⟨⟨by intro fp; simp, ?_⟩, ?_⟩
    · intro fp ps hps
      simp only [List.mem_map] at hps
      obtain ⟨_, _, rfl⟩ := hps
      generalize (b.initialLevels levels)[c] = ls at hcne ⊢
      have hpos : (0 : K) < ls.length := by
        have := List.length_pos_iff.2 hcne
        exact_mod_cast this
      have hsum : (ls.map fun _ => 1 / (ls.length : K)).sum = 1 := by
        rw [List.map_const', List.sum_replicate, nsmul_eq_mul]
        field_simp
      refine ⟨by simp, by simpa using hcne, ?_, ?_⟩ <;> rw [hsum] <;> norm_num
    · intro l hl v hv
      simp only at hl hv
      rw [List.getElem?_eq_getElem hc, Option.some.injEq] at hl
      rw [← hl]; exact hv
  complete := by
    intro row _ c hc _
    refine ⟨⟨c, (b.initialLevels levels)[c], fun fp => fp.map fun _ => (b.initialLevels levels)[c].map
      fun _ => 1 / (((b.initialLevels levels)[c]).length : K)⟩, ?_, rfl⟩
    simp only [exampleRun, equalWeights, List.mem_mapIdx]
    exact ⟨c, hc, rfl⟩

/-- The hypotheses of `C73_simulated_sample_partial` are met by the example with two types. -/
example : ∃ core, exampleBuild.WF core ∧ exampleBuild.exogLevels = [] ∧ exampleBuild.StartsInCore ∧
    exampleBuild.DenseLevels [[0, 1]] ∧ (∀ l ∈ [[0, 1]], l.Nodup) ∧
    (∀ t, (core.filter fun s => decide (s.period = t)).length * exampleBuild.denseIndices.length ≤
      exampleBuild.points) ∧ exampleInput.WF exampleBuild core ∧ exampleInput.delta ≠ 0 ∧
    (∀ bt : Built, SameShape (initialValues bt.space) (initialValues bt.space : Dict Nat (List ℚ))) ∧
    (∀ (l : List Nat) x, x ∈ l.eraseDups ↔ x ∈ l) ∧
    ∀ sp, (exampleRun (K := ℚ) (fun x => 1 + x) 1 (equalWeights (exampleBuild.initialLevels [[0, 1]]))
      sp).Fits exampleBuild core [[0, 1]] () := by
  obtain ⟨core, wf, hl⟩ := exampleBuild_wf
  have hcs : ∀ d s, exampleBuild.choiceSetAt d s = choiceSet exampleRestr s := by
    intro d s; cases d <;> rfl
  refine ⟨core, wf, rfl, exampleSpec_starts _ rfl, rfl, by decide, ?_, exampleInputOf_wf _ _ core rfl hcs,
    by decide +kernel, fun bt => SameShape.refl _, fun l x => mem_eraseDups l x,
    fun sp => exampleRun_fits _ _ _ rfl hcs [[0, 1]] (by simp) sp⟩
  intro t
  have h1 := List.length_filter_le (fun s : CoreState => decide (s.period = t)) core
  have h2 : exampleBuild.denseIndices.length = 2 := rfl
  have h3 : exampleBuild.points = 1000 := rfl
  rw [h2, h3]; omega

/-- The hypotheses of `C73_exogenous_sample_partial` are met by the example with two types and a process
with two levels. -/
example : ∃ core, exogenousBuild.WF core ∧ exogenousBuild.ExogWF [[0, 1]] ∧
    exogenousBuild.StartsInCore ∧
    (∀ t, (core.filter fun s => decide (s.period = t)).length * exogenousBuild.denseIndices.length ≤
      exogenousBuild.points) ∧ (exampleInputOf Real.exp).WF exogenousBuild core ∧
    (exampleInputOf Real.exp).delta ≠ 0 ∧ exampleLevels.map List.length = exogenousBuild.exogLevels ∧
    (∀ levels ∈ exampleLevels, levels ≠ []) ∧
    (∀ levels ∈ exampleLevels, ∀ beta ∈ levels, ∀ item ∈ beta, ∀ d ∈ exogenousBuild.denseIndices,
      ∀ s ∈ core, ((exampleInputOf Real.exp).covariates d s item.1).isSome) ∧
    ∀ sp, (exampleRun Real.exp 2 (equalWeights (exogenousBuild.initialLevels [[0, 1], [0, 1]]))
      sp).Fits exogenousBuild core ([[0, 1]] ++ exogenousBuild.exogLevels.map List.range) () := by
  obtain ⟨core, wf, hl⟩ := exogenousBuild_wf
  have hcs : ∀ d s, exogenousBuild.choiceSetAt d s = choiceSet exampleRestr s := by
    intro d s; cases d <;> rfl
  refine ⟨core, wf, ⟨by simp [exogenousBuild], rfl, by simp, fun _ => rfl⟩, exampleSpec_starts _ rfl, ?_,
    exampleInputOf_wf _ _ core rfl hcs, ?_, rfl, ?_, fun _ _ _ _ _ _ _ _ _ _ => rfl,
    fun sp => exampleRun_fits _ _ _ rfl hcs [[0, 1], [0, 1]] (by simp) sp⟩
  · intro t
    have h1 := List.length_filter_le (fun s : CoreState => decide (s.period = t)) core
    have h2 : exogenousBuild.denseIndices.length = 4 := rfl
    have h3 : exogenousBuild.points = 1000 := rfl
    rw [h2, h3]; omega
  · simp only [exampleInputOf]; norm_num
  · simp [exampleLevels]

/-- The weights of `C73_logit_weights` for two levels. -/
example : ([[("constant".toList, (1 : ℝ))], [("constant".toList, 2), ("exp_a".toList, 1 / 10)]] :
    List (List (Str × ℝ))) ≠ [] ∧ [[("constant".toList, (1 : ℝ))], [("constant".toList, 2),
      ("exp_a".toList, 1 / 10)]].length = [0, 1].length := by simp

end Examples

end Respy
