import Verif.Lemmas.LevelShift
import Verif.Lemmas.InterpolatedShift
import Verif.Props.Comparative
import Verif.Lemmas.RewardParams
import Verif.Props.LogLike

/-!
# C98 Only differences of rewards matter
-/

namespace Respy

variable {K : Type} [Field K] [LinearOrder K] [IsStrictOrderedRing K]

/-! ### Solutions with the same differences -/

/-- **C98.** Two solutions whose rewards and continuation values differ by a number which is the same for all
alternatives of a state give the same sample: individuals have the same states, shocks, wages and choices. Only the
values of the alternatives in the sample differ, and all values of a row by the same number. -/
theorem C98_same_differences_same_sample {G P : Type} (sim : Simulation K G P) (θ θ' : P) (sp sp' : SimSpace K)
    (hs : sim.solve θ = some sp) (hs' : sim.solve θ' = some sp') (hchars : sim.chars θ' = sim.chars θ)
    (hrew : sim.rewards θ' = sim.rewards θ)
    (h : SimSpace.SameDifferences sim.nPeriods (sim.rewards θ).betaDelta sp sp') (g : G) :
    Option.Rel (List.Forall₂ SameBehaviour) (sim.run θ g).1 (sim.run θ' g).1 ∧
      (sim.run θ' g).2 = (sim.run θ g).2 :=
  h.run sim θ θ' rfl hs hs' hchars hrew g

/-- **C98.** Two solutions whose rewards and continuation values differ by a number which is the same for all
alternatives of a state give the same log likelihood. -/
theorem C98_same_differences_same_likelihood {P : Type} (e : Estimation P) (θ θ' : P) (sp sp' : SimSpace ℝ)
    (hs : e.solve θ = some sp) (hs' : e.solve θ' = some sp') (hpar : e.params θ' = e.params θ)
    (h : SimSpace.SameDifferences e.nPeriods (e.params θ).betaDelta sp sp')
    (hk : sp.KeysByPeriod e.nPeriods) (hk' : sp'.KeysByPeriod e.nPeriods) : e.logLike θ' = e.logLike θ := by
  unfold Estimation.logLike
  simp only [hs, hs', hpar, Option.bind_eq_bind, Option.bind_some, h.loglikeRows hk hk']

/-! ### The value function -/

/-- **C98.** If the non-pecuniary rewards of all alternatives rise by an amount which depends only on the period, then
the value of a state rises by the discounted sum of the amounts of the remaining periods. -/
theorem C98_value_of_a_higher_level {b : BuildSpec} {core : List CoreState} (wf : b.WF core) {delta : K}
    (h0 : 0 ≤ delta) {w m m' : Option Nat → CoreState → Nat → K} {shocks : Nat → List Bool → List (Nat → K)}
    {future : Option Nat → CoreState → List (Option Nat × K)} (hfut : IsTransition b core future)
    {amount : Nat → K} (ha : ∀ t, 0 ≤ amount t) (hm : LevelsShifted b core amount m m')
    (hne : ∀ d ∈ b.denseIndices, ∀ s ∈ core, shocks s.period (b.choiceSetAt d s) ≠ [])
    {V V' : Option Nat → CoreState → K} (h : IsValueFunction b core delta w m shocks future V)
    (h' : IsValueFunction b core delta w m' shocks future V') (hv : Viable b core delta w m shocks future V) :
    ∀ d ∈ b.denseIndices, ∀ s ∈ core,
      V' d s = V d s + ∑ j ∈ Finset.range (b.core.nPeriods - s.period), delta ^ j * amount (s.period + j) :=
  fun d hd s hs => h.shift wf h0 hfut ha hm hne h' hv d hd s hs

/-- **C98** with interpolation. If the non-pecuniary rewards of all alternatives rise by an amount which depends only on
the period, then the values of all states, simulated or interpolated, rise by the discounted sum of the amounts of the
remaining periods, as long as the same states are simulated. -/
theorem C98_value_with_interpolation {b : BuildSpec} {core : List CoreState} (wf : b.WF core) {delta : K}
    (h0 : 0 ≤ delta) {w m m' : Option Nat → CoreState → Nat → K} {shocks : Nat → List Bool → List (Nat → K)}
    {future : Option Nat → CoreState → List (Option Nat × K)} (hfut : IsTransition b core future) {mean : Nat → K}
    {sqrt : K → K} {ols : List K → List (List K) → List K} {states : Nat → Option Nat × List Bool → List CoreState}
    {simulated : Nat → Option Nat × List Bool → CoreState → Bool}
    {amount : Nat → K} (ha : ∀ t, 0 ≤ amount t) (hm : LevelsShifted b core amount m m')
    (hne : ∀ d ∈ b.denseIndices, ∀ s ∈ core, shocks s.period (b.choiceSetAt d s) ≠ [])
    {V V' : Option Nat → CoreState → K}
    (h : IsInterpolatedSolutionAt b core delta w m shocks future mean sqrt ols states simulated V)
    (h' : IsInterpolatedSolutionAt b core delta w m' shocks future mean sqrt ols states simulated V')
    (hv : Viable b core delta w m shocks future V) :
    ∀ d ∈ b.denseIndices, ∀ s ∈ core,
      V' d s = V d s + ∑ j ∈ Finset.range (b.core.nPeriods - s.period), delta ^ j * amount (s.period + j) :=
  fun d hd s hs => h.shift wf h0 hfut ha hm hne h' hv d hd s hs

theorem continuation_nonneg {b : BuildSpec} {core : List CoreState} (wf : b.WF core)
    {future : Option Nat → CoreState → List (Option Nat × K)} (hfut : IsTransition b core future)
    {V : Option Nat → CoreState → K} (d : Option Nat) (hd : d ∈ b.denseIndices) (s : CoreState) (hs : s ∈ core) (a : Nat)
    (ha : (b.choiceSetAt d s)[a]? = some true)
    (hpos : ∀ d ∈ b.denseIndices, ∀ s' ∈ core, s'.period = s.period + 1 → 0 ≤ V d s') :
    0 ≤ continuationOf b future V d s a := by
  unfold continuationOf
  split
  · exact le_rfl
  · obtain ⟨hf, _⟩ := hfut d hd s hs
    have hlt := createCore_period _ _ wf.created s hs
    refine List.sum_nonneg fun y hy => ?_
    obtain ⟨fp, hfp, rfl⟩ := List.mem_map.1 hy
    exact mul_nonneg (hf fp hfp).2 (hpos fp.1 (hf fp hfp).1 _ (wf.closed s hs (by omega) d hd a ha) rfl)

/-- The values of all states are nonnegative if some alternative has a nonnegative utility at the mean of the shocks in
all states of interpolated periods. -/
theorem IsInterpolatedSolution.nonneg {b : BuildSpec} {core : List CoreState} (wf : b.WF core) {delta : K} (h0 : 0 ≤ delta)
    {w m : Option Nat → CoreState → Nat → K} {shocks : Nat → List Bool → List (Nat → K)}
    {future : Option Nat → CoreState → List (Option Nat × K)} (hfut : IsTransition b core future) {mean : Nat → K}
    {sqrt : K → K} {ols : List K → List (List K) → List K}
    {V : Option Nat → CoreState → K} (h : IsInterpolatedSolution b core delta w m shocks future mean sqrt ols V)
    (hmean : ∀ d ∈ b.denseIndices, ∀ s ∈ core, b.Interpolates core s.period →
      ∃ a : Nat, (b.choiceSetAt d s)[a]? = some true ∧ 0 ≤ flowUtility (w d s) (m d s) mean a) :
    ∀ d ∈ b.denseIndices, ∀ s ∈ core, 0 ≤ V d s := by
  -- a period
  have period : ∀ d ∈ b.denseIndices, ∀ s ∈ core,
      (∀ d ∈ b.denseIndices, ∀ s' ∈ core, s'.period = s.period + 1 → 0 ≤ V d s') → 0 ≤ V d s := by
    intro d hd s hs hnext
    by_cases hint : b.Interpolates core s.period
    · have hg : (d, b.choiceSetAt d s) ∈ b.groupsOfPeriod core s.period :=
        (mem_groupsOfPeriod ..).2 ⟨hd, s, hs, rfl, rfl⟩
      obtain ⟨states, simulated, mx, x, k1, _, k3, k4, k5⟩ := h.2 _ hint _ hg
      have hsmem : s ∈ states := by
        refine k1.mem_iff.2 ?_
        unfold BuildSpec.group
        simp [hs]
      cases hsel : simulated s with
      | true => exact (k4 s hsmem hsel).nonneg
      | false =>
        have e := k5 s hsmem hsel
        dsimp only at e
        rw [e]
        obtain ⟨a, ha, hu⟩ := hmean d hd s hs hint
        have hle := (k3 s hsmem).1.2 ⟨a, ha, rfl⟩
        have hc := mul_nonneg h0 (continuation_nonneg wf hfut d hd s hs a ha hnext)
        unfold flowUtility at hu
        dsimp only at hle
        have : 0 ≤ mx s := by linarith
        exact add_nonneg this (le_max_left _ _)
    · exact (h.1 d hd s hs hint).nonneg
  have main : ∀ r : Nat, ∀ d ∈ b.denseIndices, ∀ s ∈ core, s.period + r + 1 = b.core.nPeriods → 0 ≤ V d s := by
    intro r
    induction r with
    | zero =>
      intro d hd s hs hr
      refine period d hd s hs fun d _ s' hs' hp => ?_
      have := createCore_period _ _ wf.created s' hs'
      omega
    | succ r ih =>
      intro d hd s hs hr
      exact period d hd s hs fun d hd s' hs' hp => ih d hd s' hs' (by omega)
  intro d hd s hs
  have hlt := createCore_period _ _ wf.created s hs
  exact main (b.core.nPeriods - 1 - s.period) d hd s hs (by omega)

/-- A model is viable if in every state and for every draw some alternative has a nonnegative utility, and also for the
means of the shocks in interpolated periods. -/
theorem viable_of_flows {b : BuildSpec} {core : List CoreState} (wf : b.WF core) {delta : K} (h0 : 0 ≤ delta)
    {w m : Option Nat → CoreState → Nat → K} {shocks : Nat → List Bool → List (Nat → K)}
    {future : Option Nat → CoreState → List (Option Nat × K)} (hfut : IsTransition b core future) {mean : Nat → K}
    {sqrt : K → K} {ols : List K → List (List K) → List K}
    {V : Option Nat → CoreState → K} (h : IsInterpolatedSolution b core delta w m shocks future mean sqrt ols V)
    (hmean : ∀ d ∈ b.denseIndices, ∀ s ∈ core, b.Interpolates core s.period →
      ∃ a : Nat, (b.choiceSetAt d s)[a]? = some true ∧ 0 ≤ flowUtility (w d s) (m d s) mean a)
    (hflow : ∀ d ∈ b.denseIndices, ∀ s ∈ core, ∀ e ∈ shocks s.period (b.choiceSetAt d s),
      ∃ a : Nat, (b.choiceSetAt d s)[a]? = some true ∧ 0 ≤ flowUtility (w d s) (m d s) e a) :
    Viable b core delta w m shocks future V := by
  have hpos := h.nonneg wf h0 hfut hmean
  intro d hd s hs e he
  obtain ⟨a, h1, h2⟩ := hflow d hd s hs e he
  exact ⟨a, h1, add_nonneg h2 (mul_nonneg h0 (continuation_nonneg wf hfut d hd s hs a h1 fun d' hd' s' hs' _ =>
    hpos d' hd' s' hs'))⟩

/-! ### Solutions of models -/

/-- Two models are solved on the same state space. -/
theorem solved_sameDifferences {b : BuildSpec} {core : List CoreState} (wf : b.WF core) {bt : Built}
    {tr : Option (Dict Nat (List Bool))} (hsnd : bt.Sound b core tr) (inp : SolveInput K) (rewards : LinearRewards K)
    (hinp : inp.WF b core) (hinp' : ({ inp with rewards := rewards } : SolveInput K).WF b core)
    (hwage : rewards.wage = inp.rewards.wage) {amount : Nat → K} (ha : ∀ t, 0 ≤ amount t)
    (hm : LevelsShifted b core amount inp.nonpecOf ({ inp with rewards := rewards } : SolveInput K).nonpecOf)
    (h0 : 0 ≤ inp.delta) (hne : ∀ d ∈ b.denseIndices, ∀ s ∈ core, inp.shocks s.period (b.choiceSetAt d s) ≠ [])
    {future : Option Nat → CoreState → List (Option Nat × K)} (hfut : IsTransition b core future)
    (transition : Dict Nat (List (Nat × List K)))
    (hcont : ∀ par : ParamObjects K, par.transition = transition → ContinuationIs bt par future)
    (rng : InterpolationRandom) (hrng : rng.Contract) (sqrt : K → K)
    (ols : List K → List (List K) → List K) (maxLog : K)
    (hv : ∀ V, IsInterpolatedSolution b core inp.delta inp.wageOf inp.nonpecOf inp.shocks future
        (expectedShock inp.exp maxLog inp.nWages inp.cholesky) sqrt ols V →
      Viable b core inp.delta inp.wageOf inp.nonpecOf inp.shocks future V)
    (hcs : ∀ d ∈ b.denseIndices, ∀ s ∈ core, ∃ a : Nat, (b.choiceSetAt d s)[a]? = some true)
    (hpts : b.PointsSuffice core inp.delta) (seed : Nat) (ev0 : Dict Nat (List K))
    (hev0 : SameShape (initialValues bt.space) ev0) (vc ko : List Nat → List Nat) (beta : K) :
    ∃ par par' ev ev', inp.paramObjects bt transition = some par ∧
      ({ inp with rewards := rewards } : SolveInput K).paramObjects bt transition = some par' ∧
      solveBackward bt.space (kw94 bt.space rng sqrt ols (expShocks inp.exp maxLog inp.nWages inp.cholesky)) par seed
        ev0 = (ev, true) ∧
      solveBackward bt.space (kw94 bt.space rng sqrt ols (expShocks inp.exp maxLog inp.nWages inp.cholesky)) par' seed
        ev0 = (ev', true) ∧
      SimSpace.SameDifferences b.core.nPeriods beta (bt.simSpace b par ev vc ko) (bt.simSpace b par' ev' vc ko) := by
  set inp' : SolveInput K := { inp with rewards := rewards } with hinpdef
  have hw : inp'.wageOf = inp.wageOf := by
    funext d s a
    unfold SolveInput.wageOf
    rw [hinpdef]
    simp only [hwage]
  obtain ⟨par, p1, p2, p3, hfit⟩ := hinp.paramsFit wf hsnd transition
  obtain ⟨par', p1', p2', p3', hfit'⟩ := hinp'.paramsFit wf hsnd transition
  have hfit2 : ParamsFit bt par' inp.wageOf inp'.nonpecOf inp.transformedRows := by
    rw [hw] at hfit'
    exact hfit'
  have hmem : ∀ d ∈ b.denseIndices, ∀ s ∈ core, ∀ fp ∈ future d s, fp.1 ∈ b.denseIndices :=
    fun d hd s hs fp hfp => ((hfut d hd s hs).1 fp hfp).1
  have hsh : ∀ par : ParamObjects K, SameShape (initialValues bt.space)
      (solveBackward bt.space (kw94 bt.space rng sqrt ols (expShocks inp.exp maxLog inp.nWages inp.cholesky)) par
        seed ev0).1 := fun par => hev0.trans (backwardLoop_shape ..)
  have hd' : par'.delta = inp.delta := p2'
  by_cases hz : inp.delta = 0
  · obtain ⟨ok, hval⟩ := hsnd.zero_discount wf (kw94 bt.space rng sqrt ols
      (expShocks inp.exp maxLog inp.nWages inp.cholesky)) par (p2.trans hz) seed ev0 hev0
    obtain ⟨ok', hval'⟩ := hsnd.zero_discount wf (kw94 bt.space rng sqrt ols
      (expShocks inp.exp maxLog inp.nWages inp.cholesky)) par' (hd'.trans hz) seed ev0 hev0
    refine ⟨par, par', _, _, p1, p1', Prod.ext rfl ok, Prod.ext rfl ok', ?_⟩
    exact sameDifferences_of_shift wf hsnd hfit hfit2 hfut (hcont par p3) (hcont par' p3') (p3'.trans p3.symm) (hsh par)
      (hsh par') (V := fun _ _ => 0) (V' := fun _ _ => 0) (shift := fun _ => 0) hval hval' hm (by simp) vc ko beta
  · have ok := (hsnd.interpolated_ok_iff wf rng hrng sqrt ols (expShocks inp.exp maxLog inp.nWages inp.cholesky) par
      _ _ _ _ hfit (hcont par p3) (by rw [p2]; exact hz) (by simpa [expShocks] using hinp.choices) hcs seed ev0
      hev0).2 (hpts hz)
    have ok' := (hsnd.interpolated_ok_iff wf rng hrng sqrt ols (expShocks inp.exp maxLog inp.nWages inp.cholesky) par'
      _ _ _ _ hfit2 (hcont par' p3') (by rw [hd']; exact hz) (by simpa [expShocks] using hinp.choices) hcs seed ev0
      hev0).2 (hpts hz)
    obtain ⟨V, hV, hval⟩ := hsnd.interpolatedSolutionAt wf rng hrng inp.exp sqrt ols maxLog inp.nWages
      inp.cholesky par _ _ _ future hmem hfit (hcont par p3) (by rw [p2]; exact hz) hinp.choices seed ev0 hev0 ok
    obtain ⟨V', hV', hval'⟩ := hsnd.interpolatedSolutionAt wf rng hrng inp.exp sqrt ols maxLog inp.nWages
      inp.cholesky par' _ _ _ future hmem hfit2 (hcont par' p3') (by rw [hd']; exact hz) hinp.choices seed ev0 hev0 ok'
    rw [p2] at hV
    rw [hd'] at hV'
    have hV := hV.of_rows
    have hV' := hV'.of_rows
    refine ⟨par, par', _, _, p1, p1', Prod.ext rfl ok, Prod.ext rfl ok', ?_⟩
    exact sameDifferences_of_shift wf hsnd hfit hfit2 hfut (hcont par p3) (hcont par' p3') (p3'.trans p3.symm) (hsh par)
      (hsh par') hval hval' hm (fun d hd s hs => hV.shift wf h0 hfut ha hm hne hV'
        (hv V hV.isInterpolatedSolution) d hd s hs) vc ko beta

/-- **C98.** Models without exogenous processes. If the non-pecuniary rewards of all
alternatives rise by an amount which depends only on the period, and if the model is viable, both models are solved and
the solutions have the same differences. -/
theorem C98_level_of_rewards (b : BuildSpec) (core : List CoreState) (wf : b.WF core) (hexo : b.exogLevels = [])
    (inp : SolveInput K) (rewards : LinearRewards K)
    (hinp : inp.WF b core) (hinp' : ({ inp with rewards := rewards } : SolveInput K).WF b core)
    (hwage : rewards.wage = inp.rewards.wage) (amount : Nat → K) (ha : ∀ t, 0 ≤ amount t)
    (hm : LevelsShifted b core amount inp.nonpecOf ({ inp with rewards := rewards } : SolveInput K).nonpecOf)
    (h0 : 0 ≤ inp.delta) (hne : ∀ d ∈ b.denseIndices, ∀ s ∈ core, inp.shocks s.period (b.choiceSetAt d s) ≠ [])
    (rng : InterpolationRandom) (hrng : rng.Contract) (sqrt : K → K) (ols : List K → List (List K) → List K) (maxLog : K)
    (hv : ∀ V, IsInterpolatedSolution b core inp.delta inp.wageOf inp.nonpecOf inp.shocks (fun d _ => [(d, 1)])
        (expectedShock inp.exp maxLog inp.nWages inp.cholesky) sqrt ols V →
      Viable b core inp.delta inp.wageOf inp.nonpecOf inp.shocks (fun d _ => [(d, 1)]) V)
    (hcs : ∀ d ∈ b.denseIndices, ∀ s ∈ core, ∃ a : Nat, (b.choiceSetAt d s)[a]? = some true)
    (hpts : b.PointsSuffice core inp.delta) (seed : Nat) (ev0 : Built → Dict Nat (List K))
    (hev0 : ∀ bt, SameShape (initialValues bt.space) (ev0 bt)) (vc ko : List Nat → List Nat) (beta : K) :
    ∃ bt sp sp', buildSpace b = some bt ∧
      inp.solveModel b (fun _ => some []) (kw94 bt.space rng sqrt ols
        (expShocks inp.exp maxLog inp.nWages inp.cholesky)) seed ev0 vc ko = some sp ∧
      ({ inp with rewards := rewards } : SolveInput K).solveModel b (fun _ => some []) (kw94 bt.space rng sqrt ols
        (expShocks inp.exp maxLog inp.nWages inp.cholesky)) seed ev0 vc ko = some sp' ∧
      SimSpace.SameDifferences b.core.nPeriods beta sp sp' ∧ sp.KeysByPeriod b.core.nPeriods ∧
      sp'.KeysByPeriod b.core.nPeriods := by
  obtain ⟨bt, hbuild, hsnd⟩ := buildSpace_noExogenous b core wf hexo
  obtain ⟨par, par', ev, ev', h1, h2, h3, h4, h5⟩ := solved_sameDifferences wf hsnd inp rewards hinp hinp' hwage ha hm h0
    hne (isTransition_static b core) [] (fun par _ => hsnd.continuationIs par) rng hrng sqrt ols maxLog hv hcs hpts seed
    (ev0 bt) (hev0 bt) vc ko beta
  refine ⟨bt, _, _, hbuild, ?_, ?_, h5, simSpace_keysByPeriod _ _ _ _ _ _ _, simSpace_keysByPeriod _ _ _ _ _ _ _⟩
  · unfold SolveInput.solveModel
    simp only [hbuild, Option.bind_eq_bind, Option.bind_some, h1, h3, if_true]
  · unfold SolveInput.solveModel
    simp only [hbuild, Option.bind_eq_bind, Option.bind_some, h2, h4, if_true]

/-- **C98** with exogenous processes. -/
theorem C98_level_of_rewards_with_processes (b : BuildSpec) (core : List CoreState) (wf : b.WF core)
    (static : List (List Nat)) (hx : b.ExogWF static) (inp : SolveInput ℝ) (rewards : LinearRewards ℝ)
    (ep : ExogenousParams) (hep : ep.map List.length = b.exogLevels) (hlev : ∀ levels ∈ ep, levels ≠ [])
    (hcov : ∀ levels ∈ ep, ∀ beta ∈ levels, ∀ item ∈ beta, ∀ d ∈ b.denseIndices, ∀ s ∈ core,
      (inp.covariates d s item.1).isSome)
    (hinp : inp.WF b core) (hinp' : ({ inp with rewards := rewards } : SolveInput ℝ).WF b core)
    (hwage : rewards.wage = inp.rewards.wage) (amount : Nat → ℝ) (ha : ∀ t, 0 ≤ amount t)
    (hm : LevelsShifted b core amount inp.nonpecOf ({ inp with rewards := rewards } : SolveInput ℝ).nonpecOf)
    (h0 : 0 ≤ inp.delta) (hne : ∀ d ∈ b.denseIndices, ∀ s ∈ core, inp.shocks s.period (b.choiceSetAt d s) ≠ [])
    (rng : InterpolationRandom) (hrng : rng.Contract) (sqrt : ℝ → ℝ) (ols : List ℝ → List (List ℝ) → List ℝ) (maxLog : ℝ)
    (hmean : ∀ d ∈ b.denseIndices, ∀ s ∈ core, b.Interpolates core s.period →
      ∃ a : Nat, (b.choiceSetAt d s)[a]? = some true ∧ 0 ≤ flowUtility (inp.wageOf d s) (inp.nonpecOf d s)
        (expectedShock inp.exp maxLog inp.nWages inp.cholesky) a)
    (hflow : ∀ d ∈ b.denseIndices, ∀ s ∈ core, ∀ e ∈ inp.shocks s.period (b.choiceSetAt d s),
      ∃ a : Nat, (b.choiceSetAt d s)[a]? = some true ∧ 0 ≤ flowUtility (inp.wageOf d s) (inp.nonpecOf d s) e a)
    (hcs : ∀ d ∈ b.denseIndices, ∀ s ∈ core, ∃ a : Nat, (b.choiceSetAt d s)[a]? = some true)
    (hpts : b.PointsSuffice core inp.delta) (seed : Nat) (ev0 : Built → Dict Nat (List ℝ))
    (hev0 : ∀ bt, SameShape (initialValues bt.space) (ev0 bt)) (vc ko : List Nat → List Nat) (beta : ℝ) :
    ∃ bt sp sp', buildSpace b = some bt ∧
      inp.solveModel b (inp.transitions ep b) (kw94 bt.space rng sqrt ols
        (expShocks inp.exp maxLog inp.nWages inp.cholesky)) seed ev0 vc ko = some sp ∧
      ({ inp with rewards := rewards } : SolveInput ℝ).solveModel b (inp.transitions ep b) (kw94 bt.space rng sqrt ols
        (expShocks inp.exp maxLog inp.nWages inp.cholesky)) seed ev0 vc ko = some sp' ∧
      SimSpace.SameDifferences b.core.nPeriods beta sp sp' ∧ sp.KeysByPeriod b.core.nPeriods ∧
      sp'.KeysByPeriod b.core.nPeriods := by
  obtain ⟨bt, reps, hbuild, hsnd, htr, hdpc⟩ := buildSpace_exogenous b core wf static hx
  obtain ⟨transition, ht, hfit⟩ := inp.transitions_fit ep b core wf static hx hep hcov bt reps hsnd hdpc
  have hgrid : exogenousGrid b.exogLevels ≠ [] := by
    intro h0
    have := (C19_level_probabilities ep hlev fun _ => none).2
    rw [hep, h0] at this
    simp at this
  have hfut := isTransition_exogenous b core static hx ep hep hlev inp.covariates
  obtain ⟨par, par', ev, ev', h1, h2, h3, h4, h5⟩ := solved_sameDifferences wf hsnd inp rewards hinp hinp' hwage ha hm h0
    hne hfut transition
    (fun par hp => hsnd.continuationIs_exogenous htr hgrid par
      (fun d s e => levelProbability ep (inp.covariates d s) e) (by rw [hp]; exact hfit))
    rng hrng sqrt ols maxLog (fun V hV => viable_of_flows wf h0 hfut hV hmean hflow) hcs hpts seed (ev0 bt) (hev0 bt) vc
    ko beta
  refine ⟨bt, _, _, hbuild, ?_, ?_, h5, simSpace_keysByPeriod _ _ _ _ _ _ _, simSpace_keysByPeriod _ _ _ _ _ _ _⟩
  · unfold SolveInput.solveModel
    simp only [hbuild, ht, Option.bind_eq_bind, Option.bind_some, h1, h3, if_true]
  · unfold SolveInput.solveModel
    simp only [hbuild, ht, Option.bind_eq_bind, Option.bind_some, h2, h4, if_true]

/-! ### Functions of the parameters -/

variable {env : ProcessEnv} {ev : FormulaEval} {m : UserModel} {p q : Processed} {core : List CoreState}
  {θ : Dict (Str × Str) ℝ} {x : Str} {k : ℝ}

theorem raiseLevel_same (hcat : ∀ y ∈ θ, "nonpec_".toList <+: y.1.1 → IsRewardCategory y.1.1) :
    SameOutsideRewards θ (raiseLevel x k θ) := by
  unfold SameOutsideRewards raiseLevel
  rw [List.forall₂_map_right_iff, List.forall₂_same]
  intro y hy
  refine ⟨rfl, fun hn => ?_⟩
  dsimp only
  rw [if_neg]
  rintro ⟨h1, _⟩
  exact hn (hcat y hy (List.isPrefixOf_iff_prefix.1 h1))

theorem raiseLevel_other (cat : Str) (hn : "nonpec_".toList.isPrefixOf cat = false) :
    choiceParameters (raiseLevel x k θ) cat = choiceParameters θ cat := by
  have hf : ((raiseLevel x k θ).filter fun p => p.1.1 = cat) = θ.filter fun p => p.1.1 = cat := by
    unfold raiseLevel
    induction θ with
    | nil => rfl
    | cons y l ih =>
      rw [List.map_cons, List.filter_cons, List.filter_cons, ih]
      by_cases hy : y.1.1 = cat
      · simp only [hy, hn, Bool.false_eq_true, false_and, if_false, decide_true, if_true]
      · simp only [hy, decide_false, Bool.false_eq_true, if_false]
  have ha : ((raiseLevel x k θ).any fun p => p.1.1 = cat) = θ.any fun p => p.1.1 = cat := by
    unfold raiseLevel
    rw [List.any_map]
    rfl
  unfold choiceParameters
  rw [hf, ha]

theorem raiseLevel_wage (c : Str) :
    choiceParameters (raiseLevel x k θ) ("wage_".toList ++ c) = choiceParameters θ ("wage_".toList ++ c) :=
  raiseLevel_other _ rfl

/-- The sum of the rewards of an alternative rises by the number times the covariate. -/
theorem raiseLevel_sum (hnd : (Dict.keys θ).Nodup) (c : Str) (hrow : ("nonpec_".toList ++ c, x) ∈ Dict.keys θ)
    (g : Str → ℝ) :
    (((raiseLevel x k θ).filter fun y => y.1.1 = "nonpec_".toList ++ c).map fun y => y.2 * g y.1.2).sum =
      ((θ.filter fun y => y.1.1 = "nonpec_".toList ++ c).map fun y => y.2 * g y.1.2).sum + k * g x := by
  have hn : "nonpec_".toList.isPrefixOf ("nonpec_".toList ++ c) = true := rfl
  generalize hcat : "nonpec_".toList ++ c = cat at hn hrow
  have gen : ∀ θ : Dict (Str × Str) ℝ, (Dict.keys θ).Nodup →
      (((raiseLevel x k θ).filter fun y => y.1.1 = cat).map fun y => y.2 * g y.1.2).sum =
        ((θ.filter fun y => y.1.1 = cat).map fun y => y.2 * g y.1.2).sum +
          if (cat, x) ∈ Dict.keys θ then k * g x else 0 := by
    intro θ
    induction θ with
    | nil => intro _; simp [raiseLevel, Dict.keys]
    | cons y l ih =>
      intro hnd
      unfold Dict.keys at hnd
      rw [List.map_cons, List.nodup_cons] at hnd
      have ih := ih hnd.2
      unfold raiseLevel Dict.keys at ih ⊢
      rw [List.map_cons, List.filter_cons, List.filter_cons]
      by_cases hy : y.1.1 = cat
      · simp only [hy, decide_true, if_true, hn, true_and, List.map_cons, List.sum_cons, List.mem_cons]
        rw [ih]
        by_cases hx : y.1.2 = x
        · have hyx : y.1 = (cat, x) := Prod.ext hy hx
          rw [if_pos hx, if_pos (Or.inl hyx.symm), if_neg (by rw [← hyx]; exact hnd.1), hx]
          ring
        · have hyx : ¬ (cat, x) = y.1 := fun h => hx (by rw [← h])
          rw [if_neg hx]
          simp only [hyx, false_or]
          ring
      · have hyx : ¬ (cat, x) = y.1 := fun h => hy (by rw [← h])
        simp only [hy, decide_false, if_false, List.map_cons, List.mem_cons, hyx, false_or, Bool.false_eq_true]
        exact ih
  rw [gen θ hnd, if_pos hrow]

/-- Parameters with another level are processed to a model which differs in the non-pecuniary rewards only. -/
theorem processModel_raiseLevel (hcat : ∀ y ∈ θ, "nonpec_".toList <+: y.1.1 → IsRewardCategory y.1.1)
    (hq : processModel env { m with params := θ } = some q) :
    processModel env { m with params := raiseLevel x k θ } = some { q with
      nonpec := fun c => choiceParameters (raiseLevel x k θ) ("nonpec_".toList ++ c) } := by
  rw [(raiseLevel_same hcat).processModel env m, hq, Option.map_some]
  obtain ⟨_, hfrom⟩ := processModel_from _ _ _ hq
  have hw : q.wage = fun c => choiceParameters (raiseLevel x k θ) ("wage_".toList ++ c) := by
    rw [hfrom.wage]
    funext c
    exact (raiseLevel_wage c).symm
  rw [← hw]

/-- The solutions at `θ`, which is processed to `q`, and at the parameters with a higher level give the same behaviour. -/
def LevelSolved (env : ProcessEnv) (m : UserModel) (ev : FormulaEval) (r : SolveRoutines) (q : Processed)
    (θ : Dict (Str × Str) ℝ) (x : Str) (k beta : ℝ) : Prop :=
  ∃ q' sp sp', processModel env { m with params := raiseLevel x k θ } = some q' ∧
    q' = { q with nonpec := q'.nonpec } ∧ q.solveWith q ev r = some sp ∧ q'.solveWith q' ev r = some sp' ∧
    SimSpace.SameDifferences q.nPeriods beta sp sp' ∧ sp.KeysByPeriod q.nPeriods ∧ sp'.KeysByPeriod q.nPeriods

/-- The inputs of the solutions at two vectors of parameters with different levels of rewards. -/
theorem raiseLevel_inputs (hev : ev.Contract) (hq : processModel env { m with params := θ } = some q)
    (hs : q.Supported { m with params := θ } ev core) (hcore : createCore (q.buildSpec ev).core = some core)
    (hlen : ∀ grid, denseGrid q.denseSpec = some grid → ∀ point ∈ grid,
      (denseColumns q.denseSpec).length ≤ point.length) (hkeep : env.KeepsShape) (hnd : (Dict.keys θ).Nodup)
    (hother : ∀ x ∈ θ, mentionsShocks x.1 = true → ∃ c ∈ shockCategories, x.1.1 = c.toList)
    (r : SolveRoutines) (hfit : r.senv.Fits (q.buildSpec ev) core)
    (hallowed : ∀ d ∈ (q.buildSpec ev).denseIndices, ∀ s ∈ core,
      ∃ c ∈ q.choices.choices, q.Allowed { m with params := θ } ev d s c)
    (hcat : ∀ y ∈ θ, "nonpec_".toList <+: y.1.1 → IsRewardCategory y.1.1)
    (hrow : ∀ c ∈ q.choices.choices, ("nonpec_".toList ++ c, x) ∈ Dict.keys θ) (level : Nat → ℝ)
    (hlevel : ∀ d ∈ (q.buildSpec ev).denseIndices, ∀ s ∈ core, q.covariates ev d s x = some (level s.period)) :
    ∃ q', processModel env { m with params := raiseLevel x k θ } = some q' ∧ q' = { q with nonpec := q'.nonpec } ∧
      q'.solveInput ev r.senv = { q.solveInput ev r.senv with rewards := (q'.solveInput ev r.senv).rewards } ∧
      (q.solveInput ev r.senv).WF (q.buildSpec ev) core ∧
      ({ q.solveInput ev r.senv with rewards := (q'.solveInput ev r.senv).rewards } : SolveInput ℝ).WF
        (q.buildSpec ev) core ∧
      (∀ d ∈ (q.buildSpec ev).denseIndices, ∀ s ∈ core,
        ∃ a : Nat, ((q.buildSpec ev).choiceSetAt d s)[a]? = some true) ∧
      LevelsShifted (q.buildSpec ev) core (fun t => k * level t) (q.solveInput ev r.senv).nonpecOf
        ({ q.solveInput ev r.senv with rewards := (q'.solveInput ev r.senv).rewards } : SolveInput ℝ).nonpecOf := by
  have hq' := processModel_raiseLevel (x := x) (k := k) hcat hq
  generalize hdef : ({ q with nonpec := fun c => choiceParameters (raiseLevel x k θ) ("nonpec_".toList ++ c) } :
    Processed) = q' at hq'
  have hinp := C82_solve_input_well_formed hq hs hcore hlen hkeep hnd hother r.senv hfit
  have hinpeq : q'.solveInput ev r.senv =
      { q.solveInput ev r.senv with rewards := (q'.solveInput ev r.senv).rewards } := by
    subst hdef
    rfl
  have hinp' : ({ q.solveInput ev r.senv with rewards := (q'.solveInput ev r.senv).rewards } : SolveInput ℝ).WF
      (q.buildSpec ev) core := by
    obtain ⟨_, hfrom⟩ := processModel_from _ _ _ hq
    refine ⟨?_, ?_, hinp.sizes, hinp.base, hinp.cholesky, hinp.choices⟩
    · intro a beta hb
      refine hinp.wages a beta ?_
      subst hdef
      exact hb
    · intro a beta hb item hi d hd s hsc
      obtain ⟨c, hc, hb⟩ := Option.bind_eq_some_iff.1 hb
      have hc' : q.choices.choices[a]? = some c := by
        subst hdef
        exact hc
      have hnames := choiceParameters_names (raiseLevel_same (x := x) (k := k) hcat).index ("nonpec_".toList ++ c)
      have hb' : choiceParameters (raiseLevel x k θ) ("nonpec_".toList ++ c) = some beta := by
        subst hdef
        exact hb
      rw [hb'] at hnames
      obtain ⟨beta0, hb0, hmap⟩ := Option.map_eq_some_iff.1 hnames
      have : item.1 ∈ beta0.map Prod.fst := by rw [hmap]; exact List.mem_map_of_mem hi
      obtain ⟨item0, hi0, he⟩ := List.mem_map.1 this
      have := hinp.nonpecs a beta0 (by
        show (q.choices.choices[a]?).bind q.nonpec = _
        rw [hc', Option.bind_some, hfrom.nonpec]
        exact hb0) item0 hi0 d hd s hsc
      rw [he] at this
      exact this
  have hcs : ∀ d ∈ (q.buildSpec ev).denseIndices, ∀ s ∈ core,
      ∃ a : Nat, ((q.buildSpec ev).choiceSetAt d s)[a]? = some true := by
    intro d hd s hsc
    obtain ⟨c, hc, hall⟩ := hallowed d hd s hsc
    obtain ⟨a, ha⟩ := List.mem_iff_getElem?.1 hc
    exact ⟨a, (C82_choice_sets_by_name hq hev hs.toDescribed hcore d hd s hsc a c ha).2 hall⟩
  have hm : LevelsShifted (q.buildSpec ev) core (fun t => k * level t) (q.solveInput ev r.senv).nonpecOf
      ({ q.solveInput ev r.senv with rewards := (q'.solveInput ev r.senv).rewards } : SolveInput ℝ).nonpecOf := by
    intro d hd s hsc a ha
    have halt : a < q.choices.choices.length := by
      have := (List.getElem?_eq_some_iff.1 ha).1
      cases d <;> simpa [BuildSpec.choiceSetAt, choiceSet, Processed.buildSpec, Processed.restrictions] using this
    have hc : q.choices.choices[a]? = some q.choices.choices[a] := List.getElem?_eq_getElem halt
    rw [← hinpeq, C82_nonpecs_by_name hq r.senv d s a _ hc, C82_nonpecs_by_name hq' r.senv d s a
      q.choices.choices[a] (by subst hdef; exact hc)]
    have hcov : q'.covariates ev = q.covariates ev := by subst hdef; rfl
    dsimp only
    rw [hcov, raiseLevel_sum hnd _ (hrow _ (List.getElem_mem halt)) fun y => (q.covariates ev d s y).getD 0,
      hlevel d hd s hsc, Option.getD_some]
  exact ⟨q', hq', by rw [← hdef], hinpeq, hinp, hinp', hcs, hm⟩

/-- The solutions at two vectors of parameters with different levels of rewards. -/
theorem solveWith_raiseLevel (hev : ev.Contract) (hq : processModel env { m with params := θ } = some q)
    (hs : q.Supported { m with params := θ } ev core) (hcore : createCore (q.buildSpec ev).core = some core)
    (hexo : q.exogenous = []) (hkeep : env.KeepsShape) (hnd : (Dict.keys θ).Nodup)
    (hother : ∀ x ∈ θ, mentionsShocks x.1 = true → ∃ c ∈ shockCategories, x.1.1 = c.toList)
    (r : SolveRoutines) (hfit : r.senv.Fits (q.buildSpec ev) core)
    (hallowed : ∀ d ∈ (q.buildSpec ev).denseIndices, ∀ s ∈ core,
      ∃ c ∈ q.choices.choices, q.Allowed { m with params := θ } ev d s c)
    (hpts : (q.buildSpec ev).PointsSuffice core q.discount.delta) (hrng : r.rng.Contract)
    (hev0 : ∀ bt, SameShape (initialValues bt.space) (r.ev0 bt))
    (hcat : ∀ y ∈ θ, "nonpec_".toList <+: y.1.1 → IsRewardCategory y.1.1)
    (hrow : ∀ c ∈ q.choices.choices, ("nonpec_".toList ++ c, x) ∈ Dict.keys θ) (level : Nat → ℝ)
    (hlevel : ∀ d ∈ (q.buildSpec ev).denseIndices, ∀ s ∈ core, q.covariates ev d s x = some (level s.period))
    (hk : ∀ t, 0 ≤ k * level t) (h0 : 0 ≤ q.discount.delta)
    (hne : ∀ d ∈ (q.buildSpec ev).denseIndices, ∀ s ∈ core,
      (q.solveInput ev r.senv).shocks s.period ((q.buildSpec ev).choiceSetAt d s) ≠ [])
    (hv : ∀ V, IsInterpolatedSolution (q.buildSpec ev) core q.discount.delta (q.solveInput ev r.senv).wageOf
        (q.solveInput ev r.senv).nonpecOf (q.solveInput ev r.senv).shocks (fun d _ => [(d, 1)])
        (expectedShock Real.exp r.maxLog q.choices.wWage.length q.cholesky) r.sqrt r.ols V →
      Viable (q.buildSpec ev) core q.discount.delta (q.solveInput ev r.senv).wageOf
        (q.solveInput ev r.senv).nonpecOf (q.solveInput ev r.senv).shocks (fun d _ => [(d, 1)]) V) (beta : ℝ) :
    LevelSolved env m ev r q θ x k beta := by
  obtain ⟨q', hq', hdef, hinpeq, hinp, hinp', hcs, hm⟩ := raiseLevel_inputs (k := k) hev hq hs hcore
    (denseColumns_static q hexo) hkeep hnd hother r hfit hallowed hcat hrow level hlevel
  obtain ⟨bt, sp, sp', h1, h2, h3, h4, h5, h6⟩ := C98_level_of_rewards (q.buildSpec ev) core
    (C82_processed_models_well_formed hq hev hs hcore) (by simp [Processed.buildSpec, hexo]) (q.solveInput ev r.senv)
    (q'.solveInput ev r.senv).rewards hinp hinp' (by rw [hdef]; rfl) (fun t => k * level t) hk hm h0 hne
    r.rng hrng r.sqrt r.ols r.maxLog hv hcs hpts r.seed r.ev0 hev0 r.valueCounts r.keyOrder beta
  refine ⟨q', sp, sp', hq', hdef, solveWith_static hexo r bt sp h1 h2, ?_, h4, h5, h6⟩
  refine solveWith_static (by rw [hdef]; exact hexo) r bt sp' (by rw [hdef]; exact h1) ?_
  rw [hinpeq, hdef]
  rw [hdef] at h3
  exact h3

/-- The solutions at two vectors of parameters with different levels of rewards and exogenous processes. -/
theorem solveWith_raiseLevel_exogenous (hev : ev.Contract) (hq : processModel env { m with params := θ } = some q)
    (hs : q.Supported { m with params := θ } ev core) (hcore : createCore (q.buildSpec ev).core = some core)
    (hexo : q.exogenous ≠ []) (static : List (Str × Nat)) (htypes : q.nTypes < 2)
    (hobs : q.observables.map (fun o => (o.1, o.2.length)) = static ++ q.exogenous.map fun o => (o.1, o.2.length))
    (hnames : ∀ e ∈ q.exogenous, ∀ level ∈ e.2, ∀ item ∈ level.2, item.1 ∈ q.columns true)
    (hkeep : env.KeepsShape) (hnd : (Dict.keys θ).Nodup)
    (hother : ∀ x ∈ θ, mentionsShocks x.1 = true → ∃ c ∈ shockCategories, x.1.1 = c.toList)
    (r : SolveRoutines) (hfit : r.senv.Fits (q.buildSpec ev) core)
    (hallowed : ∀ d ∈ (q.buildSpec ev).denseIndices, ∀ s ∈ core,
      ∃ c ∈ q.choices.choices, q.Allowed { m with params := θ } ev d s c)
    (hpts : (q.buildSpec ev).PointsSuffice core q.discount.delta) (hrng : r.rng.Contract)
    (hev0 : ∀ bt, SameShape (initialValues bt.space) (r.ev0 bt))
    (hcat : ∀ y ∈ θ, "nonpec_".toList <+: y.1.1 → IsRewardCategory y.1.1)
    (hrow : ∀ c ∈ q.choices.choices, ("nonpec_".toList ++ c, x) ∈ Dict.keys θ) (level : Nat → ℝ)
    (hlevel : ∀ d ∈ (q.buildSpec ev).denseIndices, ∀ s ∈ core, q.covariates ev d s x = some (level s.period))
    (hk : ∀ t, 0 ≤ k * level t) (h0 : 0 ≤ q.discount.delta)
    (hne : ∀ d ∈ (q.buildSpec ev).denseIndices, ∀ s ∈ core,
      (q.solveInput ev r.senv).shocks s.period ((q.buildSpec ev).choiceSetAt d s) ≠ [])
    (hmean : ∀ d ∈ (q.buildSpec ev).denseIndices, ∀ s ∈ core, (q.buildSpec ev).Interpolates core s.period →
      ∃ a : Nat, ((q.buildSpec ev).choiceSetAt d s)[a]? = some true ∧ 0 ≤ flowUtility
        ((q.solveInput ev r.senv).wageOf d s) ((q.solveInput ev r.senv).nonpecOf d s)
        (expectedShock Real.exp r.maxLog q.choices.wWage.length q.cholesky) a)
    (hflow : ∀ d ∈ (q.buildSpec ev).denseIndices, ∀ s ∈ core,
      ∀ e ∈ (q.solveInput ev r.senv).shocks s.period ((q.buildSpec ev).choiceSetAt d s),
      ∃ a : Nat, ((q.buildSpec ev).choiceSetAt d s)[a]? = some true ∧
        0 ≤ flowUtility ((q.solveInput ev r.senv).wageOf d s) ((q.solveInput ev r.senv).nonpecOf d s) e a) (beta : ℝ) :
    LevelSolved env m ev r q θ x k beta := by
  obtain ⟨covs, hfrom⟩ := processModel_from _ _ _ hq
  have hlen := denseColumns_exogenous q static htypes hobs
  obtain ⟨q', hq', hdef, hinpeq, hinp, hinp', hcs, hm⟩ := raiseLevel_inputs (k := k) hev hq hs hcore
    hlen hkeep hnd hother r hfit hallowed hcat hrow level hlevel
  obtain ⟨bt, sp, sp', h1, h2, h3, h4, h5, h6⟩ := C98_level_of_rewards_with_processes (q.buildSpec ev) core
    (C82_processed_models_well_formed hq hev hs hcore) _ (exogenous_wf q ev hexo static htypes hobs)
    (q.solveInput ev r.senv) (q'.solveInput ev r.senv).rewards q.exogenousParams
    (by simp [Processed.exogenousParams, Processed.buildSpec, Function.comp_def])
    (by
      intro levels hl
      obtain ⟨e, he, rfl⟩ := List.mem_map.1 hl
      intro hne
      exact hfrom.exogenous_ne e he (List.map_eq_nil_iff.1 hne))
    (by
      intro levels hl beta hb item hi d hd s hmem
      obtain ⟨e, he, rfl⟩ := List.mem_map.1 hl
      obtain ⟨level, hlev, rfl⟩ := List.mem_map.1 hb
      refine hs.column hfrom hcore hlen d hd s hmem _ ?_
      have hg : denseGrid q.denseSpec = some _ := exogenous_grid q ev hexo static htypes hobs
      rw [hg]
      exact hnames e he level hlev item hi)
    hinp hinp' (by rw [hdef]; rfl) (fun t => k * level t) hk hm h0 hne
    r.rng hrng r.sqrt r.ols r.maxLog hmean hflow hcs hpts r.seed r.ev0 hev0 r.valueCounts r.keyOrder beta
  refine ⟨q', sp, sp', hq', hdef, solveWith_exogenous hexo r bt sp h1 h2, ?_, h4, h5, h6⟩
  refine solveWith_exogenous (by rw [hdef]; exact hexo) r bt sp' (by rw [hdef]; exact h1) ?_
  rw [hinpeq, hdef]
  rw [hdef] at h3
  exact h3

theorem sameIndex_raiseLevel (hcat : ∀ y ∈ θ, "nonpec_".toList <+: y.1.1 → IsRewardCategory y.1.1)
    (hθ : m.SameIndex θ) : m.SameIndex (raiseLevel x k θ) := by
  have h := raiseLevel_same (x := x) (k := k) hcat
  refine ⟨hθ.index.trans h.index, fun c => ?_⟩
  rw [hθ.max c, h.get? ("maximum_exp".toList, c) (not_reward_literal (c := "maximum_exp".toList) (by decide +kernel))]

/-- Solutions which give the same behaviour give the same samples and the same criterion function. -/
theorem same_functions_of_levelSolved (hp : processModel env m = some p) (hr : m.Reprocessable p)
    (hev : ev.Contract) (hf : p.FormulasSound ev) (hid : "identifier".toList ∉ Dict.keys p.groups.all)
    (hg : ∀ t beta, Dict.get? p.typeProb t = some beta → ∃ bound, Graded p.groups.all (beta.map Prod.fst) bound)
    (hθ : m.SameIndex θ) (hq : processModel env { m with params := θ } = some q) (r : SolveRoutines)
    (hcat : ∀ y ∈ θ, "nonpec_".toList <+: y.1.1 → IsRewardCategory y.1.1)
    (solved : ∀ beta, LevelSolved env m ev r q θ x k beta) :
    (∀ (G : Type) (e : SimulateEnv G) simulate, getSimulateFunc env ev r m e = some simulate → ∀ g,
      Option.Rel (List.Forall₂ SameBehaviour) (simulate θ g).1 (simulate (raiseLevel x k θ) g).1 ∧
        (simulate (raiseLevel x k θ) g).2 = (simulate θ g).2) ∧
    ∃ fuel, ∀ e : EstimateEnv, (∀ n l, (e.order n l).Perm l) → fuel ≤ e.fuel →
      ∀ logLike, getCriterionFunc env ev r m e = some logLike →
        logLike (raiseLevel x k θ) = logLike θ := by
  have hθ' := sameIndex_raiseLevel (x := x) (k := k) hcat hθ
  refine ⟨fun G e simulate hsim g => ?_, ?_⟩
  · obtain ⟨q1, _, hq1, _, _, hrun⟩ := (C87_simulate_function_partial hp hr hev hf hid r e).2 simulate hsim θ hθ
    obtain ⟨q2, _, hq2, _, _, hrun'⟩ := (C87_simulate_function_partial hp hr hev hf hid r e).2 simulate hsim _ hθ'
    obtain ⟨q', sp, sp', hq', heq, hsp, hsp', hsame, _, _⟩ :=
      solved ((q.simulation ev r.senv e (q.solveWith q ev r)).rewards ()).betaDelta
    rw [hq] at hq1
    rw [hq'] at hq2
    cases hq1
    cases hq2
    rw [hrun, hrun', hsp, hsp']
    have hsim' : q2.simulation ev r.senv e (some sp') = { q.simulation ev r.senv e (some sp) with
        solve := fun _ => some sp' } := by
      rw [heq]
      rfl
    rw [hsim']
    have := C98_same_differences_same_sample
      ({ q.simulation ev r.senv e (some sp) with
        chars := fun _ : Bool => (q.simulation ev r.senv e (some sp)).chars ()
        rewards := fun _ : Bool => (q.simulation ev r.senv e (some sp)).rewards ()
        solve := fun u => if u then some sp' else some sp } : Simulation ℝ G Bool) false true sp sp' rfl rfl rfl rfl
      hsame g
    exact this
  · obtain ⟨fuel, hfuel⟩ := C87_criterion_function_partial hp hr hev hf hid hg r
    refine ⟨fuel, fun e ho hle logLike hlog => ?_⟩
    obtain ⟨q1, _, hq1, _, _, hrun⟩ := (hfuel e ho hle).2 logLike hlog θ hθ
    obtain ⟨q2, _, hq2, _, _, hrun'⟩ := (hfuel e ho hle).2 logLike hlog _ hθ'
    obtain ⟨q', sp, sp', hq', heq, hsp, hsp', hsame, hkeys, hkeys'⟩ :=
      solved ((q.estimation ev e (q.solveWith q ev r)).params ()).betaDelta
    rw [hq] at hq1
    rw [hq'] at hq2
    cases hq1
    cases hq2
    rw [hrun, hrun', hsp, hsp']
    have hest : q2.estimation ev e (some sp') = { q.estimation ev e (some sp) with
        solve := fun _ => some sp' } := by
      rw [heq]
      rfl
    rw [hest]
    exact C98_same_differences_same_likelihood
      ({ q.estimation ev e (some sp) with
        params := fun _ : Bool => (q.estimation ev e (some sp)).params ()
        solve := fun u => if u then some sp' else some sp } : Estimation Bool) false true sp sp' rfl rfl rfl hsame
      hkeys hkeys'

/-- **C98.** Parameters which differ in the level of the non-pecuniary rewards cannot be told apart. If the coefficient
of a covariate whose value depends only on the period, like a constant, is raised by the same number in the rewards of
all choices, then every individual of a simulated sample makes the same choices for the same wages, and the criterion
function has the same value.

Missing: models which are not viable, for which the claim is false (`C98_levels_matter_false`). For exogenous processes
see `C98_level_with_processes_partial`. -/
theorem C98_level_of_parameters_partial (hp : processModel env m = some p) (hr : m.Reprocessable p)
    (hev : ev.Contract) (hf : p.FormulasSound ev) (hid : "identifier".toList ∉ Dict.keys p.groups.all)
    (hg : ∀ t beta, Dict.get? p.typeProb t = some beta → ∃ bound, Graded p.groups.all (beta.map Prod.fst) bound)
    (hθ : m.SameIndex θ) (hq : processModel env { m with params := θ } = some q)
    (hs : q.Supported { m with params := θ } ev core) (hcore : createCore (q.buildSpec ev).core = some core)
    (hexo : q.exogenous = []) (hkeep : env.KeepsShape) (hnd : (Dict.keys θ).Nodup)
    (hother : ∀ x ∈ θ, mentionsShocks x.1 = true → ∃ c ∈ shockCategories, x.1.1 = c.toList)
    (r : SolveRoutines) (hfit : r.senv.Fits (q.buildSpec ev) core)
    (hallowed : ∀ d ∈ (q.buildSpec ev).denseIndices, ∀ s ∈ core,
      ∃ c ∈ q.choices.choices, q.Allowed { m with params := θ } ev d s c)
    (hpts : (q.buildSpec ev).PointsSuffice core q.discount.delta) (hrng : r.rng.Contract)
    (hev0 : ∀ bt, SameShape (initialValues bt.space) (r.ev0 bt))
    (hcat : ∀ y ∈ θ, "nonpec_".toList <+: y.1.1 → IsRewardCategory y.1.1)
    (hrow : ∀ c ∈ q.choices.choices, ("nonpec_".toList ++ c, x) ∈ Dict.keys θ) (level : Nat → ℝ)
    (hlevel : ∀ d ∈ (q.buildSpec ev).denseIndices, ∀ s ∈ core, q.covariates ev d s x = some (level s.period))
    (hk : ∀ t, 0 ≤ k * level t) (h0 : 0 ≤ q.discount.delta)
    (hne : ∀ d ∈ (q.buildSpec ev).denseIndices, ∀ s ∈ core,
      (q.solveInput ev r.senv).shocks s.period ((q.buildSpec ev).choiceSetAt d s) ≠ [])
    (hv : ∀ V, IsInterpolatedSolution (q.buildSpec ev) core q.discount.delta (q.solveInput ev r.senv).wageOf
        (q.solveInput ev r.senv).nonpecOf (q.solveInput ev r.senv).shocks (fun d _ => [(d, 1)])
        (expectedShock Real.exp r.maxLog q.choices.wWage.length q.cholesky) r.sqrt r.ols V →
      Viable (q.buildSpec ev) core q.discount.delta (q.solveInput ev r.senv).wageOf
        (q.solveInput ev r.senv).nonpecOf (q.solveInput ev r.senv).shocks (fun d _ => [(d, 1)]) V) :
    (∀ (G : Type) (e : SimulateEnv G) simulate, getSimulateFunc env ev r m e = some simulate → ∀ g,
      Option.Rel (List.Forall₂ SameBehaviour) (simulate θ g).1 (simulate (raiseLevel x k θ) g).1 ∧
        (simulate (raiseLevel x k θ) g).2 = (simulate θ g).2) ∧
    ∃ fuel, ∀ e : EstimateEnv, (∀ n l, (e.order n l).Perm l) → fuel ≤ e.fuel →
      ∀ logLike, getCriterionFunc env ev r m e = some logLike →
        logLike (raiseLevel x k θ) = logLike θ :=
  same_functions_of_levelSolved hp hr hev hf hid hg hθ hq r hcat
    (solveWith_raiseLevel (x := x) (k := k) hev hq hs hcore hexo hkeep hnd hother r hfit hallowed hpts
      hrng hev0 hcat hrow level hlevel hk h0 hne hv)

/-- **C98 (partial)** for models with exogenous processes, if these come last among the observables, there are no types,
and in every state and for every draw (in interpolated periods also for the means of the shocks) some alternative has a
nonnegative utility. -/
theorem C98_level_with_processes_partial (hp : processModel env m = some p) (hr : m.Reprocessable p)
    (hev : ev.Contract) (hf : p.FormulasSound ev) (hid : "identifier".toList ∉ Dict.keys p.groups.all)
    (hg : ∀ t beta, Dict.get? p.typeProb t = some beta → ∃ bound, Graded p.groups.all (beta.map Prod.fst) bound)
    (hθ : m.SameIndex θ) (hq : processModel env { m with params := θ } = some q)
    (hs : q.Supported { m with params := θ } ev core) (hcore : createCore (q.buildSpec ev).core = some core)
    (hexo : q.exogenous ≠ []) (static : List (Str × Nat)) (htypes : q.nTypes < 2)
    (hobs : q.observables.map (fun o => (o.1, o.2.length)) = static ++ q.exogenous.map fun o => (o.1, o.2.length))
    (hnames : ∀ e ∈ q.exogenous, ∀ level ∈ e.2, ∀ item ∈ level.2, item.1 ∈ q.columns true)
    (hkeep : env.KeepsShape) (hnd : (Dict.keys θ).Nodup)
    (hother : ∀ x ∈ θ, mentionsShocks x.1 = true → ∃ c ∈ shockCategories, x.1.1 = c.toList)
    (r : SolveRoutines) (hfit : r.senv.Fits (q.buildSpec ev) core)
    (hallowed : ∀ d ∈ (q.buildSpec ev).denseIndices, ∀ s ∈ core,
      ∃ c ∈ q.choices.choices, q.Allowed { m with params := θ } ev d s c)
    (hpts : (q.buildSpec ev).PointsSuffice core q.discount.delta) (hrng : r.rng.Contract)
    (hev0 : ∀ bt, SameShape (initialValues bt.space) (r.ev0 bt))
    (hcat : ∀ y ∈ θ, "nonpec_".toList <+: y.1.1 → IsRewardCategory y.1.1)
    (hrow : ∀ c ∈ q.choices.choices, ("nonpec_".toList ++ c, x) ∈ Dict.keys θ) (level : Nat → ℝ)
    (hlevel : ∀ d ∈ (q.buildSpec ev).denseIndices, ∀ s ∈ core, q.covariates ev d s x = some (level s.period))
    (hk : ∀ t, 0 ≤ k * level t) (h0 : 0 ≤ q.discount.delta)
    (hne : ∀ d ∈ (q.buildSpec ev).denseIndices, ∀ s ∈ core,
      (q.solveInput ev r.senv).shocks s.period ((q.buildSpec ev).choiceSetAt d s) ≠ [])
    (hmean : ∀ d ∈ (q.buildSpec ev).denseIndices, ∀ s ∈ core, (q.buildSpec ev).Interpolates core s.period →
      ∃ a : Nat, ((q.buildSpec ev).choiceSetAt d s)[a]? = some true ∧ 0 ≤ flowUtility
        ((q.solveInput ev r.senv).wageOf d s) ((q.solveInput ev r.senv).nonpecOf d s)
        (expectedShock Real.exp r.maxLog q.choices.wWage.length q.cholesky) a)
    (hflow : ∀ d ∈ (q.buildSpec ev).denseIndices, ∀ s ∈ core,
      ∀ e ∈ (q.solveInput ev r.senv).shocks s.period ((q.buildSpec ev).choiceSetAt d s),
      ∃ a : Nat, ((q.buildSpec ev).choiceSetAt d s)[a]? = some true ∧
        0 ≤ flowUtility ((q.solveInput ev r.senv).wageOf d s) ((q.solveInput ev r.senv).nonpecOf d s) e a) :
    (∀ (G : Type) (e : SimulateEnv G) simulate, getSimulateFunc env ev r m e = some simulate → ∀ g,
      Option.Rel (List.Forall₂ SameBehaviour) (simulate θ g).1 (simulate (raiseLevel x k θ) g).1 ∧
        (simulate (raiseLevel x k θ) g).2 = (simulate θ g).2) ∧
    ∃ fuel, ∀ e : EstimateEnv, (∀ n l, (e.order n l).Perm l) → fuel ≤ e.fuel →
      ∀ logLike, getCriterionFunc env ev r m e = some logLike →
        logLike (raiseLevel x k θ) = logLike θ :=
  same_functions_of_levelSolved hp hr hev hf hid hg hθ hq r hcat
    (solveWith_raiseLevel_exogenous (x := x) (k := k) hev hq hs hcore hexo static htypes hobs hnames hkeep hnd hother r
      hfit hallowed hpts hrng hev0 hcat hrow level hlevel hk h0 hne hmean hflow)

/-- **C98 is false** for models which are not viable. Two alternatives are followed by states in which the utilities of
all alternatives are `x` and `y`. As the running maximum in `calculate_expected_value_functions` starts at zero, the
value of a state with negative utilities is zero. If all rewards rise by the same number, then another alternative is
chosen. -/
theorem C98_levels_matter_false : ¬ ∀ (delta k : ℚ) (wages m x y : List ℚ) (draws : List (List ℚ)) (draw : List ℚ),
    0 < delta → 0 < k → m.length = 2 → draw.length = 2 → draws ≠ [] →
    argmax (valueFunctions delta wages (m.map (· + k))
      [emax wages (x.map (· + k)) [0, 0] draws delta, emax wages (y.map (· + k)) [0, 0] draws delta] draw) =
    argmax (valueFunctions delta wages m [emax wages x [0, 0] draws delta, emax wages y [0, 0] draws delta] draw) := by
  intro h
  have := h 1 1 [1, 1] [0, 3 / 2] [1, 1] [-1, -1] [[0, 0]] [0, 0] (by norm_num) (by norm_num) rfl rfl (by simp)
  exact absurd this (by decide +kernel)

end Respy
