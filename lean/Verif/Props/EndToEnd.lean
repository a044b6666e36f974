import Verif.Lemmas.EndToEnd

/-!
# C70: the whole solution

The creation of the state space and the backward induction together compute the value function.
-/

set_option linter.unusedSectionVars false

namespace Respy

variable {K : Type _} [Field K] [LinearOrder K]

/-- Without exogenous processes the state space of a well-formed model is created without an
exception and is sound. -/
theorem buildSpace_noExogenous (b : BuildSpec) (core : List CoreState) (wf : b.WF core)
    (hexo : b.exogLevels = []) : ∃ bt, buildSpace b = some bt ∧ bt.Sound b core none := by
  obtain ⟨dpc, hdpc, _, hB⟩ := densePeriodCores_facts b core wf.grouped
  obtain ⟨bt, h1, _, _, h4⟩ := buildSpace_sound b core wf none dpc hdpc
    (by simp [BuildSpec.transitSets, hexo]) (by
      intro k c ck g hk hg hp
      refine ⟨c.choiceSet, rfl, ?_⟩
      intro s hs a ha
      obtain ⟨hd, _, g', hg', hall⟩ := hB k c ck hk
      rw [hg] at hg'; cases hg'
      obtain ⟨i, hi, his⟩ := (mem_locRows _ _ _).1 hs
      obtain ⟨s', hs', h5, h6⟩ := hall i hi
      rw [his] at hs'; cases hs'
      exact wf.closed s (List.mem_of_getElem? his) (by omega) c.dense hd a (by rw [h6]; exact ha))
  exact ⟨bt, h1, h4⟩

/-- **C70 (partial).** Models without exogenous processes, with at least as many interpolation points
as states in any period (no interpolation) and with a discount factor other than zero. For every
well-formed model the creation of the state space succeeds, the backward induction succeeds for every
state of the arrays before the call, and the number which is found at the location of a core state `s`
and a dense index `d` is the value `V d s`, where `V` satisfies the Bellman equation of the model; `V` is
unique (`IsValueFunction.unique`). Missing: interpolation and the shortcut for a discount factor of
zero, for which the stored values are described by `C80_solution_with_interpolation` and
`C80_zero_discount_factor`. -/
theorem C70_solution_is_value_function_partial (b : BuildSpec) (core : List CoreState) (wf : b.WF core)
    (hexo : b.exogLevels = [])
    (hpts : ∀ t, (core.filter fun s => decide (s.period = t)).length * b.denseIndices.length ≤
      b.points) :
    ∃ bt, buildSpace b = some bt ∧ ∀ (interp : Interpolation K) (par : ParamObjects K)
      (w m : Option Nat → CoreState → Nat → K) (draws : Nat → List Bool → List (List K)),
      ParamsFit bt par w m draws → par.delta ≠ 0 →
      ∀ (seed : Nat) (ev0 : Dict Nat (List K)), SameShape (initialValues bt.space) ev0 →
        (solveBackward bt.space interp par seed ev0).2 = true ∧
        ∃ V, IsValueFunction b core par.delta w m (fun t cs => (draws t cs).map (shocksOf cs))
            (fun d _ => [(d, 1)]) V ∧
          ∀ d ∈ b.denseIndices, ∀ s ∈ core,
            bt.ValueAt (solveBackward bt.space interp par seed ev0).1 d s (V d s) := by
  obtain ⟨bt, hbuild, hsnd⟩ := buildSpace_noExogenous b core wf hexo
  refine ⟨bt, hbuild, ?_⟩
  intro interp par w m draws hfit hdelta seed ev0 hs
  refine hsnd.solution wf hpts interp par w m draws _ ?_ hfit (hsnd.continuationIs par) hdelta seed ev0 hs
  intro d hd s _ fp hfp
  simp only [List.mem_singleton] at hfp
  subst hfp; exact hd

/-- **C70.** Models without filters, with at most one lag, and at least two choices if there are dense dimensions, whose
restrictions contain the default
restrictions, one list of formulas per choice, and do not distinguish the dense indices are
well-formed. -/
theorem C70_unfiltered_models_well_formed (b : BuildSpec) (core : List CoreState) (spec : b.core.WF)
    (hl : b.core.nLags ≤ 1) (hf : b.core.filters = []) (hc : createCore b.core = some core)
    (hper : 0 < b.core.nPeriods) (hstart : List.Forall₂ (fun l m => ∃ x ∈ l, x ≤ m) b.core.starts b.core.maxExp)
    (hsev : ∀ grid, b.grid = some grid → grid ≠ [] ∧ b.core.nChoices ≠ 1) (hr : ∀ d, b.restr d = b.restrCore) (hlen : b.restrCore.length = b.core.nChoices)
    (hdef : ∀ (code : Nat) formulas, code < b.core.starts.length → b.restrCore[code]? = some formulas →
      some (fun s => defaultInadmissible b.core s code) ∈ formulas) : b.WF core where
  spec := spec
  created := hc
  periods := hper
  covered := C01_periods_covered b.core spec hf hstart core hc
  several := by rw [hlen]; exact hsev
  compatible := by intro grid _ d _ s _ s' _ _ h; rw [hr]; exact h
  distinct := by intro grid _ d _ s _ s' _ _ h; rw [hr] at h; exact h
  closed := by
    intro s hs ht d hd a ha
    have hcs : b.choiceSetAt d s = choiceSet b.restrCore s := by
      cases d with
      | none => rfl
      | some d => simp only [BuildSpec.choiceSetAt, hr]
    rw [hcs] at ha
    have hlt : a < b.core.nChoices := by
      have := (List.getElem?_eq_some_iff.1 ha).1
      simpa [choiceSet, hlen] using this
    refine C02_closed_under_admissible_choices b.core spec hl hf core hc s hs ht a hlt ?_
    by_cases hexp : a < b.core.starts.length
    · have hlt' : a < b.restrCore.length := by rw [hlen]; exact hlt
      have hmem := hdef a _ hexp (List.getElem?_eq_getElem hlt')
      simp only [choiceSet, List.getElem?_map, List.getElem?_eq_getElem hlt', Option.map_some,
        Option.some.injEq, Bool.not_eq_true'] at ha
      by_contra hne
      have hne : defaultInadmissible b.core s a = true := by simpa using hne
      have := (isInadmissible_iff _ s).2 ⟨_, hmem, hne⟩
      rw [this] at ha; cases ha
    · unfold defaultInadmissible
      rw [List.getElem?_eq_none (by omega)]

end Respy
