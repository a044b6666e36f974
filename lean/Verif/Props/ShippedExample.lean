import Verif.Props.ShippedModels

/-!
# The extended model of Robinson Crusoe

The model is accepted, described and solved if `df.eval` evaluates its formulas.
-/

namespace Respy

/-- An evaluator for given formulas; other texts are left to `textEval`. -/
noncomputable def formulasEval (fs : List Formula) : FormulaEval where
  value := fun row text =>
    match fs.find? fun f => decide (formulaOf f = text) with
    | some f =>
      open Classical in
      if (f.all fun c => (c.left.columns ++ c.right.columns).all fun x => (row x).isSome) = true
      then some (if ∀ c ∈ f, c.Holds row then 1 else 0) else none
    | none => textEval.value row text
  defined := fun cols text =>
    match fs.find? fun f => decide (formulaOf f = text) with
    | some f => f.all fun c => (c.left.columns ++ c.right.columns).all fun x => decide (x ∈ cols)
    | none => textEval.defined cols text

theorem formulasEval_reads (fs : List Formula) (hnd : (fs.map formulaOf).Nodup) (f : Formula) (hf : f ∈ fs) :
    (formulasEval fs).Reads f := by
  intro row hcols
  have hfind : fs.find? (fun g => decide (formulaOf g = formulaOf f)) = some f := by
    cases h : fs.find? (fun g => decide (formulaOf g = formulaOf f)) with
    | none => exact absurd (decide_eq_true rfl) (List.find?_eq_none.1 h f hf)
    | some g =>
      have h1 := List.find?_some h
      have h2 := List.mem_of_find?_eq_some h
      exact congrArg some (List.inj_on_of_nodup_map hnd h2 hf (of_decide_eq_true h1))
  have hall : (f.all fun c => (c.left.columns ++ c.right.columns).all fun x => (row x).isSome) = true := by
    simp only [List.all_eq_true]
    exact hcols
  unfold formulasEval
  dsimp only
  rw [hfind]
  dsimp only
  rw [if_pos hall]
  exact ⟨fun h => by rw [if_pos h], fun h => by rw [if_neg h]⟩

/-- The formulas of Robinson Crusoe: filters, restrictions and covariates
(`respy/tests/resources/robinson_crusoe_extended.yaml:10-37`). -/
def robinsonAll : List Formula :=
  robinsonFormulas ++ robinsonRestrictions ++
    [[⟨.column "exp_friday".toList, .eq, .number 1⟩, ⟨.column "exp_fishing".toList, .ge, .number 1⟩],
      [⟨.column "lagged_choice_1".toList, .ne, .number 0⟩]]

/-- `respy/tests/resources/robinson_crusoe_extended.csv`, `robinson_crusoe_extended.yaml`. -/
noncomputable def robinsonUser : UserModel where
  params := [
    (("delta".toList, "delta".toList), 0.95),
    (("wage_fishing".toList, "exp_fishing".toList), 0.1),
    (("wage_fishing".toList, "contemplation_with_friday".toList), 0.4),
    (("nonpec_fishing".toList, "constant".toList), -1),
    (("nonpec_friday".toList, "constant".toList), -1),
    (("nonpec_friday".toList, "not_fishing_last_period".toList), -1),
    (("nonpec_hammock".toList, "constant".toList), 2.5),
    (("nonpec_hammock".toList, "not_fishing_last_period".toList), -1),
    (("shocks_sdcorr".toList, "sd_fishing".toList), 1),
    (("shocks_sdcorr".toList, "sd_friday".toList), 1),
    (("shocks_sdcorr".toList, "sd_hammock".toList), 1),
    (("shocks_sdcorr".toList, "corr_friday_fishing".toList), 0),
    (("shocks_sdcorr".toList, "corr_hammock_fishing".toList), 0),
    (("shocks_sdcorr".toList, "corr_hammock_friday".toList), 0),
    (("lagged_choice_1_hammock".toList, "constant".toList), 1)]
  nPeriods := 10
  points := 0
  covariates := [("constant".toList, "1".toList),
    ("contemplation_with_friday".toList, "exp_friday == 1 and exp_fishing >= 1".toList),
    ("not_fishing_last_period".toList, "lagged_choice_1 != 'fishing'".toList)]
  negativeChoiceSet := [("friday".toList, ["period < 2".toList, "exp_fishing == 0".toList])]
  filters := robinsonTexts

/-- The core of the model without filters. -/
def crusoeSpec : CoreSpec where
  nPeriods := 10
  nChoices := 3
  starts := [[0], [0]]
  maxExp := [9, 9]
  nLags := 1
  filters := []

noncomputable def robinsonCheck (p : Processed) : Bool :=
  let ev := formulasEval robinsonAll
  decide (p.choices = robinsonChoices) && decide (textLevels p.observables = []) && decide (p.lags.length = 1) &&
  decide ((p.experience.map fun e => (Dict.keys e.1, e.2)) = [([0], p.nPeriods - 1), ([0], p.nPeriods - 1)]) &&
  decide (p.nPeriods = 10) && decide (denseGrid p.denseSpec = none) && decide (p.exogenous.length = 0) &&
  (p.filters.all fun f => ev.defined (coreColumns p.choices.wExp p.lags.length) f) &&
  (p.choices.choices.all fun c => (p.userRestrictions robinsonUser c).all fun f => ev.defined (p.columns false) f) &&
  ((denseColumns p.denseSpec).all fun x => !decide (x.toList ∈ p.columns false)) &&
  (p.choices.choices.all fun c => ((p.wage c).toList ++ (p.nonpec c).toList).all fun beta => beta.all fun item =>
    decide (item.1 ∈ p.columns false)) &&
  (createCore crusoeSpec).any fun core => core.all fun s => (p.stateFrame ev none s).isSome

theorem robinsonUser_check : (processModel exampleEnv robinsonUser).any robinsonCheck = true := by decide +kernel

/-- States which are not filtered out are states of the space without filters. -/
theorem core_without_filters (spec : CoreSpec) (wf : spec.WF) (hl : spec.nLags ≤ 1) (core core' : List CoreState)
    (hc : createCore spec = some core) (hc' : createCore { spec with filters := [] } = some core') (s : CoreState)
    (hs : s ∈ core) : s ∈ core' := by
  have wf' : ({ spec with filters := [] } : CoreSpec).WF := ⟨wf.1, wf.2, wf.3, wf.4, wf.5, wf.6⟩
  rw [C05_core_mem_iff _ wf hl core hc] at hs
  rw [C05_core_mem_iff _ wf' hl core' hc']
  obtain ⟨h1, ⟨init, extra, h2, h3, h4, h5, _⟩, h7⟩ := hs
  exact ⟨h1, ⟨init, extra, h2, h3, h4, h5, by simp⟩, h7⟩

/-- The hypotheses of `C105_models_like_robinson` hold for the shipped model. -/
theorem robinsonUser_described : ∃ p core, processModel exampleEnv robinsonUser = some p ∧
    createCore (p.buildSpec (formulasEval robinsonAll)).core = some core ∧
    p.Supported robinsonUser (formulasEval robinsonAll) core ∧ p.nPeriods = 10 ∧
    ∀ s, s ∈ core ↔ ReachableState (p.buildSpec (formulasEval robinsonAll)).core (fun lags => lags = [some 2])
      RobinsonMay s := by
  obtain ⟨p, hp, hcheck⟩ := (Option.any_eq_true _ _).1 robinsonUser_check
  unfold robinsonCheck at hcheck
  simp only [Bool.and_eq_true, decide_eq_true_eq, List.all_eq_true, Bool.not_eq_true', decide_eq_false_iff_not]
    at hcheck
  obtain ⟨⟨⟨⟨⟨⟨⟨⟨⟨⟨⟨a1, a2⟩, a3⟩, a4⟩, a5⟩, a6⟩, a7⟩, a8⟩, a9⟩, a10⟩, a11⟩, a12⟩ := hcheck
  obtain ⟨core0, hcore0, b12⟩ := (Option.any_eq_true _ _).1 a12
  simp only [List.all_eq_true] at b12
  generalize hev : formulasEval robinsonAll = ev at *
  have h1 := congrArg (List.map Prod.fst) a4
  have h2 := congrArg (List.map Prod.snd) a4
  simp only [List.map_map, Function.comp_def, List.map_cons, List.map_nil, a5] at h1 h2
  have h2' : p.experience.map Prod.snd = [9, 9] := h2
  have hch : p.choices.choices.length = 3 := by rw [a1]; rfl
  have hw : p.choices.wExp.length = 2 := by rw [a1]; rfl
  have hspec : { (p.buildSpec ev).core with filters := [] } = crusoeSpec := by
    unfold Processed.buildSpec crusoeSpec
    simp only [h1, h2', hch, a3, a5]
  have wf0 : crusoeSpec.WF := by
    refine ⟨by simp [crusoeSpec], rfl, ?_, ?_, ?_, ?_⟩ <;> simp [crusoeSpec]
  have wf : (p.buildSpec ev).core.WF := by
    rw [← hspec] at wf0
    exact ⟨wf0.1, wf0.2, wf0.3, wf0.4, wf0.5, wf0.6⟩
  have hreads : ∀ f ∈ robinsonAll, ev.Reads f := by
    intro f hf
    rw [← hev]
    exact formulasEval_reads robinsonAll (by decide +kernel) f hf
  obtain ⟨core, hc⟩ := createCore_isSome (p.buildSpec ev).core wf
  have hsub : ∀ s ∈ core, s ∈ core0 := fun s hs => by
    refine core_without_filters _ wf (le_of_eq a3) core core0 hc ?_ s hs
    rw [hspec]; exact hcore0
  have hread : ∀ f ∈ robinsonFormulas, ev.Reads f := fun f hf => hreads f (by unfold robinsonAll; simp [hf])
  have hread' : ∀ f ∈ robinsonRestrictions, ev.Reads f := fun f hf => hreads f (by unfold robinsonAll; simp [hf])
  have rc := C105_shipped_filters_robinson hp rfl a1 a2 a3 a4 hread
  have hreach := C105_robinson_reachable _ rc (by show p.nPeriods ≤ 256; omega) core hc
  have hexp : ∀ e ∈ p.experience, Dict.keys e.1 = [0] ∧ e.2 = 9 := by
    intro e he
    constructor
    · have : Dict.keys e.1 ∈ p.experience.map fun e => Dict.keys e.1 := List.mem_map_of_mem he
      rw [h1] at this
      simpa using this
    · have : e.2 ∈ p.experience.map Prod.snd := List.mem_map_of_mem he
      rw [h2'] at this
      simpa using this
  have hcov : ∀ t < 10, ∃ s ∈ core, s.period = t := by
    intro t ht
    refine ⟨⟨t, [0, 0], [some 2]⟩, (mem_robinson_core _ rc (by show p.nPeriods ≤ 256; omega) core hc _).2
      ⟨0, 0, 2, rfl, by show t < p.nPeriods; omega, by omega, by simp, ?_⟩, rfl⟩
    show KeptCrusoe t 0 0 2
    constructor <;> omega
  have hdes : p.Described robinsonUser ev core := by
    refine ⟨by rw [a1]; simp [robinsonChoices], by rw [a1]; simp [robinsonChoices], fun grid hg => ?_, by omega, ?_,
      by omega, a8, ?_, ?_, ?_, Or.inl a9, a10, ?_, ?_⟩
    · rw [a6] at hg; cases hg
    · intro t ht
      exact hcov t (by omega)
    · intro e he x hx
      rw [(hexp e he).1, List.mem_singleton] at hx
      omega
    · intro e he
      rw [(hexp e he).2]; omega
    · rw [a6]; exact a9
    · intro d hd s hs
      have : d = none := by
        unfold BuildSpec.denseIndices at hd
        have : (p.buildSpec ev).grid = none := a6
        rw [this] at hd
        simpa using hd
      subst this
      exact b12 s (hsub s hs)
    · rw [a6]
      intro c hc beta hb item hi
      refine a11 c hc beta ?_ item hi
      rcases hb with hb | hb
      · simp [hb]
      · simp [hb]
  obtain ⟨hsup, hr⟩ := C105_models_like_robinson hp rfl (by decide +kernel) a1 a2 a3 a4 hread hread' hdes hc
  exact ⟨p, core, hp, hc, hsup, a5, hr⟩

end Respy
