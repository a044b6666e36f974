import Verif.Lemmas.Grounded
import Verif.Props.SolutionUse

/-!
# C83: from parameters and options to simulated samples

Samples of models which are accepted by `process_params_and_options` follow the model which the parameters and
options name.
-/

namespace Respy

section
variable {env : ProcessEnv} {m : UserModel} {p : Processed} {ev : FormulaEval} {core : List CoreState}
  {covariates : Dict Str Str} {G : Type}

theorem denseColumns_types (p : Processed) (hexo : p.exogenous = []) :
    (denseColumns p.denseSpec).map String.toList =
      Dict.keys p.observables ++ if 2 ≤ p.nTypes then ["type".toList] else [] := by
  unfold denseColumns
  have hf : ∀ l : List String, (l.filter fun x => !([] : List String).contains x) = l := by
    intro l; simp
  simp only [Processed.denseSpec, hexo, List.map_nil, List.append_nil, hf, List.map_append, List.map_map]
  congr 1
  · refine List.map_congr_left fun o _ => ?_
    simp
  · split <;> simp

theorem denseLevels_grid (p : Processed) (ev : FormulaEval) : (p.buildSpec ev).DenseLevels p.denseLevels := by
  have he : p.denseSpec.observables.map (fun o => List.range o.2) ++
      (if 2 ≤ p.denseSpec.nTypes then [List.range p.denseSpec.nTypes] else []) = p.denseLevels := by
    simp only [Processed.denseSpec, Processed.denseLevels, List.map_map]
    rfl
  have hg : (p.buildSpec ev).grid = denseGrid p.denseSpec := rfl
  unfold BuildSpec.DenseLevels
  rw [hg]
  cases h : denseGrid p.denseSpec with
  | some grid => exact (denseGrid_eq _ _ h).trans (by rw [he])
  | none =>
    unfold denseGrid at h
    dsimp only at h
    rw [he] at h
    split at h
    · next h0 =>
      have : [] ∈ product p.denseLevels := by rw [h0]; simp
      rw [mem_product] at this
      cases hl : p.denseLevels with
      | nil => rfl
      | cons a l => rw [hl] at this; cases this
    · cases h

theorem denseLevels_nodup (p : Processed) : ∀ l ∈ p.denseLevels, l.Nodup := by
  intro l hl
  unfold Processed.denseLevels at hl
  rcases List.mem_append.1 hl with h | h
  · obtain ⟨o, _, rfl⟩ := List.mem_map.1 h
    exact List.nodup_range
  · split at h
    · rw [List.mem_singleton] at h
      subst h
      exact List.nodup_range
    · cases h

theorem Processed.Samplable.startsInCore {input : List CharRow} (hs : p.Supported m ev core)
    (hsam : p.Samplable ev input) : (p.buildSpec ev).StartsInCore where
  lags := hs.lags
  filters := by
    intro f hf lags h1 h2
    obtain ⟨t, ht, rfl⟩ := List.mem_map.1 hf
    have := hsam.filters t ht lags h1 h2
    simpa [Processed.buildSpec] using this
  periods := hsam.periods
  max := by
    show List.Forall₂ _ (p.experience.map fun e => Dict.keys e.1) (p.experience.map Prod.snd)
    rw [List.forall₂_map_left_iff, List.forall₂_map_right_iff, List.forall₂_same]
    exact hsam.starts

/-- The simulation with completed weights fits to the model. -/
theorem Processed.Samplable.fits (h : ProcessedFrom env m p covariates) (hs : p.Supported m ev core)
    (hcols : (denseColumns p.denseSpec).map String.toList =
      Dict.keys p.observables ++ if 2 ≤ p.nTypes then ["type".toList] else [])
    (hobs : ∀ o ∈ p.observables, o.2 ≠ [])
    (hkeep : env.KeepsShape) (hnd : (Dict.keys m.params).Nodup)
    (hother : ∀ q ∈ m.params, mentionsShocks q.1 = true → ∃ c ∈ shockCategories, q.1.1 = c.toList)
    (hcs : ∀ d ∈ (p.buildSpec ev).denseIndices, ∀ s ∈ core,
      ∃ a : Nat, ((p.buildSpec ev).choiceSetAt d s)[a]? = some true)
    (senv : SolveEnv) (e : SimulateEnv G) (hsam : p.Samplable ev e.input) (he : e.Fits p (p.buildSpec ev))
    (sp : Option (SimSpace ℝ)) :
    (p.simulation ev senv e sp).completed.Fits (p.buildSpec ev) core p.denseLevels () := by
  have hmeas := h.measurement_length
  obtain ⟨hc1, hc2⟩ := h.cholesky_shape hkeep hnd hother
  refine ⟨he.source, he.individuals, ?_, rfl, le_refl _, ⟨?_, ?_, ?_, hcs⟩, he.draws, he.drawsWage, ?_, ?_, he.input, ?_, ?_⟩
  · show p.choices.wExp.length = (p.experience.map fun e => Dict.keys e.1).length
    rw [List.length_map, h.experience_length]
  · exact (hmeas.trans hc1.symm).le
  · intro row hr
    exact (hmeas.trans (hc2 row hr).symm).le
  · intro d _ s _
    exact (choiceSetAt_length p ev d s).trans hmeas.symm
  · intro row hr
    exact (he.drawsRow row hr).trans hmeas.symm
  · intro row hr
    exact (he.drawsWageRow row hr).trans hmeas.symm
  · intro ch hch
    obtain ⟨ch', hch', rfl⟩ := List.mem_map.1 hch
    obtain ⟨v, hv, rfl⟩ := List.mem_map.1 hch'
    refine ⟨Characteristic.completed_wf _
      (sampledVariable_levels h hs.choice hobs hsam.lags hsam.types v hv).1, fun l hl x hx => ?_⟩
    obtain ⟨j, l', h1, h2, h3⟩ := sampledVariable_column (ev := ev) h hcols hsam.lags hsam.types v hv
    have hj : (p.characteristic ev v).completed.column = j := idxOf_of_getElem? hsam.names h1
    rw [hj, h2] at hl
    cases hl
    exact h3 x hx
  · intro row _ c hc _
    rw [initialLevels_length h hcols] at hc
    obtain ⟨v, hv, hname⟩ := column_sampled h hcols _ (List.getElem_mem hc)
    refine ⟨(p.characteristic ev v).completed, List.mem_map.2 ⟨_, List.mem_map.2 ⟨v, hv, rfl⟩, rfl⟩, ?_⟩
    exact idxOf_of_getElem? hsam.names (by rw [hname]; exact List.getElem?_eq_getElem hc)

/-- Completed weights are not used. -/
theorem Processed.Samplable.run (h : ProcessedFrom env m p covariates) (hs : p.Supported m ev core)
    (hcols : (denseColumns p.denseSpec).map String.toList =
      Dict.keys p.observables ++ if 2 ≤ p.nTypes then ["type".toList] else [])
    (hobs : ∀ o ∈ p.observables, o.2 ≠ [])
    (senv : SolveEnv) (e : SimulateEnv G) (hsam : p.Samplable ev e.input) (he : e.Fits p (p.buildSpec ev))
    (sp : Option (SimSpace ℝ)) (g : G) :
    (p.simulation ev senv e sp).completed.run () g = (p.simulation ev senv e sp).run () g := by
  classical
  refine Simulation.completed_run _ () ((List.range p.stateColumns.length).filter fun c =>
    decide (KnownColumns [c] e.input)) ?_ p.stateColumns.length ?_ ?_ g
  · intro c hc
    have := of_decide_eq_true (List.mem_filter.1 hc).2
    exact this c (by simp)
  · intro row hr
    rw [(he.input row hr).length_eq, initialLevels_length h hcols]
  · intro pre ch post hsplit fp hl hw hk
    obtain ⟨pre', rest, h1, h2, h3⟩ := List.map_eq_append_iff.1 hsplit
    obtain ⟨v, post', h4, h5, h6⟩ := List.map_eq_cons_iff.1 h3
    subst h4
    have hv : v ∈ p.sampledVariables := by rw [h1]; simp
    obtain ⟨df, hdf, hcov⟩ := hsam.covariates pre' v post' h1 fp hl hw (by
      intro x hx hor c hc
      rw [List.mem_singleton] at hc
      subst hc
      rcases hor with hin | hpre
      · refine hk _ (List.mem_append_left _ (List.mem_filter.2 ⟨List.mem_range.2 (List.idxOf_lt_length_iff.2 hx), ?_⟩))
        exact decide_eq_true hin
      · obtain ⟨w, hw', rfl⟩ := List.mem_map.1 hpre
        refine hk _ (List.mem_append_right _ ?_)
        rw [← h2, List.map_map]
        exact List.mem_map.2 ⟨w, hw', rfl⟩)
    obtain ⟨g1, g2⟩ := sampledVariable_levels h hs.choice hobs hsam.lags hsam.types v hv
    rw [← h5]
    exact characteristic_good v g2 g1 fp df hdf hcov

theorem ProcessedFrom.observables_ne (h : ProcessedFrom env m p covariates) : ∀ o ∈ p.observables, o.2 ≠ [] := by
  intro o ho
  have hx := h.observables
  unfold parseObservables at hx
  simp only [Option.bind_eq_bind, Option.bind_eq_some_iff] at hx
  obtain ⟨names, _, parsed, h2, obs, h3, all, h4, h5⟩ := hx
  obtain ⟨name, _, h6⟩ := mem_of_mapM_eq_some _ _ _ h5 o ho
  obtain ⟨l, hl, rfl⟩ := Option.map_eq_some_iff.1 h6
  have hinv : ∀ k l, Dict.get? all k = some l → l ≠ [] := by
    refine foldlM_option_inv (fun d : Dict Str LevelDict => ∀ k l, Dict.get? d k = some l → l ≠ []) _ _ _ _ h4 ?_ ?_
    · intro k l hk
      have hmem : (k, l) ∈ obs := by
        exact Dict.mem_of_get? _ _ _ hk
      obtain ⟨kv, hkv, h7⟩ := mem_of_mapM_eq_some _ _ _ h3 _ hmem
      obtain ⟨l', hl', h8⟩ := Option.map_eq_some_iff.1 h7
      simp only [Prod.mk.injEq] at h8
      obtain ⟨rfl, rfl⟩ := h8
      have h9 := toOption_eq_some h2
      unfold parseLevels at h9
      obtain ⟨nm, _, h10⟩ := mapM_except_mem _ _ _ h9 kv hkv
      cases hg : parseGroup env.maxFloat (levelParams "observable".toList nm m.params) with
      | error e => rw [hg] at h10; cases h10
      | ok g =>
        rw [hg] at h10
        have h11 : (Except.ok (nm, g) : Except ParseError _) = .ok kv := h10
        simp only [Except.ok.injEq] at h11
        subst h11
        dsimp only at hl'
        subst hl'
        exact parseGroup_keys_ne _ _ _ hg
    · intro d kv d' hkv hd hstep k l hk
      obtain ⟨x, hx1, hx2⟩ := Option.map_eq_some_iff.1 hstep
      subst hx2
      rw [Dict.get?_insert] at hk
      split at hk
      · cases hk
        unfold initialLevels at hx1
        split at hx1
        · simp only [Option.some.injEq] at hx1
          rw [← hx1]
          intro h0
          exact h.exogenous_ne kv hkv (List.map_eq_nil_iff.1 h0)
        · next o' ho' =>
          split at hx1
          · cases hx1
            exact hd _ _ ho'
          · cases hx1
      · exact hd _ _ hk
  exact hinv _ _ hl

theorem ProcessedFrom.observables_nodup (h : ProcessedFrom env m p covariates) : (Dict.keys p.observables).Nodup := by
  have hx := h.observables
  unfold parseObservables at hx
  simp only [Option.bind_eq_bind, Option.bind_eq_some_iff] at hx
  obtain ⟨names, _, parsed, h2, obs, h3, all, h4, h5⟩ := hx
  have : Dict.keys p.observables = sortedSet (Dict.keys all) := by
    refine List.ext_getElem? fun i => ?_
    have hl := mapM_eq_some_length _ _ _ h5
    by_cases hi : i < (sortedSet (Dict.keys all)).length
    · have h6 := mapM_getElem? _ _ _ h5 i _ (List.getElem?_eq_getElem hi)
      have hi' : i < p.observables.length := by omega
      rw [List.getElem?_eq_getElem hi'] at h6
      obtain ⟨l, _, h7⟩ := Option.map_eq_some_iff.1 h6.symm
      rw [List.getElem?_eq_getElem hi]
      have h8 : (Dict.keys p.observables)[i]? = some p.observables[i].1 := by
        simp only [Dict.keys, List.getElem?_map, List.getElem?_eq_getElem hi', Option.map_some]
      rw [h8, ← h7]
    · have h8 : (Dict.keys p.observables).length = p.observables.length := by simp [Dict.keys]
      rw [List.getElem?_eq_none (by omega), List.getElem?_eq_none (by omega)]
  rw [this]
  exact nodup_sortedSet _

theorem denseColumns_static_exogenous (h : ProcessedFrom env m p covariates) (static : List (Str × Nat))
    (htypes : p.nTypes < 2)
    (hobs : p.observables.map (fun o => (o.1, o.2.length)) = static ++ p.exogenous.map fun o => (o.1, o.2.length)) :
    (denseColumns p.denseSpec).map String.toList =
      Dict.keys p.observables ++ if 2 ≤ p.nTypes then ["type".toList] else [] := by
  have hnt : ¬ 2 ≤ p.nTypes := by omega
  have hkeys : Dict.keys p.observables = static.map Prod.fst ++ p.exogenous.map Prod.fst := by
    have := congrArg (List.map Prod.fst) hobs
    rw [List.map_map, List.map_append, List.map_map] at this
    exact this
  have hnd := h.observables_nodup
  rw [hkeys, List.nodup_append] at hnd
  rw [if_neg hnt, List.append_nil, hkeys]
  unfold denseColumns
  have hnt' : ¬ 2 ≤ p.denseSpec.nTypes := hnt
  have hobs' : p.denseSpec.observables.map Prod.fst =
      (static.map fun o => String.ofList o.1) ++ p.exogenous.map fun o => String.ofList o.1 := by
    have := congrArg (List.map String.ofList) hkeys
    simp only [Dict.keys, List.map_map, List.map_append] at this
    simp only [Processed.denseSpec, List.map_map]
    exact this
  have hexo' : p.denseSpec.exogenous.map Prod.fst = p.exogenous.map fun o => String.ofList o.1 := by
    simp [Processed.denseSpec]
  rw [if_neg hnt', List.append_nil, hobs', hexo', List.filter_append]
  have h0 : (p.exogenous.map fun o => String.ofList o.1).filter
      (fun x => !(p.exogenous.map fun o => String.ofList o.1).contains x) = [] := by
    rw [List.filter_eq_nil_iff]
    intro x hx
    simpa using hx
  have h1 : (static.map fun o => String.ofList o.1).filter
      (fun x => !(p.exogenous.map fun o => String.ofList o.1).contains x) =
      static.map fun o => String.ofList o.1 := by
    rw [List.filter_eq_self]
    intro x hx
    obtain ⟨o, ho, rfl⟩ := List.mem_map.1 hx
    simp only [Bool.not_eq_true', ← Bool.not_eq_true, List.contains_iff_mem]
    intro hmem
    obtain ⟨e, he, heq⟩ := List.mem_map.1 hmem
    exact hnd.2.2 o.1 (List.mem_map.2 ⟨o, ho, rfl⟩) e.1 (List.mem_map.2 ⟨e, he, rfl⟩) (String.ofList_inj.1 heq.symm)
  rw [h0, h1]
  simp [List.map_map, Function.comp_def]

/-- **C83.** Which covariates can be used in the distribution of a characteristic: all which can be computed, over
other covariates, from the period, from characteristics which are known for all individuals, and from
characteristics which are sampled before. -/
theorem C83_usable_covariates (hnames : p.stateColumns.Nodup) (hdef : p.FormulasDefined ev)
    (hperiod : "period".toList ∉ Dict.keys p.groups.all ++ p.stateColumns) (input : List CharRow)
    (pre : List SampledVariable) (fp : List CharRow)
    (hwidth : ∀ row ∈ fp, row.length = p.stateColumns.length)
    (hfp : ∀ x ∈ p.stateColumns, KnownColumns [p.stateColumns.idxOf x] input ∨ x ∈ pre.map SampledVariable.name →
      KnownColumns [p.stateColumns.idxOf x] fp) :
    ∃ df, p.sampleFrame ev fp = some df ∧ ∀ x, x ≠ "period".toList → p.Grounded (p.KnownBefore input pre) x →
      ∀ i < fp.length, (frameValue df i x).isSome := by
  obtain ⟨df, h1, h2⟩ := sampleFrame_grounded hnames hdef fp hwidth (p.KnownBefore input pre) (by
    intro x hx
    rcases hx with hx | ⟨hx1, hx2⟩
    · exact Or.inl hx
    · exact Or.inr ⟨hx1, hfp x hx1 hx2⟩) hperiod
  refine ⟨df, h1, fun x hx hg i hi => ?_⟩
  obtain ⟨_, _, _, _, h3⟩ := h2 x hg
  exact h3 hx i hi

/-- Samples can be drawn if all coefficients of the distributions can be computed. -/
theorem C83_samplable_of_grounded (input : List CharRow) (hperiods : 0 < p.nPeriods)
    (hstarts : ∀ e ∈ p.experience, ∀ x ∈ Dict.keys e.1, x ≤ e.2)
    (hfilters : ∀ f ∈ p.filters, ∀ lags : List (Option Nat), lags.length = p.lags.length →
      (∀ l ∈ lags, ∃ c, c < p.choices.choices.length ∧ l = some c) →
      ev.holds (Dict.get? (p.coreRow ⟨0, List.replicate p.experience.length 0, lags⟩)) f = false)
    (hnames : p.stateColumns.Nodup) (hlags : ∀ d ∈ p.lags, Dict.keys d = p.choices.choices)
    (htypes : 2 ≤ p.nTypes → Dict.keys p.typeProb = List.range p.nTypes) (hdef : p.FormulasDefined ev)
    (hperiod : "period".toList ∉ Dict.keys p.groups.all ++ p.stateColumns)
    (hground : ∀ pre v post, p.sampledVariables = pre ++ v :: post → ∀ beta ∈ v.betas, ∀ item ∈ beta,
      item.1 ≠ "period".toList ∧ p.Grounded (p.KnownBefore input pre) item.1) : p.Samplable ev input := by
  refine ⟨hperiods, hstarts, hfilters, hnames, hlags, htypes, fun pre v post hsplit fp _ hwidth hfp => ?_⟩
  obtain ⟨df, h1, h2⟩ := C83_usable_covariates hnames hdef hperiod input pre fp hwidth hfp
  refine ⟨df, h1, fun i hi beta hb item hit => ?_⟩
  obtain ⟨h3, h4⟩ := hground pre v post hsplit beta hb item hit
  exact h2 _ h3 h4 i hi

/-- **C83 (partial).** Samples are drawn from every supported model without exogenous processes which is
accepted: solving and simulating succeed, and the sample is a balanced panel which follows the model whose
restrictions, rewards and starting values are given by name (`C82_choice_sets_by_name`, `C82_wages_by_name`,
`C82_nonpecs_by_name`, `C82_experience_by_name`). Missing: models whose creation
fails (C86), more than one lag, and experiences which do not fit into eight bits. -/
theorem C83_samples_of_accepted_models_partial (hp : processModel env m = some p) (hev : ev.Contract)
    (hs : p.Supported m ev core) (hcore : createCore (p.buildSpec ev).core = some core)
    (hexo : p.exogenous = []) (hkeep : env.KeepsShape) (hnd : (Dict.keys m.params).Nodup)
    (hother : ∀ q ∈ m.params, mentionsShocks q.1 = true → ∃ c ∈ shockCategories, q.1.1 = c.toList)
    (senv : SolveEnv) (hfit : senv.Fits (p.buildSpec ev) core)
    (hallowed : ∀ d ∈ (p.buildSpec ev).denseIndices, ∀ s ∈ core, ∃ c ∈ p.choices.choices, p.Allowed m ev d s c)
    (hpts : (p.buildSpec ev).PointsSuffice core p.discount.delta)
    (rng : InterpolationRandom) (hrng : rng.Contract) (sqrt : ℝ → ℝ) (ols : List ℝ → List (List ℝ) → List ℝ)
    (maxLog : ℝ) (seed : Nat)
    (ev0 : Built → Dict Nat (List ℝ)) (hev0 : ∀ bt, SameShape (initialValues bt.space) (ev0 bt))
    (vc ko : List Nat → List Nat) (hvc : ∀ l x, x ∈ vc l ↔ x ∈ l) (hko : ∀ l x, x ∈ ko l ↔ x ∈ l) :
    ∃ bt sp V, buildSpace (p.buildSpec ev) = some bt ∧
      (p.solveInput ev senv).solveModel (p.buildSpec ev) (fun _ => some []) (kw94 bt.space rng sqrt ols
        (expShocks Real.exp maxLog p.choices.wWage.length p.cholesky)) seed ev0 vc ko = some sp ∧
      IsSolution (p.buildSpec ev) core p.discount.delta (p.solveInput ev senv).wageOf
        (p.solveInput ev senv).nonpecOf (p.solveInput ev senv).shocks (fun d _ => [(d, 1)])
        (expectedShock Real.exp maxLog p.choices.wWage.length p.cholesky) sqrt ols V ∧
      ∀ e : SimulateEnv G, p.Samplable ev e.input → e.Fits p (p.buildSpec ev) → ∀ g,
        SampleFollows (p.buildSpec ev) core (p.solveInput ev senv).wageOf (p.solveInput ev senv).nonpecOf
          (fun d _ => [(d, 1)]) V (p.simulation ev senv e (some sp)) () g := by
  obtain ⟨covs, h⟩ := processModel_from env m p hp
  have hcs : ∀ d ∈ (p.buildSpec ev).denseIndices, ∀ s ∈ core,
      ∃ a : Nat, ((p.buildSpec ev).choiceSetAt d s)[a]? = some true := by
    intro d hd s hmem
    obtain ⟨c, hc, hall⟩ := hallowed d hd s hmem
    obtain ⟨a, ha⟩ := List.mem_iff_getElem?.1 hc
    exact ⟨a, (C82_choice_sets_by_name hp hev hs.toDescribed hcore d hd s hmem a c ha).2 hall⟩
  have hcols := denseColumns_types p hexo
  by_cases hsam : ∃ e : SimulateEnv G, p.Samplable ev e.input
  · obtain ⟨e0, hsam0⟩ := hsam
    obtain ⟨bt, sp, V, h1, h2, h3, h4⟩ := C73_sample_of_any_solution (G := G) (P := Unit) (p.buildSpec ev) core
      (C82_processed_models_well_formed hp hev hs hcore) (by simp [Processed.buildSpec, hexo])
      (hsam0.startsInCore hs) p.denseLevels (denseLevels_grid p ev) (denseLevels_nodup p) hcs
      (p.solveInput ev senv)
      (C82_solve_input_well_formed hp hs hcore (denseColumns_static p hexo) hkeep hnd hother senv hfit)
      hpts rng hrng sqrt ols maxLog seed ev0 hev0 vc ko hvc hko
    refine ⟨bt, sp, V, h1, h2, h3, fun e hsam he g => ?_⟩
    have hfits := hsam.fits h hs hcols h.observables_ne hkeep hnd hother hcs senv e he (some sp)
    obtain ⟨out, g', k1, k2⟩ := h4 (p.simulation ev senv e (some sp)).completed () rfl hfits g
    rw [hsam.run h hs hcols h.observables_ne senv e he (some sp) g] at k1
    exact ⟨out, g', k1, k2⟩
  · obtain ⟨bt, par, hbuild, h1, hsol⟩ := C82_accepted_models_are_solved_partial hp hev hs hcore hexo hkeep hnd hother
      senv hfit hallowed hpts rng hrng sqrt ols maxLog
    obtain ⟨hok, V, hV, _⟩ := hsol seed (ev0 bt) (hev0 bt)
    refine ⟨bt, bt.simSpace (p.buildSpec ev) par (solveBackward bt.space (kw94 bt.space rng sqrt ols
        (expShocks Real.exp maxLog p.choices.wWage.length p.cholesky)) par seed (ev0 bt)).1 vc ko, V, hbuild, ?_, hV,
        fun e he => absurd ⟨e, he⟩ hsam⟩
    · unfold SolveInput.solveModel
      have hok' : (solveBackward bt.space (kw94 bt.space rng sqrt ols
        (expShocks Real.exp maxLog p.choices.wWage.length p.cholesky)) par seed (ev0 bt)).2 = true := hok
      simp only [hbuild, h1, Option.bind_eq_bind, Option.bind_some, hok', if_true]

/-- **C83 (partial)** for models with exogenous processes, if these come last among the observables and there are no
types: the levels of the next period are drawn with the logit probabilities of the processes. -/
theorem C83_samples_of_exogenous_models_partial (hp : processModel env m = some p) (hev : ev.Contract)
    (hs : p.Supported m ev core) (hcore : createCore (p.buildSpec ev).core = some core)
    (hexo : p.exogenous ≠ []) (static : List (Str × Nat)) (htypes : p.nTypes < 2)
    (hobs : p.observables.map (fun o => (o.1, o.2.length)) = static ++ p.exogenous.map fun o => (o.1, o.2.length))
    (hnames : ∀ e ∈ p.exogenous, ∀ level ∈ e.2, ∀ item ∈ level.2, item.1 ∈ p.columns true)
    (hkeep : env.KeepsShape) (hnd : (Dict.keys m.params).Nodup)
    (hother : ∀ q ∈ m.params, mentionsShocks q.1 = true → ∃ c ∈ shockCategories, q.1.1 = c.toList)
    (senv : SolveEnv) (hfit : senv.Fits (p.buildSpec ev) core)
    (hallowed : ∀ d ∈ (p.buildSpec ev).denseIndices, ∀ s ∈ core, ∃ c ∈ p.choices.choices, p.Allowed m ev d s c)
    (hpts : (p.buildSpec ev).PointsSuffice core p.discount.delta)
    (rng : InterpolationRandom) (hrng : rng.Contract) (sqrt : ℝ → ℝ) (ols : List ℝ → List (List ℝ) → List ℝ)
    (maxLog : ℝ) (seed : Nat)
    (ev0 : Built → Dict Nat (List ℝ)) (hev0 : ∀ bt, SameShape (initialValues bt.space) (ev0 bt))
    (vc ko : List Nat → List Nat) (hvc : ∀ l x, x ∈ vc l ↔ x ∈ l) (hko : ∀ l x, x ∈ ko l ↔ x ∈ l)
    (e : SimulateEnv G) (hsam : p.Samplable ev e.input) (he : e.Fits p (p.buildSpec ev)) :
    let future := fun d s => (exogenousGrid (p.exogenous.map fun e => e.2.length)).map fun e =>
      ((p.buildSpec ev).successor d e, levelProbability p.exogenousParams (p.covariates ev d s) e)
    ∃ bt sp V, buildSpace (p.buildSpec ev) = some bt ∧
      (p.solveInput ev senv).solveModel (p.buildSpec ev)
        ((p.solveInput ev senv).transitions p.exogenousParams (p.buildSpec ev)) (kw94 bt.space rng sqrt ols
        (expShocks Real.exp maxLog p.choices.wWage.length p.cholesky)) seed ev0 vc ko = some sp ∧
      IsSolution (p.buildSpec ev) core p.discount.delta (p.solveInput ev senv).wageOf
        (p.solveInput ev senv).nonpecOf (p.solveInput ev senv).shocks future
        (expectedShock Real.exp maxLog p.choices.wWage.length p.cholesky) sqrt ols V ∧
      ∀ g, SampleFollows (p.buildSpec ev) core (p.solveInput ev senv).wageOf (p.solveInput ev senv).nonpecOf
          future V (p.simulation ev senv e (some sp)) () g := by
  intro future
  obtain ⟨covs, h⟩ := processModel_from env m p hp
  have hcs : ∀ d ∈ (p.buildSpec ev).denseIndices, ∀ s ∈ core,
      ∃ a : Nat, ((p.buildSpec ev).choiceSetAt d s)[a]? = some true := by
    intro d hd s hmem
    obtain ⟨c, hc, hall⟩ := hallowed d hd s hmem
    obtain ⟨a, ha⟩ := List.mem_iff_getElem?.1 hc
    exact ⟨a, (C82_choice_sets_by_name hp hev hs.toDescribed hcore d hd s hmem a c ha).2 hall⟩
  have hcols := denseColumns_static_exogenous h static htypes hobs
  have hlen := denseColumns_exogenous p static htypes hobs
  have hgrid := exogenous_grid p ev hexo static htypes hobs
  have hlevels : p.denseLevels = static.map (fun o => List.range o.2) ++
      (p.buildSpec ev).exogLevels.map List.range := by
    have := congrArg (List.map fun o : Str × Nat => List.range o.2) hobs
    rw [List.map_map, List.map_append, List.map_map] at this
    unfold Processed.denseLevels
    rw [if_neg (by omega), List.append_nil]
    refine Eq.trans this ?_
    simp [Processed.buildSpec, Function.comp_def]
  obtain ⟨bt, sp, V, h1, h2, h3, h4⟩ := C73_exogenous_sample_of_any_solution (G := G) (P := Unit) (p.buildSpec ev) core
    (C82_processed_models_well_formed hp hev hs hcore) _ (exogenous_wf p ev hexo static htypes hobs)
    (hsam.startsInCore hs) hcs (p.solveInput ev senv)
    (C82_solve_input_well_formed hp hs hcore hlen hkeep hnd hother senv hfit)
    hpts p.exogenousParams (by simp [Processed.exogenousParams, Processed.buildSpec, Function.comp_def])
    (by
      intro levels hl
      obtain ⟨e, he, rfl⟩ := List.mem_map.1 hl
      intro hne
      exact h.exogenous_ne e he (List.map_eq_nil_iff.1 hne))
    (by
      intro levels hl beta hb item hi d hd s hmem
      obtain ⟨e, he, rfl⟩ := List.mem_map.1 hl
      obtain ⟨level, hlev, rfl⟩ := List.mem_map.1 hb
      refine hs.column h hcore hlen d hd s hmem _ ?_
      have hg : denseGrid p.denseSpec = some _ := hgrid
      rw [hg]
      exact hnames e he level hlev item hi)
    rng hrng sqrt ols maxLog seed ev0 hev0 vc ko hvc hko
  refine ⟨bt, sp, V, h1, h2, h3, fun g => ?_⟩
  have hfits := hsam.fits h hs hcols h.observables_ne hkeep hnd hother hcs senv e he (some sp)
  rw [hlevels] at hfits
  obtain ⟨out, g', k1, k2⟩ := h4 (p.simulation ev senv e (some sp)).completed () rfl hfits g
  rw [hsam.run h hs hcols h.observables_ne senv e he (some sp) g] at k1
  exact ⟨out, g', k1, k2⟩

end

end Respy
