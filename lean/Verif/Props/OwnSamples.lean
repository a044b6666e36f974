import Verif.Lemmas.OwnSamples

/-!
# C99: models can be estimated with their own samples

What `simulate` returns is data with which the criterion function can be evaluated, at the parameters of the simulation
and at all others.
-/

namespace Respy

section
variable {env : ProcessEnv} {m : UserModel} {p q : Processed} {ev : FormulaEval} {core : List CoreState}

/-- **C99.** Simulated samples fit to the criterion function at all parameters which explain wages: states are in the
state space for all types, choices are allowed for all types, and wages are those of the recorded choices. -/
theorem C99_samples_fit (hp : processModel env m = some p) (hev : ev.Contract) (hs : p.Supported m ev core)
    (hcore : createCore (p.buildSpec ev).core = some core) (hexo : p.exogenous = [] ∨ p.nTypes < 2)
    (hplain : p.PlainRestrictions m ev core)
    (rp : RewardParams ℝ) (hrp : rp.nWagesRaw = p.choices.wWage.length) (w n : Option Nat → CoreState → Nat → ℝ)
    (future : Option Nat → CoreState → List (Option Nat × ℝ)) (V : Option Nat → CoreState → ℝ)
    (out : List (SimRow ℝ)) (individuals periods : Nat)
    (hindex : (out.map fun r => (r.id, r.state.core.period)) = panelIndex individuals periods)
    (hrows : ∀ row ∈ out, RowFollows (p.buildSpec ev) core rp w n future V row)
    (m' : UserModel) (hq : processModel env m' = some q) (hst : SameStructure p q)
    (hn : m.negativeChoiceSet = m'.negativeChoiceSet) (w' : Option Nat → CoreState → Nat → ℝ) (e : EstimateEnv)
    (hqr : ∀ n, QRContract (e.la n).qr) (hchol : ∀ n, CholeskyContract (e.la n).cholesky) (hlo : e.lo ≤ 0)
    (hhi : 0 < e.hi)
    (hbase : ∀ n k s, (e.base n k s).length = n ∧ ∀ row ∈ e.base n k s, row ≠ [] ∧ ∀ z ∈ row, z.length = k)
    (hexpl : q.ExplainsWages ev core w' e.hi)
    (hwage : ∀ row ∈ out, ∀ y, row.outcome.wage = some y → 1 / e.hi ≤ y ∧ y ≤ e.hi) :
    ({ e with data := out.map (SimRow.observation p.nTypes p.nStatic) } : EstimateEnv).Fits q m' ev core w' := by
  obtain ⟨covs, hpf⟩ := processModel_from env m p hp
  obtain ⟨covs', hqf⟩ := processModel_from env m' q hq
  have hwlen : p.choices.wWage.length ≤ p.choices.choices.length := by
    have hpre := (C46_order (m.params.map Prod.fst) covs).2
    rw [← hpf.choices] at hpre
    exact (hpre.1.trans hpre.2.1).length_le
  refine ⟨hqr, hchol, hlo, hhi, hbase, ?_, fun _ r hr => ?_, fun r hr => ?_⟩
  · have : (out.map (SimRow.observation p.nTypes p.nStatic)).map (fun r => (r.id, r.state.core.period)) =
        panelIndex individuals periods := by
      rw [← hindex, List.map_map]
      rfl
    show ((out.map (SimRow.observation p.nTypes p.nStatic)).map fun r => (r.id, r.state.core.period)).Nodup
    rw [this]
    exact (panelIndex_pairwise individuals periods).imp fun {a b} h hab => by
      subst hab
      omega
  · obtain ⟨row, hrow, rfl⟩ := List.mem_map.1 hr
    have hk : (row.id, row.state.core.period) ∈ panelIndex individuals periods := by
      rw [← hindex]
      exact List.mem_map_of_mem hrow
    have h0 : (row.id, 0) ∈ panelIndex individuals periods := by
      rw [mem_panelIndex] at hk ⊢
      exact ⟨hk.1, by omega⟩
    rw [← hindex] at h0
    obtain ⟨row', hrow', hk'⟩ := List.mem_map.1 h0
    simp only [Prod.mk.injEq] at hk'
    exact ⟨_, List.mem_map_of_mem hrow', hk'.1, hk'.2⟩
  · obtain ⟨row, hrow, rfl⟩ := List.mem_map.1 hr
    obtain ⟨hmem, d, hd, hidx, _, hadm, a, hadma, _, hca, hw⟩ := hrows row hrow
    refine ⟨hmem, fun t ht => ?_⟩
    -- the state for type `t`
    have hstate : ∃ d', (p.buildSpec ev).HasIndex
        (q.denseOf (row.observation p.nTypes p.nStatic) t) d' ∧
        ∀ c, p.Allowed m ev d row.state.core c → p.Allowed m ev d' row.state.core c := by
      unfold Processed.denseOf SimRow.observation
      rw [← hst.nTypes, ← hst.nStatic]
      unfold Processed.typeCount at ht
      rw [← hst.nTypes] at ht
      by_cases h2 : 2 ≤ p.nTypes
      · simp only [if_pos h2] at ht ⊢
        have hexo' : p.exogenous = [] := by
          rcases hexo with h | h
          · exact h
          · omega
        obtain ⟨h3, h4⟩ := hasIndex_set_type hexo' h2 _ _ hidx
        obtain ⟨d', hd'⟩ := h4 t ht
        rw [eraseIdx_insert _ _ _ h3]
        exact ⟨d', hd', hplain.types h2 _ hmem _ _ _ _ hidx hd'⟩
      · simp only [if_neg h2]
        exact ⟨d, hidx, fun _ h => h⟩
    obtain ⟨d', hidx', hall⟩ := hstate
    have hd' : d' ∈ (p.buildSpec ev).denseIndices := by
      unfold BuildSpec.HasIndex at hidx'
      unfold BuildSpec.denseIndices
      split at hidx'
      · next hg => rw [hg, hidx']; simp
      · next grid hg =>
        obtain ⟨i, rfl, hi⟩ := hidx'
        rw [hg]
        exact List.mem_map.2 ⟨i, List.mem_range.2 (List.getElem?_eq_some_iff.1 hi).1, rfl⟩
    have hsets := C82_choice_sets_by_name hp hev hs.toDescribed hcore
    have hlenOf : ∀ a, ((p.buildSpec ev).choiceSetAt d row.state.core)[a]? = some true →
        a < p.choices.choices.length := by
      intro a ha
      rw [← choiceSetAt_length p ev d row.state.core]
      exact (List.getElem?_eq_some_iff.1 ha).1
    have hclt := hlenOf _ hadm
    obtain ⟨c, hc⟩ : ∃ c, p.choices.choices[row.outcome.choice]? = some c :=
      ⟨_, List.getElem?_eq_getElem hclt⟩
    have hallc := (hsets d hd _ hmem _ c hc).1 hadm
    have hb : q.buildSpec ev = p.buildSpec ev := (hst.buildSpec ev).symm
    refine ⟨d', c, by rw [hb]; exact hidx', by rw [← hst.choices]; exact hc, hst.allowed hn (hall c hallc),
      fun y hy => ?_⟩
    -- the wage is the one of the recorded choice
    have hy' : row.outcome.wage = some y := hy
    rw [hw] at hy'
    have halt : a < rp.nWagesRaw := by
      by_contra hge
      rw [if_neg hge] at hy'
      cases hy'
    rw [hrp] at halt
    have hprefix : ∀ (d : Option Nat), d ∈ (p.buildSpec ev).denseIndices → ∀ j < p.choices.wWage.length,
        (p.buildSpec ev).Admissible d row.state.core j →
        ∀ i < j, (p.buildSpec ev).Admissible d row.state.core i := by
      intro d hd j hj hadmj i hij
      have hi' : p.choices.choices[i]? = some (p.choices.choices[i]'(by omega)) := List.getElem?_eq_getElem (by omega)
      have hj' : p.choices.choices[j]? = some (p.choices.choices[j]'(by omega)) := List.getElem?_eq_getElem (by omega)
      exact (hsets d hd _ hmem i _ hi').2
        (hplain.order d hd _ hmem i j _ _ hij hj hi' hj' ((hsets d hd _ hmem j _ hj').1 hadmj))
    have hchoice : row.outcome.choice = a := hca.2 (Or.inl (hprefix d hd a halt hadma))
    have hadm' : (p.buildSpec ev).Admissible d' row.state.core row.outcome.choice :=
      (hsets d' hd' _ hmem _ c hc).2 (hall c hallc)
    have hlt : row.outcome.choice < p.choices.wWage.length := by rw [hchoice]; exact halt
    rw [hb]
    refine ⟨by rw [← hst.choices]; exact hlt, hwage row hrow y hy, ?_, ?_, fun hm => ⟨?_, fun b hb' => ?_⟩,
      fun hm => ⟨?_, ?_⟩⟩
    · exact hexpl.systematic d' (by rw [hb]; exact hd') _ hmem _ (by rw [← hst.choices]; exact hlt)
    · have : positionIn ((p.buildSpec ev).choiceSetAt d' row.state.core) row.outcome.choice = row.outcome.choice :=
        positionIn_eq_of_prefix _ _ (hprefix d' hd' _ hlt hadm')
      exact congrArg (fun i => q.measurement.2.getD i 0) this
    · exact hexpl.errors hm _ (by rw [← hst.choices]; exact hlt)
    · refine hexpl.variation b ?_
      rw [← hst.choices, ← choiceSetAt_length p ev d' row.state.core]
      exact (List.getElem?_eq_some_iff.1 hb').1
    · exact hqf.no_errors hm _
    · refine overAvailable_sq_pos _ (fun j => entry q.cholesky row.outcome.choice j) _ hadm' ?_
      exact hexpl.variation _ (by rw [← hst.choices]; exact hclt)

/-- **C99.** Simulated wages are positive. -/
theorem C99_wages_are_positive {b : BuildSpec} {rp : RewardParams ℝ} (hexp : rp.exp = Real.exp)
    {w n : Option Nat → CoreState → Nat → ℝ} (hw : ∀ d s a, 0 < w d s a)
    {future : Option Nat → CoreState → List (Option Nat × ℝ)} {V : Option Nat → CoreState → ℝ} {row : SimRow ℝ}
    (h : RowFollows b core rp w n future V row) (y : ℝ) (hy : row.outcome.wage = some y) : 0 < y := by
  obtain ⟨_, d, _, _, _, _, a, _, _, _, h⟩ := h
  rw [h] at hy
  split at hy
  · next ha =>
    cases hy
    refine mul_pos (mul_pos (hw _ _ _) ?_) (hexp ▸ Real.exp_pos _)
    unfold simulatedShock shockOf
    rw [if_pos ha, hexp]
    exact Real.exp_pos _
  · cases hy

theorem processed_wageOf_pos (q : Processed) (ev : FormulaEval) (senv : SolveEnv) (d : Option Nat) (s : CoreState)
    (a : Nat) :
    0 < (q.solveInput ev senv).wageOf d s a := by
  unfold SolveInput.wageOf
  split
  · exact one_pos
  · exact Real.exp_pos _

/-- The sample and the criterion function together, for any transitions. -/
theorem own_samples {G : Type} {q q' : Processed}
    (hp : processModel env m = some p) (hev : ev.Contract)
    (hs : p.Supported m ev core) (hcore : createCore (p.buildSpec ev).core = some core)
    (hexo : p.exogenous = [] ∨ p.nTypes < 2) (hplain : p.PlainRestrictions m ev core)
    (r : SolveRoutines) (θ : Dict (Str × Str) ℝ) (hst : SameStructure p q) (es : SimulateEnv G)
    (θ' : Dict (Str × Str) ℝ) (hq' : processModel env { m with params := θ' } = some q') (hst' : SameStructure p q')
    {past future : Option Nat → CoreState → List (Option Nat × ℝ)}
    (hsim : ∃ simulate sp V, getSimulateFunc env ev r m es = some simulate ∧
      IsSolution (q.buildSpec ev) core q.discount.delta (q.solveInput ev r.senv).wageOf
        (q.solveInput ev r.senv).nonpecOf (q.solveInput ev r.senv).shocks past
        (expectedShock Real.exp r.maxLog q.choices.wWage.length q.cholesky) r.sqrt r.ols V ∧
      ∀ g, simulate θ g = (q.simulation ev r.senv es (some sp)).run () g ∧
        SampleFollows (q.buildSpec ev) core (q.solveInput ev r.senv).wageOf (q.solveInput ev r.senv).nonpecOf
          past V (q.simulation ev r.senv es (some sp)) () g)
    (hcrit : ∃ fuel, ∀ e : EstimateEnv, (∀ n l, (e.order n l).Perm l) → fuel ≤ e.fuel →
      e.Fits q' { m with params := θ' } ev core (q'.solveInput ev r.senv).wageOf →
      ∃ logLike sp V size source, getCriterionFunc env ev r m e = some logLike ∧
        IsSolution (q'.buildSpec ev) core q'.discount.delta (q'.solveInput ev r.senv).wageOf
          (q'.solveInput ev r.senv).nonpecOf (q'.solveInput ev r.senv).shocks future
          (expectedShock Real.exp r.maxLog q'.choices.wWage.length q'.cholesky) r.sqrt r.ols V ∧
        logLike θ' = (q'.estimation ev e (some sp)).logLike () ∧
        CriterionFollows (q'.buildSpec ev) (q'.solveInput ev r.senv).wageOf (q'.solveInput ev r.senv).nonpecOf
          future V size source (q'.estimation ev e (some sp)) ()) :
    ∃ simulate fuel, getSimulateFunc env ev r m es = some simulate ∧ ∀ g, ∃ out g', simulate θ g = (some out, g') ∧
      (∀ row ∈ out, ∀ y, row.outcome.wage = some y → 0 < y) ∧
      ∀ e : EstimateEnv, (∀ n l, (e.order n l).Perm l) → fuel ≤ e.fuel →
        (∀ n, QRContract (e.la n).qr) → (∀ n, CholeskyContract (e.la n).cholesky) → e.lo ≤ 0 → 0 < e.hi →
        (∀ n k s, (e.base n k s).length = n ∧ ∀ row ∈ e.base n k s, row ≠ [] ∧ ∀ z ∈ row, z.length = k) →
        q'.ExplainsWages ev core (q'.solveInput ev r.senv).wageOf e.hi →
        (∀ row ∈ out, ∀ y, row.outcome.wage = some y → 1 / e.hi ≤ y ∧ y ≤ e.hi) →
        e.data = out.map (SimRow.observation p.nTypes p.nStatic) →
        ∃ logLike sp V size source, getCriterionFunc env ev r m e = some logLike ∧ (logLike θ').isSome ∧
          IsSolution (q'.buildSpec ev) core q'.discount.delta (q'.solveInput ev r.senv).wageOf
            (q'.solveInput ev r.senv).nonpecOf (q'.solveInput ev r.senv).shocks future
            (expectedShock Real.exp r.maxLog q'.choices.wWage.length q'.cholesky) r.sqrt r.ols V ∧
          logLike θ' = (q'.estimation ev e (some sp)).logLike () ∧
          CriterionFollows (q'.buildSpec ev) (q'.solveInput ev r.senv).wageOf (q'.solveInput ev r.senv).nonpecOf
            future V size source (q'.estimation ev e (some sp)) () := by
  have hbq := hst.buildSpec ev
  obtain ⟨simulate, sp, V, h1, _, h3⟩ := hsim
  obtain ⟨fuel, h4⟩ := hcrit
  refine ⟨simulate, fuel, h1, fun g => ?_⟩
  obtain ⟨h5, out, g', h6, h7, h8, _⟩ := h3 g
  refine ⟨out, g', by rw [h5, h6],
    fun row hrow y hy => C99_wages_are_positive rfl (processed_wageOf_pos q ev r.senv) (h8 row hrow) y hy,
    fun e ho hfuel k1 k2 k3 k4 k5 k6 k7 k8 => ?_⟩
  have hfits := C99_samples_fit hp hev hs hcore hexo hplain
    ((q.simulation ev r.senv es (some sp)).rewards ()) (by rw [hst.choices]; rfl) _ _ _ _ out _ _ h7
    (by rw [hbq]; exact h8) { m with params := θ' } hq' hst' rfl
    (q'.solveInput ev r.senv).wageOf e k1 k2 k3 k4 k5 k6 k7
  rw [← k8] at hfits
  obtain ⟨logLike, sp', V', size, source, k9, k10, k11, k12⟩ := h4 e ho hfuel hfits
  refine ⟨logLike, sp', V', size, source, k9, ?_, k10, k11, k12⟩
  obtain ⟨_, _, _, _, _, hval, _⟩ := k12
  rw [k11, hval]
  rfl

/-- **C99 (partial).** A model without exogenous processes can be estimated with its own samples: the sample which the
simulate function returns at `θ` is data for which the criterion function exists and has a value at all parameters
`θ'` which explain wages, and the value is the log likelihood of the sample in the model at `θ'`. Missing: restrictions
which depend on the type or exclude an alternative with a smaller code, wages beyond the range of numbers, and the
cases which are missing in C83, C84 and C87. -/
theorem C99_estimation_with_own_samples_partial {G : Type} {q q' : Processed}
    (hp : processModel env m = some p) (hr : m.Reprocessable p)
    (hev : ev.Contract) (hf : p.FormulasSound ev) (hid : "identifier".toList ∉ Dict.keys p.groups.all)
    (hg : ∀ t beta, Dict.get? p.typeProb t = some beta → ∃ bound, Graded p.groups.all (beta.map Prod.fst) bound)
    (hs : p.Supported m ev core) (hcore : createCore (p.buildSpec ev).core = some core)
    (hexo : p.exogenous = [])
    (hplain : p.PlainRestrictions m ev core)
    (hkeep : env.KeepsShape) (hlow : env.LowerTriangular)
    (hallowed : ∀ d ∈ (p.buildSpec ev).denseIndices, ∀ s ∈ core, ∃ c ∈ p.choices.choices, p.Allowed m ev d s c)
    (r : SolveRoutines) (hfit : r.senv.Fits (p.buildSpec ev) core) (hrng : r.rng.Contract)
    (hev0 : ∀ bt, SameShape (initialValues bt.space) (r.ev0 bt))
    (hvc : ∀ l x, x ∈ r.valueCounts l ↔ x ∈ l) (hko : ∀ l x, x ∈ r.keyOrder l ↔ x ∈ l)
    -- the simulation at `θ`
    (θ : Dict (Str × Str) ℝ) (hθ : m.SameIndex θ) (hq : processModel env { m with params := θ } = some q)
    (hnd : (Dict.keys θ).Nodup)
    (hother : ∀ x ∈ θ, mentionsShocks x.1 = true → ∃ c ∈ shockCategories, x.1.1 = c.toList)
    (hpts : (q.buildSpec ev).PointsSuffice core q.discount.delta)
    (es : SimulateEnv G) (hsam : q.Samplable ev es.input) (hes : es.Fits q (q.buildSpec ev))
    -- the criterion function at `θ'`
    (θ' : Dict (Str × Str) ℝ) (hθ' : m.SameIndex θ') (hq' : processModel env { m with params := θ' } = some q')
    (hnd' : (Dict.keys θ').Nodup)
    (hother' : ∀ x ∈ θ', mentionsShocks x.1 = true → ∃ c ∈ shockCategories, x.1.1 = c.toList)
    (hpts' : (q'.buildSpec ev).PointsSuffice core q'.discount.delta) :
    ∃ simulate fuel, getSimulateFunc env ev r m es = some simulate ∧ ∀ g, ∃ out g', simulate θ g = (some out, g') ∧
      (∀ row ∈ out, ∀ y, row.outcome.wage = some y → 0 < y) ∧
      ∀ e : EstimateEnv, (∀ n l, (e.order n l).Perm l) → fuel ≤ e.fuel →
        (∀ n, QRContract (e.la n).qr) → (∀ n, CholeskyContract (e.la n).cholesky) → e.lo ≤ 0 → 0 < e.hi →
        (∀ n k s, (e.base n k s).length = n ∧ ∀ row ∈ e.base n k s, row ≠ [] ∧ ∀ z ∈ row, z.length = k) →
        q'.ExplainsWages ev core (q'.solveInput ev r.senv).wageOf e.hi →
        (∀ row ∈ out, ∀ y, row.outcome.wage = some y → 1 / e.hi ≤ y ∧ y ≤ e.hi) →
        e.data = out.map (SimRow.observation p.nTypes p.nStatic) →
        ∃ logLike sp V size source, getCriterionFunc env ev r m e = some logLike ∧ (logLike θ').isSome ∧
          IsSolution (q'.buildSpec ev) core q'.discount.delta (q'.solveInput ev r.senv).wageOf
            (q'.solveInput ev r.senv).nonpecOf (q'.solveInput ev r.senv).shocks (fun d _ => [(d, 1)])
            (expectedShock Real.exp r.maxLog q'.choices.wWage.length q'.cholesky) r.sqrt r.ols V ∧
          logLike θ' = (q'.estimation ev e (some sp)).logLike () ∧
          CriterionFollows (q'.buildSpec ev) (q'.solveInput ev r.senv).wageOf (q'.solveInput ev r.senv).nonpecOf
            (fun d _ => [(d, 1)]) V size source (q'.estimation ev e (some sp)) () := by
  obtain ⟨q1, _, hq1, _, hst, _⟩ := reprocess_groups hp hr θ hθ
  rw [hq] at hq1
  cases hq1
  obtain ⟨q2, _, hq2, _, hst', _⟩ := reprocess_groups hp hr θ' hθ'
  rw [hq'] at hq2
  cases hq2
  have hx : ∀ {q : Processed}, SameStructure p q → q.exogenous = [] := by
    intro q h
    have := congrArg List.length (groupsShape_lengths h.exogenous)
    simp only [List.length_map, hexo, List.length_nil] at this
    exact List.length_eq_zero_iff.1 this.symm
  have hsq : q.Supported { m with params := θ } ev core := hst.supported (m := m) (m' := { m with params := θ }) rfl hs
  have hsq' : q'.Supported { m with params := θ' } ev core :=
    hst'.supported (m := m) (m' := { m with params := θ' }) rfl hs
  have hbq := hst.buildSpec ev
  have hbq' := hst'.buildSpec ev
  exact own_samples hp hev hs hcore (Or.inl hexo) hplain r θ hst es θ' hq' hst'
    (C87_samples_at_parameters_partial hp hr hev hf hid θ hθ hq hsq
    (hbq ▸ hcore) (hx hst) hkeep hnd hother r (hbq ▸ hfit)
    (fun d hd s hmem => by
      obtain ⟨c, hc, ha⟩ := hallowed d (hbq ▸ hd) s hmem
      exact ⟨c, hst.choices ▸ hc, hst.allowed rfl ha⟩)
    hpts hrng hev0 hvc hko es hsam hes)
    (C87_criterion_at_parameters_partial hp hr hev hf hid hg θ' hθ' hq' hsq' (hbq' ▸ hcore)
    (hx hst') hkeep hlow hnd' hother' r (hbq' ▸ hfit)
    (fun d hd s hmem => by
      obtain ⟨c, hc, ha⟩ := hallowed d (hbq' ▸ hd) s hmem
      exact ⟨c, hst'.choices ▸ hc, hst'.allowed rfl ha⟩)
    hpts' hrng hev0)

/-- **C99 (partial)** for models with exogenous processes, if these come last among the observables and there are no
types: the sample contains the levels of the processes, and the likelihood takes their transitions into account. -/
theorem C99_estimation_with_processes_partial {G : Type} {q q' : Processed}
    (hp : processModel env m = some p) (hr : m.Reprocessable p)
    (hev : ev.Contract) (hf : p.FormulasSound ev) (hid : "identifier".toList ∉ Dict.keys p.groups.all)
    (hg : ∀ t beta, Dict.get? p.typeProb t = some beta → ∃ bound, Graded p.groups.all (beta.map Prod.fst) bound)
    (hs : p.Supported m ev core) (hcore : createCore (p.buildSpec ev).core = some core)
    (hexo : p.exogenous ≠ []) (static : List (Str × Nat)) (htypes : p.nTypes < 2)
    (hobs : p.observables.map (fun o => (o.1, o.2.length)) = static ++ p.exogenous.map fun o => (o.1, o.2.length))
    (hnames : ∀ e ∈ p.exogenous, ∀ level ∈ e.2, ∀ item ∈ level.2, item.1 ∈ p.columns true)
    (hplain : p.PlainRestrictions m ev core)
    (hkeep : env.KeepsShape) (hlow : env.LowerTriangular)
    (hallowed : ∀ d ∈ (p.buildSpec ev).denseIndices, ∀ s ∈ core, ∃ c ∈ p.choices.choices, p.Allowed m ev d s c)
    (r : SolveRoutines) (hfit : r.senv.Fits (p.buildSpec ev) core) (hrng : r.rng.Contract)
    (hev0 : ∀ bt, SameShape (initialValues bt.space) (r.ev0 bt))
    (hvc : ∀ l x, x ∈ r.valueCounts l ↔ x ∈ l) (hko : ∀ l x, x ∈ r.keyOrder l ↔ x ∈ l)
    -- the simulation at `θ`
    (θ : Dict (Str × Str) ℝ) (hθ : m.SameIndex θ) (hq : processModel env { m with params := θ } = some q)
    (hnd : (Dict.keys θ).Nodup)
    (hother : ∀ x ∈ θ, mentionsShocks x.1 = true → ∃ c ∈ shockCategories, x.1.1 = c.toList)
    (hpts : (q.buildSpec ev).PointsSuffice core q.discount.delta)
    (es : SimulateEnv G) (hsam : q.Samplable ev es.input) (hes : es.Fits q (q.buildSpec ev))
    -- the criterion function at `θ'`
    (θ' : Dict (Str × Str) ℝ) (hθ' : m.SameIndex θ') (hq' : processModel env { m with params := θ' } = some q')
    (hnd' : (Dict.keys θ').Nodup)
    (hother' : ∀ x ∈ θ', mentionsShocks x.1 = true → ∃ c ∈ shockCategories, x.1.1 = c.toList)
    (hpts' : (q'.buildSpec ev).PointsSuffice core q'.discount.delta) :
    let future := fun d s => (exogenousGrid (q'.exogenous.map fun e => e.2.length)).map fun e =>
      ((q'.buildSpec ev).successor d e, levelProbability q'.exogenousParams (q'.covariates ev d s) e)
    ∃ simulate fuel, getSimulateFunc env ev r m es = some simulate ∧ ∀ g, ∃ out g', simulate θ g = (some out, g') ∧
      (∀ row ∈ out, ∀ y, row.outcome.wage = some y → 0 < y) ∧
      ∀ e : EstimateEnv, (∀ n l, (e.order n l).Perm l) → fuel ≤ e.fuel →
        (∀ n, QRContract (e.la n).qr) → (∀ n, CholeskyContract (e.la n).cholesky) → e.lo ≤ 0 → 0 < e.hi →
        (∀ n k s, (e.base n k s).length = n ∧ ∀ row ∈ e.base n k s, row ≠ [] ∧ ∀ z ∈ row, z.length = k) →
        q'.ExplainsWages ev core (q'.solveInput ev r.senv).wageOf e.hi →
        (∀ row ∈ out, ∀ y, row.outcome.wage = some y → 1 / e.hi ≤ y ∧ y ≤ e.hi) →
        e.data = out.map (SimRow.observation p.nTypes p.nStatic) →
        ∃ logLike sp V size source, getCriterionFunc env ev r m e = some logLike ∧ (logLike θ').isSome ∧
          IsSolution (q'.buildSpec ev) core q'.discount.delta (q'.solveInput ev r.senv).wageOf
            (q'.solveInput ev r.senv).nonpecOf (q'.solveInput ev r.senv).shocks future
            (expectedShock Real.exp r.maxLog q'.choices.wWage.length q'.cholesky) r.sqrt r.ols V ∧
          logLike θ' = (q'.estimation ev e (some sp)).logLike () ∧
          CriterionFollows (q'.buildSpec ev) (q'.solveInput ev r.senv).wageOf (q'.solveInput ev r.senv).nonpecOf
            future V size source (q'.estimation ev e (some sp)) () := by
  intro future
  obtain ⟨q1, _, hq1, _, hst, _⟩ := reprocess_groups hp hr θ hθ
  rw [hq] at hq1
  cases hq1
  obtain ⟨q2, _, hq2, _, hst', _⟩ := reprocess_groups hp hr θ' hθ'
  rw [hq'] at hq2
  cases hq2
  obtain ⟨x1, x2, x3, x4⟩ := hst.processes hexo htypes hobs hnames
  obtain ⟨y1, y2, y3, y4⟩ := hst'.processes hexo htypes hobs hnames
  have hsq : q.Supported { m with params := θ } ev core := hst.supported (m := m) (m' := { m with params := θ }) rfl hs
  have hsq' : q'.Supported { m with params := θ' } ev core :=
    hst'.supported (m := m) (m' := { m with params := θ' }) rfl hs
  have hbq := hst.buildSpec ev
  have hbq' := hst'.buildSpec ev
  exact own_samples hp hev hs hcore (Or.inr htypes) hplain r θ hst es θ' hq' hst'
    (C87_samples_with_processes_partial hp hr hev hf hid θ hθ hq hsq
    (hbq ▸ hcore) x1 static x2 x3 x4 hkeep hnd hother r (hbq ▸ hfit)
    (fun d hd s hmem => by
      obtain ⟨c, hc, ha⟩ := hallowed d (hbq ▸ hd) s hmem
      exact ⟨c, hst.choices ▸ hc, hst.allowed rfl ha⟩)
    hpts hrng hev0 hvc hko es hsam hes)
    (C87_criterion_with_processes_partial hp hr hev hf hid hg θ' hθ' hq' hsq' (hbq' ▸ hcore)
    y1 static y2 y3 y4 hkeep hlow hnd' hother' r (hbq' ▸ hfit)
    (fun d hd s hmem => by
      obtain ⟨c, hc, ha⟩ := hallowed d (hbq' ▸ hd) s hmem
      exact ⟨c, hst'.choices ▸ hc, hst'.allowed rfl ha⟩)
    hpts' hrng hev0)

theorem exists_large (l : List ℝ) (h : ∀ x ∈ l, 0 < x) :
    ∃ H, ∀ hi, H ≤ hi → 0 < hi ∧ ∀ x ∈ l, 1 / hi ≤ x ∧ x ≤ hi := by
  induction l with
  | nil => exact ⟨1, fun hi hH => ⟨by linarith, by simp⟩⟩
  | cons x l ih =>
    obtain ⟨H, hH⟩ := ih fun y hy => h y (List.mem_cons_of_mem _ hy)
    have hx := h x List.mem_cons_self
    refine ⟨max H (max x (1 / x)), fun hi hhi => ?_⟩
    obtain ⟨h1, h2⟩ := hH hi (le_trans (le_max_left _ _) hhi)
    have h3 := le_trans (le_trans (le_max_left x _) (le_max_right H _)) hhi
    have h4 := le_trans (le_trans (le_max_right x _) (le_max_right H _)) hhi
    refine ⟨h1, fun y hy => ?_⟩
    rcases List.mem_cons.1 hy with rfl | hy
    · exact ⟨by rw [div_le_iff₀ hx] at h4; rw [div_le_iff₀ h1]; linarith, h3⟩
    · exact h2 y hy

/-- For any sample there is a range of numbers which contains all its wages. -/
theorem own_samples_large {G : Type} {q' : Processed} {r : SolveRoutines} {θ θ' : Dict (Str × Str) ℝ}
    {es : SimulateEnv G} {future : Option Nat → CoreState → List (Option Nat × ℝ)}
    (hvar : ∀ a < q'.choices.choices.length, entry q'.cholesky a a ≠ 0)
    (herr : q'.measurement.1 = true → ∀ a < q'.choices.wWage.length, q'.measurement.2.getD a 0 ≠ 0)
    (h :
    ∃ simulate fuel, getSimulateFunc env ev r m es = some simulate ∧ ∀ g, ∃ out g', simulate θ g = (some out, g') ∧
      (∀ row ∈ out, ∀ y, row.outcome.wage = some y → 0 < y) ∧
      ∀ e : EstimateEnv, (∀ n l, (e.order n l).Perm l) → fuel ≤ e.fuel →
        (∀ n, QRContract (e.la n).qr) → (∀ n, CholeskyContract (e.la n).cholesky) → e.lo ≤ 0 → 0 < e.hi →
        (∀ n k s, (e.base n k s).length = n ∧ ∀ row ∈ e.base n k s, row ≠ [] ∧ ∀ z ∈ row, z.length = k) →
        q'.ExplainsWages ev core (q'.solveInput ev r.senv).wageOf e.hi →
        (∀ row ∈ out, ∀ y, row.outcome.wage = some y → 1 / e.hi ≤ y ∧ y ≤ e.hi) →
        e.data = out.map (SimRow.observation p.nTypes p.nStatic) →
        ∃ logLike sp V size source, getCriterionFunc env ev r m e = some logLike ∧ (logLike θ').isSome ∧
          IsSolution (q'.buildSpec ev) core q'.discount.delta (q'.solveInput ev r.senv).wageOf
            (q'.solveInput ev r.senv).nonpecOf (q'.solveInput ev r.senv).shocks future
            (expectedShock Real.exp r.maxLog q'.choices.wWage.length q'.cholesky) r.sqrt r.ols V ∧
          logLike θ' = (q'.estimation ev e (some sp)).logLike () ∧
          CriterionFollows (q'.buildSpec ev) (q'.solveInput ev r.senv).wageOf (q'.solveInput ev r.senv).nonpecOf
            future V size source (q'.estimation ev e (some sp)) ()) :
    ∃ simulate fuel, getSimulateFunc env ev r m es = some simulate ∧ ∀ g, ∃ out g' H, simulate θ g = (some out, g') ∧
      ∀ e : EstimateEnv, (∀ n l, (e.order n l).Perm l) → fuel ≤ e.fuel →
        (∀ n, QRContract (e.la n).qr) → (∀ n, CholeskyContract (e.la n).cholesky) → e.lo ≤ 0 → H ≤ e.hi →
        (∀ n k s, (e.base n k s).length = n ∧ ∀ row ∈ e.base n k s, row ≠ [] ∧ ∀ z ∈ row, z.length = k) →
        e.data = out.map (SimRow.observation p.nTypes p.nStatic) →
        ∃ logLike, getCriterionFunc env ev r m e = some logLike ∧ (logLike θ').isSome := by
  obtain ⟨simulate, fuel, h1, h2⟩ := h
  refine ⟨simulate, fuel, h1, fun g => ?_⟩
  obtain ⟨out, g', h3, hpos, h4⟩ := h2 g
  obtain ⟨H, hH⟩ := exists_large (out.filterMap (fun row => row.outcome.wage) ++
    (q'.buildSpec ev).denseIndices.flatMap (fun d => core.flatMap fun s => (List.range q'.choices.wWage.length).map
      fun a => (q'.solveInput ev r.senv).wageOf d s a)) fun x hx => by
    rcases List.mem_append.1 hx with hx | hx
    · obtain ⟨row, hrow, hx⟩ := List.mem_filterMap.1 hx
      exact hpos row hrow x hx
    · simp only [List.mem_flatMap, List.mem_map] at hx
      obtain ⟨d, _, s, _, a, _, rfl⟩ := hx
      exact processed_wageOf_pos _ _ _ _ _ _
  refine ⟨out, g', H, h3, fun e ho hfuel k1 k2 k3 k4 k5 k6 => ?_⟩
  obtain ⟨k7, k8⟩ := hH e.hi k4
  obtain ⟨logLike, _, _, _, _, k9, k10, _⟩ := h4 e ho hfuel k1 k2 k3 k7 k5
    ⟨hvar, herr, fun d hd s hmem a ha => k8 _ (List.mem_append_right _ (by
      simp only [List.mem_flatMap, List.mem_map]
      exact ⟨d, hd, s, hmem, a, List.mem_range.2 ha, rfl⟩))⟩
    (fun row hrow y hy => k8 y (List.mem_append_left _ (List.mem_filterMap.2 ⟨row, hrow, hy⟩))) k6
  exact ⟨logLike, k9, k10⟩

/-- **C99 (partial).** The conditions on the size of wages hold if `MAX_FLOAT` is large: there is a bound for the sample
such that the criterion function has a value at `θ'` for all larger `MAX_FLOAT`, whatever the measurement errors, shocks
and parameters are, provided that they do not vanish at `θ'`. Missing: as in `C99_estimation_with_own_samples_partial`,
and that the bound is below the actual `MAX_FLOAT`. -/
theorem C99_estimation_with_large_numbers_partial {G : Type} {q q' : Processed}
    (hp : processModel env m = some p) (hr : m.Reprocessable p)
    (hev : ev.Contract) (hf : p.FormulasSound ev) (hid : "identifier".toList ∉ Dict.keys p.groups.all)
    (hg : ∀ t beta, Dict.get? p.typeProb t = some beta → ∃ bound, Graded p.groups.all (beta.map Prod.fst) bound)
    (hs : p.Supported m ev core) (hcore : createCore (p.buildSpec ev).core = some core)
    (hexo : p.exogenous = [])
    (hplain : p.PlainRestrictions m ev core)
    (hkeep : env.KeepsShape) (hlow : env.LowerTriangular)
    (hallowed : ∀ d ∈ (p.buildSpec ev).denseIndices, ∀ s ∈ core, ∃ c ∈ p.choices.choices, p.Allowed m ev d s c)
    (r : SolveRoutines) (hfit : r.senv.Fits (p.buildSpec ev) core) (hrng : r.rng.Contract)
    (hev0 : ∀ bt, SameShape (initialValues bt.space) (r.ev0 bt))
    (hvc : ∀ l x, x ∈ r.valueCounts l ↔ x ∈ l) (hko : ∀ l x, x ∈ r.keyOrder l ↔ x ∈ l)
    -- the simulation at `θ`
    (θ : Dict (Str × Str) ℝ) (hθ : m.SameIndex θ) (hq : processModel env { m with params := θ } = some q)
    (hnd : (Dict.keys θ).Nodup)
    (hother : ∀ x ∈ θ, mentionsShocks x.1 = true → ∃ c ∈ shockCategories, x.1.1 = c.toList)
    (hpts : (q.buildSpec ev).PointsSuffice core q.discount.delta)
    (es : SimulateEnv G) (hsam : q.Samplable ev es.input) (hes : es.Fits q (q.buildSpec ev))
    -- the criterion function at `θ'`
    (θ' : Dict (Str × Str) ℝ) (hθ' : m.SameIndex θ') (hq' : processModel env { m with params := θ' } = some q')
    (hnd' : (Dict.keys θ').Nodup)
    (hother' : ∀ x ∈ θ', mentionsShocks x.1 = true → ∃ c ∈ shockCategories, x.1.1 = c.toList)
    (hpts' : (q'.buildSpec ev).PointsSuffice core q'.discount.delta)
    (hvar : ∀ a < q'.choices.choices.length, entry q'.cholesky a a ≠ 0)
    (herr : q'.measurement.1 = true → ∀ a < q'.choices.wWage.length, q'.measurement.2.getD a 0 ≠ 0) :
    ∃ simulate fuel, getSimulateFunc env ev r m es = some simulate ∧ ∀ g, ∃ out g' H, simulate θ g = (some out, g') ∧
      ∀ e : EstimateEnv, (∀ n l, (e.order n l).Perm l) → fuel ≤ e.fuel →
        (∀ n, QRContract (e.la n).qr) → (∀ n, CholeskyContract (e.la n).cholesky) → e.lo ≤ 0 → H ≤ e.hi →
        (∀ n k s, (e.base n k s).length = n ∧ ∀ row ∈ e.base n k s, row ≠ [] ∧ ∀ z ∈ row, z.length = k) →
        e.data = out.map (SimRow.observation p.nTypes p.nStatic) →
        ∃ logLike, getCriterionFunc env ev r m e = some logLike ∧ (logLike θ').isSome :=
  own_samples_large hvar herr (C99_estimation_with_own_samples_partial hp hr hev hf hid hg hs hcore hexo hplain
    hkeep hlow hallowed r hfit hrng hev0 hvc hko θ hθ hq hnd hother hpts es hsam hes θ' hθ' hq' hnd' hother' hpts')

/-- **C99 (partial).** The same for models with exogenous processes. -/
theorem C99_processes_with_large_numbers_partial {G : Type} {q q' : Processed}
    (hp : processModel env m = some p) (hr : m.Reprocessable p)
    (hev : ev.Contract) (hf : p.FormulasSound ev) (hid : "identifier".toList ∉ Dict.keys p.groups.all)
    (hg : ∀ t beta, Dict.get? p.typeProb t = some beta → ∃ bound, Graded p.groups.all (beta.map Prod.fst) bound)
    (hs : p.Supported m ev core) (hcore : createCore (p.buildSpec ev).core = some core)
    (hexo : p.exogenous ≠ []) (static : List (Str × Nat)) (htypes : p.nTypes < 2)
    (hobs : p.observables.map (fun o => (o.1, o.2.length)) = static ++ p.exogenous.map fun o => (o.1, o.2.length))
    (hnames : ∀ e ∈ p.exogenous, ∀ level ∈ e.2, ∀ item ∈ level.2, item.1 ∈ p.columns true)
    (hplain : p.PlainRestrictions m ev core)
    (hkeep : env.KeepsShape) (hlow : env.LowerTriangular)
    (hallowed : ∀ d ∈ (p.buildSpec ev).denseIndices, ∀ s ∈ core, ∃ c ∈ p.choices.choices, p.Allowed m ev d s c)
    (r : SolveRoutines) (hfit : r.senv.Fits (p.buildSpec ev) core) (hrng : r.rng.Contract)
    (hev0 : ∀ bt, SameShape (initialValues bt.space) (r.ev0 bt))
    (hvc : ∀ l x, x ∈ r.valueCounts l ↔ x ∈ l) (hko : ∀ l x, x ∈ r.keyOrder l ↔ x ∈ l)
    -- the simulation at `θ`
    (θ : Dict (Str × Str) ℝ) (hθ : m.SameIndex θ) (hq : processModel env { m with params := θ } = some q)
    (hnd : (Dict.keys θ).Nodup)
    (hother : ∀ x ∈ θ, mentionsShocks x.1 = true → ∃ c ∈ shockCategories, x.1.1 = c.toList)
    (hpts : (q.buildSpec ev).PointsSuffice core q.discount.delta)
    (es : SimulateEnv G) (hsam : q.Samplable ev es.input) (hes : es.Fits q (q.buildSpec ev))
    -- the criterion function at `θ'`
    (θ' : Dict (Str × Str) ℝ) (hθ' : m.SameIndex θ') (hq' : processModel env { m with params := θ' } = some q')
    (hnd' : (Dict.keys θ').Nodup)
    (hother' : ∀ x ∈ θ', mentionsShocks x.1 = true → ∃ c ∈ shockCategories, x.1.1 = c.toList)
    (hpts' : (q'.buildSpec ev).PointsSuffice core q'.discount.delta)
    (hvar : ∀ a < q'.choices.choices.length, entry q'.cholesky a a ≠ 0)
    (herr : q'.measurement.1 = true → ∀ a < q'.choices.wWage.length, q'.measurement.2.getD a 0 ≠ 0) :
    ∃ simulate fuel, getSimulateFunc env ev r m es = some simulate ∧ ∀ g, ∃ out g' H, simulate θ g = (some out, g') ∧
      ∀ e : EstimateEnv, (∀ n l, (e.order n l).Perm l) → fuel ≤ e.fuel →
        (∀ n, QRContract (e.la n).qr) → (∀ n, CholeskyContract (e.la n).cholesky) → e.lo ≤ 0 → H ≤ e.hi →
        (∀ n k s, (e.base n k s).length = n ∧ ∀ row ∈ e.base n k s, row ≠ [] ∧ ∀ z ∈ row, z.length = k) →
        e.data = out.map (SimRow.observation p.nTypes p.nStatic) →
        ∃ logLike, getCriterionFunc env ev r m e = some logLike ∧ (logLike θ').isSome :=
  own_samples_large hvar herr (C99_estimation_with_processes_partial hp hr hev hf hid hg hs hcore hexo
    static htypes hobs hnames hplain
    hkeep hlow hallowed r hfit hrng hev0 hvc hko θ hθ hq hnd hother hpts es hsam hes θ' hθ' hq' hnd' hother' hpts')

end

end Respy
