import Verif.Lemmas.Irrelevant
import Verif.Props.ProcessEstimate
import Verif.Props.ProcessSimulate

/-!
# Characteristics which have no effect (C101)
-/

namespace Respy

section
variable {K : Type} [Field K] [LinearOrder K]

/-- **C101.** In any value function, dense indices which cannot be told apart have the same values. -/
theorem C101_same_values (b : BuildSpec) (core : List CoreState) (wf : b.WF core)
    (w m : Option Nat → CoreState → Nat → K) (future : Option Nat → CoreState → List (Option Nat × K))
    (R : Option Nat → Option Nat → Prop) (hR : Indistinguishable b core w m future R) (delta : K)
    (shocks : Nat → List Bool → List (Nat → K)) (V : Option Nat → CoreState → K)
    (hV : IsValueFunction b core delta w m shocks future V) (d d' : Option Nat) (h : R d d') (s : CoreState)
    (hs : s ∈ core) : V d s = V d' s :=
  hR.values wf hV d d' h s hs

end

section
variable {env : ProcessEnv} {m : UserModel} {p : Processed} {ev : FormulaEval} {core : List CoreState} {G : Type}

theorem columnValue_grounded (hf : p.FormulasSound ev) (d d' : Option Nat)
    (s : CoreState) (hs : s ∈ core) (hsh : p.Shaped s) (x : Str) (hx : p.Grounded (p.SameVariable core d d') x)
    (hnd : (Dict.keys p.groups.all).Nodup) (v : ℝ)
    (h : ColumnValue ev.value (fun _ => true) false ⟨p.stateVariables d s, []⟩ p.groups.all x v) :
    ColumnValue ev.value (fun _ => true) false ⟨p.stateVariables d' s, []⟩ p.groups.all x v := by
  induction hx generalizing v with
  | known x hk =>
    cases h with
    | given _ _ hg =>
      refine .given _ _ ?_
      rw [lookup_noIndex] at hg ⊢
      rw [← hk.2 s hs]; exact hg
    | computed _ e _ _ _ he _ _ _ => exact absurd (List.mem_map.2 ⟨_, he, rfl⟩) (hf.names x hk.1)
  | covariate c e he _ _ ih =>
    have hkey : c ∈ Dict.keys p.groups.all := List.mem_map.2 ⟨_, he, rfl⟩
    cases h with
    | given _ _ hg =>
      rw [lookup_noIndex, stateVariables_covariate hf d s hsh c hkey] at hg
      cases hg
    | computed _ e' env _ _ he' h1 h2 h3 =>
      have : e' = e := by
        have g1 := Dict.get?_of_mem _ hnd _ _ he
        have g2 := Dict.get?_of_mem _ hnd _ _ he'
        rw [g1] at g2
        exact (Option.some.inj g2).symm
      subst this
      exact .computed c e' env v (stateVariables_covariate hf d' s hsh c hkey) he' h1
        (fun x hx w hw => ih x hx w (h2 x hx w hw)) h3

/-- **C101.** Covariates which are computed from variables with the same values have the same values, whatever the
other characteristics are. -/
theorem C101_same_covariates (hp : processModel env m = some p) (hc : (Dict.keys m.covariates).Nodup)
    (hf : p.FormulasSound ev) (hs : p.Supported m ev core) (hcore : createCore (p.buildSpec ev).core = some core)
    (d d' : Option Nat) (hd : d ∈ (p.buildSpec ev).denseIndices) (hd' : d' ∈ (p.buildSpec ev).denseIndices)
    (x : Str) (hx : p.Grounded (p.SameVariable core d d') x) (s : CoreState) (hmem : s ∈ core) :
    p.covariates ev d s x = p.covariates ev d' s x := by
  obtain ⟨covs, h⟩ := processModel_from env m p hp
  have hsh := hs.shaped h hcore s hmem
  have hnd := (h.groupFacts hc).nodup
  have hv := covariates_value h hc hf hs.names d hd s hsh (hs.computable d hd s hmem) x
  have hv' := covariates_value h hc hf hs.names d' hd' s hsh (hs.computable d' hd' s hmem) x
  have hx' : p.Grounded (p.SameVariable core d' d) x := by
    induction hx with
    | known x hk => exact .known x ⟨hk.1, fun s hs => (hk.2 s hs).symm⟩
    | covariate c e he hst _ ih =>
      refine .covariate c e he hst fun y hy => ih y hy ?_ ?_
      · exact covariates_value h hc hf hs.names d hd s hsh (hs.computable d hd s hmem) y
      · exact covariates_value h hc hf hs.names d' hd' s hsh (hs.computable d' hd' s hmem) y
  refine Option.ext fun v => ?_
  rw [hv, hv']
  exact ⟨columnValue_grounded hf d d' s hmem hsh x hx hnd v, columnValue_grounded hf d' d s hmem hsh x hx' hnd v⟩

/-- **C101.** Characteristics from which neither the covariates of the rewards nor the variables of the restrictions
are computed have no effect. -/
theorem C101_unused_characteristics (hp : processModel env m = some p) (hc : (Dict.keys m.covariates).Nodup)
    (hev : ev.Contract) (hf : p.FormulasSound ev) (hs : p.Supported m ev core)
    (hcore : createCore (p.buildSpec ev).core = some core)
    (d d' : Option Nat) (hd : d ∈ (p.buildSpec ev).denseIndices) (hd' : d' ∈ (p.buildSpec ev).denseIndices)
    (hrewards : ∀ c ∈ p.choices.choices, ∀ q ∈ m.params,
      q.1.1 = "wage_".toList ++ c ∨ q.1.1 = "nonpec_".toList ++ c → p.Grounded (p.SameVariable core d d') q.1.2)
    (hrestr : ∀ c ∈ p.choices.choices, ∀ f ∈ p.userRestrictions m c, ∃ cols, ev.defined cols f = true ∧
      ∀ x ∈ cols, p.Grounded (p.SameVariable core d d') x) : p.SameEffects m ev core d d' := by
  refine ⟨fun s hmem c hcc q hq hcat => ?_, fun s hmem c hcc f hff => ?_⟩
  · exact C101_same_covariates hp hc hf hs hcore d d' hd hd' _ (hrewards c hcc q hq hcat) s hmem
  · obtain ⟨cols, h1, h2⟩ := hrestr c hcc f hff
    unfold FormulaEval.holds
    rw [hev.same_columns cols f _ _ h1 fun x hx =>
      C101_same_covariates hp hc hf hs hcore d d' hd hd' x (h2 x hx) s hmem]

theorem SameEffects.choiceSetAt (hp : processModel env m = some p) (hev : ev.Contract) (hs : p.Supported m ev core)
    (hcore : createCore (p.buildSpec ev).core = some core) (d d' : Option Nat)
    (hd : d ∈ (p.buildSpec ev).denseIndices) (hd' : d' ∈ (p.buildSpec ev).denseIndices)
    (h : p.SameEffects m ev core d d') (s : CoreState) (hmem : s ∈ core) :
    (p.buildSpec ev).choiceSetAt d s = (p.buildSpec ev).choiceSetAt d' s := by
  refine List.ext_getElem? fun a => ?_
  cases hc : p.choices.choices[a]? with
  | none =>
    rw [List.getElem?_eq_none_iff] at hc
    rw [List.getElem?_eq_none (by rw [choiceSetAt_length]; exact hc),
      List.getElem?_eq_none (by rw [choiceSetAt_length]; exact hc)]
  | some c =>
    have hl := (List.getElem?_eq_some_iff.1 hc).1
    have h1 := C82_choice_sets_by_name hp hev hs.toDescribed hcore d hd s hmem a c hc
    have h2 := C82_choice_sets_by_name hp hev hs.toDescribed hcore d' hd' s hmem a c hc
    have h3 : p.Allowed m ev d s c ↔ p.Allowed m ev d' s c := by
      unfold Processed.Allowed
      have : ∀ f ∈ p.userRestrictions m c, ev.holds (p.covariates ev d s) f = ev.holds (p.covariates ev d' s) f :=
        h.restrictions s hmem c (List.mem_of_getElem? hc)
      exact and_congr_left fun _ => ⟨fun g f hf => (this f hf) ▸ g f hf, fun g f hf => (this f hf).symm ▸ g f hf⟩
    rw [← h1, ← h2] at h3
    have l1 : a < ((p.buildSpec ev).choiceSetAt d s).length := by rw [choiceSetAt_length]; exact hl
    have l2 : a < ((p.buildSpec ev).choiceSetAt d' s).length := by rw [choiceSetAt_length]; exact hl
    rw [List.getElem?_eq_getElem l1, List.getElem?_eq_getElem l2, Option.some.injEq, Option.some.injEq] at h3
    rw [List.getElem?_eq_getElem l1, List.getElem?_eq_getElem l2, Option.some.injEq]
    exact Bool.eq_iff_iff.2 h3

theorem sum_filter_congr (params : Dict (Str × Str) ℝ) (cat : Str) (f g : Str → Option ℝ)
    (h : ∀ q ∈ params, q.1.1 = cat → f q.1.2 = g q.1.2) :
    ((params.filter fun q => q.1.1 = cat).map fun q => q.2 * (f q.1.2).getD 0).sum =
      ((params.filter fun q => q.1.1 = cat).map fun q => q.2 * (g q.1.2).getD 0).sum := by
  congr 1
  refine List.map_congr_left fun q hq => ?_
  obtain ⟨h1, h2⟩ := List.mem_filter.1 hq
  rw [h q h1 (of_decide_eq_true h2)]

/-- Dense indices with the same effects cannot be told apart if indices with the same effects follow. -/
theorem C101_indistinguishable (hp : processModel env m = some p) (hev : ev.Contract) (hs : p.Supported m ev core)
    (hcore : createCore (p.buildSpec ev).core = some core) (senv : SolveEnv)
    (future : Option Nat → CoreState → List (Option Nat × ℝ)) (R : Option Nat → Option Nat → Prop)
    (hmem : ∀ d d', R d d' → d ∈ (p.buildSpec ev).denseIndices ∧ d' ∈ (p.buildSpec ev).denseIndices)
    (heff : ∀ d d', R d d' → p.SameEffects m ev core d d')
    (hfut : ∀ d d', R d d' → ∀ s ∈ core, s.period + 1 < p.nPeriods →
      List.Forall₂ (fun x y => R x.1 y.1 ∧ x.2 = y.2) (future d s) (future d' s)) :
    Indistinguishable (p.buildSpec ev) core (p.solveInput ev senv).wageOf (p.solveInput ev senv).nonpecOf future R := by
  have hname : ∀ d s a, (p.buildSpec ev).Admissible d s a → ∃ c, p.choices.choices[a]? = some c := by
    intro d s a ha
    have := (List.getElem?_eq_some_iff.1 ha).1
    rw [choiceSetAt_length] at this
    exact ⟨_, List.getElem?_eq_getElem this⟩
  refine ⟨hmem, fun d d' h s hs' => ?_, fun d d' h s hs' a ha => ?_, fun d d' h s hs' a ha => ?_, hfut⟩
  · exact SameEffects.choiceSetAt hp hev hs hcore d d' (hmem d d' h).1 (hmem d d' h).2 (heff d d' h) s hs'
  · obtain ⟨c, hc⟩ := hname d s a ha
    rw [C82_wages_by_name hp senv d s a c hc, C82_wages_by_name hp senv d' s a c hc]
    congr 1
    exact sum_filter_congr _ _ _ _ fun q hq hcat =>
      (heff d d' h).rewards s hs' c (List.mem_of_getElem? hc) q hq (Or.inl hcat)
  · obtain ⟨c, hc⟩ := hname d s a ha
    rw [C82_nonpecs_by_name hp senv d s a c hc, C82_nonpecs_by_name hp senv d' s a c hc]
    exact sum_filter_congr _ _ _ _ fun q hq hcat =>
      (heff d d' h).rewards s hs' c (List.mem_of_getElem? hc) q hq (Or.inr hcat)

/-- Two dense indices with the same effects. -/
def Processed.EffectsRelated (p : Processed) (m : UserModel) (ev : FormulaEval) (core : List CoreState)
    (d d' : Option Nat) : Prop :=
  d ∈ (p.buildSpec ev).denseIndices ∧ d' ∈ (p.buildSpec ev).denseIndices ∧ p.SameEffects m ev core d d'

theorem indistinguishable_static (hp : processModel env m = some p) (hev : ev.Contract) (hs : p.Supported m ev core)
    (hcore : createCore (p.buildSpec ev).core = some core) (senv : SolveEnv) :
    Indistinguishable (p.buildSpec ev) core (p.solveInput ev senv).wageOf (p.solveInput ev senv).nonpecOf
      (fun d _ => [(d, 1)]) (p.EffectsRelated m ev core) :=
  C101_indistinguishable hp hev hs hcore senv _ _ (fun _ _ h => ⟨h.1, h.2.1⟩) (fun _ _ h => h.2.2)
    fun _ _ h _ _ _ => .cons ⟨h, rfl⟩ .nil

theorem IsSolution.indistinguishable {b : BuildSpec} {w mm : Option Nat → CoreState → Nat → ℝ}
    {future : Option Nat → CoreState → List (Option Nat × ℝ)} {R : Option Nat → Option Nat → Prop} (wf : b.WF core)
    (hR : Indistinguishable b core w mm future R) {delta : ℝ} {shocks : Nat → List Bool → List (Nat → ℝ)}
    {mean : Nat → ℝ} {sqrt : ℝ → ℝ} {ols : List ℝ → List (List ℝ) → List ℝ} {V : Option Nat → CoreState → ℝ}
    (hno : ∀ t, ¬ b.Interpolates core t)
    (hV : IsSolution b core delta w mm shocks future mean sqrt ols V) (d d' : Option Nat) (h : R d d')
    (s : CoreState) (hs : s ∈ core) : V d s = V d' s := by
  by_cases hd : delta = 0
  · rw [hV.2 hd d (hR.mem d d' h).1 s hs, hV.2 hd d' (hR.mem d d' h).2 s hs]
  · exact hR.values wf ((C80_no_interpolation_is_value_function _ _ hno _ _ _ _ _ _ _ _ _).1 (hV.1 hd)) d d' h s hs

/-- **C101 (partial).** The values which are found for accepted models without exogenous processes do not depend on
characteristics without effects. Missing: interpolation, where the points are drawn for each dense index
(`C101_interpolation_false`). -/
theorem C101_values_partial (hp : processModel env m = some p) (hev : ev.Contract)
    (hs : p.Supported m ev core) (hcore : createCore (p.buildSpec ev).core = some core)
    (hexo : p.exogenous = []) (hkeep : env.KeepsShape) (hnd : (Dict.keys m.params).Nodup)
    (hother : ∀ q ∈ m.params, mentionsShocks q.1 = true → ∃ c ∈ shockCategories, q.1.1 = c.toList)
    (senv : SolveEnv) (hfit : senv.Fits (p.buildSpec ev) core)
    (hallowed : ∀ d ∈ (p.buildSpec ev).denseIndices, ∀ s ∈ core, ∃ c ∈ p.choices.choices, p.Allowed m ev d s c)
    (hno : ∀ t, ¬ (p.buildSpec ev).Interpolates core t)
    (rng : InterpolationRandom) (hrng : rng.Contract) (sqrt : ℝ → ℝ) (ols : List ℝ → List (List ℝ) → List ℝ)
    (maxLog : ℝ) :
    ∃ bt par, buildSpace (p.buildSpec ev) = some bt ∧ (p.solveInput ev senv).paramObjects bt [] = some par ∧
      ∀ (seed : Nat) (ev0 : Dict Nat (List ℝ)), SameShape (initialValues bt.space) ev0 →
        let result := solveBackward bt.space (kw94 bt.space rng sqrt ols
          (expShocks Real.exp maxLog p.choices.wWage.length p.cholesky)) par seed ev0
        result.2 = true ∧ ∀ d ∈ (p.buildSpec ev).denseIndices, ∀ d' ∈ (p.buildSpec ev).denseIndices,
          p.SameEffects m ev core d d' → ∀ s ∈ core, ∃ v, bt.ValueAt result.1 d s v ∧ bt.ValueAt result.1 d' s v := by
  obtain ⟨bt, par, h1, h2, h3⟩ := C82_accepted_models_are_solved_partial hp hev hs hcore hexo hkeep hnd hother senv
    hfit hallowed (fun _ t _ ht => absurd ht (hno t)) rng hrng sqrt ols maxLog
  refine ⟨bt, par, h1, h2, fun seed ev0 hev0 => ?_⟩
  obtain ⟨h4, V, h5, h6⟩ := h3 seed ev0 hev0
  refine ⟨h4, fun d hd d' hd' heff s hmem => ⟨V d s, h6 d hd s hmem, ?_⟩⟩
  have hV := IsSolution.indistinguishable (C82_processed_models_well_formed hp hev hs hcore)
    (indistinguishable_static hp hev hs hcore senv) hno h5 d d' ⟨hd, hd', heff⟩ s hmem
  rw [hV]
  exact h6 d' hd' s hmem

theorem levelProbability_congr (ep : ExogenousParams) (row row' : StateRow ℝ) (e : List Nat)
    (h : ∀ levels ∈ ep, ∀ beta ∈ levels, ∀ item ∈ beta, row item.1 = row' item.1) :
    levelProbability ep row e = levelProbability ep row' e := by
  unfold levelProbability
  have : (ep.map fun levels => levels.map (linearIndex row)) = ep.map fun levels => levels.map (linearIndex row') := by
    refine List.map_congr_left fun levels hl => List.map_congr_left fun beta hb => ?_
    unfold linearIndex
    congr 1
    exact List.map_congr_left fun item hi => by rw [h levels hl beta hb item hi]
  rw [this]

/-- **C101 (partial)** with exogenous processes, for relations which are kept when the processes move. -/
theorem C101_exogenous_values_partial (hp : processModel env m = some p) (hev : ev.Contract)
    (hs : p.Supported m ev core) (hcore : createCore (p.buildSpec ev).core = some core)
    (hexo : p.exogenous ≠ []) (static : List (Str × Nat)) (htypes : p.nTypes < 2)
    (hobs : p.observables.map (fun o => (o.1, o.2.length)) = static ++ p.exogenous.map fun o => (o.1, o.2.length))
    (hnames : ∀ e ∈ p.exogenous, ∀ level ∈ e.2, ∀ item ∈ level.2, item.1 ∈ p.columns true)
    (hkeep : env.KeepsShape) (hnd : (Dict.keys m.params).Nodup)
    (hother : ∀ q ∈ m.params, mentionsShocks q.1 = true → ∃ c ∈ shockCategories, q.1.1 = c.toList)
    (senv : SolveEnv) (hfit : senv.Fits (p.buildSpec ev) core)
    (hallowed : ∀ d ∈ (p.buildSpec ev).denseIndices, ∀ s ∈ core, ∃ c ∈ p.choices.choices, p.Allowed m ev d s c)
    (hno : ∀ t, ¬ (p.buildSpec ev).Interpolates core t)
    (rng : InterpolationRandom) (hrng : rng.Contract) (sqrt : ℝ → ℝ) (ols : List ℝ → List (List ℝ) → List ℝ)
    (maxLog : ℝ) :
    ∃ bt transition par, buildSpace (p.buildSpec ev) = some bt ∧
      (p.solveInput ev senv).transitions p.exogenousParams (p.buildSpec ev) bt = some transition ∧
      (p.solveInput ev senv).paramObjects bt transition = some par ∧
      ∀ (seed : Nat) (ev0 : Dict Nat (List ℝ)), SameShape (initialValues bt.space) ev0 →
        let result := solveBackward bt.space (kw94 bt.space rng sqrt ols
          (expShocks Real.exp maxLog p.choices.wWage.length p.cholesky)) par seed ev0
        result.2 = true ∧ ∀ R : Option Nat → Option Nat → Prop,
          (∀ d d', R d d' → d ∈ (p.buildSpec ev).denseIndices ∧ d' ∈ (p.buildSpec ev).denseIndices ∧
            p.SameEffects m ev core d d' ∧
            (∀ s ∈ core, ∀ e ∈ p.exogenous, ∀ level ∈ e.2, ∀ item ∈ level.2,
              p.covariates ev d s item.1 = p.covariates ev d' s item.1) ∧
            ∀ e ∈ exogenousGrid (p.exogenous.map fun e => e.2.length),
              R ((p.buildSpec ev).successor d e) ((p.buildSpec ev).successor d' e)) →
          ∀ d d', R d d' → ∀ s ∈ core, ∃ v, bt.ValueAt result.1 d s v ∧ bt.ValueAt result.1 d' s v := by
  obtain ⟨bt, transition, par, h1, ht, h2, h3⟩ := C82_exogenous_models_are_solved_partial hp hev hs hcore hexo static
    htypes hobs hnames hkeep hnd hother senv hfit hallowed (fun _ t _ ht => absurd ht (hno t)) rng hrng sqrt ols maxLog
  refine ⟨bt, transition, par, h1, ht, h2, fun seed ev0 hev0 => ?_⟩
  obtain ⟨h4, V, h5, h6⟩ := h3 seed ev0 hev0
  refine ⟨h4, fun R hR d d' hdd s hmem => ⟨V d s, h6 d (hR d d' hdd).1 s hmem, ?_⟩⟩
  have hind := C101_indistinguishable hp hev hs hcore senv
    (fun d s => (exogenousGrid (p.exogenous.map fun e => e.2.length)).map fun e =>
      ((p.buildSpec ev).successor d e, levelProbability p.exogenousParams (p.covariates ev d s) e)) R
    (fun d d' h => ⟨(hR d d' h).1, (hR d d' h).2.1⟩) (fun d d' h => (hR d d' h).2.2.1) (by
      intro d d' h s hs' _
      obtain ⟨_, _, _, g1, g2⟩ := hR d d' h
      rw [List.forall₂_map_left_iff, List.forall₂_map_right_iff]
      refine List.forall₂_same.2 fun e he => ⟨g2 e he, levelProbability_congr _ _ _ _ ?_⟩
      intro levels hl beta hb item hi
      obtain ⟨e', he', rfl⟩ := List.mem_map.1 hl
      obtain ⟨level, hlev, rfl⟩ := List.mem_map.1 hb
      exact g1 s hs' e' he' level hlev item hi)
  have hV := IsSolution.indistinguishable (C82_processed_models_well_formed hp hev hs hcore) hind hno h5 d d' hdd s hmem
  rw [hV]
  exact h6 d' (hR d d' hdd).2.1 s hmem

/-- **C101 (partial).** Individuals in samples from accepted models without exogenous processes who differ only in
characteristics without effects, and who start in the same core state and have the same draws, have the same
experiences, lagged choices, shocks, values, choices and wages in each period. Missing: interpolation and exogenous
processes. -/
theorem C101_same_path_partial (hp : processModel env m = some p) (hev : ev.Contract)
    (hs : p.Supported m ev core) (hcore : createCore (p.buildSpec ev).core = some core)
    (hexo : p.exogenous = []) (hkeep : env.KeepsShape) (hnd : (Dict.keys m.params).Nodup)
    (hother : ∀ q ∈ m.params, mentionsShocks q.1 = true → ∃ c ∈ shockCategories, q.1.1 = c.toList)
    (senv : SolveEnv) (hfit : senv.Fits (p.buildSpec ev) core)
    (hallowed : ∀ d ∈ (p.buildSpec ev).denseIndices, ∀ s ∈ core, ∃ c ∈ p.choices.choices, p.Allowed m ev d s c)
    (hno : ∀ t, ¬ (p.buildSpec ev).Interpolates core t)
    (rng : InterpolationRandom) (hrng : rng.Contract) (sqrt : ℝ → ℝ) (ols : List ℝ → List (List ℝ) → List ℝ)
    (maxLog : ℝ) (seed : Nat)
    (ev0 : Built → Dict Nat (List ℝ)) (hev0 : ∀ bt, SameShape (initialValues bt.space) (ev0 bt))
    (vc ko : List Nat → List Nat) :
    ∃ bt sp, buildSpace (p.buildSpec ev) = some bt ∧
      (p.solveInput ev senv).solveModel (p.buildSpec ev) (fun _ => some []) (kw94 bt.space rng sqrt ols
        (expShocks Real.exp maxLog p.choices.wWage.length p.cholesky)) seed ev0 vc ko = some sp ∧
      ∀ (rs rs' : RandomSource ℝ G), rs.Contract → rs'.Contract → ∀ (rp : RewardParams ℝ)
        (draws drawsWage draws' drawsWage' : List (List ℝ)) (periods : Nat), periods ≤ p.nPeriods →
      ∀ (agents agents' : List (Nat × SimState)) (g1 g2 g1' g2' : G) (data data' : List (List (SimRow ℝ))),
        (∀ a ∈ agents, a.2.core.period = 0) → (∀ a ∈ agents', a.2.core.period = 0) →
        simulateLoop rs rp sp draws drawsWage periods 0 agents g1 = some (data, g2) →
        simulateLoop rs' rp sp draws' drawsWage' periods 0 agents' g1' = some (data', g2') →
      ∀ (i j : Nat) (id id' : Nat) (s s' : SimState), agents[i]? = some (id, s) → agents'[j]? = some (id', s') →
        s.core ∈ core → s.core = s'.core →
      ∀ d d', (p.buildSpec ev).HasIndex s.dense d → (p.buildSpec ev).HasIndex s'.dense d' →
        p.SameEffects m ev core d d' →
        (∀ t < periods, draws[agents.length * t + i]? = draws'[agents'.length * t + j]?) →
        (∀ t < periods, drawsWage[agents.length * t + i]? = drawsWage'[agents'.length * t + j]?) →
      ∀ (t : Nat) rows rows' row row', data[t]? = some rows → data'[t]? = some rows' →
        rows[i]? = some row → rows'[j]? = some row' → SameHistory row row' := by
  have wf := C82_processed_models_well_formed hp hev hs hcore
  have hexo' : (p.buildSpec ev).exogLevels = [] := by simp [Processed.buildSpec, hexo]
  have hinp := C82_solve_input_well_formed hp hs hcore (denseColumns_static p hexo) hkeep hnd hother senv hfit
  obtain ⟨bt, par, hbuild, h1, hsol⟩ := C82_accepted_models_are_solved_partial hp hev hs hcore hexo hkeep hnd hother
    senv hfit hallowed (fun _ t _ ht => absurd ht (hno t)) rng hrng sqrt ols maxLog
  obtain ⟨hok, V, hVF, hV⟩ := hsol seed (ev0 bt) (hev0 bt)
  obtain ⟨bt', hbuild', hsnd⟩ := buildSpace_noExogenous _ core wf hexo'
  rw [hbuild] at hbuild'; cases hbuild'
  obtain ⟨par', h1', _, _, hpf⟩ := hinp.paramsFit wf hsnd []
  rw [h1] at h1'; cases h1'
  have hso := hsnd.solved_noExogenous wf hexo' hbuild ((denseLevels_grid p ev).nodup (denseLevels_nodup p)) hpf
  have hind := indistinguishable_static hp hev hs hcore senv
  refine ⟨bt, bt.simSpace (p.buildSpec ev) par (solveBackward bt.space (kw94 bt.space rng sqrt ols
    (expShocks Real.exp maxLog p.choices.wWage.length p.cholesky)) par seed (ev0 bt)).1 vc ko, hbuild, ?_, ?_⟩
  · unfold SolveInput.solveModel
    have hok' : (solveBackward bt.space (kw94 bt.space rng sqrt ols
      (expShocks Real.exp maxLog p.choices.wWage.length p.cholesky)) par seed (ev0 bt)).2 = true := hok
    simp only [hbuild, h1, Option.bind_eq_bind, Option.bind_some, hok', if_true]
  · intro rs rs' hrs hrs' rp draws drawsWage draws' drawsWage' periods hperiods agents agents' g1 g2 g1' g2' data data'
      hper hper' h h' i j id id' s s' hi hj hsc hss d d' hd hd' heff hdr hdw t rows rows' row row' ht ht' hr hr'
    exact (hso.same_path hexo' ((hev0 bt).trans (backwardLoop_shape _ _ _ _ _ _)) hV vc ko hind
      (fun d d' hdd s hs' => IsSolution.indistinguishable wf hind hno hVF d d' hdd s hs') rs rs' hrs hrs' rp draws
      drawsWage draws' drawsWage' periods hperiods agents agents' g1 g2 g1' g2' data data' hper hper' h h' i j id id'
      s s' hi hj hsc hss d d' hd hd' ⟨hd.mem, hd'.mem, heff⟩ hdr hdw t rows rows' row row' ht ht' hr hr').1

end

end Respy
