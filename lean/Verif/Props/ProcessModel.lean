import Verif.Lemmas.ProcessModel2
import Verif.Props.InterpolatedSolution
import Verif.Props.LaggedChoices

/-!
# C82: from parameters and options to the solution

Models which are accepted by `process_params_and_options` are solved. Rewards and restrictions are the ones which the
parameters and options name.
-/

namespace Respy

section
variable {env : ProcessEnv} {m : UserModel} {p : Processed} {ev : FormulaEval} {core : List CoreState}

theorem Processed.Described.spec {covariates : Dict Str Str} (h : ProcessedFrom env m p covariates)
    (hs : p.Described m ev core) : (p.buildSpec ev).core.WF where
  experience := by
    intro h0
    have h1 : p.experience = [] := List.map_eq_nil_iff.1 h0
    have h2 := h.experience_length
    rw [h1] at h2
    exact hs.experience (List.length_eq_zero_iff.1 h2.symm)
  len := by simp [Processed.buildSpec]
  nonempty := by
    intro l hl
    obtain ⟨e, he, rfl⟩ := List.mem_map.1 hl
    exact h.start_ne e he
  starts_lt := by
    intro l hl x hx
    obtain ⟨e, he, rfl⟩ := List.mem_map.1 hl
    exact hs.starts e he x hx
  max_lt := by
    intro l hl
    obtain ⟨e, he, rfl⟩ := List.mem_map.1 hl
    exact hs.maxima e he
  choice := List.length_pos_of_ne_nil hs.choice

theorem Processed.Described.shaped {covariates : Dict Str Str} (h : ProcessedFrom env m p covariates)
    (hs : p.Described m ev core) (hcore : createCore (p.buildSpec ev).core = some core) (s : CoreState)
    (hmem : s ∈ core) : p.Shaped s := by
  obtain ⟨_, _, h3, h4, h5⟩ := (C05_core_mem_iff _ (hs.spec h) hs.lags core hcore s).1 hmem
  refine ⟨?_, h4, fun l hl => ?_⟩
  · rw [h3.length_eq, ← h.experience_length]
    simp [Processed.buildSpec]
  · obtain ⟨c, _, rfl⟩ := h5 l hl
    rfl

/-- The columns of the frame of a dense index. -/
theorem isSome_of_mem_denseIndices (p : Processed) (ev : FormulaEval) (d : Option Nat)
    (hd : d ∈ (p.buildSpec ev).denseIndices) : d.isSome = (denseGrid p.denseSpec).isSome := by
  unfold BuildSpec.denseIndices at hd
  have hg : (p.buildSpec ev).grid = denseGrid p.denseSpec := rfl
  rw [hg] at hd
  cases hgrid : denseGrid p.denseSpec with
  | none => rw [hgrid] at hd; simp at hd; rw [hd]; rfl
  | some grid =>
    rw [hgrid] at hd
    obtain ⟨i, _, rfl⟩ := List.mem_map.1 hd
    rfl

theorem choiceSetAt_restrictions (p : Processed) (ev : FormulaEval) (d : Option Nat) (s : CoreState) :
    (p.buildSpec ev).choiceSetAt d s = choiceSet (p.restrictions ev d) s := by
  cases d <;> rfl

theorem choiceSetAt_length (p : Processed) (ev : FormulaEval) (d : Option Nat) (s : CoreState) :
    ((p.buildSpec ev).choiceSetAt d s).length = p.choices.choices.length := by
  rw [choiceSetAt_restrictions]; simp [choiceSet, Processed.restrictions]

/-- **C82.** The admissible choices of a state are given by name: choice `c` at position `a` is admissible
if and only if none of the formulas which the user gave for `c` holds in the state, and the experience in `c`
has not reached a maximum that can be exceeded. -/
theorem C82_choice_sets_by_name (hp : processModel env m = some p) (hev : ev.Contract)
    (hs : p.Described m ev core) (hcore : createCore (p.buildSpec ev).core = some core)
    (d : Option Nat) (hd : d ∈ (p.buildSpec ev).denseIndices) (s : CoreState) (hmem : s ∈ core) (a : Nat)
    (c : Str) (hc : p.choices.choices[a]? = some c) :
    ((p.buildSpec ev).choiceSetAt d s)[a]? = some true ↔ p.Allowed m ev d s c := by
  obtain ⟨covs, h⟩ := processModel_from env m p hp
  rw [choiceSetAt_restrictions]
  refine h.allowed hev d ?_ hs.names s (hs.shaped h hcore s hmem) (hs.computable d hd s hmem) a c hc
  rw [isSome_of_mem_denseIndices p ev d hd]
  exact hs.restrictions

/-- All states of described models have a dense key. -/
theorem Processed.Described.grouped (hp : processModel env m = some p) (hev : ev.Contract)
    (hs : p.Described m ev core) (hcore : createCore (p.buildSpec ev).core = some core) :
    (p.buildSpec ev).Grouped core := by
  obtain ⟨covs, h⟩ := processModel_from env m p hp
  have hspec := hs.spec h
  have hgrid : ∀ grid, (p.buildSpec ev).grid = some grid → ∀ d < grid.length,
      some d ∈ (p.buildSpec ev).denseIndices := by
    intro grid hg d hd
    unfold BuildSpec.denseIndices
    rw [hg]
    exact List.mem_map.2 ⟨d, List.mem_range.2 hd, rfl⟩
  have hsep : ∀ grid, (p.buildSpec ev).grid = some grid → ∀ d < grid.length, ∀ s ∈ core, ∀ s' ∈ core,
      s.period = s'.period →
      (choiceSet ((p.buildSpec ev).restr d) s = choiceSet ((p.buildSpec ev).restr d) s' ↔
        choiceSet (p.buildSpec ev).restrCore s = choiceSet (p.buildSpec ev).restrCore s') := by
    intro grid hg d hd s hmem s' hmem' ht
    rcases hs.separate with hr | hsep
    · have hsame : ∀ s ∈ core, choiceSet ((p.buildSpec ev).restr d) s = choiceSet (p.buildSpec ev).restrCore s :=
        fun s hmem => h.same_sets hev hr hs.names s (hs.shaped h hcore s hmem) (some d)
          (hs.computable _ (hgrid grid hg d hd) s hmem)
      rw [hsame s hmem, hsame s' hmem']
    · exact hsep (some d) (hgrid grid hg d hd) s hmem s' hmem' ht
  refine ⟨hspec, hcore, hs.periods, hs.covered, ?_, ?_, ?_⟩
  · intro grid hg
    have h3 : (p.buildSpec ev).restrCore.length = p.choices.choices.length := by
      simp [Processed.buildSpec, Processed.restrictions]
    rw [h3]
    exact hs.several grid hg
  · intro grid hg d hd s h1 s' h2 ht h3
    exact (hsep grid hg d hd s h1 s' h2 ht).2 h3
  · intro grid hg d hd s h1 s' h2 ht h3
    exact (hsep grid hg d hd s h1 s' h2 ht).1 h3

/-- **C82.** The state space of supported models is well-formed. -/
theorem C82_processed_models_well_formed (hp : processModel env m = some p) (hev : ev.Contract)
    (hs : p.Supported m ev core) (hcore : createCore (p.buildSpec ev).core = some core) :
    (p.buildSpec ev).WF core := by
  obtain ⟨h1, h2, h3, h4, h5, h6, h7⟩ := hs.grouped hp hev hcore
  refine ⟨h1, h2, h3, h4, h5, h6, h7, ?_⟩
  obtain ⟨covs, h⟩ := processModel_from env m p hp
  have hspec := hs.spec h
  intro s hmem ht d hd a ha
  have hlt : a < p.choices.choices.length := by
    have := (List.getElem?_eq_some_iff.1 ha).1
    rwa [choiceSetAt_length] at this
  have hall := (C82_choice_sets_by_name hp hev hs.toDescribed hcore d hd s hmem a _ (List.getElem?_eq_getElem hlt)).1 ha
  rcases hs.closed with hfil | hclosed
  swap
  · exact hclosed s hmem ht d hd a _ (List.getElem?_eq_getElem hlt) hall
  have hf : (p.buildSpec ev).core.filters = [] := by simp [Processed.buildSpec, hfil]
  refine C02_closed_under_admissible_choices _ hspec hs.lags hf core hcore s hmem ht a hlt ?_
  by_contra hne
  have hne : defaultInadmissible (p.buildSpec ev).core s a = true := by simpa using hne
  unfold defaultInadmissible at hne
  split at hne
  · next start mx e h1 h2 h3 =>
    split at hne
    · next f hf' =>
      simp only [Processed.buildSpec, List.getElem?_map, Option.map_eq_some_iff] at h1 h2
      obtain ⟨x, hx, rfl⟩ := h1
      obtain ⟨y, hy, rfl⟩ := h2
      rw [hx] at hy; cases hy
      have hw : a < p.choices.wExp.length := by
        rw [← h.experience_length]; exact (List.getElem?_eq_some_iff.1 hx).1
      have hcode := h.code a _ (List.getElem?_eq_getElem hw)
      rw [List.getElem?_eq_getElem hlt] at hcode
      simp only [Option.some.injEq] at hcode
      obtain ⟨g1, g2⟩ := (defaultFormula_eval _ _ _ _ _ hf').1 hne
      exact hall.2 a x.1 x.2 e (by rw [List.getElem?_eq_getElem hw, hcode]) hx h3 g1 g2
    · cases hne
  · cases hne

/-- Columns of the frames. -/
theorem Processed.Supported.column {covariates : Dict Str Str} (h : ProcessedFrom env m p covariates)
    (hs : p.Supported m ev core) (hcore : createCore (p.buildSpec ev).core = some core)
    (hlen : ∀ grid, denseGrid p.denseSpec = some grid → ∀ point ∈ grid,
      (denseColumns p.denseSpec).length ≤ point.length)
    (d : Option Nat) (hd : d ∈ (p.buildSpec ev).denseIndices) (s : CoreState) (hmem : s ∈ core) (x : Str)
    (hx : x ∈ p.columns (denseGrid p.denseSpec).isSome) : (p.covariates ev d s x).isSome := by
  have hsh := hs.shaped h hcore s hmem
  obtain ⟨df, hdf⟩ := Option.isSome_iff_exists.1 (hs.computable d hd s hmem)
  unfold Processed.covariates
  rw [hdf, Option.bind_some]
  have hkey : x ∈ Dict.keys df.columns → (Dict.get? df.columns x).isSome := by
    intro hk
    obtain ⟨v, hv⟩ := (get?_isSome_iff df.columns x).2 hk
    rw [hv]; rfl
  apply hkey
  cases d with
  | none =>
    have hgrid : denseGrid p.denseSpec = none := by
      cases hg : denseGrid p.denseSpec with
      | none => rfl
      | some grid =>
        unfold BuildSpec.denseIndices at hd
        have hg' : (p.buildSpec ev).grid = some grid := hg
        rw [hg'] at hd
        simp at hd
    rw [hgrid] at hx
    exact ((hsh.coreFrame ev df hdf).2 x).2 hx
  | some d =>
    unfold Processed.stateFrame at hdf
    simp only [Option.bind_eq_bind, Option.bind_eq_some_iff] at hdf
    obtain ⟨grid, hgrid, point, hpoint, hdf⟩ := hdf
    obtain ⟨co, de, h1, h2, h3, h4⟩ := hsh.denseStateFrame ev hs.names h.groups_dense point df hdf
    rw [h4]
    rw [hgrid] at hx
    unfold Processed.columns at hx
    simp only [Option.isSome_some, if_true, List.mem_append] at hx
    rcases hx with hx | hx | hx
    · left
      unfold Processed.columns
      simpa using hx
    · exact Or.inr (Or.inl (denseFrame_columns p ev point de h2
        (hlen grid hgrid point (List.mem_of_getElem? hpoint)) x hx))
    · exact Or.inr (Or.inr hx)

/-- The shape of `shocks_cholesky`. -/
theorem ProcessedFrom.cholesky_shape {covariates : Dict Str Str} (h : ProcessedFrom env m p covariates)
    (hkeep : env.KeepsShape) (hnd : (Dict.keys m.params).Nodup)
    (hother : ∀ q ∈ m.params, mentionsShocks q.1 = true → ∃ c ∈ shockCategories, q.1.1 = c.toList) :
    p.cholesky.length = p.choices.choices.length ∧ ∀ row ∈ p.cholesky, row.length = p.choices.choices.length := by
  obtain ⟨sh, h1, h2⟩ := h.shocks
  have hval := h.validated
  rw [h.choices] at hval
  have hm := C77_shock_matrix m.params hnd covariates hother sh h1 hval
  rw [← h.choices] at hm
  have hdim : sh.dim = p.choices.choices.length := hm.1
  rw [h2, ← hdim]
  unfold ShockMatrix.cholesky
  dsimp only
  have hrows : ((List.range sh.dim).map fun i => (List.range sh.dim).map (sh.entry i)).length = sh.dim ∧
      ∀ r ∈ (List.range sh.dim).map fun i => (List.range sh.dim).map (sh.entry i), r.length = sh.dim := by
    refine ⟨by simp, fun r hr => ?_⟩
    obtain ⟨i, _, rfl⟩ := List.mem_map.1 hr
    simp
  split
  · exact hrows
  · exact hkeep _ _ hrows.1 hrows.2

/-- **C82.** The parameters and covariates of a supported model fit to its state space. -/
theorem C82_solve_input_well_formed (hp : processModel env m = some p)
    (hs : p.Supported m ev core) (hcore : createCore (p.buildSpec ev).core = some core)
    (hlen : ∀ grid, denseGrid p.denseSpec = some grid → ∀ point ∈ grid,
      (denseColumns p.denseSpec).length ≤ point.length)
    (hkeep : env.KeepsShape) (hnd : (Dict.keys m.params).Nodup)
    (hother : ∀ q ∈ m.params, mentionsShocks q.1 = true → ∃ c ∈ shockCategories, q.1.1 = c.toList)
    (senv : SolveEnv) (hfit : senv.Fits (p.buildSpec ev) core) :
    (p.solveInput ev senv).WF (p.buildSpec ev) core := by
  obtain ⟨covs, h⟩ := processModel_from env m p hp
  obtain ⟨hc1, hc2⟩ := h.cholesky_shape hkeep hnd hother
  refine ⟨?_, ?_, hfit.sizes, hfit.base, fun row hr => (hc2 row hr).trans hc1.symm, fun d _ s _ => ?_⟩
  · intro a beta hb item hi d hd s hmem
    obtain ⟨c, hc, hb⟩ := Option.bind_eq_some_iff.1 hb
    exact hs.column h hcore hlen d hd s hmem _
      (hs.rewards c (List.mem_of_getElem? hc) beta (Or.inl hb) item hi)
  · intro a beta hb item hi d hd s hmem
    obtain ⟨c, hc, hb⟩ := Option.bind_eq_some_iff.1 hb
    exact hs.column h hcore hlen d hd s hmem _
      (hs.rewards c (List.mem_of_getElem? hc) beta (Or.inr hb) item hi)
  · exact (choiceSetAt_length p ev d s).trans hc1.symm

/-- **C82.** Rewards are given by name: the wage of the alternative with name `c` is the exponential of the sum
over the parameters in the category `wage_c`, each multiplied with the covariate of its name; it is one if
there are no such parameters. -/
theorem C82_wages_by_name (hp : processModel env m = some p) (senv : SolveEnv) (d : Option Nat)
    (s : CoreState) (a : Nat) (c : Str) (hc : p.choices.choices[a]? = some c) :
    (p.solveInput ev senv).wageOf d s a = Real.exp
      (((m.params.filter fun q => q.1.1 = "wage_".toList ++ c).map fun q =>
        q.2 * (p.covariates ev d s q.1.2).getD 0).sum) := by
  obtain ⟨covs, h⟩ := processModel_from env m p hp
  unfold SolveInput.wageOf
  have hw : (p.solveInput ev senv).rewards.wage a = choiceParameters m.params ("wage_".toList ++ c) := by
    unfold Processed.solveInput
    dsimp only
    rw [hc, Option.bind_some, h.wage]
  rw [hw]
  unfold choiceParameters
  split
  · next hn =>
    split at hn
    · cases hn
    · next hany =>
      have : (m.params.filter fun q => q.1.1 = "wage_".toList ++ c) = [] := by
        rw [List.filter_eq_nil_iff]
        intro q hq hh
        exact hany (List.any_eq_true.2 ⟨q, hq, hh⟩)
      rw [this]; simp
  · next beta hb =>
    split at hb
    · simp only [Option.some.injEq] at hb
      subst hb
      unfold linearIndex
      rw [List.map_map]
      rfl
    · cases hb

/-- **C82.** The non-pecuniary reward of the alternative with name `c` is the sum over the parameters in the
category `nonpec_c`, each multiplied with the covariate of its name. -/
theorem C82_nonpecs_by_name (hp : processModel env m = some p) (senv : SolveEnv) (d : Option Nat)
    (s : CoreState) (a : Nat) (c : Str) (hc : p.choices.choices[a]? = some c) :
    (p.solveInput ev senv).nonpecOf d s a =
      ((m.params.filter fun q => q.1.1 = "nonpec_".toList ++ c).map fun q =>
        q.2 * (p.covariates ev d s q.1.2).getD 0).sum := by
  obtain ⟨covs, h⟩ := processModel_from env m p hp
  unfold SolveInput.nonpecOf
  have hw : (p.solveInput ev senv).rewards.nonpec a = choiceParameters m.params ("nonpec_".toList ++ c) := by
    unfold Processed.solveInput
    dsimp only
    rw [hc, Option.bind_some, h.nonpec]
  rw [hw]
  unfold choiceParameters
  split
  · next hn =>
    split at hn
    · cases hn
    · next hany =>
      have : (m.params.filter fun q => q.1.1 = "nonpec_".toList ++ c) = [] := by
        rw [List.filter_eq_nil_iff]
        intro q hq hh
        exact hany (List.any_eq_true.2 ⟨q, hq, hh⟩)
      rw [this]; simp
  · next beta hb =>
    split at hb
    · simp only [Option.some.injEq] at hb
      subst hb
      unfold linearIndex
      rw [List.map_map]
      rfl
    · cases hb

/-- **C82.** Initial and maximum experience are given by name. The maximum of choice `c` is the parameter
`maximum_exp, c`, or `n_periods - 1` more than the largest initial experience. The initial experiences are the
numbers `k` of the categories `initial_exp_c_k`, or zero if there is none. -/
theorem C82_experience_by_name (hp : processModel env m = some p) (i : Nat) (c : Str)
    (hi : p.choices.wExp[i]? = some c) :
    ∃ start mx, p.experience[i]? = some (start, mx) ∧
      (∀ v, Dict.get? m.params ("maximum_exp".toList, c) = some v → mx = ⌊v⌋₊) ∧
      (Dict.get? m.params ("maximum_exp".toList, c) = none →
        ∃ x ∈ Dict.keys start, (∀ y ∈ Dict.keys start, y ≤ x) ∧ mx = x + m.nPeriods - 1) ∧
      (∀ k q, q ∈ m.params → q.1.1 = "initial_exp_".toList ++ c ++ ['_'] ++ Nat.toDigits 10 k →
        k ∈ Dict.keys start) ∧
      (∀ k ∈ Dict.keys start,
        (∃ q ∈ m.params, ∃ t : Str, "initial_exp_".toList ++ c ++ ['_'] ++ t <:+: q.1.1 ∧
          (∀ x ∈ t, x.isDigit = true) ∧ digitsValue t = k) ∨
        (k = 0 ∧ ∀ q ∈ m.params, ∀ n, q.1.1 ≠ "initial_exp_".toList ++ c ++ ['_'] ++ Nat.toDigits 10 n)) := by
  obtain ⟨covs, h⟩ := processModel_from env m p hp
  have he := mapM_getElem? _ _ _ h.experience i c hi
  have hlt : i < p.experience.length := by
    rw [h.experience_length]; exact (List.getElem?_eq_some_iff.1 hi).1
  obtain ⟨⟨start, mx⟩, hx⟩ : ∃ e, p.experience[i]? = some e := ⟨_, List.getElem?_eq_getElem hlt⟩
  rw [hx] at he
  have hne : Dict.keys start ≠ [] := h.start_ne _ (List.mem_of_getElem? hx)
  unfold parseExperience at he
  simp only [Option.bind_eq_bind] at he
  obtain ⟨parsed, h1, he⟩ := Option.bind_eq_some_iff.1 he.symm
  obtain ⟨mx', h2, h3⟩ := Option.bind_eq_some_iff.1 he
  simp only [Option.pure_def, Option.some.injEq, Prod.mk.injEq] at h3
  obtain ⟨h3, rfl⟩ := h3
  rw [h3] at h2
  have hextract : ∀ q ∈ m.params, ∀ k, q.1.1 = "initial_exp_".toList ++ c ++ ['_'] ++ Nat.toDigits 10 k →
      (⟨k, q.1.2, q.2⟩ : GroupParam Nat) ∈ experienceParams c m.params := by
    intro q hq k hk
    refine List.mem_filterMap.2 ⟨q, hq, ?_⟩
    rw [hk, extract_prefix_name _ _ Char.isDigit (by simp) (by
      intro x hx
      have : x = 'i' := by simpa using hx.symm
      subst this; decide) (Nat.toDigits_ne_nil) (fun x hx => codeText_digits k x hx) (by
      intro x hx
      simp [isWordChar, Char.isAlphanum, hx])]
    rw [Option.map_some, digitsValue_toDigits]
  have hkeys : ∀ k, k ∈ Dict.keys start ↔
      (∃ g ∈ experienceParams c m.params, g.level = k) ∨ (k = 0 ∧ experienceParams c m.params = []) := by
    intro k
    have h1' := toOption_eq_some h1
    cases parsed with
    | none =>
      have hnil : experienceParams c m.params = [] := by
        by_contra hne'
        unfold parseGroup at h1'
        rw [if_neg (by simpa using hne')] at h1'
        dsimp only at h1'
        split at h1'
        · cases h1'
        · split at h1' <;> cases h1'
      rw [← h3, hnil]
      simp [Dict.keys]
    | some d =>
      rw [← h3, Option.getD_some, parseGroup_keys _ _ _ h1']
      have hne' : experienceParams c m.params ≠ [] := by
        intro h0
        rw [h0] at h1'
        simp [parseGroup] at h1'
      rw [(List.perm_insertionSort _ _).mem_iff, List.mem_dedup, List.mem_map]
      simp [hne']
  refine ⟨start, mx', hx, fun v hv => ?_, fun hv => ?_, fun k q hq hk => ?_, fun k hk => ?_⟩
  · rw [hv] at h2
    simpa [parseMax] using h2.symm
  · rw [hv] at h2
    simp only [Option.map_none, parseMax, defaultMax] at h2
    obtain ⟨x, hx1, hx2, hx3⟩ := pyMax_spec _ hne
    rw [hx1] at h2
    simp only [Option.map_some, Option.some.injEq] at h2
    exact ⟨x, hx2, hx3, h2.symm⟩
  · exact (hkeys k).2 (Or.inl ⟨_, hextract q hq k hk, rfl⟩)
  · rcases (hkeys k).1 hk with ⟨g, hg, rfl⟩ | ⟨rfl, h0⟩
    · left
      obtain ⟨q, hq, h4⟩ := List.mem_filterMap.1 hg
      obtain ⟨t, ht, rfl⟩ := Option.map_eq_some_iff.1 h4
      obtain ⟨h5, _, h6⟩ := extract_sound _ _ _ _ ht
      exact ⟨q, hq, t, h5, h6, rfl⟩
    · right
      refine ⟨rfl, fun q hq n hn => ?_⟩
      have := hextract q hq n hn
      rw [h0] at this; cases this

theorem denseGrid_eq (spec : DenseSpec) (grid : List (List Nat)) (h : denseGrid spec = some grid) :
    grid = product (spec.observables.map (fun o => List.range o.2) ++
      if 2 ≤ spec.nTypes then [List.range spec.nTypes] else []) := by
  unfold denseGrid at h
  dsimp only at h
  by_cases h0 : product (spec.observables.map (fun o => List.range o.2) ++
      if 2 ≤ spec.nTypes then [List.range spec.nTypes] else []) = [[]]
  · rw [if_pos h0] at h; cases h
  · rw [if_neg h0] at h; exact (Option.some.inj h).symm

/-- Names of types and observables when there are no exogenous processes. -/
theorem denseColumns_static (p : Processed) (hexo : p.exogenous = []) :
    ∀ grid, denseGrid p.denseSpec = some grid → ∀ point ∈ grid,
      (denseColumns p.denseSpec).length ≤ point.length := by
  intro grid hg point hpoint
  rw [denseGrid_eq _ _ hg, mem_product] at hpoint
  rw [hpoint.length_eq]
  unfold denseColumns
  simp only [Processed.denseSpec, hexo, List.map_nil, List.append_nil, List.length_append, List.length_map]
  refine Nat.add_le_add (List.length_filter_le _ _ |>.trans (by simp)) ?_
  split <;> simp

/-- Names of observables when the exogenous processes come last. -/
theorem denseColumns_exogenous (p : Processed) (static : List (Str × Nat)) (htypes : p.nTypes < 2)
    (hobs : p.observables.map (fun o => (o.1, o.2.length)) = static ++ p.exogenous.map fun o => (o.1, o.2.length)) :
    ∀ grid, denseGrid p.denseSpec = some grid → ∀ point ∈ grid,
      (denseColumns p.denseSpec).length ≤ point.length := by
  have hobs' : p.denseSpec.observables = (static.map fun o => (String.ofList o.1, o.2)) ++ p.denseSpec.exogenous := by
    have := congrArg (List.map fun o : Str × Nat => (String.ofList o.1, o.2)) hobs
    rw [List.map_map, List.map_append, List.map_map] at this
    exact this
  intro grid hg point hpoint
  rw [denseGrid_eq _ _ hg, mem_product] at hpoint
  rw [hpoint.length_eq]
  unfold denseColumns
  have hnt : ¬ 2 ≤ p.denseSpec.nTypes := by
    have : p.denseSpec.nTypes = p.nTypes := rfl
    omega
  rw [if_neg hnt, if_neg hnt, hobs', List.map_append, List.filter_append]
  have h0 : (p.denseSpec.exogenous.map Prod.fst).filter
      (fun x => !(p.denseSpec.exogenous.map Prod.fst).contains x) = [] := by
    rw [List.filter_eq_nil_iff]
    intro x hx
    simp [hx]
  rw [h0]
  simp only [List.append_nil, List.length_append, List.length_map]
  exact Nat.add_le_add_right ((List.length_filter_le _ _).trans (by simp)) _

/-- **C82 (partial).** Every supported model without exogenous processes which is accepted is solved. The creation
of the state space and the preparation of the solution succeed, the backward induction succeeds for every state of
the arrays before the call, and the number found for a state is its value in the model: `V` solves the model
whose restrictions and rewards are given by `C82_choice_sets_by_name`, `C82_wages_by_name` and
`C82_nonpecs_by_name`. Missing: restrictions which mix core and dense variables and models whose
filters leave the state space open, whose creation fails (C86), more than one lag, where the property fails
(`C86_two_lags_false`), and experiences which do not fit into eight bits. -/
theorem C82_accepted_models_are_solved_partial (hp : processModel env m = some p) (hev : ev.Contract)
    (hs : p.Supported m ev core) (hcore : createCore (p.buildSpec ev).core = some core)
    (hexo : p.exogenous = []) (hkeep : env.KeepsShape) (hnd : (Dict.keys m.params).Nodup)
    (hother : ∀ q ∈ m.params, mentionsShocks q.1 = true → ∃ c ∈ shockCategories, q.1.1 = c.toList)
    (senv : SolveEnv) (hfit : senv.Fits (p.buildSpec ev) core)
    (hallowed : ∀ d ∈ (p.buildSpec ev).denseIndices, ∀ s ∈ core, ∃ c ∈ p.choices.choices, p.Allowed m ev d s c)
    (hpts : (p.buildSpec ev).PointsSuffice core p.discount.delta)
    (rng : InterpolationRandom) (hrng : rng.Contract) (sqrt : ℝ → ℝ) (ols : List ℝ → List (List ℝ) → List ℝ)
    (maxLog : ℝ) :
    ∃ bt par, buildSpace (p.buildSpec ev) = some bt ∧ (p.solveInput ev senv).paramObjects bt [] = some par ∧
      ∀ (seed : Nat) (ev0 : Dict Nat (List ℝ)), SameShape (initialValues bt.space) ev0 →
        let result := solveBackward bt.space (kw94 bt.space rng sqrt ols
          (expShocks Real.exp maxLog p.choices.wWage.length p.cholesky)) par seed ev0
        result.2 = true ∧ ∃ V, IsSolution (p.buildSpec ev) core p.discount.delta
            (p.solveInput ev senv).wageOf (p.solveInput ev senv).nonpecOf (p.solveInput ev senv).shocks
            (fun d _ => [(d, 1)]) (expectedShock Real.exp maxLog p.choices.wWage.length p.cholesky) sqrt ols V ∧
          ∀ d ∈ (p.buildSpec ev).denseIndices, ∀ s ∈ core, bt.ValueAt result.1 d s (V d s) := by
  refine solution_all (p.buildSpec ev) core (C82_processed_models_well_formed hp hev hs hcore)
    (by simp [Processed.buildSpec, hexo]) (p.solveInput ev senv)
    (C82_solve_input_well_formed hp hs hcore (denseColumns_static p hexo) hkeep hnd hother senv hfit) ?_ hpts rng hrng
    sqrt ols maxLog
  intro d hd s hmem
  obtain ⟨c, hc, hall⟩ := hallowed d hd s hmem
  obtain ⟨a, ha⟩ := List.mem_iff_getElem?.1 hc
  exact ⟨a, (C82_choice_sets_by_name hp hev hs.toDescribed hcore d hd s hmem a c ha).2 hall⟩

theorem parseGroup_keys_ne {L : Type _} [LinearOrder L] (maxFloat : ℝ) (rows : List (GroupParam L))
    (d : Dict L (List (Str × ℝ))) (h : parseGroup maxFloat rows = .ok (some d)) : d ≠ [] := by
  intro hd
  have hk := parseGroup_keys maxFloat rows d h
  subst hd
  have hl := congrArg List.length hk
  rw [List.length_insertionSort] at hl
  have h0 : (rows.map GroupParam.level).dedup = [] := List.length_eq_zero_iff.1 hl.symm
  cases rows with
  | nil => simp [parseGroup] at h
  | cons x xs =>
    have : x.level ∈ ((x :: xs).map GroupParam.level).dedup := List.mem_dedup.2 (by simp)
    rw [h0] at this
    cases this

theorem mem_of_mapM_eq_some {α β : Type _} (f : α → Option β) (l : List α) (r : List β)
    (h : l.mapM f = some r) : ∀ y ∈ r, ∃ x ∈ l, f x = some y := by
  intro y hy
  obtain ⟨i, hi⟩ := List.mem_iff_getElem?.1 hy
  have hlt : i < l.length := by
    rw [← mapM_eq_some_length f l r h]; exact (List.getElem?_eq_some_iff.1 hi).1
  refine ⟨l[i], List.getElem_mem hlt, ?_⟩
  rw [← mapM_getElem? f l r h i _ (List.getElem?_eq_getElem hlt), hi]

theorem mapM_except_mem {ε α β : Type _} (f : α → Except ε β) (l : List α) (r : List β)
    (h : l.mapM f = .ok r) : ∀ y ∈ r, ∃ x ∈ l, f x = .ok y := by
  induction l generalizing r with
  | nil =>
    intro y hy
    have h' : (Except.ok [] : Except ε (List β)) = .ok r := h
    simp only [Except.ok.injEq] at h'
    subst h'; cases hy
  | cons a l ih =>
    rw [List.mapM_cons] at h
    cases ha : f a with
    | error e => rw [ha] at h; cases h
    | ok b =>
      rw [ha] at h
      cases hl : l.mapM f with
      | error e => rw [hl] at h; cases h
      | ok bs =>
        rw [hl] at h
        have h' : (Except.ok (b :: bs) : Except ε (List β)) = .ok r := h
        simp only [Except.ok.injEq] at h'
        subst h'
        intro y hy
        rcases List.mem_cons.1 hy with rfl | hy
        · exact ⟨a, by simp, ha⟩
        · obtain ⟨x, hx, h1⟩ := ih bs hl y hy
          exact ⟨x, List.mem_cons_of_mem _ hx, h1⟩

theorem ProcessedFrom.exogenous_ne {covariates : Dict Str Str} (h : ProcessedFrom env m p covariates) :
    ∀ e ∈ p.exogenous, e.2 ≠ [] := by
  intro e he
  have hx := h.exogenous
  unfold parseExogenous at hx
  simp only [Option.bind_eq_bind, Option.bind_eq_some_iff] at hx
  obtain ⟨names, _, parsed, h2, h3⟩ := hx
  obtain ⟨kv, hkv, h4⟩ := mem_of_mapM_eq_some _ _ _ h3 e he
  obtain ⟨l, hl, rfl⟩ := Option.map_eq_some_iff.1 h4
  have h5 := toOption_eq_some h2
  unfold parseLevels at h5
  obtain ⟨name, _, h6⟩ := mapM_except_mem _ _ _ h5 kv hkv
  cases hg : parseGroup env.maxFloat (levelParams "exogenous_process".toList name m.params) with
  | error e => rw [hg] at h6; cases h6
  | ok g =>
    rw [hg] at h6
    have h7 : (Except.ok (name, g) : Except ParseError _) = .ok kv := h6
    simp only [Except.ok.injEq] at h7
    subst h7
    dsimp only at hl
    subst hl
    exact parseGroup_keys_ne _ _ _ hg

theorem exogenous_grid (p : Processed) (ev : FormulaEval) (hexo : p.exogenous ≠ []) (static : List (Str × Nat))
    (htypes : p.nTypes < 2)
    (hobs : p.observables.map (fun o => (o.1, o.2.length)) = static ++ p.exogenous.map fun o => (o.1, o.2.length)) :
    (p.buildSpec ev).grid = some (product (static.map (fun o => List.range o.2) ++
      (p.exogenous.map fun o => o.2.length).map List.range)) := by
  have hprod : p.denseSpec.observables.map (fun o => List.range o.2) =
      static.map (fun o => List.range o.2) ++ (p.exogenous.map fun o => o.2.length).map List.range := by
    have := congrArg (List.map fun o : Str × Nat => List.range o.2) hobs
    rw [List.map_map, List.map_append, List.map_map] at this
    rw [List.map_map]
    refine Eq.trans ?_ this
    simp only [Processed.denseSpec, List.map_map]
    rfl
  show denseGrid p.denseSpec = _
  unfold denseGrid
  have hnt : ¬ 2 ≤ p.denseSpec.nTypes := by
    have : p.denseSpec.nTypes = p.nTypes := rfl
    omega
  simp only [if_neg hnt, List.append_nil, hprod]
  rw [if_neg]
  intro hne
  have hmem : ([] : List Nat) ∈ product (static.map (fun o => List.range o.2) ++
    (p.exogenous.map fun o => o.2.length).map List.range) := by rw [hne]; simp
  rw [mem_product] at hmem
  have hl := hmem.length_eq
  simp only [List.length_nil, List.length_append, List.length_map] at hl
  exact hexo (List.length_eq_zero_iff.1 (by omega))

theorem exogenous_wf (p : Processed) (ev : FormulaEval) (hexo : p.exogenous ≠ []) (static : List (Str × Nat))
    (htypes : p.nTypes < 2)
    (hobs : p.observables.map (fun o => (o.1, o.2.length)) = static ++ p.exogenous.map fun o => (o.1, o.2.length)) :
    (p.buildSpec ev).ExogWF (static.map fun o => List.range o.2) := by
  refine ⟨?_, exogenous_grid p ev hexo static htypes hobs, ?_, ?_⟩
  · intro hne
    exact hexo (List.map_eq_nil_iff.1 hne)
  · intro l hl
    obtain ⟨o, _, rfl⟩ := List.mem_map.1 hl
    exact List.nodup_range
  · intro d
    simp [Processed.buildSpec, Processed.restrictions]

/-- **C82 (partial)** for models with exogenous processes, if these come last among the observables and there are no types
(`C06_dense_grid_false` shows what happens otherwise): the continuation of a state is the mean of the values of
the states with the same characteristics and all levels of the processes, weighted with the logit
probabilities of the parameters of the processes. -/
theorem C82_exogenous_models_are_solved_partial (hp : processModel env m = some p) (hev : ev.Contract)
    (hs : p.Supported m ev core) (hcore : createCore (p.buildSpec ev).core = some core)
    (hexo : p.exogenous ≠ []) (static : List (Str × Nat)) (htypes : p.nTypes < 2)
    (hobs : p.observables.map (fun o => (o.1, o.2.length)) = static ++ p.exogenous.map fun o => (o.1, o.2.length))
    (hnames : ∀ e ∈ p.exogenous, ∀ level ∈ e.2, ∀ item ∈ level.2, item.1 ∈ p.columns true)
    (hkeep : env.KeepsShape) (hnd : (Dict.keys m.params).Nodup)
    (hother : ∀ q ∈ m.params, mentionsShocks q.1 = true → ∃ c ∈ shockCategories, q.1.1 = c.toList)
    (senv : SolveEnv) (hfit : senv.Fits (p.buildSpec ev) core)
    (hallowed : ∀ d ∈ (p.buildSpec ev).denseIndices, ∀ s ∈ core, ∃ c ∈ p.choices.choices, p.Allowed m ev d s c)
    (hpts : (p.buildSpec ev).PointsSuffice core p.discount.delta)
    (rng : InterpolationRandom) (hrng : rng.Contract) (sqrt : ℝ → ℝ) (ols : List ℝ → List (List ℝ) → List ℝ)
    (maxLog : ℝ) :
    ∃ bt transition par, buildSpace (p.buildSpec ev) = some bt ∧
      (p.solveInput ev senv).transitions p.exogenousParams (p.buildSpec ev) bt = some transition ∧
      (p.solveInput ev senv).paramObjects bt transition = some par ∧
      ∀ (seed : Nat) (ev0 : Dict Nat (List ℝ)), SameShape (initialValues bt.space) ev0 →
        let result := solveBackward bt.space (kw94 bt.space rng sqrt ols
          (expShocks Real.exp maxLog p.choices.wWage.length p.cholesky)) par seed ev0
        result.2 = true ∧ ∃ V, IsSolution (p.buildSpec ev) core p.discount.delta
            (p.solveInput ev senv).wageOf (p.solveInput ev senv).nonpecOf (p.solveInput ev senv).shocks
            (fun d s => (exogenousGrid (p.exogenous.map fun e => e.2.length)).map fun e =>
              ((p.buildSpec ev).successor d e, levelProbability p.exogenousParams (p.covariates ev d s) e))
            (expectedShock Real.exp maxLog p.choices.wWage.length p.cholesky) sqrt ols V ∧
          ∀ d ∈ (p.buildSpec ev).denseIndices, ∀ s ∈ core, bt.ValueAt result.1 d s (V d s) := by
  obtain ⟨covs, h⟩ := processModel_from env m p hp
  have hlen := denseColumns_exogenous p static htypes hobs
  have hgrid := exogenous_grid p ev hexo static htypes hobs
  have hx := exogenous_wf p ev hexo static htypes hobs
  refine solution_all_exogenous (p.buildSpec ev) core (C82_processed_models_well_formed hp hev hs hcore) _ hx
    (p.solveInput ev senv) (C82_solve_input_well_formed hp hs hcore hlen hkeep hnd hother senv hfit)
    p.exogenousParams ?_ ?_ ?_ ?_ hpts rng hrng sqrt ols maxLog
  · simp [Processed.exogenousParams, Processed.buildSpec, Function.comp_def]
  · intro levels hl
    obtain ⟨e, he, rfl⟩ := List.mem_map.1 hl
    intro hne
    exact h.exogenous_ne e he (List.map_eq_nil_iff.1 hne)
  · intro levels hl beta hb item hi d hd s hmem
    obtain ⟨e, he, rfl⟩ := List.mem_map.1 hl
    obtain ⟨level, hlev, rfl⟩ := List.mem_map.1 hb
    refine hs.column h hcore hlen d hd s hmem _ ?_
    have hg : denseGrid p.denseSpec = some _ := hgrid
    rw [hg]
    exact hnames e he level hlev item hi
  · intro d hd s hmem
    obtain ⟨c, hc, hall⟩ := hallowed d hd s hmem
    obtain ⟨a, ha⟩ := List.mem_iff_getElem?.1 hc
    exact ⟨a, (C82_choice_sets_by_name hp hev hs.toDescribed hcore d hd s hmem a c ha).2 hall⟩

end

end Respy
