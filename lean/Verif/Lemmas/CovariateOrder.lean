import Verif.Lemmas.StateCovariates
import Verif.Lemmas.SolveFunction

/-! Helper lemmas: the result of `compute_covariates` does not depend on the order of definitions and dependencies. -/

namespace Respy

/-- Two frames have the same columns and the same index, in any order. -/
structure SameFrame {V : Type _} (df df' : Frame V) : Prop where
  columns : ∀ k, df.columns.get? k = df'.columns.get? k
  index : ∀ k, df.index.get? k = df'.index.get? k

/-- The definitions in `D` are among those of `D'`, where dependencies are sets. -/
def SubDefs (D D' : Dict Str CovariateDef) : Prop :=
  ∀ c d, (c, d) ∈ D → ∃ d', (c, d') ∈ D' ∧ d'.formula = d.formula ∧ ∀ x, x ∈ d'.dependsOn ↔ x ∈ d.dependsOn

theorem SubDefs.keys {D D' : Dict Str CovariateDef} (h : SubDefs D D') : ∀ c ∈ D.keys, c ∈ D'.keys := by
  intro c hc
  obtain ⟨⟨c', d⟩, hm, rfl⟩ := List.mem_map.1 hc
  obtain ⟨d', h1, _⟩ := h c' d hm
  exact List.mem_map.2 ⟨_, h1, rfl⟩

section
variable {V : Type _} {eval : (Str → Option V) → Str → Option V} {notna : V → Bool} {checkNans : Bool}
  {df df' : Frame V} {D D' : Dict Str CovariateDef}

theorem SameFrame.symm (h : SameFrame df df') : SameFrame df' df := ⟨fun k => (h.columns k).symm, fun k => (h.index k).symm⟩

theorem SameFrame.lookup (h : SameFrame df df') (k : Str) : df.lookup k = df'.lookup k := by
  simp only [Frame.lookup, h.columns, h.index]

theorem Accurate.of_sub (h : SubDefs D' D) (ha : ∀ c d, (c, d) ∈ D → Accurate eval d) :
    ∀ c d, (c, d) ∈ D' → Accurate eval d := by
  intro c d hcd
  obtain ⟨d', h1, h2, h3⟩ := h c d hcd
  have := ha c d' h1
  exact ⟨fun env he => h2 ▸ this.defined env fun x hx => he x ((h3 x).1 hx),
    fun env env' he => h2 ▸ this.same env env' fun x hx => he x ((h3 x).1 hx)⟩

theorem ColumnValue.of_sub (hf : SameFrame df df') (h : SubDefs D D') {k : Str} {v : V}
    (hv : ColumnValue eval notna checkNans df D k v) : ColumnValue eval notna checkNans df' D' k v := by
  induction hv with
  | given k v hk => exact .given k v (by rw [← hf.lookup]; exact hk)
  | computed c d env v hc hm hex _ hv ih =>
    obtain ⟨d', h1, h2, h3⟩ := h c d hm
    exact .computed c d' env v (by rw [← hf.columns]; exact hc) h1 (fun x hx => hex x ((h3 x).1 hx))
      (fun x hx => ih x ((h3 x).1 hx)) (by rw [h2]; exact hv)

/-- The columns of the result. -/
theorem computed_column {raise : Bool} (hn : D.keys.Nodup) (hi : ∀ c ∈ D.keys, df.index.get? c = none)
    (ha : ∀ c d, (c, d) ∈ D → Accurate eval d) {r : Frame V}
    (h : computeCovariates eval notna checkNans raise df D = .ok r) (k : Str) (v : V) :
    r.columns.get? k = some v ↔ df.columns.get? k = some v ∨
      df.columns.get? k = none ∧ k ∈ D.keys ∧ ColumnValue eval notna checkNans df D k v := by
  obtain ⟨r', h1, h2, h3, h4, h5, _⟩ := C53_values_partial eval notna checkNans df D hn hi ha
  rw [computeCovariates_relax h] at h1
  cases h1
  constructor
  · intro hk
    cases hg : df.columns.get? k with
    | some w =>
      rw [h3 k w hg] at hk
      exact .inl hk
    | none =>
      refine .inr ⟨rfl, ?_, (h5 k v).1 (by simp [Frame.lookup, hk])⟩
      exact (h4 k (List.mem_map.2 ⟨_, Dict.mem_of_get? _ _ _ hk, rfl⟩)).resolve_left
        ((Dict.get?_eq_none_iff _ _).1 hg)
  · rintro (hk | ⟨hk, hm, hv⟩)
    · exact h3 k v hk
    · have h6 := (h5 k v).2 hv
      unfold Frame.lookup at h6
      rw [h2, hi k hm, Option.or_none] at h6
      exact h6

/-- **Order of definitions.** Equal frames and equal definitions, in any order, give equal results. -/
theorem computeCovariates_same (raise : Bool) (hf : SameFrame df df') (h : SubDefs D D') (h' : SubDefs D' D)
    (hn : D.keys.Nodup) (hn' : D'.keys.Nodup) (hi : ∀ c ∈ D.keys, df.index.get? c = none)
    (ha : ∀ c d, (c, d) ∈ D → Accurate eval d) :
    Option.Rel SameFrame (computeCovariates eval notna checkNans raise df D).toOption
      (computeCovariates eval notna checkNans raise df' D').toOption := by
  have hi' : ∀ c ∈ D'.keys, df'.index.get? c = none := fun c hc => by
    rw [← hf.index]; exact hi c (h'.keys c hc)
  have ha' := Accurate.of_sub h' ha
  have hval : ∀ k v, ColumnValue eval notna checkNans df D k v ↔ ColumnValue eval notna checkNans df' D' k v :=
    fun k v => ⟨ColumnValue.of_sub hf h, ColumnValue.of_sub hf.symm h'⟩
  have hres : ∀ r r', computeCovariates eval notna checkNans raise df D = .ok r →
      computeCovariates eval notna checkNans raise df' D' = .ok r' → SameFrame r r' := by
    intro r r' hr hr'
    refine ⟨fun k => Option.ext fun v => ?_, fun k => ?_⟩
    · rw [computed_column hn hi ha hr, computed_column hn' hi' ha' hr', hf.columns, hval,
        ⟨h.keys k, h'.keys k⟩ |> (fun x : (_ → _) ∧ (_ → _) => (⟨x.1, x.2⟩ : k ∈ D.keys ↔ k ∈ D'.keys))]
    · rw [(computeCovariates_values hn hi ha hr).1, (computeCovariates_values hn' hi' ha' hr').1, hf.index]
  obtain ⟨r, h1, _, _, _, _, h2, h3⟩ := C53_values_partial eval notna checkNans df D hn hi ha
  obtain ⟨r', h1', _, _, _, _, h2', h3'⟩ := C53_values_partial eval notna checkNans df' D' hn' hi' ha'
  cases raise with
  | false =>
    rw [h1, h1']
    exact .some (hres r r' h1 h1')
  | true =>
    by_cases hall : ∀ c ∈ D.keys, ∃ v, ColumnValue eval notna checkNans df D c v
    · have e1 := h2 hall
      have e2 := h2' fun c hc => by
        obtain ⟨v, hv⟩ := hall c (h'.keys c hc)
        exact ⟨v, (hval c v).1 hv⟩
      rw [e1, e2]
      exact .some (hres r r' e1 e2)
    · push Not at hall
      obtain ⟨c, hc, hno⟩ := hall
      obtain ⟨_, e1, _⟩ := h3 c hc (by rintro ⟨v, hv⟩; exact hno v hv)
      obtain ⟨_, e2, _⟩ := h3' c (h.keys c hc) (by rintro ⟨v, hv⟩; exact hno v ((hval c v).2 hv))
      rw [e1, e2]
      exact .none

end

/-! ### Groups of covariates -/

theorem Reaches.of_mem {C C' : Dict Str Str} (h : ∀ x, x ∈ C → x ∈ C') {B : List Str} {k : Str}
    (hr : Reaches C B k) : Reaches C' B k := by
  induction hr with
  | base k hk => exact .base k hk
  | formula c f k hm hkf _ ih => exact .formula c f k (h _ hm) hkf ih

/-- The groups of covariates of `p` are among those of `q`. -/
structure SubGroups (p q : Processed) : Prop where
  all : SubDefs p.groups.all q.groups.all
  core : SubDefs p.groups.core q.groups.core
  dense : SubDefs p.groups.dense q.groups.dense

section
variable {env : ProcessEnv} {m m' : UserModel} {p q : Processed} {covs covs' : Dict Str Str}

theorem SameModel.symm (h : SameModel p q) : SameModel q p :=
  ⟨h.nPeriods.symm, h.points.symm, h.discount.symm, h.exogenous.symm, h.observables.symm, h.choices.symm, h.wage.symm,
    h.nonpec.symm, h.experience.symm, h.cholesky.symm, h.measurement.symm, h.nTypes.symm, h.typeProb.symm,
    h.lags.symm, fun f => (h.filters f).symm, h.formulas.symm, fun c hc => by
      obtain ⟨fs, fs', h1, h2, h3⟩ := h.restrictions c (h.choices ▸ hc)
      exact ⟨fs', fs, h2, h1, fun f => (h3 f).symm⟩⟩

theorem SameModel.subGroups (h : SameModel p q) (hp : ProcessedFrom env m p covs)
    (hq : ProcessedFrom env m' q covs') (hc : (Dict.keys m.covariates).Nodup)
    (hc' : (Dict.keys m'.covariates).Nodup) : SubGroups p q := by
  obtain ⟨G, hG, hall, hdeps, _, hcore, hdense, _⟩ :=
    C68_groups _ (hp.formula_keys hc) _ _ (separateCovariates_base _ _ _ _ hp.groups)
  rw [hp.groups] at hG
  cases hG
  obtain ⟨G', hG', hall', hdeps', _, hcore', hdense', _⟩ :=
    C68_groups _ (hq.formula_keys hc') _ _ (separateCovariates_base _ _ _ _ hq.groups)
  rw [hq.groups] at hG'
  cases hG'
  have hperm := h.formulas
  rw [hall, hall'] at hperm
  rw [← h.choices, ← h.lags, ← h.observables, ← h.nTypes] at hdeps' hdense'
  rw [← h.choices, ← h.observables, ← h.nTypes] at hcore'
  rw [← h.choices, ← h.observables, ← h.nTypes] at hperm
  rw [← h.choices, ← h.observables, ← h.nTypes] at hall'
  set C := (addTypeCovariates p.nTypes covs).map fun kv =>
    (kv.1, replaceLabels p.choices.choices (textLevels p.observables) kv.2) with hC
  set C' := (addTypeCovariates p.nTypes covs').map fun kv =>
    (kv.1, replaceLabels p.choices.choices (textLevels p.observables) kv.2) with hC'
  have hreach : ∀ B k, Reaches C B k ↔ Reaches C' B k := fun B k =>
    ⟨Reaches.of_mem fun x hx => hperm.mem_iff.1 hx, Reaches.of_mem fun x hx => hperm.mem_iff.2 hx⟩
  have key : ∀ c d, (c, d) ∈ p.groups.all → ∃ d', (c, d') ∈ q.groups.all ∧ d'.formula = d.formula ∧
      ∀ x, x ∈ d'.dependsOn ↔ x ∈ d.dependsOn := by
    intro c d hcd
    have h1 : (c, d.formula) ∈ C := hall ▸ List.mem_map.2 ⟨(c, d), hcd, rfl⟩
    have h2 := hperm.mem_iff.1 h1
    rw [← hall'] at h2
    obtain ⟨⟨c', d'⟩, hcd', he⟩ := List.mem_map.1 h2
    simp only [Prod.mk.injEq] at he
    obtain ⟨rfl, he⟩ := he
    refine ⟨d', hcd', he, fun x => ?_⟩
    rw [hdeps c' d hcd, hdeps' c' d' hcd', he, hreach, hreach]
  refine ⟨key, fun c d hcd => ?_, fun c d hcd => ?_⟩
  · obtain ⟨h1, h2⟩ := (hcore _).1 hcd
    obtain ⟨d', h3, h4⟩ := key c d h1
    exact ⟨d', (hcore' _).2 ⟨h3, fun hr => h2 ((hreach _ _).2 hr)⟩, h4⟩
  · obtain ⟨h1, h2, h5⟩ := (hdense _).1 hcd
    obtain ⟨d', h3, h4⟩ := key c d h1
    exact ⟨d', (hdense' _).2 ⟨h3, (hreach _ _).1 h2, fun hr => h5 ((hreach _ _).2 hr)⟩, h4⟩

/-- Two processed models which differ only in orders. -/
structure SameGroups (p q : Processed) : Prop where
  same : SameModel p q
  sub : SubGroups p q
  sup : SubGroups q p
  facts : GroupFacts p
  facts' : GroupFacts q

theorem SameModel.groups (h : SameModel p q) (hp : ProcessedFrom env m p covs)
    (hq : ProcessedFrom env m' q covs') (hc : (Dict.keys m.covariates).Nodup)
    (hc' : (Dict.keys m'.covariates).Nodup) : SameGroups p q :=
  ⟨h, h.subGroups hp hq hc hc', h.symm.subGroups hq hp hc' hc, hp.groupFacts hc, hq.groupFacts hc'⟩

theorem SameGroups.symm (h : SameGroups p q) : SameGroups q p := ⟨h.same.symm, h.sup, h.sub, h.facts', h.facts⟩

theorem SameModel.denseSpec (h : SameModel p q) : p.denseSpec = q.denseSpec := by
  unfold Processed.denseSpec
  rw [h.observables, h.exogenous, h.nTypes]

theorem SameModel.coreRow (h : SameModel p q) : p.coreRow = q.coreRow := by
  funext s
  unfold Processed.coreRow
  rw [h.choices]

end

/-! ### Covariates of states -/

theorem SameFrame.refl {V : Type _} (df : Frame V) : SameFrame df df := ⟨fun _ => rfl, fun _ => rfl⟩

theorem Option.Rel.bind_rel {α β γ δ : Type _} {R : α → β → Prop} {S : γ → δ → Prop} {x : Option α} {y : Option β}
    {f : α → Option γ} {g : β → Option δ} (h : Option.Rel R x y) (hfg : ∀ a b, R a b → Option.Rel S (f a) (g b)) :
    Option.Rel S (x.bind f) (y.bind g) := by
  cases h with
  | none => exact .none
  | some h => exact hfg _ _ h

section
variable {p q : Processed} {ev : FormulaEval}

theorem SameGroups.coreFrame (h : SameGroups p q) (hf : p.FormulasSound ev) (s : CoreState) :
    Option.Rel SameFrame (p.coreFrame ev s) (q.coreFrame ev s) := by
  unfold Processed.coreFrame
  rw [← h.same.coreRow]
  exact computeCovariates_same true (SameFrame.refl _) h.sub.core h.sup.core h.facts.core_nodup h.facts'.core_nodup
    (fun _ _ => rfl) fun c d hcd => hf.accurate c d (h.facts.core_sub _ hcd)

theorem SameGroups.denseFrame (h : SameGroups p q) (hf : p.FormulasSound ev) (point : List Nat) :
    Option.Rel SameFrame (p.denseFrame ev point) (q.denseFrame ev point) := by
  unfold Processed.denseFrame
  dsimp only
  rw [← h.same.denseSpec]
  refine computeCovariates_same true (SameFrame.refl _) h.sub.dense h.sup.dense h.facts.dense_nodup
    h.facts'.dense_nodup (fun c hc => ?_) fun c d hcd => hf.accurate c d (h.facts.dense_sub _ hcd)
  rw [Dict.get?_eq_none_iff]
  intro hk
  have h1 := (zip_keys_sublist ((denseColumns p.denseSpec).map String.toList) _).subset hk
  refine hf.names c (List.mem_append_right _ h1) ?_
  obtain ⟨cd, h2, rfl⟩ := List.mem_map.1 hc
  exact List.mem_map.2 ⟨cd, h.facts.dense_sub _ h2, rfl⟩

theorem denseFrame_nodup (hf : p.FormulasSound ev) {point : List Nat} {df : Frame ℝ}
    (h : p.denseFrame ev point = some df) : (Dict.keys df.columns).Nodup := by
  unfold Processed.denseFrame at h
  dsimp only at h
  obtain ⟨df', h1, h2⟩ : ∃ df', _ = Except.ok df' ∧ df' = df := by
    cases hx : computeCovariates ev.value (fun _ => true) false true
      ⟨((denseColumns p.denseSpec).map String.toList).zip (point.map fun (n : Nat) => (n : ℝ)),
        ((denseColumns p.denseSpec).map String.toList).zip (point.map fun (n : Nat) => (n : ℝ))⟩ p.groups.dense with
    | ok x =>
      rw [hx] at h
      exact ⟨x, hx, Option.some.inj h⟩
    | error e => rw [hx] at h; cases h
  subst h2
  exact computeCovariates_nodup h1 (hf.dense.sublist (zip_keys_sublist _ _))

theorem SameModel.formulasSound (h : SameGroups p q) (hf : p.FormulasSound ev) : q.FormulasSound ev := by
  refine ⟨Accurate.of_sub h.sup.all hf.accurate, fun x hx hk => ?_, ?_⟩
  · rw [← h.same.choices, ← h.same.lags, ← h.same.denseSpec] at hx
    exact hf.names x hx (h.sup.all.keys x hk)
  · rw [← h.same.denseSpec]
    exact hf.dense

theorem SameGroups.stateFrame (h : SameGroups p q) (hf : p.FormulasSound ev) (d : Option Nat) (s : CoreState) :
    Option.Rel SameFrame (p.stateFrame ev d s) (q.stateFrame ev d s) := by
  have hf' := SameModel.formulasSound h hf
  cases d with
  | none => exact h.coreFrame hf s
  | some d =>
    unfold Processed.stateFrame Processed.denseStateFrame
    dsimp only [Option.bind_eq_bind]
    rw [← h.same.denseSpec]
    cases denseGrid p.denseSpec with
    | none => exact .none
    | some grid =>
    rw [Option.bind_some, Option.bind_some]
    cases grid[d]? with
    | none => exact .none
    | some point =>
    rw [Option.bind_some, Option.bind_some]
    refine Option.Rel.bind_rel (h.coreFrame hf s) fun co co' hco => ?_
    have hrel := h.denseFrame hf point
    generalize hx : p.denseFrame ev point = x at hrel
    generalize hy : q.denseFrame ev point = y at hrel
    cases hrel with
    | none => exact .none
    | @some de de' hde =>
    rw [Option.bind_some, Option.bind_some]
    refine computeCovariates_same true ⟨fun k => ?_, fun _ => rfl⟩ h.sub.all h.sup.all h.facts.nodup h.facts'.nodup
      (fun _ _ => rfl) hf.accurate
    dsimp only
    have he := hde.columns k
    cases hk : Dict.get? de.columns k with
    | some v =>
      rw [get?_update_of_mem _ _ (denseFrame_nodup hf hx) k v (Dict.mem_of_get? _ _ _ hk),
        get?_update_of_mem _ _ (denseFrame_nodup hf' hy) k v (Dict.mem_of_get? _ _ _ (he ▸ hk))]
    | none =>
      rw [get?_update_of_not_mem _ _ k ((Dict.get?_eq_none_iff _ _).1 hk),
        get?_update_of_not_mem _ _ k ((Dict.get?_eq_none_iff _ _).1 (he ▸ hk)), hco.columns]

theorem SameGroups.covariates (h : SameGroups p q) (hf : p.FormulasSound ev) : p.covariates ev = q.covariates ev := by
  funext d s x
  unfold Processed.covariates
  have := h.stateFrame hf d s
  generalize p.stateFrame ev d s = a at this
  generalize q.stateFrame ev d s = b at this
  cases this with
  | none => rfl
  | some h => exact h.columns x

/-! ### The state space -/

theorem SameGroups.columns (h : SameGroups p q) (b : Bool) (x : Str) : x ∈ p.columns b ↔ x ∈ q.columns b := by
  unfold Processed.columns
  have h1 : ∀ x, x ∈ Dict.keys p.groups.core ↔ x ∈ Dict.keys q.groups.core :=
    fun x => ⟨h.sub.core.keys x, h.sup.core.keys x⟩
  have h2 : ∀ x, x ∈ Dict.keys p.groups.all ↔ x ∈ Dict.keys q.groups.all :=
    fun x => ⟨h.sub.all.keys x, h.sup.all.keys x⟩
  rw [← h.same.choices, ← h.same.lags, ← h.same.denseSpec]
  cases b
  · simp only [List.mem_append, h1, Bool.false_eq_true, if_false]
  · simp only [List.mem_append, h1, if_true, h2]

theorem SameGroups.defined (h : SameGroups p q) (hev : ev.Contract) (b : Bool) (f : Str) :
    ev.defined (p.columns b) f = ev.defined (q.columns b) f :=
  Bool.eq_iff_iff.2 ⟨fun hd => hev.more_columns _ _ f hd fun x => (h.columns b x).1,
    fun hd => hev.more_columns _ _ f hd fun x => (h.columns b x).2⟩

theorem SameGroups.choiceSet (h : SameGroups p q) (hf : p.FormulasSound ev) (hev : ev.Contract) (d : Option Nat)
    (s : CoreState) : choiceSet (p.restrictions ev d) s = choiceSet (q.restrictions ev d) s := by
  unfold Respy.choiceSet Processed.restrictions
  rw [← h.same.choices, ← h.covariates hf, List.map_map, List.map_map]
  refine List.map_congr_left fun c hc => ?_
  obtain ⟨fs, fs', h1, h2, h3⟩ := h.same.restrictions c hc
  simp only [Function.comp_apply, h1, h2, Option.getD_some]
  congr 1
  rw [Bool.eq_iff_iff, isInadmissible_iff, isInadmissible_iff]
  simp only [List.mem_map, h3, h.defined hev]

theorem filterCore_same {fs fs' : List (CoreState → Bool)} (h : ∀ f, f ∈ fs ↔ f ∈ fs') (df : List CoreState) :
    filterCore fs df = filterCore fs' df := by
  have key : ∀ (fs : List (CoreState → Bool)) (df : List CoreState),
      filterCore fs df = df.filter fun s => fs.all fun f => !f s := by
    intro fs
    induction fs with
    | nil => intro df; simp [filterCore]
    | cons f fs ih =>
      intro df
      have := ih (df.filter fun s => !f s)
      unfold filterCore at this ⊢
      rw [List.foldl_cons, this, List.filter_filter]
      refine List.filter_congr fun s _ => ?_
      rw [List.all_cons, Bool.and_comm]
  rw [key, key]
  refine List.filter_congr fun s _ => ?_
  rw [Bool.eq_iff_iff, List.all_eq_true, List.all_eq_true]
  exact ⟨fun g f hf => g f ((h f).2 hf), fun g f hf => g f ((h f).1 hf)⟩

theorem buildSpace_congr {b b' : BuildSpec} (hcore : createCore b.core = createCore b'.core)
    (hper : b.core.nPeriods = b'.core.nPeriods) (hgrid : b.grid = b'.grid)
    (hex : b.exogLevels = b'.exogLevels) (hpts : b.points = b'.points)
    (h0 : Respy.choiceSet b.restrCore = Respy.choiceSet b'.restrCore)
    (h1 : ∀ d, Respy.choiceSet (b.restr d) = Respy.choiceSet (b'.restr d)) : buildSpace b = buildSpace b' := by
  have e1 : ∀ core, corePeriodChoice b.restrCore core = corePeriodChoice b'.restrCore core := by
    intro core
    have : periodChoiceKey b.restrCore = periodChoiceKey b'.restrCore := by
      funext s
      unfold periodChoiceKey
      rw [h0]
    unfold corePeriodChoice
    rw [this]
  have e2 : ∀ core groups, b.densePeriodCores core groups = b'.densePeriodCores core groups := by
    intro core groups
    have hlen : b.restrCore.length = b'.restrCore.length := by
      have := congrArg List.length (congrFun h0 ⟨0, [], []⟩)
      simpa only [Respy.choiceSet, List.length_map] using this
    unfold BuildSpec.densePeriodCores densePeriodChoice setsInGroup
    simp only [hgrid, h1, hlen]
  have e3 : b.transitSets = b'.transitSets := by
    funext dpc
    unfold BuildSpec.transitSets BuildSpec.transitKeysOf
    rw [hex, hgrid]
  unfold buildSpace
  simp only [hcore, hper, e1, e2, e3, hpts]

theorem SameGroups.buildSpace (h : SameGroups p q) (hf : p.FormulasSound ev) (hev : ev.Contract) :
    buildSpace (p.buildSpec ev) = buildSpace (q.buildSpec ev) := by
  refine buildSpace_congr ?_ h.same.nPeriods ?_ ?_ ?_ (funext fun s => h.choiceSet hf hev none s)
    fun d => funext fun s => h.choiceSet hf hev (some d) s
  · unfold createCore Processed.buildSpec
    dsimp only
    rw [h.same.nPeriods, h.same.choices, h.same.experience, h.same.lags, h.same.coreRow]
    have hsame : ∀ df, filterCore (p.filters.map fun f s => ev.holds (Dict.get? (q.coreRow s)) f) df =
        filterCore (q.filters.map fun f s => ev.holds (Dict.get? (q.coreRow s)) f) df :=
      filterCore_same fun f => by simp only [List.mem_map, h.same.filters]
    simp only [hsame]
    rfl
  · unfold Processed.buildSpec
    rw [h.same.denseSpec]
  · unfold Processed.buildSpec
    rw [h.same.exogenous]
  · exact h.same.points

/-- **Solution.** The solution does not depend on orders in the options from which the state space is created. -/
theorem SameGroups.solveSpace {x : Processed} (h : SameGroups p q) (hf : p.FormulasSound ev) (hev : ev.Contract)
    (r : SolveRoutines) : q.solveWith x ev r = p.solveWith x ev r := by
  have hb := h.buildSpace hf hev
  have hgrid : (q.buildSpec ev).grid = (p.buildSpec ev).grid := by
    unfold Processed.buildSpec
    rw [h.same.denseSpec]
  have hex : (q.buildSpec ev).exogLevels = (p.buildSpec ev).exogLevels := by
    unfold Processed.buildSpec
    rw [h.same.exogenous]
  have ht : (q.buildSpec ev).transitKeysOf = (p.buildSpec ev).transitKeysOf := by
    funext dpc grid x
    unfold BuildSpec.transitKeysOf
    rw [hex]
  unfold Processed.solveWith SolveInput.solveModel Built.simSpace SolveInput.transitions SolveInput.transitionsOfKey
  dsimp only
  rw [← hb, hgrid, hex, ht, ← h.covariates hf, h.same.exogenous]

/-- **Solution.** The solution does not depend on orders. -/
theorem SameGroups.solveWith (h : SameGroups p q) (hf : p.FormulasSound ev) (hev : ev.Contract) (r : SolveRoutines) :
    q.solveWith q ev r = p.solveWith p ev r := by
  rw [h.same.solveWith, h.solveSpace hf hev]

end

end Respy
