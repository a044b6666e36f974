import Verif.Lemmas.ProcessModel2
import Verif.Spec.ProcessEstimate
import Verif.Props.ComputeCovariates
import Verif.Props.CovariateGroups
import Verif.Props.Covariates

/-! Helper lemmas: the covariates of states are the values of their formulas. -/

namespace Respy

section
variable {V : Type _} {eval : (Str → Option V) → Str → Option V} {notna : V → Bool} {checkNans : Bool}
  {df df' : Frame V} {definitions definitions' : Dict Str CovariateDef}

theorem ColumnValue.mono (hgiven : ∀ k v, df.lookup k = some v → ColumnValue eval notna checkNans df' definitions' k v)
    (hdef : ∀ cd ∈ definitions, cd ∈ definitions' ∧ df'.columns.get? cd.1 = none) {k : Str} {v : V}
    (h : ColumnValue eval notna checkNans df definitions k v) :
    ColumnValue eval notna checkNans df' definitions' k v := by
  induction h with
  | given k v hk => exact hgiven k v hk
  | computed c d env v _ hm hex _ hv ih =>
    obtain ⟨h1, h2⟩ := hdef _ hm
    exact .computed c d env v h2 h1 hex ih hv

/-- Values computed from the variables `df` are found again if some of them have been computed before. -/
theorem ColumnValue.stage (hn : definitions.keys.Nodup) (hi : ∀ c ∈ definitions.keys, df.index.get? c = none)
    (ha : ∀ c d, (c, d) ∈ definitions → Accurate eval d)
    (hgiven : ∀ k v, df.lookup k = some v → df'.lookup k = some v)
    (hvalue : ∀ k v, df'.lookup k = some v → ColumnValue eval notna checkNans df definitions k v) {k : Str} {v : V}
    (h : ColumnValue eval notna checkNans df definitions k v) :
    ColumnValue eval notna checkNans df' definitions k v := by
  induction h with
  | given k v hk => exact .given k v (hgiven k v hk)
  | computed c d env v hc hm hex hdep hv ih =>
    cases h' : df'.columns.get? c with
    | none => exact .computed c d env v h' hm hex ih hv
    | some w =>
      have hl : df'.lookup c = some w := by simp [Frame.lookup, h']
      have := ColumnValue.unique hn hi ha (hvalue c w hl) (.computed c d env v hc hm hex hdep hv)
      subst this
      exact .given c w hl

theorem computeCovariates_relax {raise : Bool} (h : computeCovariates eval notna checkNans raise df definitions = .ok df') :
    computeCovariates eval notna checkNans false df definitions = .ok df' := by
  unfold computeCovariates at h ⊢
  cases h1 : computeLoop eval notna checkNans (definitions.length + 1) df definitions with
  | error e => rw [h1] at h; cases h
  | ok x =>
    obtain ⟨a, left⟩ := x
    rw [h1] at h
    dsimp only at h ⊢
    by_cases h2 : left ≠ [] ∧ raise = true
    · rw [if_pos h2] at h; cases h
    · rw [if_neg h2] at h
      simp [h]

theorem computePass_nodup : ∀ (defs : List (Str × CovariateDef)) (df df' : Frame V)
    (left : List (Str × CovariateDef)), computePass eval notna checkNans df defs = .ok (df', left) →
    df.columns.keys.Nodup → df'.columns.keys.Nodup := by
  intro defs
  induction defs with
  | nil =>
    intro df df' left h hn
    simp only [computePass, Except.ok.injEq, Prod.mk.injEq] at h
    rw [← h.1]; exact hn
  | cons x rest ih =>
    obtain ⟨c, d⟩ := x
    intro df df' left h hn
    simp only [computePass] at h
    split at h
    · exact ih df df' left h hn
    · split at h
      · split at h
        · cases h
        · exact ih _ df' left h (Dict.nodup_keys_insert _ _ _ hn)
      · split at h
        · cases h
        · next df₁ left₁ hp =>
          simp only [Except.ok.injEq, Prod.mk.injEq] at h
          rw [← h.1]
          exact ih df df₁ left₁ hp hn

theorem computeLoop_nodup : ∀ (fuel : Nat) (defs : List (Str × CovariateDef)) (df df' : Frame V)
    (left : List (Str × CovariateDef)), computeLoop eval notna checkNans fuel df defs = .ok (df', left) →
    df.columns.keys.Nodup → df'.columns.keys.Nodup := by
  intro fuel
  induction fuel with
  | zero => intro defs df df' left h; cases h
  | succ fuel ih =>
    intro defs df df' left h hn
    simp only [computeLoop] at h
    split at h
    · cases h
    · next df₁ left₁ hp =>
      have h1 := computePass_nodup defs df df₁ left₁ hp hn
      split at h
      · exact ih left₁ df₁ df' left h h1
      · simp only [Except.ok.injEq, Prod.mk.injEq] at h
        rw [← h.1]; exact h1

theorem computeCovariates_nodup {raise : Bool} (h : computeCovariates eval notna checkNans raise df definitions = .ok df')
    (hn : df.columns.keys.Nodup) : df'.columns.keys.Nodup := by
  unfold computeCovariates at h
  split at h
  · cases h
  · next df₁ left hl =>
    split at h
    · cases h
    · simp only [Except.ok.injEq] at h
      rw [← h]
      exact computeLoop_nodup _ _ _ _ _ hl hn

/-- The columns of a frame with covariates. -/
theorem computeCovariates_values {raise : Bool} (hn : definitions.keys.Nodup)
    (hi : ∀ c ∈ definitions.keys, df.index.get? c = none)
    (ha : ∀ c d, (c, d) ∈ definitions → Accurate eval d)
    (h : computeCovariates eval notna checkNans raise df definitions = .ok df') :
    df'.index = df.index ∧
      ∀ k v, df'.lookup k = some v ↔ ColumnValue eval notna checkNans df definitions k v := by
  obtain ⟨df'', h1, h2, _, _, h5, _⟩ := C53_values_partial eval notna checkNans df definitions hn hi ha
  rw [computeCovariates_relax h] at h1
  cases h1
  exact ⟨h2, h5⟩

end

section
variable {env : ProcessEnv} {m : UserModel} {p : Processed} {ev : FormulaEval} {core : List CoreState}
  {covariates : Dict Str Str}

theorem addTypeCovariates_nodup (n : Nat) (covariates : Dict Str Str) (h : (Dict.keys covariates).Nodup) :
    (Dict.keys (addTypeCovariates n covariates)).Nodup := by
  unfold addTypeCovariates
  split
  · exact Dict.nodup_keys_update _ _ h
  · exact h

/-- The formulas of a processed model. -/
theorem ProcessedFrom.formula_keys (h : ProcessedFrom env m p covariates) (hc : (Dict.keys m.covariates).Nodup) :
    (Dict.keys ((addTypeCovariates p.nTypes covariates).map fun kv =>
      (kv.1, replaceLabels p.choices.choices (textLevels p.observables) kv.2))).Nodup := by
  obtain ⟨r, h1, h2, _⟩ := C52_relevant_covariates m.covariates hc (m.params.map fun p => p.1.2)
  rw [h.relevant] at h1
  cases h1
  have := addTypeCovariates_nodup p.nTypes _ h2
  unfold Dict.keys at this ⊢
  rw [List.map_map]
  exact this

theorem groupStep_base (g : Groups) (item : Str × Str) :
    (∀ k ∈ g.dense, k ∈ (groupStep g item).dense) ∧
      ∀ k ∈ Dict.keys (groupStep g item).detailed, k ∈ Dict.keys g.detailed ∨ k = item.1 := by
  unfold groupStep
  dsimp only
  refine ⟨fun k hk => ?_, fun k hk => ?_⟩
  · split
    · exact List.mem_insert_of_mem hk
    · exact hk
  · rcases (Dict.mem_keys_insert _ _ _ _).1 hk with h | h
    · exact Or.inr h
    · exact Or.inl h

theorem groupSteps_base (covariates : List (Str × Str)) : ∀ (l : List (Str × Str)) (g : Groups), (∀ x ∈ l, x ∈ covariates) →
    (∀ k ∈ Dict.keys g.detailed, k ∈ covariates.map Prod.fst) →
    (∀ k ∈ g.dense, k ∈ (l.foldl groupStep g).dense) ∧
      ∀ k ∈ Dict.keys (l.foldl groupStep g).detailed, k ∈ covariates.map Prod.fst := by
  intro l
  induction l with
  | nil => intro g _ h; exact ⟨fun _ h => h, h⟩
  | cons x l ih =>
    intro g hl h
    obtain ⟨h1, h2⟩ := groupStep_base g x
    obtain ⟨h3, h4⟩ := ih (groupStep g x) (fun y hy => hl y (List.mem_cons_of_mem _ hy)) (by
      intro k hk
      rcases h2 k hk with h | rfl
      · exact ‹∀ k ∈ Dict.keys g.detailed, k ∈ covariates.map Prod.fst› k h
      · exact List.mem_map.2 ⟨x, hl x (by simp), rfl⟩)
    exact ⟨fun k hk => h3 k (h1 k hk), h4⟩

theorem groupLoop_base (covariates : Dict Str Str) : ∀ (fuel : Nat) (g g' : Groups),
    groupLoop covariates fuel g = some g' → (∀ k ∈ Dict.keys g.detailed, k ∈ Dict.keys covariates) →
    (∀ k ∈ g.dense, k ∈ g'.dense) ∧ ∀ k ∈ Dict.keys g'.detailed, k ∈ Dict.keys covariates := by
  intro fuel
  induction fuel with
  | zero => intro g g' h; cases h
  | succ fuel ih =>
    intro g g' h hk
    simp only [groupLoop] at h
    obtain ⟨h1, h2⟩ := groupSteps_base covariates covariates g (fun _ h => h) hk
    split at h
    · obtain ⟨h3, h4⟩ := ih _ _ h h2
      exact ⟨fun k hk => h3 k (h1 k hk), h4⟩
    · simp only [Option.some.injEq] at h
      rw [← h]
      exact ⟨h1, h2⟩

theorem separateCovariates_base (covariates : Dict Str Str) (coreBase denseBase : List Str)
    (G : CovariateGroups) (h : separateCovariates covariates coreBase denseBase = some G) :
    ∀ k ∈ coreBase, k ∈ denseBase → k ∈ Dict.keys covariates := by
  intro k hk hk'
  unfold separateCovariates at h
  simp only [Option.bind_eq_some_iff] at h
  obtain ⟨g, hg, h⟩ := h
  split at h
  · next hall =>
    obtain ⟨h1, h2⟩ := groupLoop_base _ _ _ _ hg (by
      intro k hk
      unfold Dict.keys at hk ⊢
      rw [List.map_map] at hk
      exact hk)
    have h3 := groupLoop_core _ _ _ _ hg k (List.mem_dedup.2 hk)
    have h4 := h1 k (List.mem_dedup.2 hk')
    rw [List.all_eq_true] at hall
    exact h2 k (of_decide_eq_true (hall k (List.mem_filter.2 ⟨h3, decide_eq_true h4⟩)))
  · cases h

/-- What is known about the groups of covariates of a processed model. -/
structure GroupFacts (p : Processed) : Prop where
  nodup : (Dict.keys p.groups.all).Nodup
  core_sub : ∀ cd ∈ p.groups.core, cd ∈ p.groups.all
  dense_sub : ∀ cd ∈ p.groups.dense, cd ∈ p.groups.all
  core_nodup : (Dict.keys p.groups.core).Nodup
  dense_nodup : (Dict.keys p.groups.dense).Nodup
  deps_nodup : ∀ c d, (c, d) ∈ p.groups.all → d.dependsOn.Nodup
  core_of_constant : ∀ c d, (c, d) ∈ p.groups.all → d.dependsOn = [] →
    c ∉ denseBaseColumns (Dict.keys p.observables) p.nTypes → (c, d) ∈ p.groups.core
  core_of_static : denseBaseColumns (Dict.keys p.observables) p.nTypes = [] → ∀ cd ∈ p.groups.all, cd ∈ p.groups.core

theorem Reaches.of_nil (covariates : Dict Str Str) (k : Str) : ¬ Reaches covariates [] k := by
  intro h
  induction h with
  | base k hk => cases hk
  | formula c f k _ _ _ ih => exact ih

theorem separateCovariates_sub (covariates : Dict Str Str) (coreBase denseBase : List Str)
    (G : CovariateGroups) (h : separateCovariates covariates coreBase denseBase = some G) :
    G.core.Sublist G.all ∧ G.dense.Sublist G.all := by
  unfold separateCovariates at h
  simp only [Option.bind_eq_some_iff] at h
  obtain ⟨g, hg, h⟩ := h
  split at h
  · simp only [Option.some.injEq] at h
    subst h
    exact ⟨List.filter_sublist, List.filter_sublist⟩
  · cases h

theorem ProcessedFrom.groupFacts (h : ProcessedFrom env m p covariates) (hc : (Dict.keys m.covariates).Nodup) :
    GroupFacts p := by
  have hk := h.formula_keys hc
  obtain ⟨G, hG, hall, hdeps, hnd, hcore, hdense, _⟩ := C68_groups _ hk _ _ (separateCovariates_base _ _ _ _ h.groups)
  rw [h.groups] at hG
  cases hG
  obtain ⟨s1, s2⟩ := separateCovariates_sub _ _ _ _ h.groups
  have hnodup : (Dict.keys p.groups.all).Nodup := by
    have : Dict.keys p.groups.all = Dict.keys ((addTypeCovariates p.nTypes covariates).map fun kv =>
      (kv.1, replaceLabels p.choices.choices (textLevels p.observables) kv.2)) := by
      rw [← hall]; simp [Dict.keys, List.map_map, Function.comp_def]
    rw [this]; exact hk
  refine ⟨hnodup, fun cd hcd => s1.subset hcd, fun cd hcd => s2.subset hcd, hnodup.sublist (s1.map _),
    hnodup.sublist (s2.map _), hnd, fun c d hcd hd hb => ?_, fun hb cd hcd => ?_⟩
  · refine (hcore (c, d)).2 ⟨hcd, fun hr => ?_⟩
    cases hr with
    | base _ hk => exact hb hk
    | formula _ f k hm hkf hr =>
      have hm' : (c, d.formula) ∈ _ := hall ▸ List.mem_map.2 ⟨(c, d), hcd, rfl⟩
      have : f = d.formula := by
        have h1 := Dict.get?_of_mem _ hk _ _ hm
        have h2 := Dict.get?_of_mem _ hk _ _ hm'
        rw [h1] at h2
        exact Option.some.inj h2
      subst this
      have := (hdeps c d hcd k).2 ⟨hkf, Or.inr hr⟩
      rw [hd] at this
      cases this
  · refine (hcore cd).2 ⟨hcd, fun hr => ?_⟩
    rw [hb] at hr
    exact Reaches.of_nil _ _ hr

theorem denseGrid_none (spec : DenseSpec) (h : denseGrid spec = none) : spec.observables = [] ∧ ¬ 2 ≤ spec.nTypes := by
  unfold denseGrid at h
  dsimp only at h
  by_cases h0 : product (spec.observables.map (fun o => List.range o.2) ++
      if 2 ≤ spec.nTypes then [List.range spec.nTypes] else []) = [[]]
  · have : ([] : List Nat) ∈ product (spec.observables.map (fun o => List.range o.2) ++
        if 2 ≤ spec.nTypes then [List.range spec.nTypes] else []) := by rw [h0]; simp
    rw [mem_product] at this
    have hl := this.length_eq
    simp only [List.length_nil, List.length_append, List.length_map] at hl
    refine ⟨List.length_eq_zero_iff.1 (by omega), fun h2 => ?_⟩
    rw [if_pos h2] at hl
    simp at hl
  · rw [if_neg h0] at h; cases h

theorem get?_append_iff {κ ν : Type _} [DecidableEq κ] (d e : Dict κ ν) (k : κ) (v : ν)
    (h : Dict.get? (d ++ e) k = some v) : Dict.get? d k = some v ∨ Dict.get? d k = none ∧ Dict.get? e k = some v := by
  cases hd : Dict.get? d k with
  | some w =>
    rw [get?_append_of_mem _ _ _ _ hd] at h
    exact Or.inl h
  | none =>
    rw [get?_append_of_not_mem _ _ _ ((Dict.get?_eq_none_iff _ _).1 hd)] at h
    exact Or.inr ⟨rfl, h⟩

theorem zip_keys_sublist {α β : Type _} : ∀ (l : List α) (r : List β), ((l.zip r).map Prod.fst).Sublist l
  | [], _ => by simp
  | _ :: _, [] => by simp
  | a :: l, b :: r => by simpa using zip_keys_sublist l r

theorem lookup_noIndex {V : Type _} (cols : Dict Str V) (x : Str) : (⟨cols, []⟩ : Frame V).lookup x = Dict.get? cols x := by
  unfold Frame.lookup
  cases Dict.get? cols x <;> rfl

theorem stateVariables_covariate (hf : p.FormulasSound ev) (d : Option Nat) (s : CoreState) (hsh : p.Shaped s) (c : Str)
    (hc : c ∈ Dict.keys p.groups.all) : Dict.get? (p.stateVariables d s) c = none := by
  rw [Dict.get?_eq_none_iff]
  intro hmem
  unfold Processed.stateVariables Dict.keys at hmem
  rw [List.map_append, List.mem_append] at hmem
  rcases hmem with h | h
  · exact hf.names c (List.mem_append_left _ ((coreRow_keys p s hsh.exp hsh.lags hsh.lagged c).1 h)) hc
  · cases d with
    | none => cases h
    | some i =>
      obtain ⟨kv, hkv, rfl⟩ := List.mem_map.1 h
      exact hf.names _ (List.mem_append_right _ (List.of_mem_zip hkv).1) hc

/-- The covariates of a state are the values of the state variables and of the formulas. -/
theorem covariates_value (h : ProcessedFrom env m p covariates) (hc : (Dict.keys m.covariates).Nodup)
    (hf : p.FormulasSound ev) (hnames : ∀ x ∈ denseColumns p.denseSpec, x.toList ∉ p.columns false)
    (d : Option Nat) (hd : d ∈ (p.buildSpec ev).denseIndices) (s : CoreState) (hsh : p.Shaped s)
    (hcomp : (p.stateFrame ev d s).isSome) (x : Str) (v : ℝ) :
    p.covariates ev d s x = some v ↔
      ColumnValue ev.value (fun _ => true) false ⟨p.stateVariables d s, []⟩ p.groups.all x v := by
  have G := h.groupFacts hc
  have hnone : ∀ c d', (c, d') ∈ p.groups.all → Dict.get? (p.stateVariables d s) c = none := fun c d' hcd =>
    stateVariables_covariate hf d s hsh c (List.mem_map.2 ⟨_, hcd, rfl⟩)
  have hcorelookup : ∀ k v, Dict.get? (p.coreRow s) k = some v → Dict.get? (p.stateVariables d s) k = some v :=
    fun k v hk => get?_append_of_mem _ _ _ _ hk
  have hca : ∀ c d, (c, d) ∈ p.groups.core → Accurate ev.value d := fun c d hcd => hf.accurate c d (G.core_sub _ hcd)
  obtain ⟨df, hdf⟩ := Option.isSome_iff_exists.1 hcomp
  have hcov : p.covariates ev d s x = Dict.get? df.columns x := by
    unfold Processed.covariates
    rw [hdf]; rfl
  rw [hcov]
  cases d with
  | none =>
    have hgrid : denseGrid p.denseSpec = none := by
      cases hg : denseGrid p.denseSpec with
      | none => rfl
      | some grid =>
        unfold BuildSpec.denseIndices at hd
        have hg' : (p.buildSpec ev).grid = some grid := hg
        rw [hg'] at hd
        simp at hd
    obtain ⟨hobs, hty⟩ := denseGrid_none _ hgrid
    have hbase : denseBaseColumns (Dict.keys p.observables) p.nTypes = [] := by
      have h1 : p.observables = [] := by simpa [Processed.denseSpec] using hobs
      have h2 : ¬ 2 ≤ p.nTypes := hty
      unfold denseBaseColumns
      rw [if_neg h2, h1]; rfl
    have hsv : p.stateVariables none s = p.coreRow s := by simp [Processed.stateVariables]
    obtain ⟨hidx, hval⟩ := computeCovariates_values G.core_nodup (fun _ _ => rfl) hca (toOption_eq_some hdf)
    have hl : df.lookup x = Dict.get? df.columns x := by
      obtain ⟨cols, index⟩ := df
      subst hidx
      exact lookup_noIndex _ _
    rw [← hl, hval, hsv]
    rw [hsv] at hnone
    constructor
    · exact ColumnValue.mono (fun k v hk => .given k v hk) (fun cd hcd => ⟨G.core_sub _ hcd, hnone cd.1 cd.2 (G.core_sub _ hcd)⟩)
    · exact ColumnValue.mono (fun k v hk => .given k v hk) (fun cd hcd => ⟨G.core_of_static hbase cd hcd, hnone cd.1 cd.2 hcd⟩)
  | some i =>
    unfold Processed.stateFrame at hdf
    simp only [Option.bind_eq_bind, Option.bind_eq_some_iff] at hdf
    obtain ⟨grid, hgrid, point, hpoint, hdf⟩ := hdf
    have hdf' := hdf
    obtain ⟨co, de, h1, h2, _, _⟩ := hsh.denseStateFrame ev hnames h.groups_dense point df hdf
    unfold Processed.denseStateFrame at hdf'
    rw [h1, h2] at hdf'
    simp only [Option.bind_eq_bind, Option.bind_some] at hdf'
    obtain ⟨hidx, hval⟩ := computeCovariates_values G.nodup (fun _ _ => rfl) hf.accurate (toOption_eq_some hdf')
    obtain ⟨cidx, cval⟩ := computeCovariates_values G.core_nodup (fun _ _ => rfl) hca (toOption_eq_some h1)
    have hsv : p.stateVariables (some i) s = p.coreRow s ++
        ((denseColumns p.denseSpec).map String.toList).zip (point.map fun (n : Nat) => (n : ℝ)) := by
      unfold Processed.stateVariables
      rw [hgrid]
      simp [hpoint]
    have hzipkey : ∀ k v, Dict.get? (((denseColumns p.denseSpec).map String.toList).zip
        (point.map fun (n : Nat) => (n : ℝ))) k = some v → k ∈ (denseColumns p.denseSpec).map String.toList :=
      fun k v hk => (List.of_mem_zip (Dict.mem_of_get? _ _ _ hk)).1
    have hdenselookup : ∀ k v, Dict.get? (((denseColumns p.denseSpec).map String.toList).zip
        (point.map fun (n : Nat) => (n : ℝ))) k = some v → Dict.get? (p.stateVariables (some i) s) k = some v := by
      intro k v hk
      rw [hsv, get?_append_of_not_mem]
      · exact hk
      · intro hmem
        obtain ⟨y, hy, rfl⟩ := List.mem_map.1 (hzipkey k v hk)
        refine hnames y hy ?_
        unfold Processed.columns
        simp only [Bool.false_eq_true, if_false, List.append_nil, List.mem_append]
        exact Or.inl ((coreRow_keys p s hsh.exp hsh.lags hsh.lagged _).1 hmem)
    obtain ⟨didx, dval⟩ := computeCovariates_values G.dense_nodup (by
        intro c hmc
        obtain ⟨cd, hcd, rfl⟩ := List.mem_map.1 hmc
        rw [Dict.get?_eq_none_iff]
        intro hmem
        obtain ⟨kv, hkv, hkv'⟩ := List.mem_map.1 hmem
        exact hf.names _ (List.mem_append_right _ (List.of_mem_zip hkv).1)
          (List.mem_map.2 ⟨_, G.dense_sub _ hcd, hkv'.symm⟩))
      (fun c d hcd => hf.accurate c d (G.dense_sub _ hcd)) (toOption_eq_some h2)
    have hl : df.lookup x = Dict.get? df.columns x := by
      obtain ⟨cols, index⟩ := df
      subst hidx
      exact lookup_noIndex _ _
    -- values of the core and of the dense frame
    have hcoval : ∀ k v, Dict.get? co.columns k = some v →
        ColumnValue ev.value (fun _ => true) false ⟨p.stateVariables (some i) s, []⟩ p.groups.all k v := by
      intro k v hk
      have : co.lookup k = some v := by simp [Frame.lookup, hk]
      refine ColumnValue.mono (fun k v hk => .given k v ?_)
        (fun cd hcd => ⟨G.core_sub _ hcd, hnone cd.1 cd.2 (G.core_sub _ hcd)⟩) ((cval k v).1 this)
      rw [lookup_noIndex] at hk ⊢
      exact hcorelookup k v hk
    have hdeval : ∀ k v, Dict.get? de.columns k = some v →
        ColumnValue ev.value (fun _ => true) false ⟨p.stateVariables (some i) s, []⟩ p.groups.all k v := by
      intro k v hk
      have : de.lookup k = some v := by simp [Frame.lookup, hk]
      refine ColumnValue.mono (fun k v hk => .given k v ?_)
        (fun cd hcd => ⟨G.dense_sub _ hcd, hnone cd.1 cd.2 (G.dense_sub _ hcd)⟩) ((dval k v).1 this)
      rw [lookup_noIndex]
      refine hdenselookup k v ?_
      unfold Frame.lookup at hk
      simpa using hk
    have hzipnd : (Dict.keys (((denseColumns p.denseSpec).map String.toList).zip
        (point.map fun (n : Nat) => (n : ℝ)))).Nodup := by
      refine List.Nodup.sublist ?_ hf.dense
      exact zip_keys_sublist _ _
    have hdnd : (Dict.keys de.columns).Nodup := computeCovariates_nodup (toOption_eq_some h2) hzipnd
    have hupd : ∀ k v, Dict.get? (Dict.update co.columns de.columns) k = some v →
        ColumnValue ev.value (fun _ => true) false ⟨p.stateVariables (some i) s, []⟩ p.groups.all k v := by
      intro k v hk
      by_cases hkd : k ∈ Dict.keys de.columns
      · obtain ⟨kv, hkv, rfl⟩ := List.mem_map.1 hkd
        rw [get?_update_of_mem _ _ hdnd kv.1 kv.2 hkv] at hk
        cases hk
        exact hdeval _ _ (Dict.get?_of_mem _ hdnd _ _ hkv)
      · rw [get?_update_of_not_mem _ _ _ hkd] at hk
        exact hcoval k v hk
    rw [← hl, hval]
    constructor
    · refine ColumnValue.mono (fun k v hk => ?_) (fun cd hcd => ⟨hcd, hnone cd.1 cd.2 hcd⟩)
      rw [lookup_noIndex] at hk
      exact hupd k v hk
    · refine ColumnValue.stage G.nodup (fun _ _ => rfl) hf.accurate (fun k v hk => ?_) (fun k v hk => ?_)
      · rw [lookup_noIndex] at hk ⊢
        rw [hsv] at hk
        obtain ⟨hcokeep, hcokeys⟩ := hsh.coreFrame ev co h1
        obtain ⟨hdekeep, _⟩ := computeCovariates_columns _ _ _ _ _ _ (toOption_eq_some h2)
        rcases get?_append_iff _ _ _ _ hk with hk' | ⟨_, hk'⟩
        · rw [get?_update_of_not_mem]
          · exact hcokeep k v hk'
          · intro hkd
            have hcol : k ∈ p.columns false := by
              unfold Processed.columns
              simp only [Bool.false_eq_true, if_false, List.append_nil, List.mem_append]
              refine Or.inl ((coreRow_keys p s hsh.exp hsh.lags hsh.lagged _).1 ?_)
              exact List.mem_map.2 ⟨_, Dict.mem_of_get? _ _ _ hk', rfl⟩
            rcases denseFrame_keys p ev point de h2 k hkd with h3 | h3
            · obtain ⟨y, hy, rfl⟩ := List.mem_map.1 h3
              exact hnames y hy hcol
            · exact h.groups_dense k h3 hcol
        · exact get?_update_of_mem _ _ hdnd k v (Dict.mem_of_get? _ _ _ (hdekeep k v hk'))
      · rw [lookup_noIndex] at hk
        exact hupd k v hk

end

end Respy
