import Verif.Lemmas.CovariateGroups

/-! # Properties of the groups of covariates -/

namespace Respy

/-! ### C68 Covariates are grouped by the state variables they depend on -/

/-- The groups exist unless a state variable is in both parts of the state space without being a covariate
(a `KeyError`). Every covariate is in exactly one group, according to the state variables it depends on
directly or through other covariates, and its dependencies are exactly the names in its formula which
are state variables or covariates depending on state variables. -/
theorem C68_groups (covariates : Dict Str Str) (hc : covariates.keys.Nodup)
    (coreBase denseBase : List Str)
    (hb : ∀ k ∈ coreBase, k ∈ denseBase → k ∈ covariates.keys) :
    ∃ G, separateCovariates covariates coreBase denseBase = some G ∧
      G.all.map (fun kd => (kd.1, kd.2.formula)) = covariates ∧
      (∀ c d, (c, d) ∈ G.all → ∀ x, x ∈ d.dependsOn ↔ x <:+: d.formula ∧
        (Reaches covariates coreBase x ∨ Reaches covariates denseBase x)) ∧
      (∀ c d, (c, d) ∈ G.all → d.dependsOn.Nodup) ∧
      (∀ kd, kd ∈ G.core ↔ kd ∈ G.all ∧ ¬ Reaches covariates denseBase kd.1) ∧
      (∀ kd, kd ∈ G.dense ↔ kd ∈ G.all ∧ Reaches covariates denseBase kd.1 ∧
        ¬ Reaches covariates coreBase kd.1) ∧
      (∀ kd, kd ∈ G.mixed ↔ kd ∈ G.all ∧ Reaches covariates denseBase kd.1 ∧
        Reaches covariates coreBase kd.1) := by
  have hget : ∀ k d, Dict.get? (covariates.map fun kv => (kv.1, (⟨kv.2, []⟩ : CovariateDef))) k = some d →
      covariates.get? k = some d.formula ∧ d.dependsOn = [] := by
    intro k d hd
    have := Dict.mem_of_get? _ _ _ hd
    obtain ⟨kv, hkv, he⟩ := List.mem_map.1 this
    cases he
    exact ⟨Dict.get?_of_mem _ hc _ _ hkv, rfl⟩
  have h0 : GroupsInv covariates coreBase denseBase
      ⟨coreBase.dedup, denseBase.dedup, covariates.map fun kv => (kv.1, ⟨kv.2, []⟩)⟩ := by
    refine ⟨List.nodup_dedup _, List.nodup_dedup _, fun k hk => .base k (List.mem_dedup.1 hk),
      fun k hk => .base k (List.mem_dedup.1 hk), by simp [Dict.keys, Function.comp_def], ?_, ?_⟩
    · intro k d hd
      obtain ⟨h1, h2⟩ := hget k d hd
      exact ⟨h1, by simp [h2]⟩
    · intro k d hd
      rw [(hget k d hd).2]
      exact List.nodup_nil
  obtain ⟨g, hg, hinv, hcore, hdense, hdeps⟩ := groupLoop_spec hc (2 * covariates.length + 1) _ h0
    (fun k hk => List.mem_dedup.2 hk) (fun k hk => List.mem_dedup.2 hk) (by dsimp only; omega)
  unfold separateCovariates
  dsimp only
  rw [hg, Option.bind_some, if_pos]
  · have hnd : g.detailed.keys.Nodup := by rw [hinv.keys]; exact hc
    refine ⟨_, rfl, ?_, ?_, ?_, ?_, ?_, ?_⟩
    · dsimp only
      have hall : ∀ (l : Dict Str CovariateDef) (cs : Dict Str Str), l.keys = cs.keys →
          (∀ k d, (k, d) ∈ l → (k, d.formula) ∈ cs) → cs.keys.Nodup →
          l.map (fun kd => (kd.1, kd.2.formula)) = cs := by
        intro l
        induction l with
        | nil =>
          intro cs hk _ _
          cases cs with
          | nil => rfl
          | cons _ _ => simp [Dict.keys] at hk
        | cons kd l ih =>
          intro cs hk hm hn
          cases cs with
          | nil => simp [Dict.keys] at hk
          | cons kv cs =>
            obtain ⟨k, d⟩ := kd
            obtain ⟨k', f⟩ := kv
            simp only [Dict.keys, List.map_cons, List.cons.injEq] at hk
            obtain ⟨rfl, hk⟩ := hk
            simp only [Dict.keys, List.map_cons, List.nodup_cons] at hn
            have h1 := hm k d (by simp)
            have h2 : d.formula = f := by
              rcases List.mem_cons.1 h1 with h1 | h1
              · cases h1; rfl
              · exact absurd (List.mem_map.2 ⟨_, h1, rfl⟩) hn.1
            rw [List.map_cons, h2, ih cs hk _ hn.2]
            intro k₂ d₂ hmem
            rcases List.mem_cons.1 (hm k₂ d₂ (List.mem_cons_of_mem _ hmem)) with h3 | h3
            · exfalso
              cases h3
              apply hn.1
              rw [← hk]
              exact List.mem_map.2 ⟨_, hmem, rfl⟩
            · exact h3
      refine hall _ _ hinv.keys (fun k d hkd => ?_) hc
      have := (hinv.entry k d (Dict.get?_of_mem _ hnd _ _ hkd)).1
      exact Dict.mem_of_get? _ _ _ this
    · intro c d hcd x
      have hgd := Dict.get?_of_mem _ hnd _ _ hcd
      obtain ⟨h1, h2⟩ := hinv.entry c d hgd
      refine ⟨h2 x, fun ⟨hxf, hx⟩ => ?_⟩
      obtain ⟨d', hd', h3⟩ := hdeps c d.formula (Dict.mem_of_get? _ _ _ h1)
      rw [hgd] at hd'
      cases hd'
      exact h3 x (by rwa [hcore, hdense]) hxf
    · intro c d hcd
      exact hinv.depsNodup c d (Dict.get?_of_mem _ hnd _ _ hcd)
    · intro kd
      simp [List.mem_filter, hdense]
    · intro kd
      simp [List.mem_filter, hdense, hcore]
    · intro kd
      simp [List.mem_filter, hdense, hcore]
  · rw [List.all_eq_true]
    intro k hk
    obtain ⟨hk1, hk2⟩ := List.mem_filter.1 hk
    rw [decide_eq_true_eq] at hk2 ⊢
    rw [hcore] at hk1
    rw [hdense] at hk2
    rw [hinv.keys]
    cases hk1 with
    | formula _ f x hm _ _ => exact List.mem_map.2 ⟨_, hm, rfl⟩
    | base _ hcb =>
      cases hk2 with
      | formula _ f x hm _ _ => exact List.mem_map.2 ⟨_, hm, rfl⟩
      | base _ hdb => exact hb k hcb hdb

/-- The variables needed for the covariates of the core are state variables of the core and covariates of
the core, and likewise for the dense covariates: both can be computed without the other part. -/
theorem C68_self_contained (covariates : Dict Str Str) (hc : covariates.keys.Nodup)
    (coreBase denseBase : List Str) (hb : ∀ k ∈ coreBase, k ∈ denseBase → k ∈ covariates.keys)
    (G : CovariateGroups) (hG : separateCovariates covariates coreBase denseBase = some G) :
    (∀ c d, (c, d) ∈ G.core → ∀ x ∈ d.dependsOn, x ∈ coreBase ∨ x ∈ G.core.keys) ∧
    (∀ c d, (c, d) ∈ G.dense → ∀ x ∈ d.dependsOn, x ∈ denseBase ∨ x ∈ G.dense.keys) := by
  obtain ⟨G', hG', hall, hdeps, _, hcore, hdense, _⟩ := C68_groups covariates hc coreBase denseBase hb
  rw [hG] at hG'
  cases hG'
  have hmem : ∀ c d, (c, d) ∈ G.all → (c, d.formula) ∈ covariates := by
    intro c d h
    rw [← hall]
    exact List.mem_map.2 ⟨_, h, rfl⟩
  have hback : ∀ c f, (c, f) ∈ covariates → ∃ d, (c, d) ∈ G.all := by
    intro c f h
    rw [← hall] at h
    obtain ⟨⟨k, d⟩, hkd, he⟩ := List.mem_map.1 h
    cases he
    exact ⟨d, hkd⟩
  constructor
  · intro c d hcd x hx
    obtain ⟨h1, h2⟩ := (hcore _).1 hcd
    obtain ⟨hxf, hxr⟩ := (hdeps c d h1 x).1 hx
    have hnd : ¬ Reaches covariates denseBase x := fun h => h2 (.formula c _ x (hmem c d h1) hxf h)
    cases hxr.resolve_right hnd with
    | base _ hb => exact Or.inl hb
    | formula _ f y hm _ _ =>
      obtain ⟨d', hd'⟩ := hback x f hm
      exact Or.inr (List.mem_map.2 ⟨_, (hcore (x, d')).2 ⟨hd', hnd⟩, rfl⟩)
  · intro c d hcd x hx
    obtain ⟨h1, h2, h3⟩ := (hdense _).1 hcd
    obtain ⟨hxf, hxr⟩ := (hdeps c d h1 x).1 hx
    have hnc : ¬ Reaches covariates coreBase x := fun h => h3 (.formula c _ x (hmem c d h1) hxf h)
    have hr := hxr.resolve_left hnc
    cases hr with
    | base _ hb => exact Or.inl hb
    | formula _ f y hm hy hyr =>
      obtain ⟨d', hd'⟩ := hback x f hm
      exact Or.inr (List.mem_map.2 ⟨_, (hdense (x, d')).2
        ⟨hd', .formula x f y hm hy hyr, hnc⟩, rfl⟩)

/-- A covariate of each kind; `both` depends on the two kinds only through other covariates. -/
example :
    (separateCovariates
      [("both".toList, "senior * urban".toList), ("senior".toList, "period > 3".toList),
        ("urban".toList, "region == 1".toList), ("one".toList, "1".toList)]
      ["period".toList, "exp_a".toList] ["region".toList]).map
      (fun G => (G.core.keys, G.dense.keys, G.mixed.keys)) =
    some (["senior".toList, "one".toList], ["urban".toList], ["both".toList]) := by
  decide +kernel

end Respy
