import Verif.Lemmas.Options

/-!
# C93: options

Options are accepted exactly if each of them is in the range which its name demands. Missing ones have their default.
-/

namespace Respy

/-- A name for which `validate_options` has no rule. -/
def FreeName (k : Str) : Prop :=
  ¬ "draws".toList <:+: k ∧ ¬ "_seed".toList <:+ k ∧ k ∉ requiredOptions

instance (k : Str) : Decidable (FreeName k) := inferInstanceAs (Decidable (_ ∧ _ ∧ _))

theorem FreeName.validated {k : Str} (h : FreeName k) (v : PyValue) : ValidatedOption k v := by
  obtain ⟨h1, h2, h3⟩ := h
  have h4 : ∀ r ∈ requiredOptions, k ≠ r := fun r hr h => h3 (h ▸ hr)
  exact ⟨fun h => absurd h (h4 _ (by decide +kernel)), fun h => absurd h h1, fun h => absurd h h2,
    fun h => absurd h (h4 _ (by decide +kernel)), fun h => absurd h (h4 _ (by decide +kernel)),
    fun h => absurd h (h4 _ (by decide +kernel)), fun h => absurd h (h4 _ (by decide +kernel)),
    fun h => absurd h (h4 _ (by decide +kernel)), fun h => absurd h (h4 _ (by decide +kernel))⟩

theorem internal_free : ∀ k ∈ internalSeedNames, FreeName k := by decide +kernel

theorem covariates_free : FreeName "covariates".toList := by decide +kernel

theorem cachePath_free : FreeName "cache_path".toList := by decide +kernel

theorem internal_disjoint : ∀ k ∈ internalSeedNames,
    k ∉ userSeedNames ∧ k ≠ "covariates".toList ∧ k ≠ "cache_path".toList ∧ k ∉ requiredOptions ∧
      k ∉ Dict.keys defaultOptions := by decide +kernel

theorem special_disjoint : "covariates".toList ∉ Dict.keys defaultOptions ∧ "cache_path".toList ∉ Dict.keys defaultOptions ∧
    "covariates".toList ∉ userSeedNames ∧ "cache_path".toList ∉ userSeedNames ∧
    "cache_path".toList ≠ "covariates".toList ∧ "covariates".toList ∉ requiredOptions ∧
    "cache_path".toList ∉ requiredOptions ∧ "n_periods".toList ∉ Dict.keys defaultOptions := by decide +kernel

theorem required_default : ∀ k ∈ requiredOptions, k = "n_periods".toList ∨ k ∈ Dict.keys defaultOptions := by
  decide +kernel

theorem periods_required : "n_periods".toList ∈ requiredOptions := by decide +kernel

theorem not_special (k : Str) (hk : k ∈ requiredOptions) :
    k ≠ "cache_path".toList ∧ k ≠ "covariates".toList ∧ k ∉ internalSeedNames := by
  refine ⟨?_, ?_, fun h => (internal_disjoint _ h).2.2.2.1 hk⟩
  · rintro rfl
    exact special_disjoint.2.2.2.2.2.2.1 hk
  · rintro rfl
    exact special_disjoint.2.2.2.2.2.1 hk

theorem seeds_default : ∀ k ∈ userSeedNames, k ∈ Dict.keys defaultOptions := by decide +kernel

theorem default_nodup : (Dict.keys defaultOptions).Nodup := by decide +kernel

/-- The defaults are in their ranges. -/
theorem default_inRange (k : Str) (v : PyValue) (h : defaultOptions.get? k = some v) : OptionInRange k v := by
  rw [optionInRange_iff]
  have hval : validateOptions (defaultOptions ++ [("n_periods".toList, .int 1)]) = true := by decide +kernel
  have hnd : (Dict.keys (defaultOptions ++ [("n_periods".toList, PyValue.int 1)])).Nodup := by decide +kernel
  have hseed : ∀ kv ∈ defaultOptions, kv.1 ∈ userSeedNames → kv.2.isSeed = true := by decide +kernel
  have hm := Dict.mem_of_get? _ _ _ h
  refine ⟨((validateOptions_iff _ hnd).1 hval).2 k v ?_, hseed (k, v) hm, fun hk => ?_⟩
  · exact Dict.get?_of_mem _ hnd _ _ (List.mem_append_left _ hm)
  · exact absurd (hk ▸ List.mem_map.2 ⟨_, hm, rfl⟩) special_disjoint.2.1

/-- Lookup in `{**DEFAULT_OPTIONS, **user}`. -/
theorem get?_merged (user : Dict Str PyValue) (hnd : user.keys.Nodup) (k : Str) :
    (defaultOptions.update user).get? k = (user.get? k).or (defaultOptions.get? k) := by
  cases h : user.get? k with
  | none => rw [get?_update_of_not_mem _ _ _ ((Dict.get?_eq_none_iff _ _).1 h), Option.none_or]
  | some v => rw [get?_update_of_mem _ _ hnd k v (Dict.mem_of_get? _ _ _ h), Option.some_or]

theorem mem_keys_iff_get? {κ ν : Type _} [DecidableEq κ] (d : Dict κ ν) (k : κ) : k ∈ d.keys ↔ ∃ v, d.get? k = some v := by
  rw [← Option.isSome_iff_exists, Option.isSome_iff_ne_none, Ne, Dict.get?_eq_none_iff, not_not]

/-- The options which `processOptions` creates before the check. -/
theorem processOptions_some (relevant : PyValue → Option PyValue) (user : Dict Str PyValue) (hnd : user.keys.Nodup)
    (o : Dict Str PyValue) : processOptions relevant user = some o ↔
      (∀ k ∈ userSeedNames, ∀ v, (user.get? k).or (defaultOptions.get? k) = some v → v.isSeed = true) ∧
      (∀ v, user.get? "cache_path".toList = some v → v.isPath = true) ∧
      ∃ c kept, user.get? "covariates".toList = some c ∧ relevant c = some kept ∧
      o = ((((userSeedNames.foldl (fun o seed => (o.insert (seed ++ "_startup".toList) PyValue.other).insert
          (seed ++ "_iteration".toList) .other) (defaultOptions.update user)).insert "covariates".toList kept)).insert
            "cache_path".toList .other) ∧ validateOptions o = true := by
  have hget := fun k => get?_internalSeeds "_startup".toList "_iteration".toList userSeedNames
    (defaultOptions.update user) k
  have hcov : ¬ "covariates".toList ∈ internalSeedNames := fun h => (internal_disjoint _ h).2.1 rfl
  have hcache : ¬ "cache_path".toList ∈ internalSeedNames := fun h => (internal_disjoint _ h).2.2.1 rfl
  rw [internalSeedNames_eq] at hcov hcache
  have hseeds : (userSeedNames.all fun seed => ((defaultOptions.update user).get? seed).any PyValue.isSeed) = true ↔
      ∀ k ∈ userSeedNames, ∀ v, (user.get? k).or (defaultOptions.get? k) = some v → v.isSeed = true := by
    rw [List.all_eq_true]
    refine forall_congr' fun k => forall_congr' fun hk => ?_
    rw [any_get?_iff, get?_merged user hnd]
    refine ⟨fun h => h.2, fun h => ⟨?_, h⟩⟩
    rw [Dict.mem_keys_update]
    exact Or.inl (seeds_default k hk)
  unfold processOptions addInternalSeeds parseCacheOption
  by_cases h1 : (userSeedNames.all fun seed => ((defaultOptions.update user).get? seed).any PyValue.isSeed) = true
  swap
  · rw [if_neg h1]
    constructor
    · intro h; cases h
    · rintro ⟨h, _⟩; exact absurd (hseeds.2 h) h1
  rw [if_pos h1]
  simp only [Option.bind_eq_bind, Option.bind_some]
  rw [hget, if_neg hcov, get?_merged user hnd, (Dict.get?_eq_none_iff defaultOptions _).2 special_disjoint.1, Option.or_none]
  cases h2 : user.get? "covariates".toList with
  | none =>
    constructor
    · intro h; cases h
    · rintro ⟨_, _, c, _, h, _⟩; cases h
  | some c =>
    rw [Option.bind_some]
    cases h3 : relevant c with
    | none =>
      constructor
      · intro h; cases h
      · rintro ⟨_, _, c', _, h, h', _⟩
        cases h
        rw [h3] at h'
        cases h'
    | some kept =>
      rw [Option.bind_some]
      rw [Dict.get?_insert, if_neg special_disjoint.2.2.2.2.1.symm, hget, if_neg hcache, get?_merged user hnd,
        (Dict.get?_eq_none_iff defaultOptions _).2 special_disjoint.2.1, Option.or_none]
      have hpath : ((user.get? "cache_path".toList).getD (.str ".respy".toList)).isPath = true ↔
          ∀ v, user.get? "cache_path".toList = some v → v.isPath = true := by
        cases user.get? "cache_path".toList with
        | none => exact ⟨fun _ v h => (by cases h), fun _ => rfl⟩
        | some v => exact ⟨fun h v' h' => (by cases h'; exact h), fun h => h v rfl⟩
      by_cases h4 : ((user.get? "cache_path".toList).getD (.str ".respy".toList)).isPath = true
      swap
      · rw [if_neg h4]
        constructor
        · intro h; cases h
        · rintro ⟨_, h, _⟩; exact absurd (hpath.2 h) h4
      rw [if_pos h4, Option.bind_some]
      constructor
      · intro h
        obtain ⟨h5, h6⟩ := Option.ite_none_right_eq_some.1 h
        cases h6
        exact ⟨hseeds.1 h1, hpath.1 h4, c, kept, rfl, h3, rfl, h5⟩
      · rintro ⟨_, _, c', kept', hc', hk', rfl, h5⟩
        cases hc'
        rw [h3] at hk'
        cases hk'
        rw [if_pos h5]

/-- Lookup in the accepted options. -/
theorem get?_processed (user : Dict Str PyValue) (hnd : user.keys.Nodup) (kept : PyValue) (k : Str) :
    ((((userSeedNames.foldl (fun o seed => (o.insert (seed ++ "_startup".toList) PyValue.other).insert
          (seed ++ "_iteration".toList) .other) (defaultOptions.update user)).insert "covariates".toList kept)).insert
            "cache_path".toList .other).get? k =
      if k = "cache_path".toList then some .other
      else if k = "covariates".toList then some kept
      else if k ∈ internalSeedNames then some .other
      else (user.get? k).or (defaultOptions.get? k) := by
  rw [Dict.get?_insert, Dict.get?_insert, get?_internalSeeds, get?_merged user hnd]
  by_cases g1 : k = "cache_path".toList
  · rw [if_pos g1, if_pos g1.symm]
  rw [if_neg g1, if_neg (Ne.symm g1)]
  by_cases g2 : k = "covariates".toList
  · rw [if_pos g2, if_pos g2.symm]
  rw [if_neg g2, if_neg (Ne.symm g2)]
  by_cases g3 : k ∈ internalSeedNames
  · rw [if_pos g3, if_pos (internalSeedNames_eq ▸ g3)]
  · rw [if_neg g3, if_neg (internalSeedNames_eq ▸ g3)]

/-- **C93.** Options are accepted exactly if the number of periods and covariates are given and each given option is in the
range which its name demands. -/
theorem C93_accepted_iff (relevant : PyValue → Option PyValue) (user : Dict Str PyValue) (hnd : user.keys.Nodup) :
    (∃ o, processOptions relevant user = some o) ↔
      "n_periods".toList ∈ user.keys ∧
      (∃ c kept, user.get? "covariates".toList = some c ∧ relevant c = some kept) ∧
      ∀ k v, user.get? k = some v → OptionInRange k v := by
  have hnodup : ∀ kept, ((((userSeedNames.foldl (fun o seed => (o.insert (seed ++ "_startup".toList) PyValue.other).insert
          (seed ++ "_iteration".toList) .other) (defaultOptions.update user)).insert "covariates".toList kept)).insert
            "cache_path".toList .other).keys.Nodup := fun kept =>
    Dict.nodup_keys_insert _ _ _ (Dict.nodup_keys_insert _ _ _ (nodup_internalSeeds _ _ _ _
      (Dict.nodup_keys_update _ _ default_nodup)))
  constructor
  · rintro ⟨o, h⟩
    obtain ⟨h1, h2, c, kept, h3, h4, rfl, h5⟩ := (processOptions_some relevant user hnd o).1 h
    rw [validateOptions_iff _ (hnodup kept)] at h5
    obtain ⟨h5, h6⟩ := h5
    refine ⟨?_, ⟨c, kept, h3, h4⟩, fun k v hkv => (optionInRange_iff k v).2 ⟨?_, fun hk => ?_, fun hk => ?_⟩⟩
    · have := (mem_keys_iff_get? _ _).1 (h5 _ periods_required)
      obtain ⟨v, hv⟩ := this
      rw [get?_processed user hnd, if_neg (not_special _ periods_required).1, if_neg (not_special _ periods_required).2.1,
        if_neg (not_special _ periods_required).2.2,
        (Dict.get?_eq_none_iff defaultOptions _).2 special_disjoint.2.2.2.2.2.2.2, Option.or_none] at hv
      exact (mem_keys_iff_get? _ _).2 ⟨v, hv⟩
    · by_cases g1 : k = "cache_path".toList
      · exact g1 ▸ cachePath_free.validated v
      by_cases g2 : k = "covariates".toList
      · exact g2 ▸ covariates_free.validated v
      by_cases g3 : k ∈ internalSeedNames
      · exact (internal_free k g3).validated v
      refine h6 k v ?_
      rw [get?_processed user hnd, if_neg g1, if_neg g2, if_neg g3, hkv, Option.some_or]
    · exact h1 k hk v (by rw [hkv, Option.some_or])
    · exact h2 v (hk ▸ hkv)
  · rintro ⟨h1, ⟨c, kept, h3, h4⟩, h⟩
    refine ⟨_, (processOptions_some relevant user hnd _).2 ⟨fun k hk v hv => ?_, fun v hv => ?_, c, kept, h3, h4, rfl,
      (validateOptions_iff _ (hnodup kept)).2 ⟨fun k hk => ?_, fun k v hkv => ?_⟩⟩⟩
    · cases hu : user.get? k with
      | none =>
        rw [hu, Option.none_or] at hv
        exact ((optionInRange_iff _ _).1 (default_inRange k v hv)).2.1 hk
      | some v' =>
        rw [hu, Option.some_or] at hv
        cases hv
        exact ((optionInRange_iff _ _).1 (h k _ hu)).2.1 hk
    · exact ((optionInRange_iff _ _).1 (h _ v hv)).2.2 rfl
    · rw [mem_keys_iff_get?, get?_processed user hnd, if_neg (not_special k hk).1,
        if_neg (not_special k hk).2.1, if_neg (not_special k hk).2.2]
      rcases required_default k hk with rfl | hd
      · obtain ⟨v, hv⟩ := (mem_keys_iff_get? _ _).1 h1
        exact ⟨v, by rw [hv, Option.some_or]⟩
      · obtain ⟨v, hv⟩ := (mem_keys_iff_get? _ _).1 hd
        cases user.get? k with
        | none => exact ⟨v, by rw [hv, Option.none_or]⟩
        | some v' => exact ⟨v', rfl⟩
    · rw [get?_processed user hnd] at hkv
      split at hkv
      · next hk => exact hk ▸ cachePath_free.validated v
      split at hkv
      · next hk => exact hk ▸ covariates_free.validated v
      split at hkv
      · next hk => exact (internal_free k hk).validated v
      · cases hu : user.get? k with
        | none =>
          rw [hu, Option.none_or] at hkv
          exact ((optionInRange_iff _ _).1 (default_inRange k v hkv)).1
        | some v' =>
          rw [hu, Option.some_or] at hkv
          cases hkv
          exact ((optionInRange_iff _ _).1 (h k _ hu)).1

/-- **C93.** In accepted options each option has the user's value, or its default if the user gives none. Only covariates, the
path of the cache and the sequences of seeds are replaced, covariates by the relevant ones of the user. All options are in their
ranges. -/
theorem C93_option_values (relevant : PyValue → Option PyValue) (user : Dict Str PyValue) (hnd : user.keys.Nodup)
    (o : Dict Str PyValue) (h : processOptions relevant user = some o) :
    (∀ k, k ∉ internalSeedNames → k ≠ "covariates".toList → k ≠ "cache_path".toList →
      (∀ v, user.get? k = some v → o.get? k = some v) ∧
      (user.get? k = none → o.get? k = defaultOptions.get? k)) ∧
    (∃ c, user.get? "covariates".toList = some c ∧ o.get? "covariates".toList = relevant c) ∧
    (∀ k ∈ internalSeedNames, o.get? k = some .other) ∧
    (∀ k v, o.get? k = some v → OptionInRange k v) ∧
    ∀ k, k = "n_periods".toList ∨ k = "covariates".toList ∨ k = "cache_path".toList ∨ k ∈ Dict.keys defaultOptions →
      k ∈ Dict.keys o := by
  obtain ⟨h1, _, hrange⟩ := (C93_accepted_iff relevant user hnd).1 ⟨o, h⟩
  obtain ⟨_, _, c, kept, h3, h4, rfl, h5⟩ := (processOptions_some relevant user hnd o).1 h
  refine ⟨fun k g1 g2 g3 => ?_, ⟨c, h3, ?_⟩, fun k hk => ?_, fun k v hkv => ?_, fun k hk => ?_⟩
  · rw [get?_processed user hnd, if_neg g3, if_neg g2, if_neg g1]
    exact ⟨fun v hv => by rw [hv, Option.some_or], fun hv => by rw [hv, Option.none_or]⟩
  · rw [get?_processed user hnd, if_neg special_disjoint.2.2.2.2.1.symm, if_pos rfl, h4]
  · rw [get?_processed user hnd, if_neg (internal_disjoint k hk).2.2.1, if_neg (internal_disjoint k hk).2.1, if_pos hk]
  · rw [get?_processed user hnd] at hkv
    split at hkv
    · next hk =>
      cases hkv
      exact hk ▸ (optionInRange_iff _ _).2 ⟨cachePath_free.validated _, fun h => absurd h special_disjoint.2.2.2.1,
        fun _ => rfl⟩
    split at hkv
    · next hk =>
      exact hk ▸ (optionInRange_iff _ _).2 ⟨covariates_free.validated _, fun h => absurd h special_disjoint.2.2.1,
        fun h => absurd h.symm special_disjoint.2.2.2.2.1⟩
    split at hkv
    · next hk =>
      exact (optionInRange_iff _ _).2 ⟨(internal_free k hk).validated _, fun h => absurd h (internal_disjoint k hk).1,
        fun h => absurd h (internal_disjoint k hk).2.2.1⟩
    · cases hu : user.get? k with
      | none =>
        rw [hu, Option.none_or] at hkv
        exact default_inRange k v hkv
      | some v' =>
        rw [hu, Option.some_or] at hkv
        cases hkv
        exact hrange k _ hu
  · rw [mem_keys_iff_get?, get?_processed user hnd]
    split
    · exact ⟨_, rfl⟩
    split
    · exact ⟨_, rfl⟩
    split
    · exact ⟨_, rfl⟩
    next g1 g2 g3 =>
      cases hu : user.get? k with
      | some v => exact ⟨v, rfl⟩
      | none =>
        rw [Option.none_or]
        rcases hk with rfl | hk | hk | hk
        · exact absurd h1 ((Dict.get?_eq_none_iff _ _).1 hu)
        · exact absurd hk g2
        · exact absurd hk g1
        · exact (mem_keys_iff_get? _ _).1 hk

/-- Options with a misspelled name: `solution_draw` instead of `solution_draws`. -/
def misspelledOptions : Dict Str PyValue :=
  [("n_periods".toList, .int 5), ("covariates".toList, .dict []), ("solution_draw".toList, .int (-3))]

/-- **C93 (negated for unknown names).** Options with an unknown name are accepted with any value: a misspelled number of draws
has no effect, the default is used. -/
theorem C93_unknown_names_false : ∃ (user o : Dict Str PyValue),
    user.get? "solution_draw".toList = some (.int (-3)) ∧ processOptions some user = some o ∧
      o.get? "solution_draws".toList = some (.int 200) := by
  obtain ⟨o, ho⟩ : ∃ o, processOptions some misspelledOptions = some o := by
    rw [← Option.isSome_iff_exists]
    decide +kernel
  refine ⟨misspelledOptions, o, rfl, ho, ?_⟩
  have := ((C93_option_values some misspelledOptions (by decide +kernel) o ho).1 "solution_draws".toList
    (by decide +kernel) (by decide +kernel) (by decide +kernel)).2 (by rfl)
  exact this.trans rfl

/-- The hypotheses of the theorems hold for options with a filter and a restriction; a negative seed, a number of draws which is
not an integer, and a missing number of periods are rejected. -/
example :
    (Dict.keys [("n_periods".toList, PyValue.int 5), ("covariates".toList, .dict []),
      ("core_state_space_filters".toList, .list [.str "period > 3".toList]),
      ("negative_choice_set".toList, .dict [(.str "a".toList, .list [.str "period < 2".toList])])]).Nodup ∧
    (processOptions some [("n_periods".toList, .int 5), ("covariates".toList, .dict []),
      ("core_state_space_filters".toList, .list [.str "period > 3".toList]),
      ("negative_choice_set".toList, .dict [(.str "a".toList, .list [.str "period < 2".toList])])]).isSome = true ∧
    (processOptions some [("n_periods".toList, .int 5), ("covariates".toList, .dict []),
      ("solution_seed".toList, .int (-1))]).isSome = false ∧
    (processOptions some [("n_periods".toList, .int 5), ("covariates".toList, .dict []),
      ("solution_draws".toList, .float 200)]).isSome = false ∧
    (processOptions some [("covariates".toList, .dict [])]).isSome = false := by
  decide +kernel

end Respy
