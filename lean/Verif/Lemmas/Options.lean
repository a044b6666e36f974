import Verif.Spec.Options
import Verif.Lemmas.DictUpdate

/-! Helper lemmas: options. -/

namespace Respy

theorem positiveInteger_iff (v : PyValue) : v.positiveInteger = true ↔ ∃ n : Int, v = .int n ∧ 0 < n := by
  cases v <;> simp [PyValue.positiveInteger]

theorem nonnegativeInteger_iff (v : PyValue) : v.nonnegativeInteger = true ↔ ∃ n : Int, v = .int n ∧ 0 ≤ n := by
  cases v <;> simp [PyValue.nonnegativeInteger]

theorem positive_iff (v : PyValue) :
    v.positive = true ↔ (∃ n : Int, v = .int n ∧ 0 < n) ∨ ∃ x : Rat, v = .float x ∧ 0 < x := by
  cases v <;> simp [PyValue.positive]

theorem points_iff (v : PyValue) : (v.positiveInteger || v.minusOne) = true ↔
    (∃ n : Int, v = .int n ∧ (0 < n ∨ n = -1)) ∨ v = .float (-1) := by
  cases v <;> simp [PyValue.positiveInteger, PyValue.minusOne]

theorem isText_iff (v : PyValue) : v.isText = true ↔ ∃ s, v = .str s := by
  cases v <;> simp [PyValue.isText]

theorem allTexts (l : List PyValue) : (∀ x ∈ l, ∃ s, x = PyValue.str s) ↔ ∃ t : List Str, l = t.map .str := by
  constructor
  · intro h
    induction l with
    | nil => exact ⟨[], rfl⟩
    | cons x l ih =>
      obtain ⟨s, rfl⟩ := h x (by simp)
      obtain ⟨t, rfl⟩ := ih fun y hy => h y (List.mem_cons_of_mem _ hy)
      exact ⟨s :: t, rfl⟩
  · rintro ⟨t, rfl⟩ x hx
    obtain ⟨s, _, rfl⟩ := List.mem_map.1 hx
    exact ⟨s, rfl⟩

theorem isTexts_iff (v : PyValue) : v.isTexts = true ↔ v.Texts := by
  cases v <;> simp [PyValue.isTexts, PyValue.Texts, isText_iff, allTexts]

theorem isRestrictions_iff (v : PyValue) : v.isRestrictions = true ↔
    ∃ items : List (Str × PyValue), v = .dict (items.map fun kv => (.str kv.1, kv.2)) ∧ ∀ kv ∈ items, kv.2.Texts := by
  cases v with
  | dict items =>
    simp only [PyValue.isRestrictions, List.all_eq_true, Bool.and_eq_true, isText_iff, isTexts_iff, PyValue.dict.injEq]
    constructor
    · intro h
      induction items with
      | nil => exact ⟨[], rfl, by simp⟩
      | cons x items ih =>
        obtain ⟨⟨s, hs⟩, hx⟩ := h x (by simp)
        obtain ⟨t, ht, hall⟩ := ih fun y hy => h y (List.mem_cons_of_mem _ hy)
        refine ⟨(s, x.2) :: t, ?_, ?_⟩
        · rw [List.map_cons, ← ht, ← hs]
        · intro kv hkv
          rcases List.mem_cons.1 hkv with rfl | hkv
          · exact hx
          · exact hall kv hkv
    · rintro ⟨t, rfl, h⟩ kv hkv
      obtain ⟨x, hx, rfl⟩ := List.mem_map.1 hkv
      exact ⟨⟨x.1, rfl⟩, h x hx⟩
  | _ => simp [PyValue.isRestrictions]

theorem isSequence_iff (v : PyValue) : v.isSequence = true ↔
    v = .str "random".toList ∨ v = .str "halton".toList ∨ v = .str "sobol".toList := by
  generalize ha : "random".toList = a
  generalize hb : "halton".toList = b
  generalize hc : "sobol".toList = c
  cases v with
  | str s => simp only [PyValue.isSequence, ha, hb, hc, decide_eq_true_eq, PyValue.str.injEq, List.mem_cons,
      List.not_mem_nil, or_false]
  | _ => simp [PyValue.isSequence]

theorem isPath_iff (v : PyValue) : v.isPath = true ↔ (∃ s, v = .str s) ∨ v = .other := by
  cases v <;> simp [PyValue.isPath]

theorem isSeed_iff (v : PyValue) : v.isSeed = true ↔ ∃ n : Nat, v = .int n ∧ n < 2 ^ 32 := by
  cases v with
  | int n =>
    simp only [PyValue.isSeed, decide_eq_true_eq, PyValue.int.injEq]
    constructor
    · rintro ⟨h1, h2⟩
      exact ⟨n.toNat, by omega, by omega⟩
    · rintro ⟨m, rfl, h⟩
      omega
  | _ => simp [PyValue.isSeed]

theorem mem_userSeedNames (k : Str) :
    k ∈ userSeedNames ↔ k = "solution_seed".toList ∨ k = "simulation_seed".toList ∨ k = "estimation_seed".toList := by
  generalize ha : "solution_seed".toList = a
  generalize hb : "simulation_seed".toList = b
  generalize hc : "estimation_seed".toList = c
  simp only [userSeedNames, ha, hb, hc, List.mem_cons, List.not_mem_nil, or_false]

theorem any_get?_iff {κ ν : Type _} [DecidableEq κ] (d : Dict κ ν) (k : κ) (f : ν → Bool) :
    (d.get? k).any f = true ↔ k ∈ d.keys ∧ ∀ v, d.get? k = some v → f v = true := by
  cases h : d.get? k with
  | none => simp [(Dict.get?_eq_none_iff _ _).1 h]
  | some v =>
    have : k ∈ d.keys := by
      by_contra hno
      rw [(Dict.get?_eq_none_iff _ _).2 hno] at h
      cases h
    simp [this]

/-- Options without which `validate_options` fails and their names. -/
def requiredOptions : List Str :=
  ["n_periods".toList, "estimation_tau".toList, "interpolation_points".toList, "simulation_agents".toList,
    "core_state_space_filters".toList, "negative_choice_set".toList, "monte_carlo_sequence".toList]

/-- The part of `OptionInRange` which is checked by `validate_options`. -/
structure ValidatedOption (k : Str) (v : PyValue) : Prop where
  periods : k = "n_periods".toList → v.positiveInteger = true
  draws : "draws".toList <:+: k → v.positiveInteger = true
  seeds : "_seed".toList <:+ k → ¬ "draws".toList <:+: k → v.nonnegativeInteger = true
  tau : k = "estimation_tau".toList → v.positive = true
  points : k = "interpolation_points".toList → (v.positiveInteger || v.minusOne) = true
  agents : k = "simulation_agents".toList → v.positiveInteger = true
  filters : k = "core_state_space_filters".toList → v.isTexts = true
  restrictions : k = "negative_choice_set".toList → v.isRestrictions = true
  sequence : k = "monte_carlo_sequence".toList → v.isSequence = true

theorem optionInRange_iff (k : Str) (v : PyValue) : OptionInRange k v ↔
    ValidatedOption k v ∧ (k ∈ userSeedNames → v.isSeed = true) ∧ (k = "cache_path".toList → v.isPath = true) := by
  constructor
  · rintro ⟨h1, h2, h3, h4, h5, h6, h7, h8, h9, h10, h11⟩
    exact ⟨⟨fun h => (positiveInteger_iff _).2 (h1 h), fun h => (positiveInteger_iff _).2 (h3 h),
      fun h h' => (nonnegativeInteger_iff _).2 (h4 h h'), fun h => (positive_iff _).2 (h6 h),
      fun h => (points_iff _).2 (h7 h), fun h => (positiveInteger_iff _).2 (h2 h), fun h => (isTexts_iff _).2 (h8 h),
      fun h => (isRestrictions_iff _).2 (h9 h), fun h => (isSequence_iff _).2 (h10 h)⟩,
      fun h => (isSeed_iff _).2 (h5 ((mem_userSeedNames k).1 h)), fun h => (isPath_iff _).2 (h11 h)⟩
  · rintro ⟨⟨h1, h2, h3, h4, h5, h6, h7, h8, h9⟩, h10, h11⟩
    exact ⟨fun h => (positiveInteger_iff _).1 (h1 h), fun h => (positiveInteger_iff _).1 (h6 h),
      fun h => (positiveInteger_iff _).1 (h2 h), fun h h' => (nonnegativeInteger_iff _).1 (h3 h h'),
      fun h => (isSeed_iff _).1 (h10 ((mem_userSeedNames k).2 h)), fun h => (positive_iff _).1 (h4 h),
      fun h => (points_iff _).1 (h5 h), fun h => (isTexts_iff _).1 (h7 h), fun h => (isRestrictions_iff _).1 (h8 h),
      fun h => (isSequence_iff _).1 (h9 h), fun h => (isPath_iff _).1 (h11 h)⟩

theorem validateByName_iff (o : Dict Str PyValue) (hnd : o.keys.Nodup) : validateByName o = true ↔
    ∀ k v, o.get? k = some v → ("draws".toList <:+: k → v.positiveInteger = true) ∧
      ("_seed".toList <:+ k → ¬ "draws".toList <:+: k → v.nonnegativeInteger = true) := by
  unfold validateByName containsText
  generalize "draws".toList = a
  generalize "_seed".toList = b
  rw [List.all_eq_true]
  have hmem : ∀ k v, o.get? k = some v ↔ (k, v) ∈ o := fun k v =>
    ⟨fun h => Dict.mem_of_get? _ _ _ h, fun h => Dict.get?_of_mem _ hnd _ _ h⟩
  constructor
  · intro h k v hkv
    have := h (k, v) ((hmem k v).1 hkv)
    dsimp only at this
    by_cases h1 : a <:+: k
    · rw [decide_eq_true h1, if_pos rfl] at this
      exact ⟨fun _ => this, fun _ h2 => absurd h1 h2⟩
    · rw [decide_eq_false h1, if_neg (by simp)] at this
      refine ⟨fun h2 => absurd h2 h1, fun h2 _ => ?_⟩
      rw [if_pos (List.isSuffixOf_iff_suffix.2 h2)] at this
      exact this
  · rintro h ⟨k, v⟩ hkv
    obtain ⟨h1, h2⟩ := h k v ((hmem k v).2 hkv)
    dsimp only
    by_cases h3 : a <:+: k
    · rw [decide_eq_true h3, if_pos rfl]
      exact h1 h3
    · rw [decide_eq_false h3, if_neg (by simp)]
      split
      · next h4 => exact h2 (List.isSuffixOf_iff_suffix.1 h4) h3
      · rfl

theorem validateOptions_iff (o : Dict Str PyValue) (hnd : o.keys.Nodup) : validateOptions o = true ↔
    (∀ k ∈ requiredOptions, k ∈ o.keys) ∧ ∀ k v, o.get? k = some v → ValidatedOption k v := by
  unfold validateOptions requiredOptions
  simp only [Bool.and_eq_true, validateByName_iff o hnd, any_get?_iff]
  constructor
  · rintro ⟨⟨⟨⟨⟨⟨⟨h1, h2⟩, h3⟩, h4⟩, h5⟩, h6⟩, h7⟩, h8⟩
    refine ⟨?_, fun k v hkv => ⟨?_, (h2 k v hkv).1, (h2 k v hkv).2, ?_, ?_, ?_, ?_, ?_, ?_⟩⟩
    · simp only [List.forall_mem_cons]
      exact ⟨h1.1, h3.1, h4.1, h5.1, h6.1, h7.1, h8.1, fun _ h => by cases h⟩
    · rintro rfl; exact h1.2 v hkv
    · rintro rfl; exact h3.2 v hkv
    · rintro rfl; exact h4.2 v hkv
    · rintro rfl; exact h5.2 v hkv
    · rintro rfl; exact h6.2 v hkv
    · rintro rfl; exact h7.2 v hkv
    · rintro rfl; exact h8.2 v hkv
  · rintro ⟨h1, h2⟩
    simp only [List.forall_mem_cons] at h1
    obtain ⟨g1, g2, g3, g4, g5, g6, g7, _⟩ := h1
    exact ⟨⟨⟨⟨⟨⟨⟨⟨g1, fun v h => (h2 _ v h).periods rfl⟩, fun k v h => ⟨(h2 k v h).draws, (h2 k v h).seeds⟩⟩,
      ⟨g2, fun v h => (h2 _ v h).tau rfl⟩⟩, ⟨g3, fun v h => (h2 _ v h).points rfl⟩⟩,
      ⟨g4, fun v h => (h2 _ v h).agents rfl⟩⟩, ⟨g5, fun v h => (h2 _ v h).filters rfl⟩⟩,
      ⟨g6, fun v h => (h2 _ v h).restrictions rfl⟩⟩, ⟨g7, fun v h => (h2 _ v h).sequence rfl⟩⟩

theorem internalSeedNames_eq : internalSeedNames =
    userSeedNames.flatMap fun seed => [seed ++ "_startup".toList, seed ++ "_iteration".toList] := by decide +kernel

theorem get?_internalSeeds (a b : Str) (seeds : List Str) (o : Dict Str PyValue) (k : Str) :
    (seeds.foldl (fun o seed => (o.insert (seed ++ a) PyValue.other).insert (seed ++ b) PyValue.other) o).get? k =
      if k ∈ seeds.flatMap (fun seed => [seed ++ a, seed ++ b]) then some .other else o.get? k := by
  induction seeds generalizing o with
  | nil => simp
  | cons s seeds ih =>
    rw [List.foldl_cons, ih, Dict.get?_insert, Dict.get?_insert]
    simp only [List.flatMap_cons, List.mem_append, List.mem_cons, List.not_mem_nil, or_false]
    by_cases h1 : k ∈ seeds.flatMap fun seed => [seed ++ a, seed ++ b]
    · rw [if_pos h1, if_pos (Or.inr h1)]
    · rw [if_neg h1]
      by_cases h2 : s ++ b = k
      · rw [if_pos h2, if_pos (Or.inl (Or.inr h2.symm))]
      · rw [if_neg h2]
        by_cases h3 : s ++ a = k
        · rw [if_pos h3, if_pos (Or.inl (Or.inl h3.symm))]
        · rw [if_neg h3, if_neg]
          rintro ((h | h) | h)
          · exact h3 h.symm
          · exact h2 h.symm
          · exact h1 h

theorem nodup_internalSeeds (a b : Str) (seeds : List Str) (o : Dict Str PyValue) (h : o.keys.Nodup) :
    (seeds.foldl (fun o seed => (o.insert (seed ++ a) PyValue.other).insert (seed ++ b) PyValue.other) o).keys.Nodup := by
  induction seeds generalizing o with
  | nil => exact h
  | cons s seeds ih => exact ih _ (Dict.nodup_keys_insert _ _ _ (Dict.nodup_keys_insert _ _ _ h))

end Respy
