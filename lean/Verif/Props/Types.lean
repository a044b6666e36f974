import Verif.Props.Processing
import Verif.Model.Simulate
import Mathlib.Tactic.Linarith

/-! # Properties of types, discount factors and choice restrictions in the processed model -/

namespace Respy

/-! ### C55 The number of types is inferred completely -/

/-- The index of `type_i` is `i`, for all `i`. -/
theorem C55_type_names (i : Nat) : typeIndex ("type_".toList ++ Nat.toDigits 10 i) = some i := by
  unfold typeIndex
  rw [extract_prefix_name _ _ _ (by decide) (by decide) Nat.toDigits_ne_nil
    (fun c hc => Nat.isDigit_of_mem_toDigits (by omega) (by omega) hc)
    (fun c hc => by simp [isWordChar, Char.isAlphanum, hc])]
  have := Nat.ofDigitChars_toDigits (b := 10) (n := i) (by omega) (by omega)
  rw [Nat.ofDigitChars_eq_foldl] at this
  exact congrArg some this

/-- The number of types is one plus the largest index of a type which occurs as the name of a parameter,
and one if there is none. -/
theorem C55_number_of_types (params : List (Str × Str)) :
    (∀ p ∈ params, ∀ i, typeIndex p.2 = some i → i < inferNumberOfTypes params) ∧
    (inferNumberOfTypes params = 1 ∨
      ∃ p ∈ params, typeIndex p.2 = some (inferNumberOfTypes params - 1)) := by
  unfold inferNumberOfTypes
  rw [List.map_map]
  have key : ∀ (l : List (Str × Str)) (m : Nat),
      let r := (l.map ((fun name => (typeIndex name).getD 0) ∘ Prod.snd)).foldl max m
      m ≤ r ∧ (∀ p ∈ l, ∀ i, typeIndex p.2 = some i → i ≤ r) ∧
        (r = m ∨ r = 0 ∨ ∃ p ∈ l, typeIndex p.2 = some r) := by
    intro l
    induction l with
    | nil => intro m; simp
    | cons p l ih =>
      intro m
      simp only [List.map_cons, List.foldl_cons, Function.comp]
      obtain ⟨h1, h2, h3⟩ := ih (max m ((typeIndex p.2).getD 0))
      refine ⟨le_trans (le_max_left _ _) h1, ?_, ?_⟩
      · intro q hq i hi
        rcases List.mem_cons.1 hq with rfl | hq
        · have : i ≤ max m ((typeIndex q.2).getD 0) := by rw [hi]; exact le_max_right _ _
          exact this.trans h1
        · exact h2 q hq i hi
      · rcases h3 with h3 | h3 | ⟨q, hq, h3⟩
        · rcases le_total ((typeIndex p.2).getD 0) m with hle | hle
          · left; rw [h3, max_eq_left hle]
          · right
            rw [h3, max_eq_right hle]
            cases hp : typeIndex p.2 with
            | none => left; rfl
            | some i => right; exact ⟨p, by simp, by simp [hp]⟩
        · right; left; exact h3
        · right; right; exact ⟨q, List.mem_cons_of_mem _ hq, h3⟩
  obtain ⟨_, h2, h3⟩ := key params 0
  refine ⟨fun p hp i hi => Nat.lt_succ_of_le (h2 p hp i hi), ?_⟩
  rcases h3 with h3 | h3 | ⟨p, hp, h3⟩
  · left; rw [h3]
  · left; rw [h3]
  · right; exact ⟨p, hp, by simpa using h3⟩

/-- The rows of the parameters of the distribution of types. -/
def typeRows (params : List ((Str × Str) × ℝ)) : List (GroupParam Nat) :=
  params.filterMap fun p => (typeIndex p.1.1).map fun i => ⟨i, p.1.2, p.2⟩

theorem parseGroup_keys {L : Type _} [LinearOrder L] (maxFloat : ℝ) (rows : List (GroupParam L))
    (d : Dict L (List (Str × ℝ))) (h : parseGroup maxFloat rows = .ok (some d)) :
    d.keys = (rows.map GroupParam.level).dedup.insertionSort (· ≤ ·) := by
  unfold parseGroup at h
  split at h
  · cases h
  · dsimp only at h
    split at h
    · cases h; simp [Dict.keys, Function.comp_def]
    · split at h
      · cases h
      · cases h; simp [Dict.keys, Function.comp_def]

/-- The entries of `type_prob`: one for every type, and one for every index in the categories. -/
theorem parseTypes_keys (maxFloat : ℝ) (params : List ((Str × Str) × ℝ)) (n : Nat)
    (tp : Dict Nat (List (Str × ℝ))) (h : parseTypes maxFloat params = .ok (n, tp)) :
    n = inferNumberOfTypes (params.map Prod.fst) ∧
    (2 ≤ n → tp.keys.Nodup ∧ (List.range n) <+: tp.keys ∧
      (∀ i, i ∈ tp.keys ↔ i < n ∨ ∃ p ∈ params, typeIndex p.1.1 = some i) ∧
      ∃ parsed, parseGroup maxFloat (typeRows params) = .ok (some parsed) ∧
        tp = (Dict.ofItems ((List.range n).map fun i => (i, [("constant".toList, (0 : ℝ))]))).update
          parsed) := by
  unfold parseTypes at h
  split at h
  · cases h
  · dsimp only at h
    split at h
    · split at h
      · cases h
      · cases h
      · rename_i parsed hp
        cases h
        refine ⟨rfl, fun _ => ⟨Dict.nodup_keys_update _ _ (Dict.nodup_keys_ofItems _), ?_, ?_, parsed,
          hp, rfl⟩⟩
        · have hk : (Dict.ofItems ((List.range (inferNumberOfTypes (params.map Prod.fst))).map
              fun i => (i, [("constant".toList, (0 : ℝ))]))).keys =
              List.range (inferNumberOfTypes (params.map Prod.fst)) := by
            rw [Dict.ofItems_of_nodup]
            · simp [Dict.keys, Function.comp_def]
            · simp [Function.comp_def, List.nodup_range]
          have hpre : ∀ (d : Dict Nat (List (Str × ℝ))) items, d.keys <+: (d.update items).keys := by
            intro d items
            unfold Dict.update
            induction items generalizing d with
            | nil => simp
            | cons kv items ih =>
              refine List.IsPrefix.trans ?_ (ih _)
              have : ∀ (d : Dict Nat (List (Str × ℝ))) k v, d.keys <+: (d.insert k v).keys := by
                intro d k v
                induction d with
                | nil => simp [Dict.keys]
                | cons kv d ih =>
                  obtain ⟨a, b⟩ := kv
                  unfold Dict.insert
                  split
                  · simp [Dict.keys]
                  · simp only [Dict.keys, List.map_cons] at ih ⊢
                    exact List.cons_prefix_cons.2 ⟨rfl, ih⟩
              exact this d kv.1 kv.2
          have := hpre (Dict.ofItems ((List.range (inferNumberOfTypes (params.map Prod.fst))).map
              fun i => (i, [("constant".toList, (0 : ℝ))]))) parsed
          rwa [hk] at this
        · intro i
          rw [Dict.mem_keys_update, Dict.mem_keys_ofItems]
          have hk := parseGroup_keys _ _ _ hp
          unfold Dict.keys at hk
          rw [hk, (List.perm_insertionSort _ _).mem_iff, List.mem_dedup]
          simp only [List.map_map, List.mem_map, List.mem_range, Function.comp, exists_eq_right,
            List.mem_filterMap, Option.map_eq_some_iff]
          constructor
          · rintro (h | ⟨r, ⟨p, hp, j, hj, rfl⟩, rfl⟩)
            · exact Or.inl h
            · exact Or.inr ⟨p, hp, hj⟩
          · rintro (h | ⟨p, hp, hj⟩)
            · exact Or.inl h
            · exact Or.inr ⟨_, ⟨p, hp, i, hj, rfl⟩, rfl⟩
    · cases h
      exact ⟨rfl, fun h2 => absurd h2 (by assumption)⟩

/-- If no index in the categories is beyond the types in the names, there is exactly one entry of
coefficients for every type in order, and a type without own parameters has the baseline coefficient.
Missing: categories of types which do not occur as a name, see `C55_entries_false`. -/
theorem C55_entries_partial (maxFloat : ℝ) (params : List ((Str × Str) × ℝ)) (n : Nat)
    (tp : Dict Nat (List (Str × ℝ))) (h : parseTypes maxFloat params = .ok (n, tp)) (hn : 2 ≤ n)
    (hcat : ∀ p ∈ params, ∀ i, typeIndex p.1.1 = some i → i < n) :
    tp.keys = List.range n ∧
    ∀ i < n, (∀ p ∈ params, typeIndex p.1.1 ≠ some i) →
      tp.get? i = some [("constant".toList, 0)] := by
  obtain ⟨_, h2⟩ := parseTypes_keys maxFloat params n tp h
  obtain ⟨hnd, hpre, hmem, parsed, hp, rfl⟩ := h2 hn
  constructor
  · obtain ⟨t, ht⟩ := hpre
    have : t = [] := by
      rw [List.eq_nil_iff_forall_not_mem]
      intro i hi
      have h1 := (hmem i).1 (by rw [← ht]; simp [hi])
      have h3 : i < n := by
        rcases h1 with h1 | ⟨p, hp, h1⟩
        · exact h1
        · exact hcat p hp i h1
      rw [← ht] at hnd
      exact (List.nodup_append.1 hnd).2.2 i (List.mem_range.2 h3) i hi rfl
    rw [← ht, this, List.append_nil]
  · intro i hi hno
    rw [Dict.get?_update]
    have hk := parseGroup_keys _ _ _ hp
    have hnot : i ∉ parsed.keys := by
      rw [hk, (List.perm_insertionSort _ _).mem_iff, List.mem_dedup]
      simp only [typeRows, List.mem_map, List.mem_filterMap, Option.map_eq_some_iff]
      rintro ⟨r, ⟨p, hp, j, hj, rfl⟩, rfl⟩
      exact hno p hp hj
    have : parsed.reverse.find? (fun kv => decide (kv.1 = i)) = none := by
      rw [List.find?_eq_none]
      intro kv hkv
      simp only [decide_eq_true_eq]
      intro he
      exact hnot (List.mem_map.2 ⟨kv, List.mem_reverse.1 hkv, he⟩)
    rw [this]
    apply Dict.get?_ofItems_of_mem
    · simp [Function.comp_def, List.nodup_range]
    · exact List.mem_map.2 ⟨i, List.mem_range.2 hi, rfl⟩

theorem parseGroup_coefficients {L : Type _} [LinearOrder L] (maxFloat : ℝ) (rows : List (GroupParam L))
    (hne : rows ≠ []) (hp : ∀ r ∈ rows, r.name ≠ "probability".toList) :
    ∃ d, parseGroup maxFloat rows = .ok (some d) := by
  have hc : rows.countP (fun r => r.name = "probability".toList) = 0 := by
    rw [List.countP_eq_zero]
    intro r hr
    rw [decide_eq_true_eq]
    exact hp r hr
  have hl : 0 < rows.length := List.length_pos_iff.2 hne
  unfold parseGroup
  rw [if_neg (by simpa using hne)]
  dsimp only
  rw [hc, if_neg, if_neg (by omega)]
  · exact ⟨_, rfl⟩
  · rintro ⟨h4, h5⟩
    omega

theorem typeRows_filter (i : Nat) (params : List ((Str × Str) × ℝ)) :
    ((typeRows params).filter fun r => r.level = i).map (fun r => (r.name, r.value)) =
      (params.filter fun p => typeIndex p.1.1 = some i).map fun p => (p.1.2, p.2) := by
  unfold typeRows
  induction params with
  | nil => rfl
  | cons p params ih =>
    cases hj : typeIndex p.1.1 with
    | none => simpa [hj] using ih
    | some j =>
      by_cases hji : j = i
      · subst hji; simpa [hj] using ih
      · simpa [hj, hji] using ih

/-- A type with own logit coefficients has exactly these coefficients, in the order of the parameters. -/
theorem C55_own_coefficients (maxFloat : ℝ) (params : List ((Str × Str) × ℝ)) (n : Nat)
    (tp : Dict Nat (List (Str × ℝ))) (h : parseTypes maxFloat params = .ok (n, tp)) (hn : 2 ≤ n)
    (hp : ∀ p ∈ params, (typeIndex p.1.1).isSome → p.1.2 ≠ "probability".toList) (i : Nat)
    (hi : ∃ p ∈ params, typeIndex p.1.1 = some i) :
    tp.get? i = some ((params.filter fun p => typeIndex p.1.1 = some i).map fun p => (p.1.2, p.2)) := by
  obtain ⟨_, h2⟩ := parseTypes_keys maxFloat params n tp h
  obtain ⟨hnd, hpre, hmem, parsed, hg, rfl⟩ := h2 hn
  have hk := parseGroup_keys _ _ _ hg
  have hin : i ∈ parsed.keys := by
    rw [hk, (List.perm_insertionSort _ _).mem_iff, List.mem_dedup]
    obtain ⟨p, hp1, hp2⟩ := hi
    exact List.mem_map.2 ⟨⟨i, p.1.2, p.2⟩, List.mem_filterMap.2 ⟨p, hp1, by rw [hp2]; rfl⟩, rfl⟩
  have hc : (typeRows params).countP (fun r => r.name = "probability".toList) = 0 := by
    rw [List.countP_eq_zero]
    intro r hr
    obtain ⟨p, hp1, hp2⟩ := List.mem_filterMap.1 hr
    obtain ⟨j, hj, rfl⟩ := Option.map_eq_some_iff.1 hp2
    rw [decide_eq_true_eq]
    exact hp p hp1 (by rw [hj]; rfl)
  have hval : parsed.get? i =
      some ((params.filter fun p => typeIndex p.1.1 = some i).map fun p => (p.1.2, p.2)) := by
    unfold parseGroup at hg
    split at hg
    · cases hg
    · rename_i hlen
      dsimp only at hg
      rw [hc, if_neg, if_neg (by omega)] at hg
      · have hparsed := Option.some.inj (Except.ok.inj hg)
        have hnd' : parsed.keys.Nodup := by
          rw [hk]
          exact ((List.perm_insertionSort _ _).nodup_iff).2 (List.nodup_dedup _)
        apply Dict.get?_of_mem _ hnd'
        rw [← hparsed]
        rw [hk] at hin
        refine List.mem_map.2 ⟨i, hin, ?_⟩
        congr 1
        exact typeRows_filter i params
      · rintro ⟨h4, h5⟩
        omega
  rw [Dict.get?_update]
  have hnd' : parsed.keys.Nodup := by
    rw [hk]
    exact ((List.perm_insertionSort _ _).nodup_iff).2 (List.nodup_dedup _)
  have hm := Dict.mem_of_get? _ _ _ hval
  cases hf : parsed.reverse.find? (fun kv => decide (kv.1 = i)) with
  | none =>
    rw [List.find?_eq_none] at hf
    exact absurd (hf _ (List.mem_reverse.2 hm)) (by simp)
  | some kv =>
    have h1 : kv.1 = i := by simpa using List.find?_some hf
    have h2 : kv ∈ parsed := List.mem_reverse.1 (List.mem_of_find?_eq_some hf)
    have h3 := Dict.get?_of_mem parsed hnd' kv.1 kv.2 h2
    rw [h1, hval] at h3
    exact h3.symm

/-- A type which only occurs in the categories gets an entry although it is not counted: two types, but
three distributions. -/
theorem C55_entries_false :
    ∃ (params : List ((Str × Str) × ℝ)) (n : Nat) (tp : Dict Nat (List (Str × ℝ))),
      parseTypes 1000 params = .ok (n, tp) ∧ 2 ≤ n ∧ tp.keys ≠ List.range n ∧
      ∃ p ∈ params, p.1.1 = "type_2".toList := by
  let params : List ((Str × Str) × ℝ) := [(("type_1".toList, "constant".toList), 0),
    (("type_2".toList, "constant".toList), 0), (("wage_a".toList, "type_1".toList), 1)]
  have h1 : typeIndex "type_1".toList = some 1 := by decide +kernel
  have h2 : typeIndex "type_2".toList = some 2 := by decide +kernel
  have h3 : typeIndex "wage_a".toList = none := by decide +kernel
  have hn : inferNumberOfTypes (params.map Prod.fst) = 2 := by
    simp only [params, List.map_cons, List.map_nil]
    decide +kernel
  have hrows : typeRows params = [⟨1, "constant".toList, 0⟩, ⟨2, "constant".toList, 0⟩] := by
    simp only [typeRows, params, List.filterMap_cons, h1, h2, h3, Option.map_some, Option.map_none,
      List.filterMap_nil]
  have hok : ∃ r, parseTypes 1000 params = .ok (2, r) := by
    unfold parseTypes
    have h0 : ¬ ((params.any fun p => p.1.1 = "type_0".toList) = true ∨
        (params.any fun p => p.1.2 = "type_0".toList) = true) := by
      simp only [params, List.any_cons, List.any_nil]
      decide +kernel
    rw [if_neg h0]
    simp only [hn, ge_iff_le, le_refl, if_true]
    have hg := parseGroup_coefficients 1000 (typeRows params) (by rw [hrows]; exact List.cons_ne_nil _ _)
      (by
        rw [hrows]
        intro r hr
        have hne : "constant".toList ≠ "probability".toList := by decide +kernel
        rcases List.mem_cons.1 hr with rfl | hr
        · exact hne
        · rw [List.mem_singleton.1 hr]
          exact hne)
    unfold typeRows at hg
    obtain ⟨d, hd⟩ := hg
    rw [hd]
    exact ⟨_, rfl⟩
  obtain ⟨tp, htp⟩ := hok
  refine ⟨params, 2, tp, htp, le_refl _, ?_, _, List.mem_cons_of_mem _ List.mem_cons_self, rfl⟩
  obtain ⟨_, hk⟩ := parseTypes_keys _ _ _ _ htp
  intro heq
  have := ((hk (le_refl _)).2.2.1 2).2 (Or.inr ⟨_, List.mem_cons_of_mem _ List.mem_cons_self, h2⟩)
  rw [heq] at this
  simp at this

/-- Types 1 and 3 occur in names, so there are four types; the category of type 2 exists. -/
example : inferNumberOfTypes [("wage_a".toList, "type_3".toList), ("nonpec_b".toList, "type_1".toList),
    ("type_2".toList, "constant".toList), ("type_3".toList, "constant".toList)] = 4 := by
  decide +kernel

/-! ### C57 Processing options twice is the same as once -/

/-- A choice is forbidden in a state if one of its formulas holds (`state_space.py`, see `choiceSet`). -/
def Forbidden {F S : Type _} (holds : F → S → Bool) (d : Dict Str (List F)) (c : Str) (s : S) : Prop :=
  ∃ f ∈ (d.get? c).getD [], holds f s = true

theorem get?_addDefault {F : Type _} (wExp woExp : List Str) (maxExp : Str → F) (false_ : F)
    (d : Dict Str (List F)) (c : Str) :
    (addDefaultIsInadmissible wExp woExp maxExp false_ d).get? c =
      if c ∈ wExp then some ((d.get? c).getD [] ++ List.replicate (wExp.count c) (maxExp c))
      else if c ∈ woExp then some ((d.get? c).getD [false_]) else d.get? c := by
  have h1 : ∀ (l : List Str) (d : Dict Str (List F)),
      (l.foldl (fun d c => d.insert c ((d.get? c).getD [] ++ [maxExp c])) d).get? c =
        if c ∈ l then some ((d.get? c).getD [] ++ List.replicate (l.count c) (maxExp c))
        else d.get? c := by
    intro l
    induction l with
    | nil => intro d; simp
    | cons a l ih =>
      intro d
      rw [List.foldl_cons, ih, Dict.get?_insert]
      by_cases hac : a = c
      · subst hac
        by_cases hl : a ∈ l
        · simp [hl, List.replicate_succ]
        · simp [hl, List.count_eq_zero_of_not_mem hl]
      · simp [hac, Ne.symm hac]
  have h2 : ∀ (l : List Str) (d : Dict Str (List F)),
      (l.foldl (fun d c => d.insert c ((d.get? c).getD [false_])) d).get? c =
        if c ∈ l then some ((d.get? c).getD [false_]) else d.get? c := by
    intro l
    induction l with
    | nil => intro d; simp
    | cons a l ih =>
      intro d
      rw [List.foldl_cons, ih, Dict.get?_insert]
      by_cases hac : a = c
      · subst hac
        simp
      · simp [hac, Ne.symm hac]
  unfold addDefaultIsInadmissible
  simp only
  rw [h2, h1]
  by_cases hw : c ∈ wExp <;> by_cases hwo : c ∈ woExp <;> simp [hw, hwo]

/-- However often the options are processed (at least once), the same choices are forbidden in the same
states. -/
theorem C57_choice_restrictions {F S : Type _} (holds : F → S → Bool) (wExp woExp : List Str)
    (maxExp : Str → F) (false_ : F) (hf : ∀ s, holds false_ s = false) (d : Dict Str (List F)) (k : Nat)
    (c : Str) (s : S) :
    Forbidden holds ((addDefaultIsInadmissible wExp woExp maxExp false_)^[k + 1] d) c s ↔
      Forbidden holds (addDefaultIsInadmissible wExp woExp maxExp false_ d) c s := by
  have step : ∀ d : Dict Str (List F),
      Forbidden holds (addDefaultIsInadmissible wExp woExp maxExp false_ d) c s ↔
        Forbidden holds d c s ∨ (c ∈ wExp ∧ holds (maxExp c) s = true) := by
    intro d
    unfold Forbidden
    rw [get?_addDefault]
    by_cases hw : c ∈ wExp
    · have hpos : wExp.count c ≠ 0 := (List.count_pos_iff.2 hw).ne'
      simp only [hw, if_true, Option.getD_some, List.mem_append, List.mem_replicate, true_and]
      constructor
      · rintro ⟨f, hf1 | hf1, hf2⟩
        · exact Or.inl ⟨f, hf1, hf2⟩
        · rw [hf1.2] at hf2; exact Or.inr hf2
      · rintro (⟨f, hf1, hf2⟩ | h)
        · exact ⟨f, Or.inl hf1, hf2⟩
        · exact ⟨_, Or.inr ⟨hpos, rfl⟩, h⟩
    · simp only [hw, if_false, false_and, or_false]
      by_cases hwo : c ∈ woExp
      · simp only [hwo, if_true, Option.getD_some]
        cases d.get? c with
        | none => simp [hf]
        | some l => simp
      · simp [hwo]
  induction k with
  | zero => rfl
  | succ k ih =>
    rw [Function.iterate_succ_apply', step]
    have h1 := step d
    constructor
    · rintro (h | h)
      · exact ih.1 h
      · exact h1.2 (Or.inr h)
    · intro h
      exact Or.inl (ih.2 h)

/-- The user's options and the defaults of the package keep their values, whatever happens to the
processed options. The initial objects are those before the call. -/
theorem C57_inputs_unchanged {O : Type _} (f : Str → O → O) (heap : ObjectHeap O)
    (defaults user : Dict Str Nat) (heap' : ObjectHeap O) (options : Dict Str Nat)
    (h : processSharing f heap defaults user = some (heap', options)) :
    ∀ address < heap.length, heap'[address]? = heap[address]? := by
  unfold processSharing at h
  obtain ⟨⟨heap₁, options₁⟩, h1, h⟩ := Option.bind_eq_some_iff.1 h
  obtain ⟨⟨heap₂, options₃⟩, h2, h⟩ := Option.bind_eq_some_iff.1 h
  cases h
  have hcopy : ∀ (hp hp' : ObjectHeap O) (d d' : Dict Str Nat), deepcopy hp d = some (hp', d') →
      (∃ objects, hp' = hp ++ objects) ∧ ∀ kv ∈ d', hp.length ≤ kv.2 := by
    intro hp hp' d d' hd
    unfold deepcopy at hd
    obtain ⟨objects, _, hd⟩ := Option.bind_eq_some_iff.1 hd
    cases hd
    refine ⟨⟨objects, rfl⟩, fun kv hkv => ?_⟩
    rw [List.mem_mapIdx] at hkv
    obtain ⟨i, _, rfl⟩ := hkv
    simp
  obtain ⟨⟨o₁, rfl⟩, _⟩ := hcopy _ _ _ _ h1
  obtain ⟨⟨o₂, rfl⟩, hk⟩ := hcopy _ _ _ _ h2
  intro address ha
  have hm : ∀ (d : Dict Str Nat) (hp : ObjectHeap O), (∀ kv ∈ d, address < kv.2) →
      (mutate f hp d)[address]? = hp[address]? := by
    intro d
    unfold mutate
    induction d with
    | nil => intro hp _; rfl
    | cons kv d ih =>
      intro hp hkv
      rw [List.foldl_cons, ih _ fun kv' h' => hkv kv' (List.mem_cons_of_mem _ h'),
        List.getElem?_modify]
      simp only [(hkv kv (by simp)).ne', if_false]
      simp
  rw [hm]
  · rw [List.append_assoc, List.getElem?_append_left ha]
  · intro kv hkv
    have := hk kv hkv
    simp only [List.length_append] at this
    omega

/-- The user gives one value, the default has another one; both are kept. -/
example : processSharing (fun _ (x : Nat) => x + 100) [1, 2] [("covariates".toList, 0)]
    [("covariates".toList, 1)] = some ([1, 2, 2, 102], [("covariates".toList, 3)]) := by
  decide +kernel

/-! ### C65 Present bias of one is exponential discounting -/

/-- The solution uses `delta`; simulation and likelihood use `beta_delta`, which is `delta` if `beta` is
one or not specified, and `beta` times `delta` otherwise. -/
theorem C65_discount_factors {K : Type _} [Field K] [LinearOrder K] (params : Dict (Str × Str) K)
    (delta : K) (hd : params.get? ("delta".toList, "delta".toList) = some delta) :
    ∃ d, parseDiscount params = some d ∧ d.delta = delta ∧
      (params.get? ("beta".toList, "beta".toList) = none → d.betaDelta = delta) ∧
      (∀ beta, params.get? ("beta".toList, "beta".toList) = some beta →
        d.betaDelta = beta * delta ∧ (beta = 1 → d.betaDelta = delta)) ∧
      ∀ wage nonpec cv draw : K,
        (kwUtility wage nonpec cv draw d.betaDelta).1 =
          (wage * draw + nonpec) + d.beta * (d.delta * cv) ∧
        (d.beta = 1 → kwUtility wage nonpec cv draw d.betaDelta =
          kwUtility wage nonpec cv draw d.delta) := by
  unfold parseDiscount
  simp only [hd, Option.bind_eq_bind, Option.bind_some, Option.pure_def]
  refine ⟨_, rfl, rfl, ?_, ?_, ?_⟩
  · intro h; dsimp only; rw [h]; simp only [Option.getD_none, one_mul]
  · intro beta h
    dsimp only
    rw [h]
    refine ⟨rfl, fun hb => ?_⟩
    rw [hb]; simp only [Option.getD_some, one_mul]
  · intro wage nonpec cv draw
    refine ⟨by simp [kwUtility, mul_assoc], fun hb => ?_⟩
    dsimp only at hb ⊢
    rw [hb, one_mul]

example : ∃ params : Dict (Str × Str) ℚ,
    params.get? ("delta".toList, "delta".toList) = some (19 / 20) ∧
    params.get? ("beta".toList, "beta".toList) = some (1 / 2) :=
  ⟨[(("delta".toList, "delta".toList), 19 / 20), (("beta".toList, "beta".toList), 1 / 2)],
    by decide +kernel, by decide +kernel⟩

end Respy
