import Verif.Lemmas.Names

/-!
# C74: names of observables and exogenous processes

The categories of the parameters of an observable are `observable_{name}_{level}`.
-/

namespace Respy

/-- The category of a level of an observable or process, as documented. -/
def levelCategory (keyword name level : Str) : Str := keyword ++ '_' :: (name ++ '_' :: level)

theorem nameCategories_rows (keyword : Str) (categories : List Str) (rows : List (Str × Str))
    (hrows : categories.filter (fun c => (keyword ++ ['_']).isPrefixOf c) =
      rows.map fun r => levelCategory keyword r.1 r.2) :
    nameCategories keyword categories =
      rows.map fun r => beforeLastUnderscore (r.1 ++ '_' :: r.2) := by
  unfold nameCategories
  dsimp only
  rw [hrows, List.map_map]
  refine List.map_congr_left fun r _ => ?_
  have : levelCategory keyword r.1 r.2 = (keyword ++ ['_']) ++ (r.1 ++ '_' :: r.2) := by
    simp [levelCategory]
  rw [Function.comp, this, List.drop_left]

/-- What is left of the category of a level begins with the name; after it nothing or an underscore and
the words of the level apart from the last one. -/
theorem beforeLast_level (name level : Str) :
    ('_' ∉ level ∧ beforeLastUnderscore (name ++ '_' :: level) = name) ∨
    ∃ a w, level = a ++ '_' :: w ∧ beforeLastUnderscore (name ++ '_' :: level) = name ++ '_' :: a := by
  rcases oneWord_or_split level with h | ⟨a, w, rfl, hw⟩
  · exact .inl ⟨h, beforeLastUnderscore_append name level h⟩
  · refine .inr ⟨a, w, rfl, ?_⟩
    have : name ++ '_' :: (a ++ '_' :: w) = (name ++ '_' :: a) ++ '_' :: w := by simp
    rw [this, beforeLastUnderscore_append _ w hw]

theorem commonPrefix_heads {a b w v : Str} (h : (a ++ '_' :: w).head? ≠ (b ++ '_' :: v).head?) :
    commonPrefix a b = [] := by
  cases a with
  | nil => exact commonPrefix_nil_left b
  | cons x a =>
    cases b with
    | nil => rfl
    | cons y b =>
      have : x ≠ y := by simpa using h
      simp [commonPrefix, this]

/-- Two levels of the same name have this name as common prefix. -/
theorem commonPrefix_sameName (name l l' : Str) (hlast : name.getLast? ≠ some '_')
    (h : '_' ∉ l ∨ '_' ∉ l' ∨ l.head? ≠ l'.head?) :
    rstripUnderscore (commonPrefix (beforeLastUnderscore (name ++ '_' :: l))
      (beforeLastUnderscore (name ++ '_' :: l'))) = name := by
  have e := rstripUnderscore_eq name hlast
  rcases beforeLast_level name l with ⟨_, h1⟩ | ⟨a, w, rfl, h1⟩ <;>
    rcases beforeLast_level name l' with ⟨_, h2⟩ | ⟨b, v, rfl, h2⟩ <;> rw [h1, h2]
  · have := commonPrefix_append name [] []
    simp only [List.append_nil, commonPrefix_nil_left] at this
    rw [this, e]
  · have := commonPrefix_append name [] ('_' :: b)
    simp only [List.append_nil, commonPrefix_nil_left] at this
    rw [this, e]
  · have := commonPrefix_append name ('_' :: a) []
    simp only [List.append_nil, commonPrefix_nil_right] at this
    rw [this, e]
  · rcases h with h | h | h
    · simp at h
    · simp at h
    · rw [commonPrefix_append]
      simp only [commonPrefix, if_true]
      rw [commonPrefix_heads h, rstripUnderscore_concat, e]

theorem beforeLast_level_append (name level : Str) :
    ∃ x, beforeLastUnderscore (name ++ '_' :: level) = name ++ x := by
  rcases beforeLast_level name level with ⟨_, h⟩ | ⟨a, _, _, h⟩
  · exact ⟨[], by rw [h, List.append_nil]⟩
  · exact ⟨_, h⟩

/-- The common prefix of levels of different names is not a name. -/
theorem commonPrefix_otherName (n m l l' : Str) (h1 : ¬ n <+: m) (h2 : ¬ m <+: n) :
    commonPrefix (beforeLastUnderscore (n ++ '_' :: l)) (beforeLastUnderscore (m ++ '_' :: l')) =
      commonPrefix n m := by
  obtain ⟨x, hx⟩ := beforeLast_level_append n l
  obtain ⟨y, hy⟩ := beforeLast_level_append m l'
  rw [hx, hy, commonPrefix_apart n m x y h1 h2]

/-- C74 (the names are recovered). For all parameters whose categories for the keyword are
`keyword_name_level`, where every name has at least two rows, no name is part of another name, names do not
end with an underscore, and two rows of the same name have a level of one word or levels with different first
characters: the parsed names are exactly the names, each one once, in alphabetical order. Partial: without the
conditions on names and levels the claim is false, see `C74_part_of_name_false`, `C74_words_false` and
`C74_two_values_false`. -/
theorem C74_names_recovered_partial (keyword : Str) (categories : List Str) (rows : List (Str × Str))
    (hrows : categories.filter (fun c => (keyword ++ ['_']).isPrefixOf c) =
      rows.map fun r => levelCategory keyword r.1 r.2)
    (hname : ∀ r ∈ rows, r.1 ≠ [] ∧ r.1.getLast? ≠ some '_')
    (hinfix : ∀ r ∈ rows, ∀ r' ∈ rows, r.1 <:+: r'.1 → r.1 = r'.1)
    (htwo : ∀ r ∈ rows, 2 ≤ rows.countP fun r' => r'.1 = r.1)
    (hlevel : rows.Pairwise fun r r' => r.1 = r'.1 → '_' ∉ r.2 ∨ '_' ∉ r'.2 ∨ r.2.head? ≠ r'.2.head?) :
    ∃ names, parseNames keyword categories = some names ∧ names.Pairwise (· < ·) ∧
      ∀ n, n ∈ names ↔ ∃ r ∈ rows, r.1 = n := by
  have hcats := nameCategories_rows keyword categories rows hrows
  set cats := nameCategories keyword categories with hcdef
  -- the pairs of rows
  have hpair : ∀ p ∈ combinations2 rows,
      (p.1.1 = p.2.1 ∧ rstripUnderscore (commonPrefix (beforeLastUnderscore (p.1.1 ++ '_' :: p.1.2))
        (beforeLastUnderscore (p.2.1 ++ '_' :: p.2.2))) = p.1.1) ∨
      (p.1.1 ≠ p.2.1 ∧ commonPrefix (beforeLastUnderscore (p.1.1 ++ '_' :: p.1.2))
        (beforeLastUnderscore (p.2.1 ++ '_' :: p.2.2)) = commonPrefix p.1.1 p.2.1) := by
    intro p hp
    obtain ⟨m1, m2⟩ := mem_combinations2 rows p hp
    by_cases he : p.1.1 = p.2.1
    · refine .inl ⟨he, ?_⟩
      have := commonPrefix_sameName p.1.1 p.1.2 p.2.2 (hname _ m1).2
        (combinations2_pairwise rows hlevel p hp he)
      rw [← he]
      exact this
    · exact .inr ⟨he, commonPrefix_otherName _ _ _ _
        (fun h => he (hinfix _ m1 _ m2 h.isInfix))
        (fun h => he (hinfix _ m2 _ m1 h.isInfix).symm)⟩
  -- the names of the rows are among the prefixes
  have hself : ∀ r ∈ rows, ∃ p ∈ combinations2 rows, p.1.1 = r.1 ∧ p.2.1 = r.1 := by
    intro r hr
    obtain ⟨q, hq, h1, h2⟩ := exists_combination (fun r' : Str × Str => decide (r'.1 = r.1)) rows (htwo r hr)
    exact ⟨q, hq, by simpa using h1, by simpa using h2⟩
  have hnonempty : ∀ p ∈ combinations2 rows, p.1.1 = p.2.1 →
      commonPrefix (beforeLastUnderscore (p.1.1 ++ '_' :: p.1.2))
        (beforeLastUnderscore (p.2.1 ++ '_' :: p.2.2)) ≠ [] := by
    intro p hp he h0
    rcases hpair p hp with ⟨_, h⟩ | ⟨h, _⟩
    · rw [h0] at h
      exact (hname _ (mem_combinations2 rows p hp).1).1 (by rw [← h]; rfl)
    · exact h he
  have hmem : ∀ n, n ∈ inferredNames cats ↔ ∃ r ∈ rows, r.1 = n := by
    intro n
    rw [mem_inferredNames, hcats, combinations2_map]
    constructor
    · rintro ⟨⟨_, hp', hne, rfl⟩, hmax⟩
      obtain ⟨p, hp, rfl⟩ := List.mem_map.1 hp'
      obtain ⟨m1, m2⟩ := mem_combinations2 rows p hp
      rcases hpair p hp with ⟨_, h⟩ | ⟨hne', h⟩
      · exact ⟨p.1, m1, h.symm⟩
      · exfalso
        dsimp only at hmax hne
        rw [h] at hmax
        obtain ⟨q, hq, q1, q2⟩ := hself p.1 m1
        have hq' := hpair q hq
        rcases hq' with ⟨_, hq'⟩ | ⟨hq', _⟩
        · have hpre : rstripUnderscore (commonPrefix p.1.1 p.2.1) <+: p.1.1 :=
            (rstripUnderscore_prefix _).trans (commonPrefix_prefix_left _ _)
          have h3 := hmax (_, _) (List.mem_map.2 ⟨q, hq, rfl⟩) (hnonempty q hq (q1.trans q2.symm))
          dsimp only at h3
          rw [hq', q1] at h3
          have h4 := h3 hpre.isInfix
          -- then the first name is a prefix of the second
          have h5 : p.1.1 <+: p.2.1 := by
            rw [← h4]
            exact (rstripUnderscore_prefix _).trans (commonPrefix_prefix_right _ _)
          exact hne' (hinfix _ m1 _ m2 h5.isInfix)
        · exact hq' (q1.trans q2.symm)
    · rintro ⟨r, hr, rfl⟩
      obtain ⟨q, hq, q1, q2⟩ := hself r hr
      constructor
      · refine ⟨(_, _), List.mem_map.2 ⟨q, hq, rfl⟩, hnonempty q hq (q1.trans q2.symm), ?_⟩
        rcases hpair q hq with ⟨_, h⟩ | ⟨h, _⟩
        · dsimp only
          rw [h, q1]
        · exact absurd (q1.trans q2.symm) h
      · intro _ hp' _ hin
        obtain ⟨p, hp, rfl⟩ := List.mem_map.1 hp'
        obtain ⟨m1, m2⟩ := mem_combinations2 rows p hp
        dsimp only at hin ⊢
        rcases hpair p hp with ⟨_, h⟩ | ⟨hne', h⟩
        · rw [h] at hin ⊢
          exact hinfix _ hr _ m1 hin
        · exfalso
          rw [h] at hin
          have hpre := (rstripUnderscore_prefix (commonPrefix p.1.1 p.2.1))
          have e1 := hinfix _ hr _ m1 (hin.trans (hpre.trans (commonPrefix_prefix_left _ _)).isInfix)
          have e2 := hinfix _ hr _ m2 (hin.trans (hpre.trans (commonPrefix_prefix_right _ _)).isInfix)
          exact hne' (e1.symm.trans e2)
  refine ⟨inferredNames cats, ?_, ?_, hmem⟩
  · unfold parseNames
    dsimp only
    rw [← hcdef, if_pos]
    rw [List.filter_eq_self.2]
    intro c hc
    rw [hcats] at hc
    obtain ⟨r, hr, rfl⟩ := List.mem_map.1 hc
    obtain ⟨x, hx⟩ := beforeLast_level_append r.1 r.2
    rw [List.any_eq_true]
    refine ⟨r.1, (hmem _).2 ⟨r, hr, rfl⟩, ?_⟩
    rw [hx, List.isPrefixOf_iff_prefix]
    exact List.prefix_append _ _
  · have hs := sorted_sortedSet
    have hn := nodup_sortedSet
    unfold inferredNames
    exact List.Pairwise.imp₂ (fun a b hle hne => lt_of_le_of_ne hle hne) (hs _) (hn _)

/-- C74 (accepted parameters). For all parameters, if names are returned, then they are distinct and in
alphabetical order, no name is part of another one, every category of the keyword begins with the keyword and one
of the names, and every name is the beginning of the categories of two rows. -/
theorem C74_accepted_names (keyword : Str) (categories names : List Str)
    (h : parseNames keyword categories = some names) :
    names.Pairwise (· < ·) ∧
    (∀ a ∈ names, ∀ b ∈ names, a <:+: b → a = b) ∧
    (∀ c ∈ categories, keyword ++ ['_'] <+: c → ∃ n ∈ names, keyword ++ '_' :: n <+: c) ∧
    (∀ n ∈ names, 2 ≤ categories.countP fun c => (keyword ++ '_' :: n).isPrefixOf c) := by
  unfold parseNames at h
  dsimp only at h
  split at h
  · next hall =>
    injection h with h
    subst h
    refine ⟨?_, ?_, ?_, ?_⟩
    · unfold inferredNames
      exact List.Pairwise.imp₂ (fun a b hle hne => lt_of_le_of_ne hle hne) (sorted_sortedSet _)
        (nodup_sortedSet _)
    · intro a ha b hb hab
      rw [mem_inferredNames] at ha hb
      obtain ⟨p, hp, hne, rfl⟩ := hb.1
      exact ha.2 p hp hne hab
    · intro c hc hk
      obtain ⟨t, rfl⟩ := hk
      have hmem : beforeLastUnderscore t ∈ nameCategories keyword categories := by
        unfold nameCategories
        refine List.mem_map.2 ⟨(keyword ++ ['_']) ++ t, List.mem_filter.2 ⟨hc, ?_⟩, ?_⟩
        · rw [List.isPrefixOf_iff_prefix]
          exact List.prefix_append _ _
        · rw [List.drop_left]
      rw [List.length_filter_eq_length_iff] at hall
      have := hall _ hmem
      rw [List.any_eq_true] at this
      obtain ⟨n, hn, hp⟩ := this
      rw [List.isPrefixOf_iff_prefix] at hp
      refine ⟨n, hn, ?_⟩
      have : keyword ++ '_' :: n = (keyword ++ ['_']) ++ n := by simp
      rw [this, List.prefix_append_right_inj]
      exact hp.trans (beforeLastUnderscore_prefix t)
    · intro n hn
      rw [mem_inferredNames] at hn
      obtain ⟨⟨p, hp, _, rfl⟩, _⟩ := hn
      set n := rstripUnderscore (commonPrefix p.1 p.2)
      have h1 : n <+: p.1 := (rstripUnderscore_prefix _).trans (commonPrefix_prefix_left _ _)
      have h2 : n <+: p.2 := (rstripUnderscore_prefix _).trans (commonPrefix_prefix_right _ _)
      unfold nameCategories at hp
      rw [combinations2_map, List.mem_map] at hp
      obtain ⟨q, hq, rfl⟩ := hp
      have key : ∀ c, (keyword ++ ['_']).isPrefixOf c = true →
          n <+: beforeLastUnderscore (c.drop (keyword ++ ['_']).length) →
          (keyword ++ '_' :: n).isPrefixOf c = true := by
        intro c hc hn
        rw [List.isPrefixOf_iff_prefix] at hc ⊢
        obtain ⟨t, rfl⟩ := hc
        rw [List.drop_left] at hn
        have : keyword ++ '_' :: n = (keyword ++ ['_']) ++ n := by simp
        rw [this, List.prefix_append_right_inj]
        exact hn.trans (beforeLastUnderscore_prefix t)
      have hq' := mem_combinations2 _ q hq
      have k1 := key q.1 (List.mem_filter.1 hq'.1).2 h1
      have k2 := key q.2 (List.mem_filter.1 hq'.2).2 h2
      have : 2 ≤ (categories.filter fun c => (keyword ++ ['_']).isPrefixOf c).countP
          fun c => (keyword ++ '_' :: n).isPrefixOf c :=
        two_le_countP_of_combination _ _ q hq k1 k2
      exact this.trans (List.Sublist.countP_le List.filter_sublist)
  · exact absurd h (by simp)

/-! ### Examples and counterexamples -/

/-- The example in the docstring of the function (`respy/pre_processing/model_processing.py:677-687`). -/
def docstringRows : List (Str × Str) :=
  [("observable_0".toList, "first".toList), ("observable_0".toList, "second".toList),
   ("observable_1".toList, "first".toList), ("observable_1".toList, "second".toList),
   ("children".toList, "two_or_less".toList), ("children".toList, "more_than_two".toList)]

/-- The hypotheses of `C74_names_recovered_partial` hold for the example in the docstring. -/
example : ∃ names, parseNames "observable".toList
      ("delta".toList :: docstringRows.map fun r => levelCategory "observable".toList r.1 r.2) = some names ∧
    names.Pairwise (· < ·) ∧ ∀ n, n ∈ names ↔ ∃ r ∈ docstringRows, r.1 = n :=
  C74_names_recovered_partial _ _ docstringRows (by decide +kernel) (by decide +kernel) (by decide +kernel)
    (by decide +kernel) (by decide +kernel)

/-- The hypothesis of `C74_accepted_names` holds for the example in the docstring. -/
example : parseNames "observable".toList
    (docstringRows.map fun r => levelCategory "observable".toList r.1 r.2) =
    some ["children".toList, "observable_0".toList, "observable_1".toList] := by decide +kernel

/-- C74 is false for names which are part of other names: two observables `age` and `language`, both with
two levels of one word, are rejected with the message that every observable must have at least two values. -/
theorem C74_part_of_name_false :
    parseNames "observable".toList
      ([("age", "young"), ("age", "old"), ("language", "german"), ("language", "french")].map fun r =>
        levelCategory "observable".toList r.1.toList r.2.toList) = none := by decide +kernel

/-- C74 is false for levels of several words: the name parsed for the observable `children` with the levels
`two_or_less` and `three_or_more` is `children_t`. -/
theorem C74_words_false :
    parseNames "observable".toList
      ([("children", "two_or_less"), ("children", "three_or_more")].map fun r =>
        levelCategory "observable".toList r.1.toList r.2.toList) = some ["children_t".toList] := by
  decide +kernel

/-- The requirement of at least two values is not enforced: an observable with one level and two rows (for two
coefficients of the level) is accepted. -/
theorem C74_two_values_false :
    parseNames "observable".toList
      ([("sex", "male"), ("sex", "male")].map fun r =>
        levelCategory "observable".toList r.1.toList r.2.toList) = some ["sex".toList] := by
  decide +kernel

end Respy
