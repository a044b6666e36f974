import Verif.Lemmas.Names
import Verif.Lemmas.Characters
import Verif.Props.Names
import Verif.Props.Types

/-!
# C75: levels of observables and exogenous processes

The levels of an observable are read from the categories `observable_{name}_{level}` and are coded by their
position.
-/

namespace Respy

/-- A text of word characters is matched at its beginning only. -/
theorem extract_word_none (pre : Str) (cls : Char → Bool) (s : Str) (hs : ∀ c ∈ s, isWordChar c = true)
    (hpre : pre ≠ []) (h : ¬ pre <+: s) : extract pre cls s = none := by
  have inner : ∀ (fuel : Nat) (p : Char) (t : Str), isWordChar p = true →
      (∀ c ∈ t, isWordChar c = true) → findAllFuel pre cls fuel (some p) t = [] := by
    intro fuel
    induction fuel with
    | zero => intros; rfl
    | succ fuel ih =>
      intro p t hp ht
      have hm : matchHere pre cls (some p) t = none := by
        unfold matchHere
        rw [if_neg]
        intro hcon
        rw [Bool.and_eq_true] at hcon
        cases t with
        | nil =>
          rw [List.isPrefixOf_iff_prefix, List.prefix_nil] at hcon
          exact hpre hcon.1
        | cons c t =>
          have := ht c (by simp)
          simp [isBoundary, hp, this] at hcon
      unfold findAllFuel
      rw [hm]
      cases t with
      | nil => rfl
      | cons c t => exact ih c t (ht c (by simp)) (fun c' h' => ht c' (by simp [h']))
  have hm : matchHere pre cls none s = none := by
    unfold matchHere
    rw [if_neg]
    intro hcon
    rw [Bool.and_eq_true, List.isPrefixOf_iff_prefix] at hcon
    exact h hcon.1
  unfold extract findAll findAllFuel
  rw [hm]
  cases s with
  | nil => rfl
  | cons c s =>
    dsimp only
    rw [inner _ c s (hs c (by simp)) (fun c' h' => hs c' (by simp [h']))]
    rfl

theorem isWordChar_of_level (c : Char) (h : isLevelChar c = true) : isWordChar c = true := by
  simp only [isLevelChar, Bool.or_eq_true, decide_eq_true_eq] at h
  simp only [isWordChar, Bool.or_eq_true, decide_eq_true_eq, Char.isAlphanum, Char.isAlpha]
  tauto

theorem isWordChar_of_mem (c : Char) : c ∈ wordCharacters → isWordChar c = true := (isWordChar_iff c).2

theorem isLevelChar_of_mem : ∀ c ∈ levelCharacters, isLevelChar c = true := by decide +kernel

/-- The parameters of a name with the texts of their levels, as documented. -/
def documentedLevels (keyword name : Str) (params : List ((Str × Str) × ℝ)) : List (Str × ((Str × Str) × ℝ)) :=
  params.filterMap fun p =>
    if (levelCategory keyword name []).isPrefixOf p.1.1 then
      some (p.1.1.drop (levelCategory keyword name []).length, p)
    else none

theorem extract_category (keyword name cat : Str) (hk : keyword ≠ [])
    (hkw : ∀ c, keyword.head? = some c → isWordChar c = true)
    (hcat : ∀ c ∈ cat, isWordChar c = true)
    (hlevel : ∀ t, cat = levelCategory keyword name t → t ≠ [] ∧ ∀ c ∈ t, isLevelChar c = true) :
    extract (keyword ++ ['_'] ++ name ++ ['_']) isLevelChar cat =
      if (levelCategory keyword name []).isPrefixOf cat then
        some (cat.drop (levelCategory keyword name []).length) else none := by
  have hpre : keyword ++ ['_'] ++ name ++ ['_'] = levelCategory keyword name [] := by
    simp [levelCategory]
  rw [hpre]
  have hne : levelCategory keyword name [] ≠ [] := by simp [levelCategory]
  split
  · next h =>
    rw [List.isPrefixOf_iff_prefix] at h
    obtain ⟨t, rfl⟩ := h
    obtain ⟨h1, h2⟩ := hlevel t (by simp [levelCategory])
    rw [List.drop_left, extract_prefix_name _ _ _ hne _ h1 h2 isWordChar_of_level]
    intro c hc
    obtain ⟨x, k, rfl⟩ := List.exists_cons_of_ne_nil hk
    refine hkw c ?_
    simpa [levelCategory] using hc
  · next h =>
    rw [List.isPrefixOf_iff_prefix] at h
    exact extract_word_none _ _ _ hcat hne h

/-- The parsed rows are the documented ones. -/
theorem levelParams_documented (keyword name : Str) (params : List ((Str × Str) × ℝ)) (hk : keyword ≠ [])
    (hkw : ∀ c, keyword.head? = some c → isWordChar c = true)
    (hcat : ∀ p ∈ params, ∀ c ∈ p.1.1, isWordChar c = true)
    (hlevel : ∀ p ∈ params, ∀ t, p.1.1 = levelCategory keyword name t →
      t ≠ [] ∧ ∀ c ∈ t, isLevelChar c = true) :
    levelParams keyword name params =
      List.zipWith (fun l r => ⟨l, r.2.1.2, r.2.2⟩)
        (toLevels ((documentedLevels keyword name params).map Prod.fst))
        (documentedLevels keyword name params) := by
  have : (params.filterMap fun p =>
      (extract (keyword ++ ['_'] ++ name ++ ['_']) isLevelChar p.1.1).map fun t => (t, p)) =
      documentedLevels keyword name params := by
    unfold documentedLevels
    refine List.filterMap_congr fun p hp => ?_
    rw [extract_category keyword name p.1.1 hk hkw (hcat p hp) (hlevel p hp)]
    split <;> rfl
  unfold levelParams
  dsimp only
  rw [this]

theorem mem_documentedLevels (keyword name : Str) (params : List ((Str × Str) × ℝ)) (t : Str) :
    t ∈ (documentedLevels keyword name params).map Prod.fst ↔
      ∃ p ∈ params, p.1.1 = levelCategory keyword name t := by
  unfold documentedLevels
  simp only [List.mem_map, List.mem_filterMap]
  have key : ∀ c : Str, (levelCategory keyword name []).isPrefixOf c = true →
      c = levelCategory keyword name (c.drop (levelCategory keyword name []).length) := by
    intro c hc
    rw [List.isPrefixOf_iff_prefix] at hc
    obtain ⟨u, rfl⟩ := hc
    rw [List.drop_left]
    simp [levelCategory]
  have happ : ∀ u, levelCategory keyword name u = levelCategory keyword name [] ++ u := by
    intro u; simp [levelCategory]
  constructor
  · rintro ⟨r, ⟨p, hp, h⟩, rfl⟩
    split at h
    · next hpre =>
      injection h with h
      subst h
      exact ⟨p, hp, key _ hpre⟩
    · cases h
  · rintro ⟨p, hp, h⟩
    refine ⟨(t, p), ⟨p, hp, ?_⟩, rfl⟩
    rw [h, happ t, if_pos (isPrefixOf_append_self _ _), List.drop_left]

theorem zipWith_level {α : Type _} (f : α → Str) (g : α → ℝ) : ∀ (ls : List Level) (rs : List α),
    ls.length = rs.length →
    (List.zipWith (fun l r => (⟨l, f r, g r⟩ : GroupParam Level)) ls rs).map GroupParam.level = ls
  | [], [], _ => rfl
  | l :: ls, r :: rs, h => by
    simp only [List.zipWith_cons_cons, List.map_cons, List.cons.injEq, true_and]
    exact zipWith_level f g ls rs (by simpa using h)

theorem length_toLevels (ts : List Str) : (toLevels ts).length = ts.length := by
  unfold toLevels
  split <;> simp

theorem insertionSort_dedup_lt {L : Type _} [LinearOrder L] (l : List L) :
    (l.dedup.insertionSort (· ≤ ·)).Pairwise (· < ·) := by
  have hs : (l.dedup.insertionSort (· ≤ ·)).Pairwise (· ≤ ·) := List.pairwise_insertionSort _ _
  have hn : (l.dedup.insertionSort (· ≤ ·)).Nodup :=
    (List.perm_insertionSort _ _).nodup_iff.2 (List.nodup_dedup l)
  exact List.Pairwise.imp₂ (fun a b hle hne => lt_of_le_of_ne hle hne) hs hn

theorem mem_insertionSort_dedup {L : Type _} [LinearOrder L] (l : List L) (k : L) :
    k ∈ l.dedup.insertionSort (· ≤ ·) ↔ k ∈ l := by
  rw [(List.perm_insertionSort _ _).mem_iff, List.mem_dedup]

/-- C75 (levels). For all parameters whose categories consist of word characters and where the levels of the
name consist of lower-case letters, digits and underscores: the parsed levels are distinct, sorted, and exactly the
levels in the categories `keyword_name_level`. They are numbers if all are texts of digits and texts otherwise.
Partial: upper-case letters are excluded, see `C75_upper_case_false`. -/
theorem C75_levels_partial (maxFloat : ℝ) (keyword name : Str) (params : List ((Str × Str) × ℝ))
    (d : Dict Level (List (Str × ℝ))) (hk : keyword ≠ [])
    (hkw : ∀ c, keyword.head? = some c → c ∈ wordCharacters)
    (hcat : ∀ p ∈ params, ∀ c ∈ p.1.1, c ∈ wordCharacters)
    (hlevel : ∀ p ∈ params, ∀ t, p.1.1 = levelCategory keyword name t →
      t ≠ [] ∧ ∀ c ∈ t, c ∈ levelCharacters)
    (h : parseGroup maxFloat (levelParams keyword name params) = .ok (some d)) :
    (Dict.keys d).Pairwise (· < ·) ∧
    ((∀ p ∈ params, ∀ t, p.1.1 = levelCategory keyword name t → t.all Char.isDigit = true) →
      ∀ k, k ∈ Dict.keys d ↔ ∃ t, (∃ p ∈ params, p.1.1 = levelCategory keyword name t) ∧
        k = toLex (.inl (digitsValue t))) ∧
    ((∃ p ∈ params, ∃ t, p.1.1 = levelCategory keyword name t ∧ t.all Char.isDigit = false) →
      ∀ k, k ∈ Dict.keys d ↔ ∃ t, (∃ p ∈ params, p.1.1 = levelCategory keyword name t) ∧
        k = toLex (.inr t)) := by
  have hkeys := parseGroup_keys maxFloat _ d h
  replace hkw := fun c hc => isWordChar_of_mem c (hkw c hc)
  replace hcat := fun p hp c hc => isWordChar_of_mem c (hcat p hp c hc)
  replace hlevel := fun p hp t ht => And.imp_right (fun h c hc => isLevelChar_of_mem c (h c hc)) (hlevel p hp t ht)
  rw [levelParams_documented keyword name params hk hkw hcat hlevel, zipWith_level] at hkeys
  swap
  · simp [length_toLevels]
  have hmem : ∀ k, k ∈ Dict.keys d ↔ k ∈ toLevels ((documentedLevels keyword name params).map Prod.fst) := by
    intro k
    rw [hkeys]
    exact mem_insertionSort_dedup _ k
  refine ⟨by rw [hkeys]; exact insertionSort_dedup_lt _, fun hall k => ?_, fun hex k => ?_⟩
  · rw [hmem]
    unfold toLevels
    rw [if_pos]
    · rw [List.mem_map]
      constructor
      · rintro ⟨t, ht, rfl⟩
        exact ⟨t, (mem_documentedLevels _ _ _ t).1 ht, rfl⟩
      · rintro ⟨t, ht, rfl⟩
        exact ⟨t, (mem_documentedLevels _ _ _ t).2 ht, rfl⟩
    · rw [List.all_eq_true]
      intro t ht
      obtain ⟨p, hp, e⟩ := (mem_documentedLevels _ _ _ t).1 ht
      exact hall p hp t e
  · rw [hmem]
    unfold toLevels
    rw [if_neg]
    · rw [List.mem_map]
      constructor
      · rintro ⟨t, ht, rfl⟩
        exact ⟨t, (mem_documentedLevels _ _ _ t).1 ht, rfl⟩
      · rintro ⟨t, ht, rfl⟩
        exact ⟨t, (mem_documentedLevels _ _ _ t).2 ht, rfl⟩
    · rw [List.all_eq_true]
      intro hall
      obtain ⟨p, hp, t, e, hd⟩ := hex
      have := hall t ((mem_documentedLevels _ _ _ t).2 ⟨p, hp, e⟩)
      rw [this] at hd
      cases hd

/-- A group of logit coefficients: every level has the coefficients of its rows. -/
theorem parseGroup_own {L : Type _} [LinearOrder L] (maxFloat : ℝ) (rows : List (GroupParam L))
    (d : Dict L (List (Str × ℝ))) (hp : ∀ r ∈ rows, r.name ≠ "probability".toList)
    (h : parseGroup maxFloat rows = .ok (some d)) :
    ∀ l ∈ rows.map GroupParam.level,
      (l, (rows.filter fun r => r.level = l).map fun r => (r.name, r.value)) ∈ d := by
  intro l hl
  have hc : rows.countP (fun r => r.name = "probability".toList) = 0 := by
    rw [List.countP_eq_zero]
    intro r hr
    rw [decide_eq_true_eq]
    exact hp r hr
  unfold parseGroup at h
  split at h
  · cases h
  · rename_i hlen
    dsimp only at h
    rw [hc, if_neg, if_neg (by omega)] at h
    · rw [← Option.some.inj (Except.ok.inj h)]
      exact List.mem_map.2 ⟨l, (mem_insertionSort_dedup _ l).2 hl, rfl⟩
    · rintro ⟨h4, h5⟩
      omega

theorem filter_zipWith_text {L : Type _} [LinearOrder L] (f : Str → L) (hf : Function.Injective f) (t : Str) :
    ∀ rs : List (Str × ((Str × Str) × ℝ)),
    ((List.zipWith (fun l r => (⟨l, r.2.1.2, r.2.2⟩ : GroupParam L))
      ((rs.map Prod.fst).map f) rs).filter
        fun r => decide (r.level = f t)).map (fun r => (r.name, r.value)) =
      (rs.filter fun r => r.1 = t).map fun r => (r.2.1.2, r.2.2)
  | [] => rfl
  | r :: rs => by
    have ih := filter_zipWith_text f hf t rs
    simp only [List.map_cons, List.zipWith_cons_cons, List.filter_cons]
    by_cases h : r.1 = t
    · simp only [h, decide_true, if_true, List.map_cons, ih]
    · have : f r.1 ≠ f t := fun e => h (hf e)
      simp only [h, this, decide_false, Bool.false_eq_true, if_false, ih]

theorem documentedLevels_filter (keyword name t : Str) (params : List ((Str × Str) × ℝ)) :
    ((documentedLevels keyword name params).filter fun r => r.1 = t).map (fun r => (r.2.1.2, r.2.2)) =
      (params.filter fun p => p.1.1 = levelCategory keyword name t).map fun p => (p.1.2, p.2) := by
  unfold documentedLevels
  have happ : ∀ u, levelCategory keyword name u = levelCategory keyword name [] ++ u := by
    intro u; simp [levelCategory]
  induction params with
  | nil => rfl
  | cons p params ih =>
    by_cases hpre : levelCategory keyword name [] <+: p.1.1
    · obtain ⟨u, hu⟩ := hpre
      have hpre' : (levelCategory keyword name []).isPrefixOf p.1.1 = true := by
        rw [← hu]; exact isPrefixOf_append_self _ _
      have hiff : p.1.1 = levelCategory keyword name t ↔ u = t := by
        rw [← hu, happ t, List.append_cancel_left_eq]
      have hdrop : p.1.1.drop (levelCategory keyword name []).length = u := by
        rw [← hu, List.drop_left]
      by_cases hut : u = t
      · have hd : decide (p.1.1 = levelCategory keyword name t) = true := by
          rw [decide_eq_true_eq]; exact hiff.2 hut
        simp only [List.filterMap_cons, hpre', if_true, hdrop, List.filter_cons, hut, decide_true, hd,
          List.map_cons, ih]
      · have : ¬ p.1.1 = levelCategory keyword name t := fun e => hut (hiff.1 e)
        simp only [List.filterMap_cons, hpre', if_true, hdrop, List.filter_cons, hut, decide_false,
          this, Bool.false_eq_true, if_false, ih]
    · have hpre' : (levelCategory keyword name []).isPrefixOf p.1.1 = false := by
        rw [Bool.eq_false_iff, ne_eq, List.isPrefixOf_iff_prefix]; exact hpre
      have : ¬ p.1.1 = levelCategory keyword name t := by
        intro e
        exact hpre (by rw [e, happ t]; exact List.prefix_append _ _)
      simp only [List.filterMap_cons, hpre', Bool.false_eq_true, if_false, List.filter_cons, this,
        decide_false, ih]

/-- C75 (coefficients). For all parameters as in `C75_levels_partial` with texts as levels and logit
coefficients: every level has exactly the coefficients with the category `keyword_name_level`, in the order of the
parameters. Partial: upper-case letters are excluded as before. -/
theorem C75_own_coefficients_partial (maxFloat : ℝ) (keyword name : Str) (params : List ((Str × Str) × ℝ))
    (d : Dict Level (List (Str × ℝ))) (hk : keyword ≠ [])
    (hkw : ∀ c, keyword.head? = some c → c ∈ wordCharacters)
    (hcat : ∀ p ∈ params, ∀ c ∈ p.1.1, c ∈ wordCharacters)
    (hlevel : ∀ p ∈ params, ∀ t, p.1.1 = levelCategory keyword name t →
      t ≠ [] ∧ ∀ c ∈ t, c ∈ levelCharacters)
    (htext : ∃ p ∈ params, ∃ t, p.1.1 = levelCategory keyword name t ∧ t.all Char.isDigit = false)
    (hprob : ∀ p ∈ params, p.1.2 ≠ "probability".toList)
    (h : parseGroup maxFloat (levelParams keyword name params) = .ok (some d))
    (t : Str) (ht : ∃ p ∈ params, p.1.1 = levelCategory keyword name t) :
    Dict.get? d (toLex (.inr t)) =
      some ((params.filter fun p => p.1.1 = levelCategory keyword name t).map fun p => (p.1.2, p.2)) := by
  obtain ⟨hs, _, hk2⟩ := C75_levels_partial maxFloat keyword name params d hk hkw hcat hlevel h
  have hin := (hk2 htext (toLex (.inr t))).2 ⟨t, ht, rfl⟩
  replace hkw := fun c hc => isWordChar_of_mem c (hkw c hc)
  replace hcat := fun p hp c hc => isWordChar_of_mem c (hcat p hp c hc)
  replace hlevel := fun p hp t ht => And.imp_right (fun h c hc => isLevelChar_of_mem c (h c hc)) (hlevel p hp t ht)
  have hrows := levelParams_documented keyword name params hk hkw hcat hlevel
  have htl : toLevels ((documentedLevels keyword name params).map Prod.fst) =
      ((documentedLevels keyword name params).map Prod.fst).map fun t => toLex (.inr t) := by
    unfold toLevels
    rw [if_neg]
    rw [List.all_eq_true]
    intro hall
    obtain ⟨p, hp, u, e, hd⟩ := htext
    have := hall u ((mem_documentedLevels _ _ _ u).2 ⟨p, hp, e⟩)
    rw [this] at hd
    cases hd
  have hkeys := parseGroup_keys maxFloat _ d h
  rw [hkeys] at hin
  have hown := parseGroup_own maxFloat (levelParams keyword name params) d ?_ h _
    ((mem_insertionSort_dedup _ _).1 hin)
  · have := Dict.get?_of_mem d (hs.imp ne_of_lt) _ _ hown
    rw [this, hrows, htl]
    exact congrArg some ((filter_zipWith_text (fun t => (toLex (.inr t) : Level))
      (fun a b e => Sum.inr.inj (toLex.injective e)) t _).trans (documentedLevels_filter _ _ _ _))
  · intro r hr
    rw [hrows] at hr
    obtain ⟨i, hi, e⟩ := List.getElem_of_mem hr
    rw [List.getElem_zipWith] at e
    rw [← e]
    rw [List.length_zipWith] at hi
    have hm : (documentedLevels keyword name params)[i]'(by omega) ∈ documentedLevels keyword name params :=
      List.getElem_mem _
    generalize (documentedLevels keyword name params)[i]'(by omega) = q at hm
    unfold documentedLevels at hm
    obtain ⟨p, hp, hq⟩ := List.mem_filterMap.1 hm
    split at hq
    · injection hq with hq
      rw [← hq]
      exact hprob p hp
    · cases hq

/-! ### Codes of the levels of an exogenous process -/

theorem mem_of_levels_defined {α : Type _} (process obs : Dict Level α)
    (h : (process.all fun kv => obs.any fun ko => decide (ko.1 = kv.1)) = true) (kv : Level × α)
    (hkv : kv ∈ process) : kv.1 ∈ Dict.keys obs := by
  rw [List.all_eq_true] at h
  have := h kv hkv
  rw [List.any_eq_true] at this
  obtain ⟨ko, hko, e⟩ := this
  rw [decide_eq_true_eq] at e
  exact List.mem_map.2 ⟨ko, hko, e⟩

/-- C75 (levels of processes). For all processes and observables of the same name: an accepted initial
distribution has a code for every level of the process. -/
theorem C75_process_levels_defined (process : Dict Level (List (Str × ℝ)))
    (observable : Option (Dict Level (List (Str × ℝ)))) (d : Dict Level (List (Str × ℝ)))
    (h : initialLevels process observable = some d) :
    ∀ l ∈ Dict.keys process, ∃ c, levelCode d l = some c ∧ (Dict.keys d)[c]? = some l := by
  have hmem : ∀ l ∈ Dict.keys process, l ∈ d.map Prod.fst := by
    intro l hl
    unfold initialLevels at h
    cases observable with
    | none =>
      simp only [Option.some.injEq] at h
      subst h
      rw [List.map_map]
      exact hl
    | some obs =>
      dsimp only at h
      split at h
      · next hall =>
        injection h with h
        subst h
        obtain ⟨kv, hkv, rfl⟩ := List.mem_map.1 hl
        exact mem_of_levels_defined _ _ hall kv hkv
      · cases h
  intro l hl
  unfold levelCode
  cases hf : (d.map Prod.fst).findIdx? fun k => decide (k = l) with
  | none =>
    rw [List.findIdx?_eq_none_iff] at hf
    have := hf l (hmem l hl)
    simp at this
  | some c =>
    refine ⟨c, rfl, ?_⟩
    obtain ⟨hc, h1, _⟩ := List.findIdx?_eq_some_iff_getElem.1 hf
    rw [decide_eq_true_eq] at h1
    show (d.map Prod.fst)[c]? = some l
    rw [List.getElem?_eq_getElem hc, h1]

/-- C75 (codes agree). For all processes and observables of the same name with sorted levels: if the initial
distribution is accepted and the observable has no level which the process does not have, then every level has the
same code for the process (transitions) and for the observable (dense states, initial values), and both have
the same number of levels. Partial: additional levels of the observable are accepted as well, and the codes differ
then, see `C75_codes_false`. -/
theorem C75_codes_agree_partial (process : Dict Level (List (Str × ℝ)))
    (observable : Option (Dict Level (List (Str × ℝ)))) (d : Dict Level (List (Str × ℝ)))
    (h : initialLevels process observable = some d)
    (hp : (Dict.keys process).Pairwise (· < ·))
    (ho : ∀ obs, observable = some obs → (Dict.keys obs).Pairwise (· < ·) ∧
      ∀ l ∈ Dict.keys obs, l ∈ Dict.keys process) :
    d.length = process.length ∧ ∀ l, levelCode d l = levelCode process l := by
  have hkeys : Dict.keys d = Dict.keys process := by
    unfold initialLevels at h
    cases hob : observable with
    | none =>
      rw [hob] at h
      simp only [Option.some.injEq] at h
      subst h
      simp [Dict.keys, Function.comp_def]
    | some obs =>
      rw [hob] at h
      obtain ⟨hs, hsub⟩ := ho obs hob
      dsimp only at h
      split at h
      · next hall =>
        injection h with h
        subst h
        refine List.Perm.eq_of_pairwise (le := (· < ·)) (fun a b _ _ h1 h2 => absurd h1 (lt_asymm h2))
          hs hp ?_
        rw [List.perm_ext_iff_of_nodup (hs.imp ne_of_lt) (hp.imp ne_of_lt)]
        intro l
        refine ⟨hsub l, fun hl => ?_⟩
        obtain ⟨kv, hkv, rfl⟩ := List.mem_map.1 hl
        exact mem_of_levels_defined _ _ hall kv hkv
      · cases h
  constructor
  · have := congrArg List.length hkeys
    simpa [Dict.keys] using this
  · intro l
    unfold levelCode
    have e : d.map Prod.fst = process.map Prod.fst := hkeys
    rw [e]

/-! ### Examples and counterexamples -/

/-- Parameters of the process `health` with two levels and of an observable with three levels. -/
noncomputable def healthParams : List ((Str × Str) × ℝ) :=
  [(("exogenous_process_health_good".toList, "constant".toList), 1),
   (("exogenous_process_health_poor".toList, "constant".toList), 0),
   (("observable_health_dead".toList, "constant".toList), 0),
   (("observable_health_good".toList, "constant".toList), 0),
   (("observable_health_poor".toList, "constant".toList), 1)]

/-- A text level. -/
def textLevel (s : String) : Level := toLex (.inr s.toList)

theorem healthParams_process : levelParams "exogenous_process".toList "health".toList healthParams =
    [⟨textLevel "good", "constant".toList, 1⟩, ⟨textLevel "poor", "constant".toList, 0⟩] := by
  have h1 : extract ("exogenous_process".toList ++ ['_'] ++ "health".toList ++ ['_']) isLevelChar
    "exogenous_process_health_good".toList = some "good".toList := by decide +kernel
  have h2 : extract ("exogenous_process".toList ++ ['_'] ++ "health".toList ++ ['_']) isLevelChar
    "exogenous_process_health_poor".toList = some "poor".toList := by decide +kernel
  have h3 : extract ("exogenous_process".toList ++ ['_'] ++ "health".toList ++ ['_']) isLevelChar
    "observable_health_dead".toList = none := by decide +kernel
  have h4 : extract ("exogenous_process".toList ++ ['_'] ++ "health".toList ++ ['_']) isLevelChar
    "observable_health_good".toList = none := by decide +kernel
  have h5 : extract ("exogenous_process".toList ++ ['_'] ++ "health".toList ++ ['_']) isLevelChar
    "observable_health_poor".toList = none := by decide +kernel
  have h6 : toLevels ["good".toList, "poor".toList] = [textLevel "good", textLevel "poor"] := by
    unfold toLevels
    rw [if_neg (by decide)]
    rfl
  unfold levelParams healthParams
  simp only [List.filterMap_cons, List.filterMap_nil, h1, h2, h3, h4, h5, Option.map_some, Option.map_none,
    List.map_cons, List.map_nil, h6, List.zipWith_cons_cons, List.zipWith_nil_left]

theorem healthParams_observable : levelParams "observable".toList "health".toList healthParams =
    [⟨textLevel "dead", "constant".toList, 0⟩, ⟨textLevel "good", "constant".toList, 0⟩,
     ⟨textLevel "poor", "constant".toList, 1⟩] := by
  have h1 : extract ("observable".toList ++ ['_'] ++ "health".toList ++ ['_']) isLevelChar
    "exogenous_process_health_good".toList = none := by decide +kernel
  have h2 : extract ("observable".toList ++ ['_'] ++ "health".toList ++ ['_']) isLevelChar
    "exogenous_process_health_poor".toList = none := by decide +kernel
  have h3 : extract ("observable".toList ++ ['_'] ++ "health".toList ++ ['_']) isLevelChar
    "observable_health_dead".toList = some "dead".toList := by decide +kernel
  have h4 : extract ("observable".toList ++ ['_'] ++ "health".toList ++ ['_']) isLevelChar
    "observable_health_good".toList = some "good".toList := by decide +kernel
  have h5 : extract ("observable".toList ++ ['_'] ++ "health".toList ++ ['_']) isLevelChar
    "observable_health_poor".toList = some "poor".toList := by decide +kernel
  have h6 : toLevels ["dead".toList, "good".toList, "poor".toList] =
      [textLevel "dead", textLevel "good", textLevel "poor"] := by
    unfold toLevels
    rw [if_neg (by decide)]
    rfl
  unfold levelParams healthParams
  simp only [List.filterMap_cons, List.filterMap_nil, h1, h2, h3, h4, h5, Option.map_some, Option.map_none,
    List.map_cons, List.map_nil, h6, List.zipWith_cons_cons, List.zipWith_nil_left]

theorem healthParams_words : ∀ p ∈ healthParams, ∀ c ∈ p.1.1, c ∈ wordCharacters := by
  have h : ∀ s ∈ healthParams.map (fun p => p.1.1), ∀ c ∈ s, c ∈ wordCharacters := by
    simp only [healthParams, List.map_cons, List.map_nil]
    decide +kernel
  exact fun p hp => h _ (List.mem_map.2 ⟨p, hp, rfl⟩)

theorem healthParams_levels : ∀ p ∈ healthParams, ∀ t,
    p.1.1 = levelCategory "observable".toList "health".toList t →
      t ≠ [] ∧ ∀ c ∈ t, c ∈ levelCharacters := by
  have h : ∀ s ∈ healthParams.map (fun p => p.1.1),
      (levelCategory "observable".toList "health".toList []).isPrefixOf s = true →
        s.drop (levelCategory "observable".toList "health".toList []).length ≠ [] ∧
        ∀ c ∈ s.drop (levelCategory "observable".toList "health".toList []).length, c ∈ levelCharacters := by
    simp only [healthParams, List.map_cons, List.map_nil]
    decide +kernel
  intro p hp t e
  have := h _ (List.mem_map.2 ⟨p, hp, rfl⟩)
  have happ : levelCategory "observable".toList "health".toList t =
      levelCategory "observable".toList "health".toList [] ++ t := by simp [levelCategory]
  rw [e, happ, List.drop_left] at this
  exact this (isPrefixOf_append_self _ _)

theorem healthParams_names : ∀ p ∈ healthParams, p.1.2 ≠ "probability".toList := by
  have h : ∀ s ∈ healthParams.map (fun p => p.1.2), s ≠ "probability".toList := by
    simp only [healthParams, List.map_cons, List.map_nil]
    decide +kernel
  exact fun p hp => h _ (List.mem_map.2 ⟨p, hp, rfl⟩)

theorem healthParams_parsed : ∃ d,
    parseGroup 1000 (levelParams "observable".toList "health".toList healthParams) = .ok (some d) := by
  refine parseGroup_coefficients _ _ ?_ ?_ <;> rw [healthParams_observable]
  · simp
  · simp only [List.mem_cons, List.not_mem_nil, or_false]
    rintro r (rfl | rfl | rfl) <;> decide

/-- The hypotheses of `C75_levels_partial` and `C75_own_coefficients_partial` hold for an observable with three
levels. -/
example : ∃ d, parseGroup 1000 (levelParams "observable".toList "health".toList healthParams) = .ok (some d) ∧
    textLevel "dead" ∈ Dict.keys d ∧
    Dict.get? d (textLevel "poor") = some [("constant".toList, 1)] := by
  obtain ⟨d, hd⟩ := healthParams_parsed
  have hex : ∃ p ∈ healthParams, ∃ t, p.1.1 = levelCategory "observable".toList "health".toList t ∧
      t.all Char.isDigit = false := by
    refine ⟨(("observable_health_dead".toList, "constant".toList), 0), ?_, "dead".toList, by decide +kernel,
      by decide +kernel⟩
    simp [healthParams]
  refine ⟨d, hd, ?_, ?_⟩
  · have := (C75_levels_partial 1000 "observable".toList "health".toList healthParams d (by decide) (by decide)
      healthParams_words healthParams_levels hd).2.2 hex (textLevel "dead")
    refine this.2 ⟨"dead".toList, ⟨(("observable_health_dead".toList, "constant".toList), 0), ?_,
      by decide +kernel⟩, rfl⟩
    simp [healthParams]
  · have := C75_own_coefficients_partial 1000 "observable".toList "health".toList healthParams d (by decide)
      (by decide) healthParams_words healthParams_levels hex healthParams_names hd "poor".toList
      ⟨(("observable_health_poor".toList, "constant".toList), 1), by simp [healthParams], by decide +kernel⟩
    have e1 : levelCategory "observable".toList "health".toList "poor".toList =
      "observable_health_poor".toList := by decide +kernel
    refine this.trans ?_
    rw [e1]
    simp [healthParams]

/-- C75 is false if the observable has additional levels: the process `health` has the levels `good` and
`poor`, its initial distribution also mentions `dead`. The parameters are accepted. The level `good` has the
code 0 for the transitions of the process, but the code 1 for the initial values and the dense states, where there are
three levels instead of two. -/
theorem C75_codes_false : ∃ process observable d,
    parseGroup 1000 (levelParams "exogenous_process".toList "health".toList healthParams) = .ok (some process) ∧
    parseGroup 1000 (levelParams "observable".toList "health".toList healthParams) = .ok (some observable) ∧
    initialLevels process (some observable) = some d ∧
    levelCode process (textLevel "good") = some 0 ∧ levelCode d (textLevel "good") = some 1 ∧
    process.length = 2 ∧ d.length = 3 := by
  obtain ⟨od, hod⟩ := healthParams_parsed
  have hp : ∃ d, parseGroup 1000 (levelParams "exogenous_process".toList "health".toList healthParams) =
      .ok (some d) := by
    refine parseGroup_coefficients _ _ ?_ ?_ <;> rw [healthParams_process]
    · simp
    · simp only [List.mem_cons, List.not_mem_nil, or_false]
      rintro r (rfl | rfl) <;> decide
  obtain ⟨pd, hpd⟩ := hp
  have ko := parseGroup_keys _ _ _ hod
  have kp := parseGroup_keys _ _ _ hpd
  rw [healthParams_observable] at ko
  rw [healthParams_process] at kp
  have so : ([textLevel "dead", textLevel "good", textLevel "poor"].dedup.insertionSort
      (fun a b => a ≤ b)) = [textLevel "dead", textLevel "good", textLevel "poor"] := by decide +kernel
  have sp : ([textLevel "good", textLevel "poor"].dedup.insertionSort (fun a b => a ≤ b)) =
      [textLevel "good", textLevel "poor"] := by decide +kernel
  have ko' : Dict.keys od = [textLevel "dead", textLevel "good", textLevel "poor"] := ko.trans so
  have kp' : Dict.keys pd = [textLevel "good", textLevel "poor"] := kp.trans sp
  refine ⟨pd, od, od, hpd, hod, ?_, ?_, ?_, ?_, ?_⟩
  · unfold initialLevels
    dsimp only
    rw [if_pos]
    rw [List.all_eq_true]
    intro kv hkv
    have h1 : kv.1 ∈ Dict.keys pd := List.mem_map.2 ⟨kv, hkv, rfl⟩
    have h2 : kv.1 ∈ Dict.keys od := by
      rw [kp'] at h1
      rw [ko']
      exact List.mem_cons_of_mem _ h1
    obtain ⟨ko, hko, e⟩ := List.mem_map.1 h2
    rw [List.any_eq_true]
    exact ⟨ko, hko, by rw [decide_eq_true_eq]; exact e⟩
  · unfold levelCode
    rw [show pd.map Prod.fst = _ from kp']
    decide +kernel
  · unfold levelCode
    rw [show od.map Prod.fst = _ from ko']
    decide +kernel
  · simpa [Dict.keys] using congrArg List.length kp'
  · simpa [Dict.keys] using congrArg List.length ko'

/-- C75 is false for levels with upper-case letters: of the levels `male` and `Female` only the first one is
parsed, and of the levels `Male` and `Female` none, without an error in both cases. -/
theorem C75_upper_case_false (a b : ℝ) :
    (levelParams "observable".toList "sex".toList
      [(("observable_sex_male".toList, "constant".toList), a),
       (("observable_sex_Female".toList, "constant".toList), b)]).map GroupParam.level = [textLevel "male"] ∧
    parseGroup 1000 (levelParams "observable".toList "sex".toList
      [(("observable_sex_Male".toList, "constant".toList), a),
       (("observable_sex_Female".toList, "constant".toList), b)]) = .ok none := by
  have h1 : extract ("observable".toList ++ ['_'] ++ "sex".toList ++ ['_']) isLevelChar
    "observable_sex_male".toList = some "male".toList := by decide +kernel
  have h2 : extract ("observable".toList ++ ['_'] ++ "sex".toList ++ ['_']) isLevelChar
    "observable_sex_Female".toList = none := by decide +kernel
  have h3 : extract ("observable".toList ++ ['_'] ++ "sex".toList ++ ['_']) isLevelChar
    "observable_sex_Male".toList = none := by decide +kernel
  have h6 : toLevels ["male".toList] = [textLevel "male"] := by
    unfold toLevels
    rw [if_neg (by decide)]
    rfl
  constructor
  · unfold levelParams
    simp only [List.filterMap_cons, List.filterMap_nil, h1, h2, Option.map_some, Option.map_none,
      List.map_cons, List.map_nil, h6, List.zipWith_cons_cons, List.zipWith_nil_left]
  · unfold levelParams parseGroup
    simp only [List.filterMap_cons, List.filterMap_nil, h3, h2, Option.map_none, List.zipWith_nil_right,
      List.length_nil, if_true]

/-- The hypotheses of `C75_process_levels_defined` and `C75_codes_agree_partial` hold for a process without
parameters for its initial distribution. -/
example : ∃ process d, initialLevels process none = some d ∧
    parseGroup 1000 (levelParams "exogenous_process".toList "health".toList healthParams) = .ok (some process) ∧
    levelCode d (textLevel "poor") = levelCode process (textLevel "poor") := by
  obtain ⟨process, _, _, hp, _⟩ := C75_codes_false
  have hk := parseGroup_keys _ _ _ hp
  refine ⟨process, _, rfl, hp, ?_⟩
  exact (C75_codes_agree_partial process none _ rfl (by rw [hk]; exact insertionSort_dedup_lt _)
    (by simp)).2 _

end Respy
