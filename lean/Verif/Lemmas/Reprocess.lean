import Verif.Spec.Reprocess
import Verif.Lemmas.SameIndex
import Verif.Lemmas.StateCovariates
import Verif.Props.LaggedChoices
import Verif.Props.Choices
import Verif.Lemmas.DictUpdate

/-! Helper lemmas: processing options which were processed before. -/

namespace Respy

theorem sortedSet_congr {l l' : List Str} (h : ∀ x, x ∈ l ↔ x ∈ l') : sortedSet l = sortedSet l' := by
  have hp : (sortedSet l).Perm (sortedSet l') :=
    (List.perm_ext_iff_of_nodup (nodup_sortedSet l) (nodup_sortedSet l')).2 fun x => by
      rw [mem_sortedSet, mem_sortedSet, h]
  exact hp.eq_of_pairwise (fun a b _ _ h1 h2 => le_antisymm h1 h2) (sorted_sortedSet l) (sorted_sortedSet l')

theorem parseChoices_congr (params : List (Str × Str)) {covs covs' : Dict Str Str}
    (h : ∀ x, (∃ cf ∈ covs, cf.1 ∈ params.map Prod.snd ∧ x ∈ findAll "exp_".toList isNameChar cf.2) ↔
      ∃ cf ∈ covs', cf.1 ∈ params.map Prod.snd ∧ x ∈ findAll "exp_".toList isNameChar cf.2) :
    parseChoices params covs = parseChoices params covs' := by
  have : inferChoicesWithExperience params covs = inferChoicesWithExperience params covs' := by
    unfold inferChoicesWithExperience
    refine sortedSet_congr fun x => ?_
    simp only [List.mem_append, List.mem_flatMap (l := List.filter _ _), List.mem_filter, decide_eq_true_eq]
    have := h x
    constructor
    · rintro (h1 | ⟨cf, ⟨h1, h2⟩, h3⟩)
      · exact Or.inl h1
      · obtain ⟨cf', h4, h5, h6⟩ := this.1 ⟨cf, h1, h2, h3⟩
        exact Or.inr ⟨cf', ⟨h4, h5⟩, h6⟩
    · rintro (h1 | ⟨cf, ⟨h1, h2⟩, h3⟩)
      · exact Or.inl h1
      · obtain ⟨cf', h4, h5, h6⟩ := this.2 ⟨cf, h1, h2, h3⟩
        exact Or.inr ⟨cf', ⟨h4, h5⟩, h6⟩
  unfold parseChoices
  rw [this]

theorem foldl_max_le {xs ys : List Nat} (h : ∀ x ∈ xs, x ∈ ys) : xs.foldl max 0 ≤ ys.foldl max 0 := by
  rcases (foldl_max_ge xs 0).2.2 with h1 | h1
  · rw [h1]; exact Nat.zero_le _
  · exact (foldl_max_ge ys 0).2.1 _ (h _ h1)

theorem numberOfLags_congr {covs covs' : Dict Str Str}
    (h : ∀ x, (∃ cf ∈ covs, x ∈ findAllPlain "lagged_choice_".toList Char.isDigit cf.2) ↔
      ∃ cf ∈ covs', x ∈ findAllPlain "lagged_choice_".toList Char.isDigit cf.2) :
    numberOfLags covs = numberOfLags covs' := by
  have key : ∀ {covs covs' : Dict Str Str},
      (∀ x, (∃ cf ∈ covs, x ∈ findAllPlain "lagged_choice_".toList Char.isDigit cf.2) →
        ∃ cf ∈ covs', x ∈ findAllPlain "lagged_choice_".toList Char.isDigit cf.2) →
      numberOfLags covs ≤ numberOfLags covs' := by
    intro covs covs' h
    unfold numberOfLags
    refine foldl_max_le fun n hn => ?_
    obtain ⟨x, hx, rfl⟩ := List.mem_map.1 hn
    exact List.mem_map_of_mem (List.mem_flatMap.2 (h x (List.mem_flatMap.1 hx)))
  exact le_antisymm (key fun x => (h x).1) (key fun x => (h x).2)

/-! ### Covariates of types -/

theorem type_formula_plain (i : Nat) :
    '\'' ∉ "type == ".toList ++ codeText i ∧ '"' ∉ "type == ".toList ++ codeText i := by
  have hd : ∀ q : Char, q ∉ "type == ".toList → q.isDigit = false → q ∉ "type == ".toList ++ codeText i := by
    intro q h1 h2 h
    rcases List.mem_append.1 h with h | h
    · exact h1 h
    · rw [codeText_digits i q h] at h2; cases h2
  exact ⟨hd _ (by decide) (by decide), hd _ (by decide) (by decide)⟩

theorem type_formula_no_exp (i : Nat) : findAll "exp_".toList isNameChar ("type == ".toList ++ codeText i) = [] := by
  rw [List.eq_nil_iff_forall_not_mem]
  intro x hx
  have h1 := (findAll_sound _ _ _ _ hx).1
  have h2 : 'x' ∈ "type == ".toList ++ codeText i := h1.subset (List.mem_append_left _ (by decide))
  rcases List.mem_append.1 h2 with h | h
  · exact absurd h (by decide)
  · exact absurd (codeText_digits i _ h) (by decide)

theorem type_formula_no_lag (i : Nat) :
    findAllPlain "lagged_choice_".toList Char.isDigit ("type == ".toList ++ codeText i) = [] := by
  rw [List.eq_nil_iff_forall_not_mem]
  intro x hx
  have h1 := (findAllPlainFuel_sound _ _ _ _ _ hx).1
  have h2 : 'l' ∈ "type == ".toList ++ codeText i := h1.subset (List.mem_append_left _ (by decide))
  rcases List.mem_append.1 h2 with h | h
  · exact absurd h (by decide)
  · exact absurd (codeText_digits i _ h) (by decide)

/-- The covariates of types. -/
def typeItems (nTypes : Nat) : Dict Str Str :=
  (List.range' 1 (nTypes - 1)).map fun i => ("type_".toList ++ codeText i, "type == ".toList ++ codeText i)

theorem codeText_injective {i j : Nat} (h : codeText i = codeText j) : i = j := by
  have := congrArg digitsValue h
  unfold codeText at this
  rwa [digitsValue_toDigits, digitsValue_toDigits] at this

theorem typeItems_nodup (nTypes : Nat) : (Dict.keys (typeItems nTypes)).Nodup := by
  unfold Dict.keys typeItems
  rw [List.map_map]
  refine (List.nodup_range' ..).map ?_
  intro i j h
  exact codeText_injective (List.append_cancel_left h)

theorem mem_addTypeCovariates (nTypes : Nat) (covs : Dict Str Str) (hc : (Dict.keys covs).Nodup) (c f : Str) :
    (c, f) ∈ addTypeCovariates nTypes covs ↔
      (2 ≤ nTypes ∧ (c, f) ∈ typeItems nTypes) ∨
        ((c, f) ∈ covs ∧ ¬ (2 ≤ nTypes ∧ c ∈ Dict.keys (typeItems nTypes))) := by
  by_cases h2 : 2 ≤ nTypes
  · have e : addTypeCovariates nTypes covs = covs.update (typeItems nTypes) := by
      unfold addTypeCovariates
      rw [if_pos h2]
      rfl
    have hnd : (Dict.keys (covs.update (typeItems nTypes))).Nodup := Dict.nodup_keys_update _ _ hc
    rw [e]
    simp only [h2, true_and]
    have hiff : (c, f) ∈ covs.update (typeItems nTypes) ↔ (covs.update (typeItems nTypes)).get? c = some f :=
      ⟨fun h => Dict.get?_of_mem _ hnd _ _ h, fun h => Dict.mem_of_get? _ _ _ h⟩
    rw [hiff]
    by_cases hk : c ∈ Dict.keys (typeItems nTypes)
    · obtain ⟨⟨c', g⟩, hg, rfl⟩ := List.mem_map.1 hk
      rw [get?_update_of_mem _ _ (typeItems_nodup _) _ _ hg]
      simp only [hk, not_true_eq_false, and_false, or_false, Option.some.injEq]
      constructor
      · rintro rfl; exact hg
      · intro h
        have h1 := Dict.get?_of_mem _ (typeItems_nodup nTypes) _ _ h
        have h2 := Dict.get?_of_mem _ (typeItems_nodup nTypes) _ _ hg
        rw [h1] at h2
        exact (Option.some.inj h2).symm
    · rw [get?_update_of_not_mem _ _ _ hk]
      simp only [hk, not_false_eq_true, and_true]
      constructor
      · intro h; exact Or.inr (Dict.mem_of_get? _ _ _ h)
      · rintro (h | h)
        · exact absurd (List.mem_map_of_mem (f := Prod.fst) h) hk
        · exact Dict.get?_of_mem _ hc _ _ h
  · simp [addTypeCovariates, h2]

/-! ### The second processing -/

section

variable {env : ProcessEnv} {m : UserModel} {p : Processed} {covs : Dict Str Str}

theorem ProcessedFrom.covs_spec (h : ProcessedFrom env m p covs) (hc : (Dict.keys m.covariates).Nodup) :
    (Dict.keys covs).Nodup ∧ ∀ k f, (k, f) ∈ covs ↔ (k, f) ∈ m.covariates ∧
      Needed m.covariates (m.params.map fun q => q.1.2) k := by
  obtain ⟨r, h1, h2, _, h4⟩ := C52_relevant_covariates m.covariates hc (m.params.map fun q => q.1.2)
  rw [h.relevant] at h1
  cases h1
  exact ⟨h2, h4⟩

theorem ProcessedFrom.all_eq (h : ProcessedFrom env m p covs) (hc : (Dict.keys m.covariates).Nodup) :
    p.groups.all.map (fun kv => (kv.1, kv.2.formula)) =
      (addTypeCovariates p.nTypes covs).map fun kv => (kv.1, p.convert kv.2) := by
  obtain ⟨G, hG, hall, _⟩ := C68_groups _ (h.formula_keys hc) _ _ (separateCovariates_base _ _ _ _ h.groups)
  rw [h.groups] at hG
  cases hG
  exact hall

theorem mem_typeItems {n : Nat} {c f : Str} (h : (c, f) ∈ typeItems n) :
    ∃ i, 1 ≤ i ∧ i < n ∧ c = "type_".toList ++ codeText i ∧ f = "type == ".toList ++ codeText i := by
  obtain ⟨i, hi, he⟩ := List.mem_map.1 h
  simp only [Prod.mk.injEq] at he
  rw [List.mem_range'_1] at hi
  exact ⟨i, hi.1, by omega, he.1.symm, he.2.symm⟩

theorem Processed.convert_plain (p : Processed) {f : Str} (h : '\'' ∉ f ∧ '"' ∉ f) : p.convert f = f :=
  replaceLabels_absent _ _ _ h.1 h.2

/-- The converted formulas. -/
theorem ProcessedFrom.mem_formulas (h : ProcessedFrom env m p covs) (hr : m.Reprocessable p) (c g : Str) :
    (c, g) ∈ p.groups.all.map (fun kv => (kv.1, kv.2.formula)) ↔
      (∃ f, (c, f) ∈ covs ∧ g = p.convert f) ∨ (2 ≤ p.nTypes ∧ (c, g) ∈ typeItems p.nTypes) := by
  rw [h.all_eq hr.keys]
  have hs := h.covs_spec hr.keys
  constructor
  · intro hm
    obtain ⟨⟨c', f⟩, hf, he⟩ := List.mem_map.1 hm
    simp only [Prod.mk.injEq] at he
    obtain ⟨rfl, rfl⟩ := he
    rcases (mem_addTypeCovariates _ _ hs.1 _ _).1 hf with ⟨h2, ht⟩ | ⟨ht, _⟩
    · right
      obtain ⟨i, _, _, _, rfl⟩ := mem_typeItems ht
      rw [p.convert_plain (type_formula_plain i)]
      exact ⟨h2, ht⟩
    · exact Or.inl ⟨f, ht, rfl⟩
  · rintro (⟨f, hf, rfl⟩ | ⟨h2, ht⟩)
    · refine List.mem_map.2 ⟨(c, f), (mem_addTypeCovariates _ _ hs.1 _ _).2 ?_, rfl⟩
      by_cases hk : 2 ≤ p.nTypes ∧ c ∈ Dict.keys (typeItems p.nTypes)
      · left
        obtain ⟨⟨c', g⟩, hg, rfl⟩ := List.mem_map.1 hk.2
        obtain ⟨i, h1, h2, h3, rfl⟩ := mem_typeItems hg
        have := hr.types i h1 h2 f (by rw [← h3]; exact ((hs.2 _ _).1 hf).1)
        rw [this]
        exact ⟨hk.1, hg⟩
      · exact Or.inr ⟨hf, hk⟩
    · refine List.mem_map.2 ⟨(c, g), (mem_addTypeCovariates _ _ hs.1 _ _).2 (Or.inl ⟨h2, ht⟩), ?_⟩
      obtain ⟨i, _, _, _, rfl⟩ := mem_typeItems ht
      simp only [p.convert_plain (type_formula_plain i)]

/-- Converted formulas are not changed by another conversion. -/
theorem ProcessedFrom.formula_fixed (h : ProcessedFrom env m p covs) (hr : m.Reprocessable p) {c g : Str}
    (hg : (c, g) ∈ p.groups.all.map (fun kv => (kv.1, kv.2.formula))) : p.convert g = g := by
  rcases (h.mem_formulas hr c g).1 hg with ⟨f, hf, rfl⟩ | ⟨_, ht⟩
  · exact hr.once c f (((h.covs_spec hr.keys).2 _ _).1 hf).1
  · obtain ⟨i, _, _, _, rfl⟩ := mem_typeItems ht
    exact p.convert_plain (type_formula_plain i)

theorem ProcessedFrom.restriction_fixed (h : ProcessedFrom env m p covs) (hr : m.Reprocessable p) {c : Str}
    (hc : c ∈ p.choices.choices) {fs : List Str} (hfs : Dict.get? p.negativeChoiceSet c = some fs) {f : Str}
    (hf : f ∈ fs) : p.convert f = f := by
  obtain ⟨fs', h1, h2⟩ := h.formulas c hc
  rw [hfs] at h1
  cases h1
  rcases (h2 f).1 hf with h3 | ⟨h3, rfl⟩ | ⟨_, _, rfl⟩
  · obtain ⟨f', h4, rfl⟩ := List.mem_map.1 h3
    exact hr.restrictions c hc f' h4
  · obtain ⟨i, hi, he⟩ := List.mem_iff_getElem.1 h3
    obtain ⟨start, mx, g, _, _, h5⟩ := h.defaultText_eq i c (List.getElem?_eq_some_iff.2 ⟨hi, he⟩)
    rw [h5]
    exact p.convert_plain (quote_notin_default c (h.nameChars c hc) g)
  · rw [replaceLabels_absent _ _ _ false_not_quoted.1 false_not_quoted.2]
    exact p.convert_plain false_not_quoted

theorem ProcessedFrom.processModel (h : ProcessedFrom env m p covs) : processModel env m = some p := by
  obtain ⟨sh, hsh, hch⟩ := h.shocks
  have h5 := h.experience
  have h7 := h.measurement
  have h9 := h.lags
  have h10 := h.filters
  have h11 := h.groups
  have h12 := h.validated
  have h13 := h.negativeChoiceSet
  rw [h.choices] at h5 h7 h9 h10 h11 h12 h13
  unfold Respy.processModel
  rw [h.relevant, h.discount, h.exogenous]
  simp only [Option.bind_eq_bind, Option.bind_some]
  rw [h.observables]
  simp only [Option.bind_some]
  rw [h5, hsh]
  simp only [Option.bind_some, Except.toOption]
  rw [h7, h.types]
  simp only [Option.bind_some]
  rw [h9]
  simp only [Option.bind_some]
  rw [h10]
  simp only [Option.bind_some]
  rw [h11]
  simp only [Option.bind_some]
  rw [if_pos h12]
  congr 1
  obtain ⟨a1, a2, a3, a4, a5, a6, a7, a8, a9, a10, a11, a12, a13, a14, a15, a16, a17⟩ := p
  simp only [Processed.mk.injEq]
  exact ⟨h.nPeriods.symm, h.points.symm, trivial, trivial, trivial, h.choices.symm, h.wage.symm, h.nonpec.symm,
    trivial, hch.symm, trivial, trivial, trivial, trivial, h13.symm, trivial, trivial⟩

theorem reprocess_self (h0 : processModel env m = some p) (hr : m.Reprocessable p) :
    ∃ q, processModel env (m.reprocessed p m.params) = some q ∧ SameModel p q ∧
      (m.reprocessed p m.params).Reprocessable q := by
  obtain ⟨covs, h⟩ := processModel_from env m p h0
  have hs := h.covs_spec hr.keys
  have hmem := h.mem_formulas hr
  set conv : Dict Str Str := p.groups.all.map (fun kv => (kv.1, kv.2.formula)) with hconv
  have hck : (Dict.keys conv).Nodup := by
    rw [hconv, h.all_eq hr.keys]
    exact h.formula_keys hr.keys
  obtain ⟨covs2, r1, r2, r3, r4⟩ := C52_relevant_covariates conv hck (m.params.map fun q => q.1.2)
  -- covariates stay relevant
  have hneed : ∀ c, Needed m.covariates (m.params.map fun q => q.1.2) c →
      Needed conv (m.params.map fun q => q.1.2) c := by
    intro c hc
    have hkey : ∀ c, Needed m.covariates (m.params.map fun q => q.1.2) c → c ∈ Dict.keys conv := by
      intro c hc
      have hk : c ∈ Dict.keys m.covariates := by
        cases hc with
        | parameter _ h _ => exact h
        | formula _ _ _ _ _ _ h => exact h
      obtain ⟨⟨c', f⟩, hf, rfl⟩ := List.mem_map.1 hk
      have := List.mem_map_of_mem (f := Prod.fst)
        ((hmem c' (p.convert f)).2 (Or.inl ⟨f, (hs.2 _ _).2 ⟨hf, hc⟩, rfl⟩))
      exact this
    induction hc with
    | parameter k hk hn => exact .parameter k (hkey k (.parameter k hk hn)) hn
    | formula c f k hc hf hkf hk ih =>
      refine .formula c (p.convert f) k ih ?_ (hr.mentions c f hf k hk hkf) (hkey k (.formula c f k hc hf hkf hk))
      exact (hmem c _).2 (Or.inl ⟨f, (hs.2 _ _).2 ⟨hf, hc⟩, rfl⟩)
  have hsub : ∀ c f, (c, f) ∈ covs → (c, p.convert f) ∈ covs2 := by
    intro c f hf
    exact (r4 _ _).2 ⟨(hmem _ _).2 (Or.inl ⟨f, hf, rfl⟩), hneed c ((hs.2 _ _).1 hf).2⟩
  have hback : ∀ c g, (c, g) ∈ covs2 → (∃ f, (c, f) ∈ covs ∧ g = p.convert f) ∨
      (2 ≤ p.nTypes ∧ (c, g) ∈ typeItems p.nTypes) := fun c g hg => (hmem c g).1 ((r4 _ _).1 hg).1
  have hfixed : ∀ c g, (c, g) ∈ conv → p.convert g = g := fun c g hg => h.formula_fixed hr hg
  -- choices and lags
  have hchoices : parseChoices (m.params.map Prod.fst) covs2 = p.choices := by
    rw [h.choices]
    refine parseChoices_congr _ fun x => ⟨?_, ?_⟩
    · rintro ⟨⟨c, g⟩, h1, h2, h3⟩
      rcases hback c g h1 with ⟨f, hf, rfl⟩ | ⟨_, ht⟩
      · rw [hr.experiences c f ((hs.2 _ _).1 hf).1] at h3
        exact ⟨(c, f), hf, h2, h3⟩
      · obtain ⟨i, _, _, _, rfl⟩ := mem_typeItems ht
        rw [type_formula_no_exp] at h3
        cases h3
    · rintro ⟨⟨c, f⟩, h1, h2, h3⟩
      refine ⟨(c, p.convert f), hsub c f h1, h2, ?_⟩
      rw [hr.experiences c f ((hs.2 _ _).1 h1).1]
      exact h3
  have hlags : numberOfLags covs2 = numberOfLags covs := by
    refine numberOfLags_congr fun x => ⟨?_, ?_⟩
    · rintro ⟨⟨c, g⟩, h1, h3⟩
      rcases hback c g h1 with ⟨f, hf, rfl⟩ | ⟨_, ht⟩
      · rw [hr.lags c f ((hs.2 _ _).1 hf).1] at h3
        exact ⟨(c, f), hf, h3⟩
      · obtain ⟨i, _, _, _, rfl⟩ := mem_typeItems ht
        rw [type_formula_no_lag] at h3
        cases h3
    · rintro ⟨⟨c, f⟩, h1, h3⟩
      refine ⟨(c, p.convert f), hsub c f h1, ?_⟩
      rw [hr.lags c f ((hs.2 _ _).1 h1).1]
      exact h3
  have hparse : parseLaggedChoices env.maxFloat env.minFloat p.choices.choices covs2 m.params = .ok p.lags := by
    have := h.lags
    unfold parseLaggedChoices at this ⊢
    rw [hlags]
    exact this
  have hfilters : convertFilters p.choices.choices (textLevels p.observables)
      ⟨p.choices.wExp, p.choices.woExp, p.choices.wWage⟩ p.filters = some p.filters := by
    unfold convertFilters
    have : ∀ l : List Str, (∀ f ∈ l, convertFilter p.choices.choices (textLevels p.observables)
        ⟨p.choices.wExp, p.choices.woExp, p.choices.wWage⟩ f = some [f]) →
        (l.mapM (convertFilter p.choices.choices (textLevels p.observables)
          ⟨p.choices.wExp, p.choices.woExp, p.choices.wWage⟩)).map List.flatten = some l := by
      intro l
      induction l with
      | nil => intro _; rfl
      | cons f l ih =>
        intro hl
        rw [List.mapM_cons, hl f List.mem_cons_self]
        have := ih fun g hg => hl g (List.mem_cons_of_mem _ hg)
        obtain ⟨out, ho, he⟩ := Option.map_eq_some_iff.1 this
        rw [ho]
        simp [he]
    exact this _ hr.filters
  -- groups
  have hconv2 : ∀ c g, (c, g) ∈ (addTypeCovariates p.nTypes covs2).map (fun kv => (kv.1, p.convert kv.2)) ↔
      (c, g) ∈ conv := by
    intro c g
    constructor
    · intro hg
      obtain ⟨⟨c', g'⟩, hg', he⟩ := List.mem_map.1 hg
      simp only [Prod.mk.injEq] at he
      obtain ⟨rfl, rfl⟩ := he
      rcases (mem_addTypeCovariates _ _ r2 _ _).1 hg' with ⟨h2, ht⟩ | ⟨ht, _⟩
      · obtain ⟨i, _, _, _, rfl⟩ := mem_typeItems ht
        rw [p.convert_plain (type_formula_plain i)]
        exact (hmem _ _).2 (Or.inr ⟨h2, ht⟩)
      · have := ((r4 _ _).1 ht).1
        rw [hfixed _ _ this]
        exact this
    · intro hg
      refine List.mem_map.2 ⟨(c, g), (mem_addTypeCovariates _ _ r2 _ _).2 ?_, by simp only [hfixed c g hg]⟩
      rcases (hmem c g).1 hg with ⟨f, hf, rfl⟩ | ht
      · by_cases hk : 2 ≤ p.nTypes ∧ c ∈ Dict.keys (typeItems p.nTypes)
        · left
          refine ⟨hk.1, ?_⟩
          obtain ⟨⟨c', g⟩, hg', rfl⟩ := List.mem_map.1 hk.2
          have h1 := Dict.get?_of_mem _ hck _ _ ((hmem _ _).2 (Or.inr ⟨hk.1, hg'⟩))
          have h2 := Dict.get?_of_mem _ hck _ _ hg
          rw [h1] at h2
          rw [← Option.some.inj h2]
          exact hg'
        · exact Or.inr ⟨hsub c f hf, hk⟩
      · exact Or.inl ht
  have hk2 : (Dict.keys ((addTypeCovariates p.nTypes covs2).map fun kv => (kv.1, p.convert kv.2))).Nodup := by
    have := addTypeCovariates_nodup p.nTypes _ r2
    unfold Dict.keys at this ⊢
    rwa [List.map_map]
  have hperm : conv.Perm ((addTypeCovariates p.nTypes covs2).map fun kv => (kv.1, p.convert kv.2)) := by
    refine (List.perm_ext_iff_of_nodup hck.of_map hk2.of_map).2 fun x => ?_
    obtain ⟨c, g⟩ := x
    exact (hconv2 c g).symm
  obtain ⟨G, hG, hall, _⟩ := C68_groups _ hk2 (coreColumns p.choices.wExp p.lags.length)
    (denseBaseColumns (Dict.keys p.observables) p.nTypes) (by
      intro k h1 h2
      have h3 := separateCovariates_base _ _ _ _ h.groups k h1 h2
      have h4 : k ∈ Dict.keys conv := by rw [hconv, h.all_eq hr.keys]; exact h3
      exact (hperm.map Prod.fst).mem_iff.1 h4)
  -- the model
  let neg : Dict Str (List Str) := (addDefaultIsInadmissible p.choices.wExp p.choices.woExp
    (defaultText m.nPeriods (p.choices.wExp.zip p.experience)) "False".toList p.negativeChoiceSet).map
      fun kv => (kv.1, if kv.1 ∈ p.choices.choices then kv.2.map p.convert else kv.2)
  have hq : ProcessedFrom env (m.reprocessed p m.params) { p with negativeChoiceSet := neg, groups := G } covs2 :=
    { relevant := r1
      nPeriods := h.nPeriods
      points := h.points
      discount := h.discount
      exogenous := h.exogenous
      observables := h.observables
      choices := hchoices.symm
      experience := h.experience
      shocks := h.shocks
      validated := h.validated
      measurement := h.measurement
      types := h.types
      lags := hparse
      filters := hfilters
      groups := hG
      wage := h.wage
      nonpec := h.nonpec
      negativeChoiceSet := rfl }
  refine ⟨_, hq.processModel, ⟨rfl, rfl, rfl, rfl, rfl, rfl, rfl, rfl, rfl, rfl, rfl, rfl, rfl, rfl, fun _ => Iff.rfl, ?_, ?_⟩, ?_⟩
  · change conv.Perm (G.all.map _)
    rw [hall]
    exact hperm
  · intro c hc
    obtain ⟨fs, h1, h2⟩ := h.formulas c hc
    obtain ⟨fs', h3, h4⟩ := hq.formulas c hc
    refine ⟨fs, fs', h1, h3, fun f => ?_⟩
    have hfix : ∀ f ∈ fs, p.convert f = f := fun f hf => h.restriction_fixed hr hc h1 hf
    have h5 : Dict.get? (m.reprocessed p m.params).negativeChoiceSet c = some fs := h1
    rw [h4, h5, Option.getD_some]
    constructor
    · intro hf
      exact Or.inl (List.mem_map.2 ⟨f, hf, hfix f hf⟩)
    · rintro (hf | ⟨hw, hf⟩ | ⟨_, hn, _⟩)
      · obtain ⟨f', h6, h7⟩ := List.mem_map.1 hf
        have : p.convert f' = f := h7
        rw [← this, hfix f' h6]
        exact h6
      · exact (h2 f).2 (Or.inr (Or.inl ⟨hw, hf⟩))
      · cases hn
  · refine ⟨hck, ?_, ?_, ?_, ?_, ?_, ?_, hr.filters⟩
    · intro c f hf
      exact congrArg p.convert (hfixed c f hf)
    · intro c f hf k _ hkf
      have : p.convert f = f := hfixed c f hf
      change k <:+: p.convert f
      rw [this]
      exact hkf
    · intro c f hf
      exact congrArg _ (hfixed c f hf)
    · intro c f hf
      exact congrArg _ (hfixed c f hf)
    · intro i h1 h2 f hf
      rcases (hmem _ f).1 hf with ⟨f', hf', rfl⟩ | ⟨_, ht⟩
      · rw [hr.types i h1 h2 f' ((hs.2 _ _).1 hf').1]
        exact p.convert_plain (type_formula_plain i)
      · obtain ⟨j, _, _, h3, rfl⟩ := mem_typeItems ht
        rw [codeText_injective (List.append_cancel_left h3)]
    · intro c hc f hf
      obtain ⟨fs, h1, h2⟩ := h.formulas c hc
      have h5 : Dict.get? (m.reprocessed p m.params).negativeChoiceSet c = some fs := h1
      rw [h5, Option.getD_some] at hf
      exact congrArg p.convert (h.restriction_fixed hr hc h1 hf)

end

end Respy
