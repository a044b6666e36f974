import Verif.Props.ProcessSimulate
import Verif.Props.InitialWeights

/-!
# C83: the distribution of the characteristics in the first period
-/

namespace Respy

section
variable {env : ProcessEnv} {m : UserModel} {p : Processed} {ev : FormulaEval}

theorem linearIndex_pandasDot {row : StateRow ℝ} {beta : List (Str × ℝ)} {z : ℝ} (h : IsLinearIndex row beta z) :
    pandasDot row beta = some z := by
  rw [pandasDot_eq]
  · unfold linearIndex
    rw [linearIndex_eq h]
  · induction h with
    | nil => intro item hi; cases hi
    | cons hx _ ih =>
      intro item hi
      rcases List.mem_cons.1 hi with rfl | hi
      · rw [hx]; rfl
      · exact ih item hi

theorem mapM_pandasDot {row : StateRow ℝ} {betas : List (List (Str × ℝ))} {z : List ℝ}
    (h : List.Forall₂ (IsLinearIndex row) betas z) : betas.mapM (pandasDot row) = some z := by
  induction h with
  | nil => rfl
  | cons hx _ ih => rw [List.mapM_cons, linearIndex_pandasDot hx, ih]; rfl

theorem characteristic_weights (v : SampledVariable) (fp : List CharRow) (df : Frame (List (Option ℝ)))
    (hdf : p.sampleFrame ev fp = some df) (z : Nat → List ℝ)
    (hz : ∀ i < fp.length, List.Forall₂ (IsLinearIndex (frameValue df i)) v.betas (z i)) (i : Nat)
    (hi : i < fp.length) : ((p.characteristic ev v).probs fp)[i]? = some (softmax (z i)) := by
  unfold Processed.characteristic Processed.levelProbabilities
  dsimp only
  rw [hdf, Option.bind_eq_bind, Option.bind_some]
  have hf : (List.range fp.length).mapM (fun i => (v.betas.mapM (pandasDot (frameValue df i))).map softmax) =
      some ((List.range fp.length).map fun i => softmax (z i)) := by
    have : ∀ l : List Nat, (∀ i ∈ l, i < fp.length) →
        l.mapM (fun i => (v.betas.mapM (pandasDot (frameValue df i))).map softmax) =
          some (l.map fun i => softmax (z i)) := by
      intro l hl
      induction l with
      | nil => rfl
      | cons a l ih =>
        rw [List.mapM_cons, mapM_pandasDot (hz a (hl a (by simp))), ih fun i hi => hl i (by simp [hi])]
        rfl
    exact this _ fun i hi => List.mem_range.1 hi
  rw [hf, Option.getD_some]
  simp [hi]

/-- **C83.** The levels of a characteristic of the first period are drawn with multinomial logit
probabilities: the linear index of a level is the sum over the parameters of the level, each multiplied with
the covariate of its name. -/
theorem C83_logit_weights (v : SampledVariable) (hne : v.betas ≠ []) (fp : List CharRow)
    (df : Frame (List (Option ℝ))) (hdf : p.sampleFrame ev fp = some df) (z : Nat → List ℝ)
    (hz : ∀ i < fp.length, List.Forall₂ (IsLinearIndex (frameValue df i)) v.betas (z i)) (i : Nat)
    (hi : i < fp.length) : ∃ probs, ((p.characteristic ev v).probs fp)[i]? = some probs ∧ IsLogit (z i) probs := by
  refine ⟨_, characteristic_weights v fp df hdf z hz i hi, softmax_isLogit _ ?_⟩
  intro h0
  have := (hz i hi).length_eq
  rw [h0] at this
  exact hne (List.length_eq_zero_iff.1 this)

theorem get?_zipIdx_map {V : Type} (l : List Str) (hnd : l.Nodup) (f : Nat → V) (j : Nat) (x : Str)
    (hx : l[j]? = some x) : Dict.get? (l.zipIdx.map fun y => (y.1, f y.2)) x = some (f j) := by
  apply Dict.get?_of_mem
  · have : Dict.keys (l.zipIdx.map fun y => (y.1, f y.2)) = l := by
      simp [Dict.keys, List.map_map, Function.comp_def]
    rw [this]; exact hnd
  · exact List.mem_map.2 ⟨(x, j), List.mem_zipIdx_iff_getElem?.2 hx, rfl⟩

/-- **C83.** The covariates of a characteristic are computed from the characteristics of the same individual:
the column with the name of a state variable has the value of this variable, and it is missing if this is
not known. -/
theorem C83_known_characteristics (hnames : p.stateColumns.Nodup) (fp : List CharRow)
    (df : Frame (List (Option ℝ))) (hdf : p.sampleFrame ev fp = some df) (j : Nat) (x : Str)
    (hx : p.stateColumns[j]? = some x) (i : Nat) (row : CharRow) (hi : fp[i]? = some row) :
    (∀ n : Nat, row[j]? = some (some n) → frameValue df i x = some (n : ℝ)) ∧
    (row[j]? = some none → frameValue df i x = none) := by
  unfold Processed.sampleFrame at hdf
  dsimp only at hdf
  have h := toOption_eq_some hdf
  unfold computeCovariates at h
  split at h
  · cases h
  · next df₁ left hl =>
    have h1 := (computeLoop_columns _ _ _ _ _ _ _ _ hl).1
    split at h
    · cases h
    · simp only [Except.ok.injEq] at h
      subst h
      have h2 := h1 x _ (get?_zipIdx_map p.stateColumns hnames
        (fun j => fp.map fun row => ((row[j]?).join).map fun (v : Nat) => (v : ℝ)) j x hx)
      have h3 : frameValue df₁ i x = ((row[j]?).join).map fun (v : Nat) => (v : ℝ) := by
        unfold frameValue
        rw [h2, Option.bind_some, List.getElem?_map, hi]
        rfl
      refine ⟨fun n hn => ?_, fun hn => ?_⟩
      · rw [h3, hn]; rfl
      · rw [h3, hn]; rfl

theorem experienceParams_filter (c : Str) (params : List ((Str × Str) × ℝ)) (ks : List Nat) (P : Nat → ℝ)
    (h : (params.filter fun q => decide (("initial_exp_".toList ++ c ++ ['_']) <:+: q.1.1)) =
      ks.map fun k => (("initial_exp_".toList ++ c ++ ['_'] ++ Nat.toDigits 10 k, "probability".toList), P k)) :
    experienceParams c params = ks.map fun k => ⟨k, "probability".toList, P k⟩ := by
  have h1 : experienceParams c params = experienceParams c
      (params.filter fun q => decide (("initial_exp_".toList ++ c ++ ['_']) <:+: q.1.1)) := by
    unfold experienceParams
    rw [List.filterMap_filter]
    refine List.filterMap_congr fun q _ => ?_
    split
    · rfl
    · next hn =>
      cases he : extract ("initial_exp_".toList ++ c ++ ['_']) Char.isDigit q.1.1 with
      | none => rfl
      | some t =>
        exfalso
        apply hn
        apply decide_eq_true
        exact (List.prefix_append _ t).isInfix.trans (extract_sound _ _ _ _ he).1
  rw [h1, h]
  unfold experienceParams
  rw [List.filterMap_map, ← List.filterMap_eq_map]
  refine List.filterMap_congr fun k _ => ?_
  simp only [Function.comp_apply]
  rw [extract_prefix_name _ _ Char.isDigit (by simp) (by
      intro x hx
      have : x = 'i' := by simpa using hx.symm
      subst this; decide) (Nat.toDigits_ne_nil) (fun x hx => codeText_digits k x hx) (by
      intro x hx
      simp [isWordChar, Char.isAlphanum, hx])]
  rw [Option.map_some, digitsValue_toDigits]

/-- **C83.** Initial experience given by probabilities: if the parameters on the initial experience of choice `c`
are `initial_exp_c_k, probability` with values `P k` for different `k`, every individual draws experience `k` with
probability `P k` divided by the sum of all (and hence `P k` if these sum up to one), in every frame with
a constant. -/
theorem C83_initial_experience_probabilities (hp : processModel env m = some p) (i : Nat) (c : Str)
    (hc : p.choices.wExp[i]? = some c) (ks : List Nat) (P : Nat → ℝ) (hne : ks ≠ []) (hnd : ks.Nodup)
    (hparams : (m.params.filter fun q => decide (("initial_exp_".toList ++ c ++ ['_']) <:+: q.1.1)) =
      ks.map fun k => (("initial_exp_".toList ++ c ++ ['_'] ++ Nat.toDigits 10 k, "probability".toList), P k))
    (hpos : ∀ k ∈ ks, 0 < P k) (hclip : ∀ k ∈ ks, 1 / env.maxFloat ≤ P k / (ks.map P).sum) :
    ∃ v ∈ p.sampledVariables, v.name = "exp_".toList ++ c ∧ v.levels.Perm ks ∧
      ∀ (fp : List CharRow) (df : Frame (List (Option ℝ))), p.sampleFrame ev fp = some df →
        (∀ j < fp.length, frameValue df j "constant".toList = some 1) →
        ∀ j < fp.length, ((p.characteristic ev v).probs fp)[j]? =
          some (v.levels.map fun k => P k / (ks.map P).sum) := by
  obtain ⟨covs, h⟩ := processModel_from env m p hp
  have he := mapM_getElem? _ _ _ h.experience i c hc
  have hlt : i < p.experience.length := by
    rw [h.experience_length]; exact (List.getElem?_eq_some_iff.1 hc).1
  obtain ⟨⟨start, mx⟩, hx⟩ : ∃ e, p.experience[i]? = some e := ⟨_, List.getElem?_eq_getElem hlt⟩
  rw [hx] at he
  unfold parseExperience at he
  simp only [Option.bind_eq_bind] at he
  obtain ⟨parsed, h1, he⟩ := Option.bind_eq_some_iff.1 he.symm
  obtain ⟨mx', h2, h3⟩ := Option.bind_eq_some_iff.1 he
  simp only [Option.pure_def, Option.some.injEq, Prod.mk.injEq] at h3
  obtain ⟨h3, rfl⟩ := h3
  obtain ⟨sorted, β, hperm, _, hparse, hsoft⟩ := C48_probabilities env.maxFloat ks P hne hnd hpos hclip
  rw [experienceParams_filter c m.params ks P hparams, hparse] at h1
  simp only [Except.toOption, Option.some.injEq] at h1
  subst h1
  rw [Option.getD_some] at h3
  have hkeys : Dict.keys start = sorted := by
    rw [← h3]; simp [Dict.keys, Function.comp_def]
  refine ⟨⟨"exp_".toList ++ c, Dict.keys start, start.map Prod.snd⟩, ?_, rfl, by rw [hkeys]; exact hperm, ?_⟩
  · unfold Processed.sampledVariables
    refine List.mem_append_left _ (List.mem_append_left _ (List.mem_append_right _ (List.mem_map.2
      ⟨(c, (start, mx')), List.mem_iff_getElem?.2 ⟨i, ?_⟩, rfl⟩)))
    rw [List.getElem?_zip_eq_some]
    exact ⟨hc, hx⟩
  · intro fp df hdf hconst j hj
    rw [characteristic_weights _ fp df hdf (fun _ => sorted.map β) ?_ j hj]
    · rw [hsoft, hkeys]
    · intro j hj
      rw [← h3]
      simp only [List.map_map]
      rw [List.forall₂_map_left_iff, List.forall₂_map_right_iff, List.forall₂_same]
      intro k _
      have := IsLinearIndex.cons (beta := β k) (hconst j hj) (IsLinearIndex.nil (value := frameValue df j))
      simpa using this

/-- Without parameters on initial experience, everybody starts with experience zero. -/
theorem C83_default_experience (hp : processModel env m = some p) (i : Nat) (c : Str)
    (hc : p.choices.wExp[i]? = some c)
    (hparams : ∀ q ∈ m.params, ¬ ("initial_exp_".toList ++ c ++ ['_']) <:+: q.1.1) :
    ∃ v ∈ p.sampledVariables, v.name = "exp_".toList ++ c ∧ v.levels = [0] := by
  obtain ⟨covs, h⟩ := processModel_from env m p hp
  have he := mapM_getElem? _ _ _ h.experience i c hc
  have hlt : i < p.experience.length := by
    rw [h.experience_length]; exact (List.getElem?_eq_some_iff.1 hc).1
  obtain ⟨⟨start, mx⟩, hx⟩ : ∃ e, p.experience[i]? = some e := ⟨_, List.getElem?_eq_getElem hlt⟩
  rw [hx] at he
  unfold parseExperience at he
  simp only [Option.bind_eq_bind] at he
  obtain ⟨parsed, h1, he⟩ := Option.bind_eq_some_iff.1 he.symm
  obtain ⟨mx', h2, h3⟩ := Option.bind_eq_some_iff.1 he
  simp only [Option.pure_def, Option.some.injEq, Prod.mk.injEq] at h3
  obtain ⟨h3, rfl⟩ := h3
  have hnil : experienceParams c m.params = [] := by
    unfold experienceParams
    rw [List.filterMap_eq_nil_iff]
    intro q hq
    cases he : extract ("initial_exp_".toList ++ c ++ ['_']) Char.isDigit q.1.1 with
    | none => rfl
    | some t =>
      exact absurd ((List.prefix_append _ t).isInfix.trans (extract_sound _ _ _ _ he).1) (hparams q hq)
  rw [hnil] at h1
  simp only [parseGroup, List.length_nil, if_true, Except.toOption, Option.some.injEq] at h1
  subst h1
  refine ⟨⟨"exp_".toList ++ c, Dict.keys start, start.map Prod.snd⟩, ?_, rfl, by rw [← h3]; rfl⟩
  unfold Processed.sampledVariables
  refine List.mem_append_left _ (List.mem_append_left _ (List.mem_append_right _ (List.mem_map.2
    ⟨(c, (start, mx')), List.mem_iff_getElem?.2 ⟨i, ?_⟩, rfl⟩)))
  rw [List.getElem?_zip_eq_some]
  exact ⟨hc, hx⟩

/-- The levels of an observable which is not an exogenous process are the ones of its parameters. -/
theorem ProcessedFrom.observable_levels {covariates : Dict Str Str} (h : ProcessedFrom env m p covariates)
    (o : Str × LevelDict) (ho : o ∈ p.observables) (hx : o.1 ∉ Dict.keys p.exogenous) :
    parseGroup env.maxFloat (levelParams "observable".toList o.1 m.params) = .ok (some o.2) := by
  have hx' := h.observables
  unfold parseObservables at hx'
  simp only [Option.bind_eq_bind, Option.bind_eq_some_iff] at hx'
  obtain ⟨names, _, parsed, h2, obs, h3, all, h4, h5⟩ := hx'
  obtain ⟨name, _, h6⟩ := mem_of_mapM_eq_some _ _ _ h5 o ho
  obtain ⟨l, hl, rfl⟩ := Option.map_eq_some_iff.1 h6
  have hinv : ∀ k l, k ∉ Dict.keys p.exogenous → Dict.get? all k = some l →
      parseGroup env.maxFloat (levelParams "observable".toList k m.params) = .ok (some l) := by
    refine foldlM_option_inv (fun d : Dict Str LevelDict => ∀ k l, k ∉ Dict.keys p.exogenous →
      Dict.get? d k = some l → parseGroup env.maxFloat (levelParams "observable".toList k m.params) = .ok (some l))
      _ _ _ _ h4 ?_ ?_
    · intro k l _ hk
      have hmem : (k, l) ∈ obs := Dict.mem_of_get? _ _ _ hk
      obtain ⟨kv, hkv, h7⟩ := mem_of_mapM_eq_some _ _ _ h3 _ hmem
      obtain ⟨l', hl', h8⟩ := Option.map_eq_some_iff.1 h7
      simp only [Prod.mk.injEq] at h8
      obtain ⟨rfl, rfl⟩ := h8
      have h9 := toOption_eq_some h2
      unfold parseLevels at h9
      obtain ⟨nm, _, h10⟩ := mapM_except_mem _ _ _ h9 kv hkv
      cases hg : parseGroup env.maxFloat (levelParams "observable".toList nm m.params) with
      | error e => rw [hg] at h10; cases h10
      | ok g =>
        rw [hg] at h10
        have h11 : (Except.ok (nm, g) : Except ParseError _) = .ok kv := h10
        simp only [Except.ok.injEq] at h11
        subst h11
        dsimp only at hl' ⊢
        rw [hg, hl']
    · intro d kv d' hkv hd hstep k l hk1 hk
      obtain ⟨x, hx1, hx2⟩ := Option.map_eq_some_iff.1 hstep
      subst hx2
      rw [Dict.get?_insert] at hk
      split at hk
      · next heq =>
        subst heq
        exact absurd (List.mem_map.2 ⟨kv, hkv, rfl⟩) hk1
      · exact hd _ _ hk1 hk
  exact hinv _ _ hx hl

theorem levelParams_filter (name : Str) (params : List ((Str × Str) × ℝ)) (ls : List Str) (P : Str → ℝ)
    (hlabel : ∀ t ∈ ls, t ≠ [] ∧ ∀ c ∈ t, isLevelChar c = true)
    (h : (params.filter fun q => decide (("observable_".toList ++ name ++ ['_']) <:+: q.1.1)) =
      ls.map fun t => (("observable_".toList ++ name ++ ['_'] ++ t, "probability".toList), P t)) :
    levelParams "observable".toList name params =
      List.zipWith (fun l t => ⟨l, "probability".toList, P t⟩) (toLevels ls) ls := by
  have hpre : "observable".toList ++ ['_'] ++ name ++ ['_'] = "observable_".toList ++ name ++ ['_'] := rfl
  have h1 : (params.filterMap fun q => (extract ("observable_".toList ++ name ++ ['_']) isLevelChar q.1.1).map
      fun t => (t, q)) = ls.map fun t => (t, (("observable_".toList ++ name ++ ['_'] ++ t, "probability".toList), P t)) := by
    have h2 : (params.filterMap fun q => (extract ("observable_".toList ++ name ++ ['_']) isLevelChar q.1.1).map
      fun t => (t, q)) = ((params.filter fun q => decide (("observable_".toList ++ name ++ ['_']) <:+: q.1.1)).filterMap
        fun q => (extract ("observable_".toList ++ name ++ ['_']) isLevelChar q.1.1).map fun t => (t, q)) := by
      rw [List.filterMap_filter]
      refine List.filterMap_congr fun q _ => ?_
      split
      · rfl
      · next hn =>
        cases he : extract ("observable_".toList ++ name ++ ['_']) isLevelChar q.1.1 with
        | none => rfl
        | some t =>
          exfalso
          apply hn
          apply decide_eq_true
          exact (List.prefix_append _ t).isInfix.trans (extract_sound _ _ _ _ he).1
    rw [h2, h, List.filterMap_map, ← List.filterMap_eq_map]
    refine List.filterMap_congr fun t ht => ?_
    simp only [Function.comp_apply]
    rw [extract_prefix_name _ _ isLevelChar (by simp) (by
      intro x hx
      have : x = 'o' := by simpa using hx.symm
      subst this; decide) (hlabel t ht).1 (hlabel t ht).2 (by
      intro x hx
      unfold isLevelChar at hx
      simp only [Bool.or_eq_true, decide_eq_true_eq] at hx
      rcases hx with (hx | hx) | hx
      · simp [isWordChar, Char.isAlphanum, hx]
      · simp [isWordChar, Char.isAlphanum, Char.isAlpha, hx]
      · simp [isWordChar, hx])]
    rfl
  unfold levelParams
  dsimp only
  rw [hpre, h1, List.map_map]
  have h3 : (ls.map (Prod.fst ∘ fun t => (t, (("observable_".toList ++ name ++ ['_'] ++ t, "probability".toList), P t)))) =
      ls := by simp [Function.comp_def]
  rw [h3, List.zipWith_map_right]

/-- **C83.** Observables given by probabilities: if the parameters on the observable `name` are
`observable_name_t, probability` with values `P t` for the labels `t`, which have different levels, the codes `0, 1, ...`
belong to the labels in the order of the levels (numbers or texts), and every individual draws the code of label
`t` with probability `P t` divided by the sum of all. -/
theorem C83_observable_probabilities (hp : processModel env m = some p) (o : Str × LevelDict)
    (ho : o ∈ p.observables) (hx : o.1 ∉ Dict.keys p.exogenous) (ls : List Str) (P : Str → ℝ)
    (hne : ls ≠ []) (hnd : (toLevels ls).Nodup) (hlabel : ∀ t ∈ ls, t ≠ [] ∧ ∀ c ∈ t, isLevelChar c = true)
    (hparams : (m.params.filter fun q => decide (("observable_".toList ++ o.1 ++ ['_']) <:+: q.1.1)) =
      ls.map fun t => (("observable_".toList ++ o.1 ++ ['_'] ++ t, "probability".toList), P t))
    (hpos : ∀ t ∈ ls, 0 < P t) (hclip : ∀ t ∈ ls, 1 / env.maxFloat ≤ P t / (ls.map P).sum) :
    ∃ v ∈ p.sampledVariables, ∃ sorted : List Str, v.name = o.1 ∧ v.levels = List.range sorted.length ∧
      sorted.Perm ls ∧ (toLevels sorted).Pairwise (· ≤ ·) ∧ Dict.keys o.2 = toLevels sorted ∧
      ∀ (fp : List CharRow) (df : Frame (List (Option ℝ))), p.sampleFrame ev fp = some df →
        (∀ j < fp.length, frameValue df j "constant".toList = some 1) →
        ∀ j < fp.length, ((p.characteristic ev v).probs fp)[j]? =
          some (sorted.map fun t => P t / (ls.map P).sum) := by
  obtain ⟨covs, h⟩ := processModel_from env m p hp
  have hparse := h.observable_levels o ho hx
  rw [levelParams_filter o.1 m.params ls P hlabel hparams] at hparse
  -- labels and levels
  obtain ⟨f, hf, hperm⟩ : ∃ f : Str → Level, toLevels ls = ls.map f ∧
      ∀ l : List Str, l.Perm ls → toLevels l = l.map f := by
    unfold toLevels
    by_cases hd : (ls.all fun t => t.all Char.isDigit) = true
    · refine ⟨fun t => toLex (.inl (digitsValue t)), by rw [if_pos hd], fun l hl => ?_⟩
      rw [if_pos]
      rw [List.all_eq_true] at hd ⊢
      exact fun x hx => hd x (hl.mem_iff.1 hx)
    · refine ⟨fun t => toLex (.inr t), by rw [if_neg hd], fun l hl => ?_⟩
      rw [if_neg]
      intro hd'
      apply hd
      rw [List.all_eq_true] at hd' ⊢
      exact fun x hx => hd' x (hl.mem_iff.2 hx)
  rw [hf] at hnd hparse
  have hinj : ∀ s ∈ ls, ∀ t ∈ ls, f s = f t → s = t := fun s hs t ht he => List.inj_on_of_nodup_map hnd hs ht he
  classical
  let inv : Level → Str := fun l => if hl : ∃ t ∈ ls, f t = l then hl.choose else []
  have hinv : ∀ t ∈ ls, inv (f t) = t := by
    intro t ht
    have hex : ∃ s ∈ ls, f s = f t := ⟨t, ht, rfl⟩
    simp only [inv, dif_pos hex]
    exact hinj _ hex.choose_spec.1 _ ht hex.choose_spec.2
  have hsum : ((ls.map f).map fun l => P (inv l)).sum = (ls.map P).sum := by
    rw [List.map_map]
    congr 1
    exact List.map_congr_left fun t ht => by simp only [Function.comp_apply, hinv t ht]
  have hrows : List.zipWith (fun l t => (⟨l, "probability".toList, P t⟩ : GroupParam Level)) (ls.map f) ls =
      (ls.map f).map fun l => ⟨l, "probability".toList, P (inv l)⟩ := by
    rw [List.zipWith_map_left, List.map_map, List.zipWith_self]
    refine List.map_congr_left fun t ht => ?_
    simp only [Function.comp_apply, hinv t ht]
  rw [hrows] at hparse
  obtain ⟨sorted, β, hp1, hp2, hp3, hp4⟩ := C48_probabilities env.maxFloat (ls.map f) (fun l => P (inv l))
    (by simpa using hne) hnd
    (by
      intro l hl
      obtain ⟨t, ht, rfl⟩ := List.mem_map.1 hl
      rw [hinv t ht]; exact hpos t ht)
    (by
      intro l hl
      obtain ⟨t, ht, rfl⟩ := List.mem_map.1 hl
      rw [hsum, hinv t ht]; exact hclip t ht)
  rw [hp3] at hparse
  simp only [Except.ok.injEq, Option.some.injEq] at hparse
  have hback : (ls.map f).map inv = ls := by
    rw [List.map_map]
    conv_rhs => rw [← List.map_id ls]
    exact List.map_congr_left fun t ht => by simp only [Function.comp_apply, hinv t ht, id]
  have hsp : (sorted.map inv).Perm ls := by
    have := hp1.map inv
    rwa [hback] at this
  have hsf : (sorted.map inv).map f = sorted := by
    rw [List.map_map]
    conv_rhs => rw [← List.map_id sorted]
    refine List.map_congr_left fun l hl => ?_
    obtain ⟨t, ht, rfl⟩ := List.mem_map.1 (hp1.mem_iff.1 hl)
    simp only [Function.comp_apply, hinv t ht, id]
  have hkeys : Dict.keys o.2 = sorted := by
    rw [← hparse]; simp [Dict.keys, Function.comp_def]
  have hlevs : toLevels (sorted.map inv) = sorted := by rw [hperm _ hsp, hsf]
  have hlen : o.2.length = sorted.length := by rw [← hparse]; simp
  refine ⟨⟨o.1, List.range o.2.length, o.2.map Prod.snd⟩, ?_, sorted.map inv, rfl, ?_, hsp, ?_, ?_, ?_⟩
  · unfold Processed.sampledVariables
    exact List.mem_append_left _ (List.mem_append_left _ (List.mem_append_left _ (List.mem_map.2 ⟨o, ho, rfl⟩)))
  · rw [List.length_map, hlen]
  · rw [hlevs]; exact hp2
  · rw [hlevs, hkeys]
  · intro fp df hdf hconst j hj
    rw [characteristic_weights _ fp df hdf (fun _ => sorted.map β) ?_ j hj]
    · rw [hp4, hsum, List.map_map]
      rfl
    · intro j hj
      rw [← hparse]
      simp only [List.map_map]
      rw [List.forall₂_map_left_iff, List.forall₂_map_right_iff, List.forall₂_same]
      intro k _
      have := IsLinearIndex.cons (beta := β k) (hconst j hj) (IsLinearIndex.nil (value := frameValue df j))
      simpa using this

theorem mapM_none_of_mem {α β : Type _} (f : α → Option β) (l : List α) (a : α) (ha : a ∈ l) (hf : f a = none) :
    l.mapM f = none := by
  cases h : l.mapM f with
  | none => rfl
  | some r =>
    obtain ⟨i, hi⟩ := List.mem_iff_getElem?.1 ha
    have h1 := mapM_getElem? f l r h i a hi
    rw [hf] at h1
    have hlt : i < r.length := by
      rw [mapM_eq_some_length f l r h]; exact (List.getElem?_eq_some_iff.1 hi).1
    rw [List.getElem?_eq_getElem hlt] at h1
    cases h1

/-- A coefficient whose name is neither a state variable nor a covariate of the processed model cannot be used. -/
theorem levelProbabilities_unknown (betas : List (List (Str × ℝ))) (beta : List (Str × ℝ)) (hb : beta ∈ betas)
    (x : Str) (hx : beta.map Prod.fst = [x]) (h1 : x ∉ p.stateColumns) (h2 : x ∉ Dict.keys p.groups.all)
    (fp : List CharRow) (hfp : fp ≠ []) : p.levelProbabilities ev betas fp = none := by
  unfold Processed.levelProbabilities
  cases hdf : p.sampleFrame ev fp with
  | none => rfl
  | some df =>
    rw [Option.bind_eq_bind, Option.bind_some]
    have hl := List.length_pos_of_ne_nil hfp
    refine mapM_none_of_mem _ _ 0 (List.mem_range.2 hl) ?_
    have hval : frameValue df 0 x = none := by
      unfold frameValue
      have : Dict.get? df.columns x = none := by
        rw [Dict.get?_eq_none_iff]
        intro hk
        unfold Processed.sampleFrame at hdf
        dsimp only at hdf
        have h := toOption_eq_some hdf
        unfold computeCovariates at h
        split at h
        · cases h
        · next df₁ left hl =>
          have h3 := (computeLoop_columns _ _ _ _ _ _ _ _ hl).2.1
          split at h
          · cases h
          · simp only [Except.ok.injEq] at h
            subst h
            rcases h3 x hk with h4 | h4
            · apply h1
              simpa [Dict.keys, List.map_map, Function.comp_def] using h4
            · exact h2 h4
      rw [this]; rfl
    have : betas.mapM (pandasDot (frameValue df 0)) = none := by
      refine mapM_none_of_mem _ _ beta hb ?_
      obtain ⟨⟨y, b⟩, l, rfl, hy, hl⟩ := List.map_eq_cons_iff.1 hx
      rw [List.map_eq_nil_iff] at hl
      subst hl
      dsimp only at hy
      subst hy
      unfold pandasDot
      rw [List.foldlM_cons, hval]
      rfl
    rw [this]; rfl

theorem sampleAll_none {G : Type} (rs : RandomSource ℝ G) (pre : List (Characteristic ℝ)) (ch : Characteristic ℝ)
    (post : List (Characteristic ℝ)) (hbad : ∀ fp : List CharRow, fp ≠ [] → ch.probs fp = []) (seed : Nat)
    (fp : List CharRow) (hfp : fp ≠ []) (g : G) : sampleAll rs (pre ++ ch :: post) seed fp g = none := by
  induction pre generalizing seed fp g with
  | nil =>
    rw [List.nil_append]
    unfold sampleAll
    have : sampleCharacteristic rs ch seed fp = none := by
      unfold sampleCharacteristic
      rw [hbad fp hfp]
      have h0 : ¬ (0 = fp.length) := by
        have := List.length_pos_of_ne_nil hfp
        omega
      simp [h0]
    rw [this]; rfl
  | cons a pre ih =>
    rw [List.cons_append]
    unfold sampleAll
    cases hs : sampleCharacteristic rs a seed fp with
    | none => rfl
    | some x =>
      obtain ⟨fp', g'⟩ := x
      simp only [Option.bind_eq_bind, Option.bind_some]
      refine ih (seed + 1) fp' ?_ g'
      have hl := (sampleCharacteristic_spec _ _ _ _ _ _ hs).1
      rintro rfl
      exact hfp (List.length_eq_zero_iff.1 hl.symm)

end

end Respy
