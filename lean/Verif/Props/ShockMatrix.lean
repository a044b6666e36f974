import Verif.Lemmas.ShockMatrix
import Verif.Props.MeasurementErrors

/-!
# C77: the shock matrix is ordered as the choices

The rows and columns of the matrix of shocks are addressed by the codes of choices, while the parameters are a flat
list. `_validate_shocks` is the only protection against a wrong order.
-/

namespace Respy

/-- The three categories for shocks. -/
def shockCategories : List String := ["shocks_sdcorr", "shocks_cov", "shocks_chol"]

/-- The category of a parametrisation. -/
def ShockKind.category : ShockKind → String
  | .sdcorr => "shocks_sdcorr"
  | .cov => "shocks_cov"
  | .chol => "shocks_chol"

/-- Every entry of the matrix is the one described by the names of the parameters: `sd_a` and `corr_b_a`,
`var_a` and `cov_b_a`, or `chol_a` and `chol_b_a`, where `b` comes after `a` in the list of choices. -/
def ShockMatrix.MatchesNames {K : Type _} [CommRing K] (m : ShockMatrix K) (params : Dict (Str × Str) K)
    (choices : List Str) : Prop :=
  m.dim = choices.length ∧
  ∀ (i j : Nat) (ci cj : Str), choices[i]? = some ci → choices[j]? = some cj →
    match m.kind with
    | .sdcorr =>
      ∃ si sj, params.get? ("shocks_sdcorr".toList, "sd_".toList ++ ci) = some si ∧
        params.get? ("shocks_sdcorr".toList, "sd_".toList ++ cj) = some sj ∧
        (i = j → m.entry i j = si * si) ∧
        (j < i → ∃ r, params.get? ("shocks_sdcorr".toList, "corr_".toList ++ ci ++ ['_'] ++ cj) = some r ∧
          m.entry i j = si * r * sj ∧ m.entry j i = si * r * sj)
    | .cov =>
      (i = j → params.get? ("shocks_cov".toList, "var_".toList ++ ci) = some (m.entry i j)) ∧
      (j < i → params.get? ("shocks_cov".toList, "cov_".toList ++ ci ++ ['_'] ++ cj) = some (m.entry i j) ∧
        m.entry j i = m.entry i j)
    | .chol =>
      (i = j → params.get? ("shocks_chol".toList, "chol_".toList ++ ci) = some (m.entry i j)) ∧
      (j < i → params.get? ("shocks_chol".toList, "chol_".toList ++ ci ++ ['_'] ++ cj) = some (m.entry i j) ∧
        m.entry j i = 0)

section
variable {K : Type _}

theorem get?_ofCategory (params : Dict (Str × Str) K) (hnd : (Dict.keys params).Nodup) (category : String)
    (n : Str) (v : K) (h : (n, v) ∈ ofCategory params category) :
    params.get? (category.toList, n) = some v := by
  obtain ⟨p, hp, e⟩ := List.mem_map.1 h
  obtain ⟨hp1, hp2⟩ := List.mem_filter.1 hp
  rw [decide_eq_true_eq] at hp2
  have := Dict.get?_of_mem params hnd p.1 p.2 hp1
  rw [← (Prod.mk.inj e).1, ← (Prod.mk.inj e).2, ← hp2]
  exact this

theorem mentionsShocks_of_category (k : Str × Str) (c : String) (hc : c ∈ shockCategories)
    (h : k.1 = c.toList) : mentionsShocks k = true := by
  unfold mentionsShocks
  rw [List.any_eq_true]
  exact ⟨c, hc, by rw [decide_eq_true_eq]; exact .inl (h ▸ List.infix_rfl)⟩

/-- With one category, the checked rows are the parsed rows. -/
theorem checked_rows (params : Dict (Str × Str) K) (c : String) (hc : c ∈ shockCategories)
    (hone : ∀ c' ∈ shockCategories, hasCategory params c' = true → c' = c)
    (hother : ∀ p ∈ params, mentionsShocks p.1 = true → ∃ c ∈ shockCategories, p.1.1 = c.toList) :
    (params.filter fun p => mentionsShocks p.1).map (fun p => p.1.2) =
      (ofCategory params c).map Prod.fst := by
  unfold ofCategory
  rw [List.map_map]
  have : (params.filter fun p => mentionsShocks p.1) = params.filter fun p => decide (p.1.1 = c.toList) := by
    apply List.filter_congr
    intro p hp
    rw [Bool.eq_iff_iff, decide_eq_true_eq]
    constructor
    · intro h
      obtain ⟨c', hc', e⟩ := hother p hp h
      have := hone c' hc' ((hasCategory_iff params c').2 ⟨p, hp, e⟩)
      rw [e, this]
    · exact mentionsShocks_of_category _ c hc
  rw [this]
  rfl

/-- The row at a position. -/
theorem row_of_position (rows : List (Str × K)) (idx : List (Nat × Nat)) (f : Nat × Nat → Str)
    (h : rows.map Prod.fst = idx.map f) (i j : Nat) (hij : (i, j) ∈ idx) :
    ∃ v, ((i, j), v) ∈ idx.zip (rows.map Prod.snd) ∧ (f (i, j), v) ∈ rows := by
  obtain ⟨k, hk⟩ := List.mem_iff_getElem?.1 hij
  have hlen : rows.length = idx.length := by simpa using congrArg List.length h
  have hkl : k < idx.length := (List.getElem?_eq_some_iff.1 hk).1
  have h1 : (rows.map Prod.fst)[k]? = some (f (i, j)) := by rw [h, List.getElem?_map, hk]; rfl
  rw [List.getElem?_map, List.getElem?_eq_getElem (by omega : k < rows.length)] at h1
  have h2 : (rows[k]'(by omega)).1 = f (i, j) := by simpa using h1
  refine ⟨(rows[k]'(by omega)).2, ?_, ?_⟩
  · rw [List.mem_iff_getElem?]
    refine ⟨k, ?_⟩
    rw [List.getElem?_zip_eq_some]
    refine ⟨hk, ?_⟩
    rw [List.getElem?_map, List.getElem?_eq_getElem (by omega : k < rows.length)]
    rfl
  · rw [← h2]
    exact List.getElem_mem _

theorem category_eq_of_count (params : Dict (Str × Str) K)
    (h : ¬ 2 ≤ (["shocks_sdcorr", "shocks_cov", "shocks_chol"].countP fun c => hasCategory params c))
    (c : String) (hc : c ∈ shockCategories) (hh : hasCategory params c = true) :
    ∀ c' ∈ shockCategories, hasCategory params c' = true → c' = c := by
  intro c' hc' hh'
  simp only [shockCategories, List.mem_cons, List.not_mem_nil, or_false] at hc hc'
  simp only [List.countP_cons, List.countP_nil] at h
  rcases hc with rfl | rfl | rfl <;> rcases hc' with rfl | rfl | rfl <;>
    first | rfl | (exfalso; apply h; simp only [hh, hh', if_true]; omega)

end

variable {K : Type _} [CommRing K]

/-- C77 (one matrix). For all parameters: if a matrix is returned, exactly one of the three categories occurs in
the parameters and it is the one which is used; if no matrix category or more than one occurs, the parameters are
rejected. -/
theorem C77_one_matrix (params : Dict (Str × Str) K) :
    (∀ m, parseShocks params = .ok m →
      ∀ c ∈ shockCategories, hasCategory params c = true ↔ c = m.kind.category) ∧
    ((∀ c ∈ shockCategories, hasCategory params c = false) → parseShocks params = .error .noMatrix) ∧
    (∀ c ∈ shockCategories, ∀ c' ∈ shockCategories, c ≠ c' → hasCategory params c = true →
      hasCategory params c' = true → parseShocks params = .error .severalMatrices) := by
  refine ⟨?_, ?_, ?_⟩
  · intro m hm
    unfold parseShocks at hm
    dsimp only at hm
    split at hm
    · cases hm
    · next hcount =>
      have key : ∀ c ∈ shockCategories, hasCategory params c = true → m.kind.category = c →
          ∀ c' ∈ shockCategories, hasCategory params c' = true ↔ c' = m.kind.category := by
        intro c hc hh hk c' hc'
        rw [hk]
        exact ⟨category_eq_of_count params hcount c hc hh c' hc', fun e => e ▸ hh⟩
      split at hm
      · next hs =>
        refine key "shocks_sdcorr" (by simp [shockCategories]) hs ?_
        split at hm
        · cases hm
        · injection hm with hm; rw [← hm]; rfl
      · split at hm
        · next hs =>
          refine key "shocks_cov" (by simp [shockCategories]) hs ?_
          split at hm
          · cases hm
          · injection hm with hm; rw [← hm]; rfl
        · split at hm
          · next hs =>
            refine key "shocks_chol" (by simp [shockCategories]) hs ?_
            split at hm
            · cases hm
            · injection hm with hm; rw [← hm]; rfl
          · cases hm
  · intro h
    have h1 := h "shocks_sdcorr" (by simp [shockCategories])
    have h2 := h "shocks_cov" (by simp [shockCategories])
    have h3 := h "shocks_chol" (by simp [shockCategories])
    simp [parseShocks, h1, h2, h3]
  · intro c hc c' hc' hne hh hh'
    by_cases hcount : 2 ≤ (["shocks_sdcorr", "shocks_cov", "shocks_chol"].countP
        fun c => hasCategory params c)
    · unfold parseShocks
      dsimp only
      rw [if_pos hcount]
    · exact absurd (category_eq_of_count params hcount c' hc' hh' c hc hh) hne

/-- The lower triangle of parameters is a matrix. -/
theorem cholParams_matrix (rows : List (Str × K)) (n : Nat) (f : Nat × Nat → Str)
    (h : rows.map Prod.fst = (trilIndices n true).map f) :
    cholParamsToMatrix (rows.map Prod.snd) =
      some (n, assignEntries (fun _ _ => 0) (trilIndices n true) (rows.map Prod.snd)) := by
  have hlen : rows.length = (trilIndices n true).length := by simpa using congrArg List.length h
  unfold cholParamsToMatrix
  have : triangularDim (rows.map Prod.snd).length = n := by
    rw [List.length_map, hlen, triangularDim_length]
  dsimp only
  rw [this, if_pos (by rw [List.length_map, hlen])]


theorem getD_of_getElem? (l : List Str) (i : Nat) (c : Str) (h : l[i]? = some c) : l.getD i [] = c := by
  rw [List.getD_eq_getElem?_getD, h]; rfl

/-- C77 (order of the matrix). For all parameters and choices: if the parameters pass `_validate_shocks` and one of
the three categories occurs, then a matrix is returned, it has one row and column per choice, and every entry is the
one which the name of a parameter describes. The names `shocks_sdcorr`, `shocks_cov` and `shocks_chol` must not
occur inside other categories or names. -/
theorem C77_validated_matrix (params : Dict (Str × Str) K) (hnd : (Dict.keys params).Nodup)
    (choices : List Str) (hch : choices.Nodup)
    (hother : ∀ p ∈ params, mentionsShocks p.1 = true → ∃ c ∈ shockCategories, p.1.1 = c.toList)
    (kind : ShockKind) (hkind : ∀ c ∈ shockCategories, hasCategory params c = true ↔ c = kind.category)
    (hval : validateShocks params choices = true) :
    ∃ m, parseShocks params = .ok m ∧ m.kind = kind ∧ m.MatchesNames params choices := by
  have hmem : kind.category ∈ shockCategories := by cases kind <;> simp [shockCategories, ShockKind.category]
  have hrows := checked_rows params kind.category hmem (fun c' hc' hh => (hkind c' hc').1 hh) hother
  unfold validateShocks at hval
  rw [decide_eq_true_eq, hrows] at hval
  have hs := hkind "shocks_sdcorr" (by simp [shockCategories])
  have hv := hkind "shocks_cov" (by simp [shockCategories])
  have hc := hkind "shocks_chol" (by simp [shockCategories])
  set rows := ofCategory params kind.category with hrdef
  have hget : ∀ n v, (n, v) ∈ rows → params.get? (kind.category.toList, n) = some v :=
    fun n v h => get?_ofCategory params hnd _ n v h
  cases kind with
  | sdcorr =>
    have hs' : hasCategory params "shocks_sdcorr" = true := hs.2 rfl
    have hv' : hasCategory params "shocks_cov" = false := by
      rw [Bool.eq_false_iff, ne_eq, hv]; decide
    have hc' : hasCategory params "shocks_chol" = false := by
      rw [Bool.eq_false_iff, ne_eq, hc]; decide
    unfold shockNames at hval
    dsimp only at hval
    rw [if_pos hs', strictLowerNames choices hch] at hval
    have hlen : rows.length = choices.length + (trilIndices choices.length false).length := by
      simpa using congrArg List.length hval
    have hlen' : rows.length = (trilIndices choices.length true).length := by
      rw [hlen, ← length_trilIndices_false]; omega
    have hdim : triangularDim (rows.map Prod.snd).length = choices.length := by
      rw [List.length_map, hlen', triangularDim_length]
    have hsplit : rows.map Prod.fst = (rows.take choices.length).map Prod.fst ++
        (rows.drop choices.length).map Prod.fst := by
      rw [← List.map_append, List.take_append_drop]
    rw [hsplit] at hval
    obtain ⟨hsd, hcorr⟩ := List.append_inj hval (by simp [hlen])
    have hm : sdcorrParamsToMatrix (rows.map Prod.snd) = some (choices.length, fun i j =>
        ((rows.map Prod.snd).take choices.length).getD i 0 *
        (assignEntries (fun i j => if i = j then 1 else 0) (trilIndices choices.length false)
            ((rows.map Prod.snd).drop choices.length) i j +
          (if i < j then assignEntries (fun i j => if i = j then 1 else 0) (trilIndices choices.length false)
            ((rows.map Prod.snd).drop choices.length) j i else 0)) *
        ((rows.map Prod.snd).take choices.length).getD j 0) := by
      unfold sdcorrParamsToMatrix
      dsimp only
      rw [hdim, if_pos]
      constructor
      · rw [List.length_map, hlen]; omega
      · rw [List.length_drop, List.length_map, hlen]; omega
    refine ⟨⟨.sdcorr, choices.length, fun i j =>
        ((rows.map Prod.snd).take choices.length).getD i 0 *
        (assignEntries (fun i j => if i = j then 1 else 0) (trilIndices choices.length false)
            ((rows.map Prod.snd).drop choices.length) i j +
          (if i < j then assignEntries (fun i j => if i = j then 1 else 0) (trilIndices choices.length false)
            ((rows.map Prod.snd).drop choices.length) j i else 0)) *
        ((rows.map Prod.snd).take choices.length).getD j 0⟩, ?_, rfl, rfl, ?_⟩
    · unfold parseShocks
      dsimp only
      rw [if_neg (by simp [hs', hv', hc']), if_pos hs']
      rw [hrdef] at hm
      have hm' := hm
      unfold ShockKind.category at hm'
      rw [hm']
      rfl
    · intro i j ci cj hi hj
      have hil : i < choices.length := (List.getElem?_eq_some_iff.1 hi).1
      have hjl : j < choices.length := (List.getElem?_eq_some_iff.1 hj).1
      have hsds : ∀ (k : Nat) (ck : Str), choices[k]? = some ck →
          ("sd_".toList ++ ck, ((rows.map Prod.snd).take choices.length).getD k 0) ∈ rows := by
        intro k ck hk
        have hkl : k < choices.length := (List.getElem?_eq_some_iff.1 hk).1
        have hkr : k < rows.length := by omega
        have h1 : ((rows.take choices.length).map Prod.fst)[k]? = some ("sd_".toList ++ ck) := by
          rw [hsd, List.getElem?_map, hk]; rfl
        rw [List.getElem?_map, List.getElem?_take_of_lt hkl, List.getElem?_eq_getElem hkr] at h1
        have h2 : rows[k].1 = "sd_".toList ++ ck := by simpa using h1
        have h3 : ((rows.map Prod.snd).take choices.length).getD k 0 = rows[k].2 := by
          rw [List.getD_eq_getElem?_getD, List.getElem?_take_of_lt hkl, List.getElem?_map,
            List.getElem?_eq_getElem hkr]
          rfl
        rw [h3, ← h2]
        exact List.getElem_mem _
      refine ⟨((rows.map Prod.snd).take choices.length).getD i 0,
        ((rows.map Prod.snd).take choices.length).getD j 0, hget _ _ (hsds i ci hi),
        hget _ _ (hsds j cj hj), ?_, ?_⟩
      · rintro rfl
        dsimp only
        rw [assignEntries_of_not_mem _ _ _ _ _ (by rw [mem_trilIndices]; rintro ⟨_, h | ⟨h, _⟩⟩; omega; cases h)]
        simp
      · intro hji
        obtain ⟨r, hr1, hr2⟩ := row_of_position (rows.drop choices.length)
          (trilIndices choices.length false) _ hcorr i j ((mem_trilIndices _ _ _ _).2 ⟨hil, .inl hji⟩)
        rw [List.map_drop] at hr1
        have e1 := assignEntries_of_mem (fun i j => if i = j then (1 : K) else 0) _ _
          (nodup_trilIndices choices.length false) i j r hr1
        have e2 := assignEntries_of_not_mem (fun i j => if i = j then (1 : K) else 0)
          (trilIndices choices.length false) ((rows.map Prod.snd).drop choices.length) j i
          (by rw [mem_trilIndices]; rintro ⟨_, h | ⟨h, _⟩⟩; omega; cases h)
        refine ⟨r, ?_, ?_, ?_⟩
        · have := hget _ _ (List.mem_of_mem_drop hr2)
          simpa only [getD_of_getElem? _ _ _ hi, getD_of_getElem? _ _ _ hj, ShockKind.category] using this
        · dsimp only
          rw [e1, if_neg (by omega), add_zero]
        · dsimp only
          rw [e2, e1, if_neg (by omega), if_pos hji, zero_add]
          ring
  | cov =>
    have hs' : hasCategory params "shocks_sdcorr" = false := by
      rw [Bool.eq_false_iff, ne_eq, hs]; decide
    have hv' : hasCategory params "shocks_cov" = true := hv.2 rfl
    have hc' : hasCategory params "shocks_chol" = false := by
      rw [Bool.eq_false_iff, ne_eq, hc]; decide
    unfold shockNames at hval
    dsimp only at hval
    rw [if_neg (by simp [hs']), if_pos hv', lowerNames choices hch (fun c => "var_".toList ++ c)] at hval
    have hm := cholParams_matrix rows choices.length _ hval
    refine ⟨⟨.cov, choices.length, fun i j =>
      assignEntries (fun _ _ => 0) (trilIndices choices.length true) (rows.map Prod.snd) i j +
        (if i < j then assignEntries (fun _ _ => 0) (trilIndices choices.length true) (rows.map Prod.snd) j i
        else 0)⟩, ?_, rfl, rfl, ?_⟩
    · unfold parseShocks
      dsimp only
      rw [if_neg (by simp [hs', hv', hc']), if_neg (by simp [hs']), if_pos hv']
      rw [hrdef] at hm
      have hm' := hm
      unfold ShockKind.category at hm'
      unfold covParamsToMatrix
      rw [hm']
      rfl
    · intro i j ci cj hi hj
      have hil : i < choices.length := (List.getElem?_eq_some_iff.1 hi).1
      dsimp only
      constructor
      · rintro rfl
        obtain ⟨v, hv1, hv2⟩ := row_of_position rows _ _ hval i i
          ((mem_trilIndices _ _ _ _).2 ⟨hil, .inr ⟨rfl, rfl⟩⟩)
        have e := assignEntries_of_mem (fun _ _ => (0 : K)) _ _ (nodup_trilIndices choices.length true)
          i i v hv1
        rw [e, if_neg (by omega), add_zero]
        have := hget _ _ hv2
        simpa only [if_true, getD_of_getElem? _ _ _ hi, ShockKind.category] using this
      · intro hji
        obtain ⟨v, hv1, hv2⟩ := row_of_position rows _ _ hval i j
          ((mem_trilIndices _ _ _ _).2 ⟨hil, .inl hji⟩)
        have e1 := assignEntries_of_mem (fun _ _ => (0 : K)) _ _ (nodup_trilIndices choices.length true)
          i j v hv1
        have e2 := assignEntries_of_not_mem (fun _ _ => (0 : K)) (trilIndices choices.length true)
          (rows.map Prod.snd) j i (by rw [mem_trilIndices]; rintro ⟨_, h | ⟨_, h⟩⟩ <;> omega)
        rw [e1, e2, if_neg (by omega), if_pos hji, add_zero, zero_add]
        refine ⟨?_, rfl⟩
        have := hget _ _ hv2
        simpa only [if_neg (show ¬ i = j by omega), getD_of_getElem? _ _ _ hi, getD_of_getElem? _ _ _ hj,
          ShockKind.category] using this
  | chol =>
    have hs' : hasCategory params "shocks_sdcorr" = false := by
      rw [Bool.eq_false_iff, ne_eq, hs]; decide
    have hv' : hasCategory params "shocks_cov" = false := by
      rw [Bool.eq_false_iff, ne_eq, hv]; decide
    have hc' : hasCategory params "shocks_chol" = true := hc.2 rfl
    unfold shockNames at hval
    dsimp only at hval
    rw [if_neg (by simp [hs']), if_neg (by simp [hv']),
      lowerNames choices hch (fun c => "chol_".toList ++ c)] at hval
    have hm := cholParams_matrix rows choices.length _ hval
    refine ⟨⟨.chol, choices.length,
      assignEntries (fun _ _ => 0) (trilIndices choices.length true) (rows.map Prod.snd)⟩, ?_, rfl, rfl,
      ?_⟩
    · unfold parseShocks
      dsimp only
      rw [if_neg (by simp [hs', hv', hc']), if_neg (by simp [hs']),
        if_neg (by simp [hv']), if_pos hc']
      rw [hrdef] at hm
      have hm' := hm
      unfold ShockKind.category at hm'
      rw [hm']
      rfl
    · intro i j ci cj hi hj
      have hil : i < choices.length := (List.getElem?_eq_some_iff.1 hi).1
      dsimp only
      constructor
      · rintro rfl
        obtain ⟨v, hv1, hv2⟩ := row_of_position rows _ _ hval i i
          ((mem_trilIndices _ _ _ _).2 ⟨hil, .inr ⟨rfl, rfl⟩⟩)
        have e := assignEntries_of_mem (fun _ _ => (0 : K)) _ _ (nodup_trilIndices choices.length true)
          i i v hv1
        rw [e]
        have := hget _ _ hv2
        simpa only [if_true, getD_of_getElem? _ _ _ hi, ShockKind.category] using this
      · intro hji
        obtain ⟨v, hv1, hv2⟩ := row_of_position rows _ _ hval i j
          ((mem_trilIndices _ _ _ _).2 ⟨hil, .inl hji⟩)
        have e1 := assignEntries_of_mem (fun _ _ => (0 : K)) _ _ (nodup_trilIndices choices.length true)
          i j v hv1
        have e2 := assignEntries_of_not_mem (fun _ _ => (0 : K)) (trilIndices choices.length true)
          (rows.map Prod.snd) j i (by rw [mem_trilIndices]; rintro ⟨_, h | ⟨_, h⟩⟩ <;> omega)
        rw [e1, e2]
        refine ⟨?_, rfl⟩
        have := hget _ _ hv2
        simpa only [if_neg (show ¬ i = j by omega), getD_of_getElem? _ _ _ hi, getD_of_getElem? _ _ _ hj,
          ShockKind.category] using this

/-- C77 (accepted parameters). For all parameters which are parsed and validated for the choices of the model, every
entry of the matrix is the one described by the names of the parameters. -/
theorem C77_shock_matrix (params : Dict (Str × Str) K) (hnd : (Dict.keys params).Nodup)
    (covariates : Dict Str Str)
    (hother : ∀ p ∈ params, mentionsShocks p.1 = true → ∃ c ∈ shockCategories, p.1.1 = c.toList)
    (m : ShockMatrix K) (hm : parseShocks params = .ok m)
    (hval : validateShocks params (parseChoices (params.map Prod.fst) covariates).choices = true) :
    m.MatchesNames params (parseChoices (params.map Prod.fst) covariates).choices := by
  obtain ⟨m', h1, _, h3⟩ := C77_validated_matrix params hnd _ (C46_unique_codes _ _).1 hother m.kind
    ((C77_one_matrix params).1 m hm) hval
  rw [hm] at h1
  injection h1 with h1
  rw [h1]
  exact h3

/-- The matrix for two choices. -/
def shockParams : Dict (Str × Str) Int :=
  [(("wage_b".toList, "constant".toList), 1), (("nonpec_a".toList, "constant".toList), 2),
   (("shocks_sdcorr".toList, "sd_b".toList), 3), (("shocks_sdcorr".toList, "sd_a".toList), 4),
   (("shocks_sdcorr".toList, "corr_a_b".toList), 5)]

/-- The hypotheses of `C77_shock_matrix` hold for two choices. -/
example : ∃ m, parseShocks shockParams = .ok m ∧
    m.MatchesNames shockParams (parseChoices (shockParams.map Prod.fst) []).choices := by
  have hother : ∀ p ∈ shockParams, mentionsShocks p.1 = true → ∃ c ∈ shockCategories, p.1.1 = c.toList := by
    decide +kernel
  have hm : ∃ m, parseShocks shockParams = .ok m := by
    obtain ⟨m, hm, _⟩ := C77_validated_matrix shockParams (by decide +kernel) ["b".toList, "a".toList]
      (by decide +kernel) hother .sdcorr (by decide +kernel) (by decide +kernel)
    exact ⟨m, hm⟩
  obtain ⟨m, hm⟩ := hm
  exact ⟨m, hm, C77_shock_matrix shockParams (by decide +kernel) [] hother m hm (by decide +kernel)⟩

/-- The covariance of the two choices is `sd_b * corr_a_b * sd_a`. -/
example : (parseShocks shockParams).toOption.map (fun m => (m.entry 1 0, m.entry 0 1, m.entry 1 1)) =
    some (60, 60, 16) := by decide +kernel

/-- Parameters in another order are rejected. -/
example : validateShocks (shockParams.take 2 ++ [(("shocks_cov".toList, "var_a".toList), (3 : Int)),
    (("shocks_cov".toList, "cov_b_a".toList), 4), (("shocks_cov".toList, "var_b".toList), 5)])
    (parseChoices (shockParams.map Prod.fst) []).choices = false := by decide +kernel

/-- Covariances and Cholesky factors meet the hypotheses of `C77_validated_matrix`. -/
example : ∃ m, parseShocks [(("shocks_chol".toList, "chol_a".toList), (3 : Int)),
    (("shocks_chol".toList, "chol_b_a".toList), 4), (("shocks_chol".toList, "chol_b".toList), 5)] = .ok m ∧
    m.kind = .chol ∧ m.MatchesNames [(("shocks_chol".toList, "chol_a".toList), (3 : Int)),
    (("shocks_chol".toList, "chol_b_a".toList), 4), (("shocks_chol".toList, "chol_b".toList), 5)]
    ["a".toList, "b".toList] :=
  C77_validated_matrix _ (by decide +kernel) _ (by decide +kernel) (by decide +kernel) .chol (by decide +kernel)
    (by decide +kernel)

end Respy
